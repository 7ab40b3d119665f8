import Verif.Spec.Lockstep
import Verif.Model.Api

/-! # Specification: the order in which hash maps are iterated -/

namespace Bp
variable {F G : Type} [Field F] [AddCommGroup G] [Module F G]

/-- Two machines that differ at most in the order in which they iterate over hash maps: the same hash function behind the transcript and the same batch inversion. -/
structure SameButOrder (env env' : Env F G) : Prop where
  oracle : env.oracle = env'.oracle
  batchInvert : env.batchInvert = env'.batchInvert

/-- `Prog.Alike RC RA c c'`: two pieces of gadget code for the same side make the same calls with the same assignments, with linear combinations that are equal up to the order of their terms, and end in the
same way, with related results.  The answers of the constraint system are universally quantified; `simplify` may answer with the terms in any two orders. -/
inductive Prog.Alike {C : Type} {rnd : Bool} {α β : Type} (RC : C → C → Prop) (RA : α → β → Prop) : Prog F C rnd α → Prog F C rnd β → Prop where
  | ret {a b} : RA a b → Alike RC RA (.ret a) (.ret b)
  | err {e} : Alike RC RA (.err e) (.err e)
  | panic {w} : Alike RC RA (.panic w) (.panic w)
  | multiply {l r l' r' k k'} : l.Equiv l' → r.Equiv r' → (∀ vs, Alike RC RA (k vs) (k' vs)) → Alike RC RA (.multiply l r k) (.multiply l' r' k')
  | allocate {x k k'} : (∀ v, Alike RC RA (k v) (k' v)) → Alike RC RA (.allocate x k) (.allocate x k')
  | allocateMultiplier {x k k'} : (∀ vs, Alike RC RA (k vs) (k' vs)) → Alike RC RA (.allocateMultiplier x k) (.allocateMultiplier x k')
  | constrain {lc lc' k k'} : lc.Equiv lc' → Alike RC RA k k' → Alike RC RA (.constrain lc k) (.constrain lc' k')
  | specify {cb cb' k k'} : RC cb cb' → Alike RC RA k k' → Alike RC RA (.specify cb k) (.specify cb' k')
  | evaluateLc {lc lc' k k'} : lc.Equiv lc' → (∀ x, Alike RC RA (k x) (k' x)) → Alike RC RA (.evaluateLc lc k) (.evaluateLc lc' k')
  | allocateSingle {x k k'} : (∀ r, Alike RC RA (k r) (k' r)) → Alike RC RA (.allocateSingle x k) (.allocateSingle x k')
  | challenge {h l k k'} : (∀ c, Alike RC RA (k c) (k' c)) → Alike RC RA (.challenge h l k) (.challenge h l k')
  | simplify {lc lc' k k'} : lc.Equiv lc' → (∀ m m', m.Equiv m' → Alike RC RA (k m) (k' m')) → Alike RC RA (.simplify lc k) (.simplify lc' k')

/-- The same for second-phase callbacks. -/
def Callback.Alike (c c' : Callback F) : Prop := Prog.Alike (fun (_ _ : Empty) => True) Eq c c'

/-- First-phase gadget code that does not look at the order of the terms of a linear combination that it has simplified. -/
def Prog1.Steady {α : Type} (c : Prog1 F α) : Prop := Prog.Alike Callback.Alike Eq c c

/-- Two provers that cannot be told apart except by the order of the terms in their constraints (and by their hash map seeds). -/
structure Prover.Alike (p p' : Prover F G) : Prop where
  g : p.g = p'.g
  h : p.h = p'.h
  transcript : p.transcript = p'.transcript
  aL : p.aL = p'.aL
  aR : p.aR = p'.aR
  aO : p.aO = p'.aO
  v : p.v = p'.v
  vBlinding : p.vBlinding = p'.vBlinding
  pending : p.pending = p'.pending
  constraints : List.Forall₂ LC.Equiv p.constraints p'.constraints
  deferred : List.Forall₂ Callback.Alike p.deferred p'.deferred

/-- The same for verifiers. -/
structure Verifier.Alike (s s' : Verifier F G) : Prop where
  transcript : s.transcript = s'.transcript
  numVars : s.numVars = s'.numVars
  V : s.V = s'.V
  pending : s.pending = s'.pending
  constraints : List.Forall₂ LC.Equiv s.constraints s'.constraints
  deferred : List.Forall₂ Callback.Alike s.deferred s'.deferred

/-- Both runs succeed with related results, or both fail in the same way. -/
def Res.Alike {α β : Type} (R : α → β → Prop) : Res α → Res β → Prop
  | .ok a, .ok b => R a b
  | .error e, .error e' => e = e'
  | _, _ => False

/-- Any client of the proving API: it commits to values and calls gadgets in any order, and what it does next may depend on the commitments, variables and results it was given. -/
inductive Script (F G : Type) : Type 1 where
  | done
  | commit (v b : F) (k : G × Var → Script F G)
  | gadget {α : Type} (c : Prog1 F α) (k : α → Script F G)

/-- Running a client on a prover; returns the commitments. -/
def Script.run (env : Env F G) : Script F G → Drv (Prover F G) (List G)
  | .done => pure []
  | .commit v b k => do
    let cs ← Prover.commits [(v, b)]
    match cs with
    | [c] => do
      let rest ← (k c).run env
      return c.1 :: rest
    | _ => Drv.lift (Res.panic "unreachable")
  | .gadget c k => do
    let a ← Prover.gadget env c
    (k a).run env

/-- No gadget of the client looks at the order of the terms of a simplified linear combination. -/
def Script.Steady : Script F G → Prop
  | .done => True
  | .commit _ _ k => ∀ c, (k c).Steady
  | .gadget c k => Prog1.Steady c ∧ ∀ a, (k a).Steady

/-- Any client of the verifying API. -/
inductive VScript (F G : Type) : Type 1 where
  | done
  | commit (V : G) (k : Var → VScript F G)
  | gadget {α : Type} (c : Prog1 F α) (k : α → VScript F G)

/-- Running a client on a verifier. -/
def VScript.run (env : Env F G) : VScript F G → Drv (Verifier F G) Unit
  | .done => pure ()
  | .commit V k => do
    let vs ← Verifier.commits [V]
    match vs with
    | [v] => (k v).run env
    | _ => Drv.lift (Res.panic "unreachable")
  | .gadget c k => do
    let a ← Verifier.gadget env c
    (k a).run env

/-- The same for verifying clients. -/
def VScript.Steady : VScript F G → Prop
  | .done => True
  | .commit _ k => ∀ c, (k c).Steady
  | .gadget c k => Prog1.Steady c ∧ ∀ a, (k a).Steady

end Bp
