import Verif.Spec.CS

/-! # Specification: the same gadget code on prover and verifier

`Prog.Same RC RA c c'`: the program `c` (run on the prover, with assignments) and `c'` (run on the verifier, without) make the same
calls, with the same linear combinations up to the order of terms, and end with related results.  The answers of the
constraint system are universally quantified, except that `evaluate_lc` answers `Some` on the prover and `None` on the verifier. -/

namespace Bp
variable {F G : Type} [Field F] [AddCommGroup G] [SMul F G]

/-- Same linear combination up to the order of terms. -/
def LC.Equiv (a b : LC F) : Prop := a.terms.Perm b.terms

inductive Prog.Same {C C' : Type} {rnd : Bool} {α β : Type} (RC : C → C' → Prop) (RA : α → β → Prop) :
    Prog F C rnd α → Prog F C' rnd β → Prop where
  | ret {a b} : RA a b → Same RC RA (.ret a) (.ret b)
  | err {e e'} : Same RC RA (.err e) (.err e')
  | panic {w w'} : Same RC RA (.panic w) (.panic w')
  | multiply {l r l' r' k k'} : l.Equiv l' → r.Equiv r' → (∀ vs, Same RC RA (k vs) (k' vs)) →
      Same RC RA (.multiply l r k) (.multiply l' r' k')
  | allocate {x y k k'} : (∀ v, Same RC RA (k (.ok v)) (k' (.ok v))) → Same RC RA (.allocate (some x) k) (.allocate y k')
  | allocateMultiplier {x y k k'} : (∀ vs, Same RC RA (k (.ok vs)) (k' (.ok vs))) →
      Same RC RA (.allocateMultiplier (some x) k) (.allocateMultiplier y k')
  | constrain {lc lc' k k'} : lc.Equiv lc' → Same RC RA k k' → Same RC RA (.constrain lc k) (.constrain lc' k')
  | specify {cb cb' k k'} : RC cb cb' → Same RC RA k k' → Same RC RA (.specify cb k) (.specify cb' k')
  | evaluateLc {lc lc' k k'} : (∀ x, Same RC RA (k (some x)) (k' none)) →
      Same RC RA (.evaluateLc lc k) (.evaluateLc lc' k')
  | allocateSingle {x y k k'} : (∀ r, Same RC RA (k (.ok r)) (k' (.ok r))) →
      Same RC RA (.allocateSingle (some x) k) (.allocateSingle y k')
  | challenge {h l k k'} : (∀ c, Same RC RA (k c) (k' c)) → Same RC RA (.challenge h l k) (.challenge h l k')
  | simplify {lc lc' k k'} : lc.Equiv lc' → (∀ m m', m.Equiv m' → Same RC RA (k m) (k' m')) →
      Same RC RA (.simplify lc k) (.simplify lc' k')

/-- Same second-phase callback. -/
def Callback.Same (c c' : Callback F) : Prop := Prog.Same (fun (_ _ : Empty) => True) (fun _ _ => True) c c'

/-- Same first-phase gadget with related results. -/
def Prog1.Same {α β : Type} (RA : α → β → Prop) (c : Prog1 F α) (c' : Prog1 F β) : Prop := Prog.Same Callback.Same RA c c'

/-- Prover and verifier are in step: same transcript, same number of gates and pending gate, the verifier holds the commitments
to the prover's values, same constraints up to the order of terms, same registered callbacks. -/
structure InStep (p : Prover F G) (s : Verifier F G) : Prop where
  lenR : p.aR.length = p.aL.length
  lenO : p.aO.length = p.aL.length
  lenB : p.vBlinding.length = p.v.length
  transcript : s.transcript = p.transcript
  num : s.numVars = p.aL.length
  pending : s.pending = p.pending
  V : s.V = List.zipWith (commitScalar p.g p.h) p.v p.vBlinding
  cons : List.Forall₂ LC.Equiv p.constraints s.constraints
  deferred : List.Forall₂ Callback.Same p.deferred s.deferred

end Bp
