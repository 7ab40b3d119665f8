import Verif.Model.CS
import Verif.Spec.Semantics

/-! # Specification: histories of constraint-system calls

`Prover.Step env p vs p'` — one call made by user or gadget code on the prover in state `p` handed out the variables `vs` and left the
prover in state `p'`.  All calls of both phases are included (over-approximation: any call may come at any time).  `Steps` is a whole
history.  `Verifier.Step`/`Steps` likewise. -/

namespace Bp
variable {F G : Type} [Field F] [AddCommGroup G] [SMul F G]

/-- Variables handed out by `allocate`. -/
def issued1 : Except R1CSError Var → List Var
  | .ok v => [v]
  | .error _ => []

/-- Variables handed out by `allocate_multiplier`. -/
def issued3 : Except R1CSError (Var × Var × Var) → List Var
  | .ok (a, b, c) => [a, b, c]
  | .error _ => []

/-- Variables handed out by `allocate_single`. -/
def issued2 : Except R1CSError (Var × Option Var) → List Var
  | .ok (a, some b) => [a, b]
  | .ok (a, none) => [a]
  | .error _ => []

/-- One call on the prover. -/
inductive Prover.Step (env : Env F G) : Prover F G → List Var → Prover F G → Prop where
  | commit (p v b) : Step env p [(p.commit v b).1.2] (p.commit v b).2
  | multiply (p l r a b o p') : p.multiply l r = .ok ((a, b, o), p') → Step env p [a, b, o] p'
  | allocate (p x r p') : p.allocate x = .ok (r, p') → Step env p (issued1 r) p'
  | allocateMultiplier (p x) : Step env p (issued3 (p.allocateMultiplier x).1) (p.allocateMultiplier x).2
  | allocateSingle (p x r p') : p.allocateSingle x = .ok (r, p') → Step env p (issued2 r) p'
  | constrain (p lc) : Step env p [] (p.constrain lc)
  | specify (p cb) : Step env p [] (p.specify cb)
  | challenge (p : Prover F G) (l : String) :
      Step env p [] { p with transcript := (p.transcript.challengeScalar env.oracle l).2 }
  | simplify (p : Prover F G) : Step env p [] { p with seed := p.seed + 1 }
  /-- any transcript message sent by `prove` -/
  | message (p : Prover F G) (t : Transcript F G) : Step env p [] { p with transcript := t }
  /-- the start of the second phase -/
  | phase2 (p : Prover F G) : Step env p [] { p with pending := none, deferred := [] }

/-- A history of calls on the prover with all variables handed out, in order. -/
inductive Prover.Steps (env : Env F G) : Prover F G → List Var → Prover F G → Prop where
  | refl (p) : Steps env p [] p
  | tail {p vs q ws r} : Steps env p vs q → Prover.Step env q ws r → Steps env p (vs ++ ws) r

/-- One call on the verifier. -/
inductive Verifier.Step (env : Env F G) : Verifier F G → List Var → Verifier F G → Prop where
  | commit (s V) : Step env s [(s.commit V).1] (s.commit V).2
  | multiply (s l r) : Step env s [(s.multiply l r).1.1, (s.multiply l r).1.2.1, (s.multiply l r).1.2.2] (s.multiply l r).2
  | allocate (s x) : Step env s (issued1 (s.allocate x).1) (s.allocate x).2
  | allocateMultiplier (s x) : Step env s (issued3 (s.allocateMultiplier x).1) (s.allocateMultiplier x).2
  | allocateSingle (s x) : Step env s (issued2 (s.allocateSingle x).1) (s.allocateSingle x).2
  | constrain (s lc) : Step env s [] (s.constrain lc)
  | specify (s cb) : Step env s [] (s.specify cb)
  | challenge (s : Verifier F G) (l : String) :
      Step env s [] { s with transcript := (s.transcript.challengeScalar env.oracle l).2 }
  | simplify (s : Verifier F G) : Step env s [] { s with seed := s.seed + 1 }
  | message (s : Verifier F G) (t : Transcript F G) : Step env s [] { s with transcript := t }
  | phase2 (s : Verifier F G) : Step env s [] { s with pending := none, deferred := [] }

/-- A history of calls on the verifier. -/
inductive Verifier.Steps (env : Env F G) : Verifier F G → List Var → Verifier F G → Prop where
  | refl (s) : Steps env s [] s
  | tail {p vs q ws r} : Steps env p vs q → Verifier.Step env q ws r → Steps env p (vs ++ ws) r

/-- The prover's own assignment: what its wire vectors and committed values say. -/
def Prover.assignment (p : Prover F G) : Assignment F where
  left i := p.aL.getD i 0
  right i := p.aR.getD i 0
  out i := p.aO.getD i 0
  committed i := p.v.getD i 0

/-- The prover's assignment satisfies every constraint registered so far. -/
def Prover.Satisfied (p : Prover F G) : Prop := p.assignment.Sat p.constraints

end Bp
