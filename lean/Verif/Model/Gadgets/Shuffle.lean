import Verif.Model.Gadgets.Basic

/-! # A shuffle, a client of the API that uses `specify_randomized_constraints` and `challenge_scalar`

No code in /repo calls `specify_randomized_constraints`; its documentation (r1cs/constraint_system.rs:78-97) shows how to, and the trait `RandomizedConstraintSystem` (:112-136) names a shuffle gadget as an example of its use.
This is that gadget, written as the documentation says: client code like the circuits of tests/r1cs.rs. -/

namespace Bp
variable {F G : Type} [Field F] [AddCommGroup G] [SMul F G]
variable {C : Type} {rnd : Bool}

/-- `for x in xs { let (_, _, o) = cs.multiply(l, x - z); l = o.into(); }`, with `multiply` of constraint_system.rs:31-58; returns the last `l`. -/
def productWith (z : F) : LC F → List Var → Prog F C rnd (LC F)
  | l, [] => pure l
  | l, x :: xs => do
    let (_, _, o) ← Prog.mul l (LC.varSub x (LC.ofScalar z))
    productWith z (LC.ofVar o) xs

/-- What the closure does with the challenge `z`: the products over `x - z` and over `y - z` are the same.  A client of src/r1cs/constraint_system.rs:92-96. -/
def shuffleCircuit (z : F) (xs ys : List Var) : Prog F C rnd Unit := do
  let p ← productWith z (LC.ofScalar 1) xs
  let q ← productWith z (LC.ofScalar 1) ys
  Prog.con (p.sub q)

/-- The closure `move |cs| { let z = cs.challenge_scalar(b"shuffle challenge"); .. }`, constraint_system.rs:92-96. -/
def shuffleCallback (xs ys : List Var) : Callback F := show Prog F Empty true Unit from do
  let z ← Prog.chal "shuffle challenge"
  shuffleCircuit z xs ys

/-- `cs.specify_randomized_constraints(..)`, constraint_system.rs:97-99. -/
def shuffleGadget (xs ys : List Var) : Prog1 F Unit := Prog.spec (shuffleCallback xs ys)

/-- The prover's side: commit to the values (each with its blinding), first those before and then those after the shuffle.  A client of src/r1cs/prover.rs:119-129, 665-671. -/
def proveShuffle (env : Env F G) (xs ys : List (F × F)) : Drv (Prover F G) (List G) := do
  let cs ← Prover.commits (xs ++ ys)
  Prover.gadget env (shuffleGadget ((cs.map Prod.snd).take xs.length) ((cs.map Prod.snd).drop xs.length))
  return cs.map Prod.fst

/-- The verifier's side, for `k` values; `commitments.remove(0)` panics when there are too few.  A client of src/r1cs/verifier.rs:124-132, 508-514. -/
def verifyShuffle (env : Env F G) (k : ℕ) (commitments : List G) : Drv (Verifier F G) Unit := do
  let cs ← Drv.lift (takeComms commitments (2 * k))
  let vars ← Verifier.commits cs
  Verifier.gadget env (shuffleGadget (vars.take k) (vars.drop k))

end Bp
