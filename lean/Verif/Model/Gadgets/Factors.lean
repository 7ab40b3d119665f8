import Verif.Model.Gadgets.Basic

/-! # The factoring circuits of tests/r1cs.rs, a client of the API that uses `multiply` and `constrain` directly

`test_2_factors_r1cs` (tests/r1cs.rs:14-69) has two factors, `test_factor_r1cs` (tests/r1cs.rs:71-132) has three; here there are two or more.  The tests are client code: they fix the factors, here these are arguments. -/

namespace Bp
variable {F G : Type} [Field F] [AddCommGroup G] [SMul F G]
variable {C : Type} {rnd : Bool}

/-- The further multiplications, `let (_, _, o2) = prover.multiply(o1.into(), var_r.into())`, tests/r1cs.rs:104 and :126; returns the last output variable. -/
def multiplyOn : Var → List Var → Prog F C rnd Var
  | o, [] => pure o
  | o, v :: vs => do
    let (_, _, o) ← Prog.mul (LC.ofVar o) (LC.ofVar v)
    multiplyOn o vs

/-- The circuit: multiply the factors, constrain the last output to be `r`; tests/r1cs.rs:44-46 and :63-65 (two factors), :103-106 and :125-128 (three factors). -/
def factorsGadget (v w : Var) (vs : List Var) (r : F) : Prog F C rnd Unit := do
  let (_, _, o) ← Prog.mul (LC.ofVar v) (LC.ofVar w)
  let o ← multiplyOn o vs
  Prog.con (LC.varSub o (LC.ofTerms [(.one, r)]))

/-- The prover's loop body, tests/r1cs.rs:41-49 and :99-110: commit to the factors (each with its blinding), build the circuit, return the commitments. -/
def proveFactors (env : Env F G) (p q : F × F) (rest : List (F × F)) (r : F) : Drv (Prover F G) (List G) := do
  let cs ← Prover.commits (p :: q :: rest)
  match cs with
  | (cp, vp) :: (cq, vq) :: ds => do
    Prover.gadget env (factorsGadget vp vq (ds.map Prod.snd) r)
    return cp :: cq :: ds.map Prod.fst
  | _ => Drv.lift (Res.panic "unreachable")

/-- The verifier's loop body, tests/r1cs.rs:60-66 and :121-129, for `k + 2` factors; `commitments.remove(0)` panics when there are too few. -/
def verifyFactors (env : Env F G) (k : ℕ) (r : F) (commitments : List G) : Drv (Verifier F G) Unit := do
  let cs ← Drv.lift (takeComms commitments (k + 2))
  let vars ← Verifier.commits cs
  match vars with
  | vp :: vq :: ds => Verifier.gadget env (factorsGadget vp vq ds r)
  | _ => Drv.lift (Res.panic "unreachable")

end Bp
