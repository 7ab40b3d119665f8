import Verif.Model.R1CS

/-! # The weight matrices of the debug functions: src/r1cs/prover.rs:186-281, src/r1cs/verifier.rs:195-240 (`#[cfg(test)]`) -/

namespace Bp
variable {F G : Type} [Field F] [AddCommGroup G] [SMul F G]

/-- `W[r][i] = coeff` with the Rust bounds check (the row `r` exists).  src/r1cs/prover.rs:207-227. -/
def setAt (xs : List F) (i : ℕ) (c : F) : Res (List F) :=
  match xs[i]? with
  | some _ => .ok (xs.set i c)
  | none => Res.panic "index out of bounds"

/-- Body of the inner loop of both `get_weight_matrices`, prover.rs:207-227 and verifier.rs:215-235, on the row of the constraint: coefficients are assigned, not added.  `wc` is what the verifier subtracts in this row. -/
def rowTerm (w : Weights F) (t : Var × F) : Res (Weights F) :=
  match t.1 with
  | .left i => do return { w with wL := ← setAt w.wL i t.2 }
  | .right i => do return { w with wR := ← setAt w.wR i t.2 }
  | .out i => do return { w with wO := ← setAt w.wO i t.2 }
  | .committed i => do return { w with wV := ← setAt w.wV i t.2 }
  | .one => .ok { w with wc := w.wc - t.2 }

/-- The row of one constraint.  src/r1cs/prover.rs:206-227. -/
def weightRow (n m : ℕ) (lc : LC F) : Res (Weights F) := lc.terms.foldlM rowTerm ⟨List.replicate n 0, List.replicate n 0, List.replicate n 0, List.replicate m 0, 0⟩

/-- Outer loop of both `get_weight_matrices`, prover.rs:205-228 and verifier.rs:213-236.  (The code fills four matrices of zeros row by row; here the rows are made one by one.) -/
def weightRows (n m : ℕ) : List (LC F) → Res (List (Weights F))
  | [] => .ok []
  | lc :: lcs => do
    let w ← weightRow n m lc
    let ws ← weightRows n m lcs
    return w :: ws

/-- `(WL, WR, WO, WV, wc)`; the prover has no `wc`.  src/r1cs/prover.rs:188-196, src/r1cs/verifier.rs:196-204. -/
structure Matrices (F : Type) where
  WL : List (List F)
  WR : List (List F)
  WO : List (List F)
  WV : List (List F)
  wc : F

/-- `Prover::get_weight_matrices`, prover.rs:186-230. -/
def Prover.getWeightMatrices (p : Prover F G) : Res (Matrices F) := do
  let ws ← weightRows p.aL.length p.v.length p.constraints
  return ⟨ws.map Weights.wL, ws.map Weights.wR, ws.map Weights.wO, ws.map Weights.wV, 0⟩

/-- `Verifier::get_weight_matrices`, verifier.rs:195-240. -/
def Verifier.getWeightMatrices (s : Verifier F G) : Res (Matrices F) := do
  let ws ← weightRows s.numVars s.V.length s.constraints
  return ⟨ws.map Weights.wL, ws.map Weights.wR, ws.map Weights.wO, ws.map Weights.wV, (ws.map Weights.wc).sum⟩

/-- `multiply_row_vector_with_matrix(..).unwrap()` of amcl_wrapper: `Err` for different lengths; the number of columns is that of the first row, whose absence is a panic.  (All rows have the same length here.)  Called at src/r1cs/prover.rs:269-272. -/
def rowTimesMatrix (v : List F) (M : List (List F)) : Res (List F) :=
  if v.length ≠ M.length then Res.panic "multiply_row_vector_with_matrix: unequal lengths" else
  match M with
  | [] => Res.panic "index out of bounds"
  | row :: _ => .ok ((List.range row.length).map fun i => dot v (M.map fun r => r.getD i 0))

/-- `Prover::flattened_constraints_elaborated`, prover.rs:232-281. -/
def Prover.flattenedConstraintsElaborated (p : Prover F G) (z : F) : Res (Weights F) := do
  let M ← p.getWeightMatrices
  let zExp := (vandermonde z (p.constraints.length + 1)).drop 1
  let minusZExp := zExp.map fun e => -e
  let wL ← rowTimesMatrix zExp M.WL
  let wR ← rowTimesMatrix zExp M.WR
  let wO ← rowTimesMatrix zExp M.WO
  let wV ← rowTimesMatrix minusZExp M.WV
  return ⟨wL, wR, wO, wV, 0⟩

end Bp
