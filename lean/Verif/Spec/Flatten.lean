import Verif.Model.R1CS
import Verif.Spec.Semantics
import Mathlib.Algebra.BigOperators.Fin

/-! # Specification: what flattening should compute -/

namespace Bp
variable {F G : Type} [Field F]
open Finset

/-- `Σ_i wL_i left_i + Σ_i wR_i right_i + Σ_i wO_i out_i - Σ_j wV_j committed_j - wc`, for `n` gates and `m` commitments. -/
def Weights.residual (w : Weights F) (n m : ℕ) (σ : Assignment F) : F :=
  ∑ i ∈ range n, w.wL.getD i 0 * σ.left i + ∑ i ∈ range n, w.wR.getD i 0 * σ.right i +
    ∑ i ∈ range n, w.wO.getD i 0 * σ.out i - ∑ j ∈ range m, w.wV.getD j 0 * σ.committed j - w.wc

/-- `Σ_q z^(q+1) * (value of constraint q)`. -/
def zCombination (z : F) (cs : List (LC F)) (σ : Assignment F) : F :=
  ∑ q : Fin cs.length, z ^ (q.val + 1) * (cs[q.val]).value σ

/-- The variable exists in a system with `n` gates and `m` commitments. -/
def Var.InRange (n m : ℕ) : Var → Prop
  | .left i => i < n
  | .right i => i < n
  | .out i => i < n
  | .committed i => i < m
  | .one => True

end Bp
