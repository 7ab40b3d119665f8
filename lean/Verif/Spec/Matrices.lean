import Verif.Model.Matrices
import Verif.Spec.Flatten

/-! # Specification: constraints as rows of matrices -/

namespace Bp
variable {F : Type} [Field F]

open Finset

/-- No variable occurs twice in a constraint. -/
def Unrepeated (cs : List (LC F)) : Prop := ∀ lc ∈ cs, (lc.terms.map Prod.fst).Nodup

/-- What the documentation says about row `r` of the matrices: `<WL_r, aL> + <WR_r, aR> + <WO_r, aO> + <WV_r, v> + c`. -/
def Matrices.row (M : Matrices F) (n m r : ℕ) (c : F) (σ : Assignment F) : F :=
  ∑ i ∈ range n, (M.WL.getD r []).getD i 0 * σ.left i + ∑ i ∈ range n, (M.WR.getD r []).getD i 0 * σ.right i + ∑ i ∈ range n, (M.WO.getD r []).getD i 0 * σ.out i +
    ∑ j ∈ range m, (M.WV.getD r []).getD j 0 * σ.committed j + c

end Bp
