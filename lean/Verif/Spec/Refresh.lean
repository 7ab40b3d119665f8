import Verif.Spec.Tree

/-! # Specification: bringing a Merkle proof up to date -/

namespace Bp
variable {F : Type}

/-- Somebody has Merkle proofs (lists of siblings, from the root to the leaf) for the leaves with the paths `is` and `js`, and is told that `w` has been written to the leaf at `js`.  The new proof for `is` differs from the old one in at
most one node: the one at the level where the paths part, on the path `js`, which is computed from the proof for `js`. -/
def refresh (H : List F → F) (w : F) : List ℕ → List ℕ → List (List F) → List (List F) → List (List F)
  | i :: is, j :: js, s :: ss, r :: rs => if i = j then s :: refresh H w is js ss rs else s.set (if j < i then j else j - 1) (merkleRoot H (js.zip rs) w) :: ss
  | _, _, ss, _ => ss

end Bp
