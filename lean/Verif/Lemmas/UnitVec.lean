import Verif.Props.Soundness

/-! # Unit vectors have no linear relation -/

namespace Bp
open Finset

/-- The `i`-th unit vector. -/
def unitVec (F : Type) [Field F] (n i : ℕ) (j : Fin n) : F := if j.val = i then 1 else 0

theorem unitVec_sum {F : Type} [Field F] (n : ℕ) (c : ℕ → F) (j : Fin n) : (∑ i ∈ range n, c i • unitVec F n i) j = c j := by
  rw [Finset.sum_apply, Finset.sum_eq_single j.val]
  · simp [unitVec]
  · intro b _ hb
    simp [unitVec, hb.symm]
  · intro hj
    exact absurd (Finset.mem_range.mpr j.isLt) hj

theorem unitVec_independent (F : Type) [Field F] (n : ℕ) : Independent F ((List.range n).map (unitVec F n)) := by
  intro c h i hi
  rw [List.length_map, List.length_range] at h hi
  rw [← unitVec_sum n c ⟨i, hi⟩]
  refine Eq.trans (congrFun (Finset.sum_congr rfl fun k hk => ?_) _) (congrFun h ⟨i, hi⟩)
  rw [List.getD_eq_getElem?_getD, List.getElem?_map, List.getElem?_range (Finset.mem_range.mp hk)]
  rfl

end Bp
