import Verif.Lemmas.VecPoly

/-! # C12: vector polynomials -/

set_option linter.unusedSectionVars false
set_option linter.unusedSimpArgs false

namespace Bp
variable {F : Type} [Field F]
open Finset

/-- C12 (degree 1, Karatsuba): for equal lengths nothing panics, and the polynomial evaluates to the inner product of the evaluated vectors. -/
theorem c12_vecpoly1_inner_product (l r : VecPoly1 F) (n : ℕ) (h0 : l.c0.length = n) (h1 : l.c1.length = n)
    (k0 : r.c0.length = n) (k1 : r.c1.length = n) :
    ∃ t, VecPoly1.innerProduct l r = .ok t ∧
      ∀ x, ∃ lx rx, l.eval x = .ok lx ∧ r.eval x = .ok rx ∧ innerProduct lx rx = .ok (t.eval x) := by
  refine ⟨⟨dot l.c0 r.c0, dot (List.zipWith (· + ·) l.c0 l.c1) (List.zipWith (· + ·) r.c0 r.c1) - (dot l.c0 r.c0 + dot l.c1 r.c1), dot l.c1 r.c1⟩, ?_, ?_⟩
  · unfold VecPoly1.innerProduct
    rw [innerProduct_ok (by omega), innerProduct_ok (by omega)]
    simp only [vecPlus, h0, h1, k0, k1, if_true, bind, Except.bind]
    rw [innerProduct_ok (by simp [h0, h1, k0, k1])]
    rfl
  · intro x
    refine ⟨_, _, l.eval_ok x h0 h1, r.eval_ok x k0 k1, ?_⟩
    rw [innerProduct_ok (by simp), dot_eq_sum (n := n) (by simp) (by simp)]
    congr 1
    simp only [Poly2.eval, dot_eq_sum h0 k0, dot_eq_sum h1 k1,
      dot_eq_sum (show (List.zipWith (· + ·) l.c0 l.c1).length = n by simp [h0, h1]) (show (List.zipWith (· + ·) r.c0 r.c1).length = n by simp [k0, k1]),
      mul_sum, ← sum_add_distrib, ← sum_sub_distrib]
    apply sum_congr rfl
    intro i hi
    have hi := mem_range.mp hi
    simp only [getD_map_range, hi, if_true]
    rw [getD_zipWith _ _ _ _ _ 0 0 (by omega) (by omega), getD_zipWith _ _ _ _ _ 0 0 (by omega) (by omega)]
    ring

/-- C12 (degree 3, special): under `lhs.0 = 0` and `rhs.2 = 0`. -/
theorem c12_special_inner_product (l r : VecPoly3 F) (n : ℕ) (h0 : l.c0 = List.replicate n 0) (h1 : l.c1.length = n)
    (h2 : l.c2.length = n) (h3 : l.c3.length = n) (k0 : r.c0.length = n) (k1 : r.c1.length = n)
    (k2 : r.c2 = List.replicate n 0) (k3 : r.c3.length = n) :
    ∃ t, VecPoly3.specialInnerProduct l r = .ok t ∧
      ∀ x, ∃ lx rx, l.eval x = .ok lx ∧ r.eval x = .ok rx ∧ innerProduct lx rx = .ok (t.eval x) := by
  refine ⟨_, l.specialInnerProduct_ok r h1 h2 h3 k0 k1 k3, fun x => ⟨_, _, l.eval_ok x (by simp [h0]) h1 h2 h3, r.eval_ok x k0 k1 (by simp [k2]) k3, ?_⟩⟩
  rw [innerProduct_ok (by simp), dot_eq_sum (n := n) (by simp) (by simp),
    ← l.sip_eval r h1 h2 h3 k0 k1 k3 (by intro i _; rw [h0, getD_replicate, ite_self]) (by intro i _; rw [k2, getD_replicate, ite_self]) x]
  congr 1
  apply sum_congr rfl
  intro i hi
  simp only [getD_map_range, mem_range.mp hi, if_true]

/-- C12: without `lhs.0 = 0` the special product is wrong (over every field, at every point). -/
theorem c12_special_needs_lhs0 (x : F) : ∃ l r : VecPoly3 F, ∃ t lx rx,
    l.c0.length = 1 ∧ l.c1.length = 1 ∧ l.c2.length = 1 ∧ l.c3.length = 1 ∧ r.c0.length = 1 ∧ r.c1.length = 1 ∧
    r.c2 = [0] ∧ r.c3.length = 1 ∧
    VecPoly3.specialInnerProduct l r = .ok t ∧ l.eval x = .ok lx ∧ r.eval x = .ok rx ∧ innerProduct lx rx ≠ .ok (t.eval x) := by
  refine ⟨⟨[1], [0], [0], [0]⟩, ⟨[1], [0], [0], [0]⟩, ⟨0, 0, 0, 0, 0, 0⟩, [1], [1], rfl, rfl, rfl, rfl, rfl, rfl, rfl, rfl, ?_, ?_, ?_, ?_⟩
  · simp [VecPoly3.specialInnerProduct, innerProduct, dot, bind, Except.bind, pure, Except.pure]
  · simp [VecPoly3.eval, idx, bind, Except.bind, pure, Except.pure]
  · simp [VecPoly3.eval, idx, bind, Except.bind, pure, Except.pure]
  · simp [innerProduct, dot, Poly6.eval]

/-- C12: without `rhs.2 = 0` the special product is wrong (over every field, at every non-zero point). -/
theorem c12_special_needs_rhs2 (x : F) (hx : x ≠ 0) : ∃ l r : VecPoly3 F, ∃ t lx rx,
    l.c0 = [0] ∧ l.c1.length = 1 ∧ l.c2.length = 1 ∧ l.c3.length = 1 ∧ r.c0.length = 1 ∧ r.c1.length = 1 ∧
    r.c2.length = 1 ∧ r.c3.length = 1 ∧
    VecPoly3.specialInnerProduct l r = .ok t ∧ l.eval x = .ok lx ∧ r.eval x = .ok rx ∧ innerProduct lx rx ≠ .ok (t.eval x) := by
  refine ⟨⟨[0], [1], [0], [0]⟩, ⟨[0], [0], [1], [0]⟩, ⟨0, 0, 0, 0, 0, 0⟩, [x], [x * x], rfl, rfl, rfl, rfl, rfl, rfl, rfl, rfl, ?_, ?_, ?_, ?_⟩
  · simp [VecPoly3.specialInnerProduct, innerProduct, dot, bind, Except.bind, pure, Except.pure]
  · simp [VecPoly3.eval, idx, bind, Except.bind, pure, Except.pure]
  · simp [VecPoly3.eval, idx, bind, Except.bind, pure, Except.pure]
  · simp [innerProduct, dot, Poly6.eval, hx]

/-- Non-vacuity: a concrete pair of length-2 vector polynomials. -/
example : VecPoly1.innerProduct (⟨[1, 2], [3, 4]⟩ : VecPoly1 ℚ) ⟨[5, 6], [7, 8]⟩ = .ok ⟨17, 62, 53⟩ := by
  norm_num [VecPoly1.innerProduct, innerProduct, vecPlus, dot, bind, Except.bind, pure, Except.pure]

example : VecPoly3.specialInnerProduct (⟨[0], [1], [2], [3]⟩ : VecPoly3 ℚ) ⟨[4], [5], [0], [7]⟩ = .ok ⟨4, 13, 22, 22, 14, 21⟩ := by
  norm_num [VecPoly3.specialInnerProduct, innerProduct, dot, bind, Except.bind, pure, Except.pure]

end Bp
