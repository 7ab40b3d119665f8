import Verif.Model.VecPoly
import Verif.Lemmas.Sums
import Verif.Lemmas.CS

set_option linter.unusedSectionVars false
set_option linter.unusedSimpArgs false

namespace Bp
variable {F G : Type} [Field F]
open Finset

theorem innerProduct_ok {a b : List F} (h : a.length = b.length) : innerProduct a b = .ok (dot a b) := by
  simp [innerProduct, h]

theorem multiScalarMul_ok [AddCommGroup G] [SMul F G] {a : List F} {b : List G} (h : a.length = b.length) :
    multiScalarMul a b = .ok (msm a b) := by
  simp [multiScalarMul, h]

theorem idx_lt {α} {xs : List α} {i : ℕ} (d : α) (h : i < xs.length) : idx xs i = .ok (xs.getD i d) := by
  simp [idx, List.getElem?_eq_getElem h, List.getD_eq_getElem?_getD]

theorem VecPoly1.eval_ok (l : VecPoly1 F) (x : F) {n : ℕ} (h0 : l.c0.length = n) (h1 : l.c1.length = n) :
    l.eval x = .ok ((List.range n).map fun i => l.c0.getD i 0 + l.c1.getD i 0 * x) := by
  unfold VecPoly1.eval
  rw [h0]
  apply mapM_range_ok
  intro i hi
  rw [idx_lt 0 (by omega), idx_lt 0 (by omega)]
  rfl

theorem VecPoly3.eval_ok (l : VecPoly3 F) (x : F) {n : ℕ} (h0 : l.c0.length = n) (h1 : l.c1.length = n)
    (h2 : l.c2.length = n) (h3 : l.c3.length = n) :
    l.eval x = .ok ((List.range n).map fun i => l.c0.getD i 0 + x * (l.c1.getD i 0 + x * (l.c2.getD i 0 + x * l.c3.getD i 0))) := by
  unfold VecPoly3.eval
  rw [h0]
  apply mapM_range_ok
  intro i hi
  rw [idx_lt 0 (by omega), idx_lt 0 (by omega), idx_lt 0 (by omega), idx_lt 0 (by omega)]
  rfl

/-- Result of the special inner product. -/
def VecPoly3.sip (l r : VecPoly3 F) : Poly6 F :=
  ⟨dot l.c1 r.c0, dot l.c1 r.c1 + dot l.c2 r.c0, dot l.c2 r.c1 + dot l.c3 r.c0, dot l.c1 r.c3 + dot l.c3 r.c1, dot l.c2 r.c3, dot l.c3 r.c3⟩

theorem VecPoly3.specialInnerProduct_ok (l r : VecPoly3 F) {n : ℕ} (h1 : l.c1.length = n)
    (h2 : l.c2.length = n) (h3 : l.c3.length = n) (k0 : r.c0.length = n) (k1 : r.c1.length = n) (k3 : r.c3.length = n) :
    VecPoly3.specialInnerProduct l r = .ok (l.sip r) := by
  unfold VecPoly3.specialInnerProduct
  rw [innerProduct_ok (by omega), innerProduct_ok (by omega), innerProduct_ok (by omega), innerProduct_ok (by omega),
    innerProduct_ok (by omega), innerProduct_ok (by omega), innerProduct_ok (by omega), innerProduct_ok (by omega), innerProduct_ok (by omega)]
  rfl

/-- Evaluating the product polynomial, when the constant part of `l` and the quadratic part of `r` vanish. -/
theorem VecPoly3.sip_eval (l r : VecPoly3 F) {n : ℕ} (h1 : l.c1.length = n)
    (h2 : l.c2.length = n) (h3 : l.c3.length = n) (k0 : r.c0.length = n) (k1 : r.c1.length = n) (k3 : r.c3.length = n)
    (hl : ∀ i, i < n → l.c0.getD i 0 = 0) (hr : ∀ i, i < n → r.c2.getD i 0 = 0) (x : F) :
    ∑ i ∈ range n, (l.c0.getD i 0 + x * (l.c1.getD i 0 + x * (l.c2.getD i 0 + x * l.c3.getD i 0))) *
      (r.c0.getD i 0 + x * (r.c1.getD i 0 + x * (r.c2.getD i 0 + x * r.c3.getD i 0))) = (l.sip r).eval x := by
  simp only [Poly6.eval, VecPoly3.sip, dot_eq_sum h1 k0, dot_eq_sum h1 k1, dot_eq_sum h2 k0, dot_eq_sum h2 k1, dot_eq_sum h3 k0,
    dot_eq_sum h1 k3, dot_eq_sum h3 k1, dot_eq_sum h2 k3, dot_eq_sum h3 k3, mul_sum, ← sum_add_distrib]
  apply sum_congr rfl
  intro i hi
  rw [hl i (mem_range.mp hi), hr i (mem_range.mp hi)]
  ring

end Bp
