import Verif.Model.Basic
import Mathlib.Algebra.BigOperators.Fin
import Mathlib.Algebra.BigOperators.Ring.Finset
import Mathlib.Algebra.Module.BigOperators
import Mathlib.Tactic.Ring
import Mathlib.Tactic.Abel
import Mathlib.Tactic.Module
import Mathlib.Tactic.LinearCombination

set_option linter.unusedSectionVars false
set_option linter.unusedSimpArgs false

namespace Bp
variable {F G : Type} [Field F] [AddCommGroup G] [SMul F G]
open Finset

@[simp] theorem dot_nil_left (b : List F) : dot [] b = 0 := by simp [dot]
@[simp] theorem dot_nil_right (a : List F) : dot a [] = 0 := by simp [dot]
@[simp] theorem dot_cons (x y : F) (a b : List F) : dot (x :: a) (y :: b) = x * y + dot a b := by simp [dot]
@[simp] theorem msm_nil_left (b : List G) : msm ([] : List F) b = 0 := by simp [msm]
@[simp] theorem msm_nil_right (a : List F) : msm a ([] : List G) = 0 := by simp [msm]
@[simp] theorem msm_cons (x : F) (y : G) (a : List F) (b : List G) : msm (x :: a) (y :: b) = x • y + msm a b := by simp [msm]

theorem msm_append {a c : List F} {b d : List G} (h : a.length = b.length) : msm (a ++ c) (b ++ d) = msm a b + msm c d := by
  induction a generalizing b with
  | nil => cases b <;> simp at h ⊢
  | cons x a ih =>
    cases b with
    | nil => simp at h
    | cons y b => simp only [List.cons_append, msm_cons, ih (Nat.succ.inj h)]; abel

theorem dot_append {a c b d : List F} (h : a.length = b.length) : dot (a ++ c) (b ++ d) = dot a b + dot c d := by
  induction a generalizing b with
  | nil => cases b <;> simp at h ⊢
  | cons x a ih =>
    cases b with
    | nil => simp at h
    | cons y b => simp only [List.cons_append, dot_cons, ih (Nat.succ.inj h)]; ring

/-- Inner product as a sum over indices. -/
theorem dot_eq_sum {a b : List F} {n : ℕ} (ha : a.length = n) (hb : b.length = n) :
    dot a b = ∑ i ∈ range n, a.getD i 0 * b.getD i 0 := by
  induction a generalizing b n with
  | nil => simp at ha; subst ha; simp
  | cons x a ih =>
    cases b with
    | nil => simp at hb; subst hb; simp at ha
    | cons y b =>
      simp only [List.length_cons] at ha hb
      subst ha
      rw [Finset.sum_range_succ', dot_cons, ih rfl (Nat.succ.inj hb)]
      simp only [List.getD_cons_succ, List.getD_cons_zero]; ring

theorem msm_eq_sum {a : List F} {b : List G} {n : ℕ} (ha : a.length = n) (hb : b.length = n) :
    msm a b = ∑ i ∈ range n, a.getD i 0 • b.getD i 0 := by
  induction a generalizing b n with
  | nil => simp at ha; subst ha; simp
  | cons x a ih =>
    cases b with
    | nil => simp at hb; subst hb; simp at ha
    | cons y b =>
      simp only [List.length_cons] at ha hb
      subst ha
      rw [Finset.sum_range_succ', msm_cons, ih rfl (Nat.succ.inj hb)]
      simp only [List.getD_cons_succ, List.getD_cons_zero]; abel

theorem ext_getD {α} {xs ys : List α} {n : ℕ} (d : α) (hx : xs.length = n) (hy : ys.length = n)
    (h : ∀ i, i < n → xs.getD i d = ys.getD i d) : xs = ys := by
  apply List.ext_getElem (by omega)
  intro i h1 h2
  have := h i (by omega)
  simpa [List.getD_eq_getElem?_getD, List.getElem?_eq_getElem h1, List.getElem?_eq_getElem h2] using this

theorem getD_map_range {α} (f : ℕ → α) (n i : ℕ) (d : α) : ((List.range n).map f).getD i d = if i < n then f i else d := by
  simp only [List.getD_eq_getElem?_getD, List.getElem?_map]
  by_cases h : i < n
  · simp [h, List.getElem?_range h]
  · simp [h, List.getElem?_eq_none (show (List.range n).length ≤ i by simpa using h)]

theorem getD_zipWith {α β γ} (f : α → β → γ) (a : List α) (b : List β) (i : ℕ) (d : γ) (d1 : α) (d2 : β)
    (ha : i < a.length) (hb : i < b.length) : (List.zipWith f a b).getD i d = f (a.getD i d1) (b.getD i d2) := by
  simp [List.getD_eq_getElem?_getD, List.getElem?_zipWith, List.getElem?_eq_getElem ha, List.getElem?_eq_getElem hb]

theorem getD_replicate {α} (n i : ℕ) (x d : α) : (List.replicate n x).getD i d = if i < n then x else d := by
  simp only [List.getD_eq_getElem?_getD, List.getElem?_replicate]
  split <;> rfl

theorem getD_append {α} (a b : List α) (i : ℕ) (d : α) : (a ++ b).getD i d = if i < a.length then a.getD i d else b.getD (i - a.length) d := by
  simp only [List.getD_eq_getElem?_getD]
  split
  · rename_i h; rw [List.getElem?_append_left h]
  · rename_i h; rw [List.getElem?_append_right (by omega)]

/-- `mapM` of a total function over a range. -/
theorem mapM_range_ok {α} (f : ℕ → Res α) (g : ℕ → α) (n : ℕ) (h : ∀ i, i < n → f i = .ok (g i)) :
    (List.range n).mapM f = .ok ((List.range n).map g) := by
  have : ∀ (l : List ℕ), (∀ i ∈ l, f i = .ok (g i)) → l.mapM f = .ok (l.map g) := by
    intro l
    induction l with
    | nil => intro _; rfl
    | cons x l ih =>
      intro hl
      rw [List.mapM_cons, hl x (by simp), ih (fun i hi => hl i (by simp [hi]))]
      rfl
  exact this _ (fun i hi => h i (List.mem_range.mp hi))

end Bp
