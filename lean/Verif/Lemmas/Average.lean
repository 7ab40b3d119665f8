import Verif.Spec.RandomOracle
import Mathlib.Algebra.BigOperators.Finprod
import Mathlib.Algebra.Order.BigOperators.Group.Finset
import Mathlib.Algebra.BigOperators.Field
import Mathlib.Algebra.Order.Field.Rat
import Mathlib.SetTheory.Cardinal.Finite
import Mathlib.Data.Fintype.EquivFin
import Mathlib.Tactic.Positivity
import Mathlib.Tactic.Linarith

set_option linter.unusedSectionVars false

/-! # Averages -/

namespace Bp
variable {F G : Type} [Field F] [AddCommGroup G] [Module F G]

theorem avg_eq {α : Type} [Fintype α] (f : α → ℚ) : avg f = (∑ a, f a) / Fintype.card α := by
  rw [avg, finsum_eq_sum_of_fintype, Nat.card_eq_fintype_card]

theorem avg_equiv {α β : Type} (e : α ≃ β) (f : β → ℚ) : avg (fun a => f (e a)) = avg f := by
  rw [avg, avg, Nat.card_congr e, finsum_comp_equiv e]

theorem avg_nonneg {α : Type} {f : α → ℚ} (h : ∀ a, 0 ≤ f a) : 0 ≤ avg f := div_nonneg (finsum_nonneg h) (Nat.cast_nonneg _)

theorem avg_le {α : Type} {f : α → ℚ} {B : ℚ} (hB : 0 ≤ B) (h : ∀ a, f a ≤ B) : avg f ≤ B := by
  rcases finite_or_infinite α with _ | _
  · haveI := Fintype.ofFinite α
    rw [avg_eq]
    rcases isEmpty_or_nonempty α with _ | _
    · simpa using hB
    · rw [div_le_iff₀ (by exact_mod_cast Fintype.card_pos)]
      refine (Finset.sum_le_card_nsmul _ _ _ fun a _ => h a).trans ?_
      rw [nsmul_eq_mul, mul_comm, Finset.card_univ]
  · rw [avg, Nat.card_eq_zero_of_infinite]
    simpa using hB

theorem avg_add {α : Type} [Finite α] (f f' : α → ℚ) : avg (fun a => f a + f' a) = avg f + avg f' := by
  haveI := Fintype.ofFinite α
  rw [avg_eq, avg_eq, avg_eq, Finset.sum_add_distrib, add_div]

theorem avg_mono {α : Type} [Finite α] {f f' : α → ℚ} (h : ∀ a, f a ≤ f' a) : avg f ≤ avg f' := by
  haveI := Fintype.ofFinite α
  rw [avg_eq, avg_eq]
  exact div_le_div_of_nonneg_right (Finset.sum_le_sum fun a _ => h a) (Nat.cast_nonneg _)

theorem avg_sub_le {α : Type} [Finite α] {f f' : α → ℚ} {d : α → ℚ} (h : ∀ a, |f a - f' a| ≤ d a) : |avg f - avg f'| ≤ avg d := by
  haveI := Fintype.ofFinite α
  rw [avg_eq, avg_eq, avg_eq, ← sub_div, abs_div, Nat.abs_cast, ← Finset.sum_sub_distrib]
  exact div_le_div_of_nonneg_right ((Finset.abs_sum_le_sum_abs _ _).trans (Finset.sum_le_sum fun a _ => h a)) (Nat.cast_nonneg _)

theorem avg_sum {α : Type} [Finite α] {ι : Type} (l : List ι) (f : ι → α → ℚ) : avg (fun a => (l.map fun i => f i a).sum) = (l.map fun i => avg (f i)).sum := by
  induction l with
  | nil => simp [avg]
  | cons i l ih => simp only [List.map_cons, List.sum_cons, avg_add, ih]

open Classical in
/-- If an element that satisfies `S` could be changed in `|F|` ways, and can be found out afterwards, then at most one in `|F|` satisfies `S`. -/
theorem avg_indicator {α : Type} [Finite α] [Fintype F] (S : α → Prop) (u : α → F → α) (inj : ∀ x y a b, S x → S y → u x a = u y b → x = y ∧ a = b) :
    avg (fun x => if S x then (1 : ℚ) else 0) ≤ 1 / Fintype.card F := by
  haveI := Fintype.ofFinite α
  have hF : (0 : ℚ) < Fintype.card F := by exact_mod_cast Fintype.card_pos
  rw [avg_eq, Finset.sum_boole]
  rcases isEmpty_or_nonempty α with _ | _
  · simp
  · have hα : (0 : ℚ) < Fintype.card α := by exact_mod_cast Fintype.card_pos
    rw [div_le_div_iff₀ hα hF, one_mul]
    have : Fintype.card ({x // S x} × F) ≤ Fintype.card α := Fintype.card_le_of_injective (fun q => u q.1.1 q.2) (by
      rintro ⟨⟨x, hx⟩, a⟩ ⟨⟨y, hy⟩, b⟩ h
      obtain ⟨h1, h2⟩ := inj x y a b hx hy h
      subst h1
      subst h2
      rfl)
    rw [Fintype.card_prod, Fintype.card_subtype] at this
    exact_mod_cast this

end Bp
