import Verif.Spec.Extractor
import Verif.Lemmas.Interactive
import Mathlib.Algebra.Order.Field.Rat
import Mathlib.Algebra.Order.BigOperators.Group.Finset
import Mathlib.Algebra.BigOperators.Field
import Mathlib.Algebra.BigOperators.Ring.Finset
import Mathlib.Tactic.Linarith
import Mathlib.Tactic.FieldSimp
import Mathlib.Tactic.Positivity

set_option linter.unusedSectionVars false

/-! # How long the extractor takes, and how often it succeeds -/

namespace Bp
variable {F G : Type} [Field F]
open Finset

namespace Rewinding
variable {α β : Type} (W : List F → Bool)

theorem expect_bind (x : Rewinding F α) (f : α → Rewinding F β) (v : β → ℚ) : (x.bind f).expect W v = x.expect W fun a => (f a).expect W v := by
  induction x with
  | done a => rfl
  | draw S next ih => simp only [bind, expect, ih]
  | run cs next ih => simp only [bind, expect, ih]

theorem expect_add (x : Rewinding F α) (v v' : α → ℚ) : x.expect W (fun a => v a + v' a) = x.expect W v + x.expect W v' := by
  induction x with
  | done a => rfl
  | draw S next ih => simp only [expect, ih, sum_add_distrib, add_div]
  | run cs next ih => simp only [expect, ih]

theorem expect_smul (x : Rewinding F α) (v : α → ℚ) (b : ℚ) : x.expect W (fun a => b * v a) = b * x.expect W v := by
  induction x with
  | done a => rfl
  | draw S next ih => simp only [expect, ih, ← mul_sum, mul_div_assoc]
  | run cs next ih => simp only [expect, ih]

theorem runs_bind (x : Rewinding F α) (f : α → Rewinding F β) : (x.bind f).runs W = x.runs W + x.expect W fun a => (f a).runs W := by
  induction x with
  | done a => simp [bind, runs, expect]
  | draw S next ih => simp only [bind, runs, expect, ih, sum_add_distrib, add_div]
  | run cs next ih => simp only [bind, runs, expect, ih, add_assoc]

theorem runs_nonneg (x : Rewinding F α) : 0 ≤ x.runs W := by
  induction x with
  | done a => exact le_rfl
  | draw S next ih => exact div_nonneg (sum_nonneg fun c _ => ih c) (Nat.cast_nonneg _)
  | run cs next ih => exact add_nonneg zero_le_one (ih _)

theorem expect_nonneg (x : Rewinding F α) {v : α → ℚ} (hv : ∀ a, 0 ≤ v a) : 0 ≤ x.expect W v := by
  induction x with
  | done a => exact hv a
  | draw S next ih => exact div_nonneg (sum_nonneg fun c _ => ih c) (Nat.cast_nonneg _)
  | run cs next ih => exact ih _

theorem expect_le (x : Rewinding F α) {v : α → ℚ} {B : ℚ} (hB : 0 ≤ B) (hv : ∀ a, v a ≤ B) : x.expect W v ≤ B := by
  induction x with
  | done a => exact hv a
  | draw S next ih =>
    rw [expect]
    rcases S.eq_empty_or_nonempty with rfl | hS
    · simpa using hB
    · rw [div_le_iff₀ (by exact_mod_cast hS.card_pos)]
      refine (sum_le_card_nsmul _ _ _ fun c _ => ih c).trans ?_
      rw [nsmul_eq_mul, mul_comm]
  | run cs next ih => exact ih _

/-- No draw is from the empty set. -/
def Proper : Rewinding F α → Prop
  | done _ => True
  | draw S next => S.Nonempty ∧ ∀ c ∈ S, (next c).Proper
  | run _ next => ∀ b, (next b).Proper

theorem Proper.bind {x : Rewinding F α} (h : x.Proper) {f : α → Rewinding F β} (hf : ∀ a, (f a).Proper) : (x.bind f).Proper := by
  induction x with
  | done a => exact hf a
  | draw S next ih => exact ⟨h.1, fun c hc => ih c (h.2 c hc)⟩
  | run cs next ih => exact fun b => ih b (h b)

theorem Proper.expect_const {x : Rewinding F α} (h : x.Proper) (b : ℚ) : x.expect W (fun _ => b) = b := by
  induction x with
  | done a => rfl
  | draw S next ih =>
    rw [expect, sum_congr rfl fun c hc => ih c (h.2 c hc), sum_const, nsmul_eq_mul, mul_div_cancel_left₀]
    exact_mod_cast h.1.card_pos.ne'
  | run cs next ih => exact ih _ (h _)

theorem Proper.expect_option {x : Rewinding F (Option α)} (h : x.Proper) {v : Option α → ℚ} (a b : ℚ) (hn : v none = b) (hv : ∀ t, v (some t) = a) : x.expect W v = x.success W * a + (1 - x.success W) * b := by
  have e : v = fun o => (a - b) * (if o.isSome then 1 else 0) + b := by
    funext o
    cases o <;> simp [hn, hv]
  rw [e, expect_add W x (fun o => (a - b) * (if o.isSome then 1 else 0)) fun _ => b, expect_smul, h.expect_const W]
  show (a - b) * x.success W + b = _
  ring

theorem success_nonneg (x : Rewinding F (Option α)) : 0 ≤ x.success W := x.expect_nonneg W fun o => by split <;> norm_num
theorem success_le_one (x : Rewinding F (Option α)) : x.success W ≤ 1 := x.expect_le W zero_le_one fun o => by split <;> norm_num

theorem outcome_bind {x : Rewinding F α} {f : α → Rewinding F β} {b : β} (h : (x.bind f).Outcome W b) : ∃ a, x.Outcome W a ∧ (f a).Outcome W b := by
  induction x with
  | done a => exact ⟨a, rfl, h⟩
  | draw S next ih =>
    obtain ⟨c, hc, h⟩ := h
    obtain ⟨a, h1, h2⟩ := ih c h
    exact ⟨a, ⟨c, hc, h1⟩, h2⟩
  | run cs next ih => exact ih _ h

theorem outcome_of_success {x : Rewinding F (Option α)} (h : 0 < x.success W) : ∃ t, x.Outcome W (some t) := by
  induction x with
  | done a =>
    cases a with
    | none => simp [success, expect] at h
    | some t => exact ⟨t, rfl⟩
  | draw S next ih =>
    by_contra hn
    refine h.ne' ?_
    rw [success, expect, sum_eq_zero, zero_div]
    intro c hc
    refine le_antisymm (not_lt.mp fun hp => hn ?_) (success_nonneg W (next c))
    obtain ⟨t, ht⟩ := ih c hp
    exact ⟨t, c, hc, ht⟩
  | run cs next ih => exact ih _ h

end Rewinding

/-! ## Drawing without repetition -/

section
variable [DecidableEq F]

/-- Expected number of runs of `collect`, and the probability that it fails, from those of the programs below the challenges. -/
def collectRuns (p κ : F → ℚ) : ℕ → ℕ → Finset F → ℚ
  | _, 0, _ => 0
  | 0, _ + 1, _ => 0
  | k + 1, n + 1, S => (∑ c ∈ S, (κ c + (p c * collectRuns p κ k n (S.erase c) + (1 - p c) * collectRuns p κ k (n + 1) (S.erase c)))) / S.card

def collectFails (p : F → ℚ) : ℕ → ℕ → Finset F → ℚ
  | _, 0, _ => 0
  | 0, _ + 1, _ => 1
  | k + 1, n + 1, S => (∑ c ∈ S, (p c * collectFails p k n (S.erase c) + (1 - p c) * collectFails p k (n + 1) (S.erase c))) / S.card

theorem sum_erase_comm (S : Finset F) (f : F → F → ℚ) : ∑ c ∈ S, ∑ d ∈ S.erase c, f c d = ∑ d ∈ S, ∑ c ∈ S.erase d, f c d := by
  refine sum_comm' fun c d => ?_
  simp only [mem_erase]
  tauto

theorem collectRuns_le {p κ : F → ℚ} (h0 : ∀ c, 0 ≤ p c) (h1 : ∀ c, p c ≤ 1) (hκ : ∀ c, 0 ≤ κ c) : ∀ (k n : ℕ) (S : Finset F), S.card = k + 1 → ∑ c ∈ S, p c * collectRuns p κ k n (S.erase c) ≤ n * ∑ c ∈ S, κ c
  | k, 0, S, _ => by cases k <;> simp [collectRuns]
  | 0, n + 1, S, _ => by
    simp only [collectRuns, mul_zero, sum_const_zero]
    exact mul_nonneg (by positivity) (sum_nonneg fun c _ => hκ c)
  | k + 1, n + 1, S, hS => by
    have hk : (0 : ℚ) < k + 1 := by positivity
    have e1 : ∑ c ∈ S, p c * collectRuns p κ (k + 1) (n + 1) (S.erase c) =
        (∑ d ∈ S, (κ d * ∑ c ∈ S.erase d, p c + (p d * ∑ c ∈ S.erase d, p c * collectRuns p κ k n ((S.erase d).erase c) + (1 - p d) * ∑ c ∈ S.erase d, p c * collectRuns p κ k (n + 1) ((S.erase d).erase c)))) / (k + 1) := by
      rw [sum_div]
      have e2 : ∀ c ∈ S, p c * collectRuns p κ (k + 1) (n + 1) (S.erase c) =
          ∑ d ∈ S.erase c, p c * (κ d + (p d * collectRuns p κ k n ((S.erase d).erase c) + (1 - p d) * collectRuns p κ k (n + 1) ((S.erase d).erase c))) / (k + 1) := by
        intro c hc
        rw [collectRuns, card_erase_of_mem hc, hS, ← sum_div, ← mul_sum, mul_div_assoc]
        congr 2
        · exact sum_congr rfl fun d _ => by rw [erase_right_comm]
        · push_cast; simp
      rw [sum_congr rfl e2, sum_erase_comm]
      refine sum_congr rfl fun d _ => ?_
      rw [← sum_div, mul_sum, mul_sum, mul_sum, ← sum_add_distrib, ← sum_add_distrib]
      congr 1
      exact sum_congr rfl fun c _ => by ring
    rw [e1, div_le_iff₀ hk]
    have hc : ∀ d ∈ S, (S.erase d).card = k + 1 := fun d hd => by rw [card_erase_of_mem hd, hS]; rfl
    have e3 : ∀ d ∈ S, κ d * ∑ c ∈ S.erase d, p c + (p d * ∑ c ∈ S.erase d, p c * collectRuns p κ k n ((S.erase d).erase c) + (1 - p d) * ∑ c ∈ S.erase d, p c * collectRuns p κ k (n + 1) ((S.erase d).erase c)) ≤
        (∑ c ∈ S.erase d, κ d * p c - ∑ c ∈ S.erase d, p d * κ c) + (n + 1 : ℚ) * ∑ c ∈ S.erase d, κ c := by
      intro d hd
      have i1 := mul_le_mul_of_nonneg_left (collectRuns_le h0 h1 hκ k n (S.erase d) (hc d hd)) (h0 d)
      have i2 := mul_le_mul_of_nonneg_left (collectRuns_le h0 h1 hκ k (n + 1) (S.erase d) (hc d hd)) (sub_nonneg.mpr (h1 d))
      rw [← mul_sum, ← mul_sum]
      push_cast at i1 i2
      nlinarith [i1, i2]
    refine (sum_le_sum e3).trans ?_
    rw [sum_add_distrib, sum_sub_distrib, sum_erase_comm S fun d c => κ d * p c]
    have e4 : ∑ d ∈ S, ∑ c ∈ S.erase d, κ c * p d = ∑ d ∈ S, ∑ c ∈ S.erase d, p d * κ c := sum_congr rfl fun d _ => sum_congr rfl fun c _ => mul_comm _ _
    rw [e4, sub_self, zero_add, ← mul_sum]
    have e5 : ∑ d ∈ S, ∑ c ∈ S.erase d, κ c = (k + 1 : ℚ) * ∑ c ∈ S, κ c := by
      rw [sum_erase_comm S fun _ c => κ c, mul_sum]
      refine sum_congr rfl fun d hd => ?_
      rw [sum_const, hc d hd, nsmul_eq_mul]
      push_cast; ring
    rw [e5]
    push_cast
    exact le_of_eq (by ring)

theorem collectFails_bounds {p : F → ℚ} (h0 : ∀ c, 0 ≤ p c) (h1 : ∀ c, p c ≤ 1) : ∀ (k n : ℕ) (S : Finset F), 0 ≤ collectFails p k n S ∧ collectFails p k n S ≤ 1
  | k, 0, S => by cases k <;> simp [collectFails]
  | 0, n + 1, S => by simp [collectFails]
  | k + 1, n + 1, S => by
    rw [collectFails]
    have b : ∀ c, 0 ≤ p c * collectFails p k n (S.erase c) + (1 - p c) * collectFails p k (n + 1) (S.erase c) ∧ p c * collectFails p k n (S.erase c) + (1 - p c) * collectFails p k (n + 1) (S.erase c) ≤ 1 := fun c => by
      have a1 := collectFails_bounds h0 h1 k n (S.erase c)
      have a2 := collectFails_bounds h0 h1 k (n + 1) (S.erase c)
      have b0 := h0 c
      have b1 := h1 c
      constructor <;> nlinarith [a1.1, a1.2, a2.1, a2.2]
    refine ⟨div_nonneg (sum_nonneg fun c _ => (b c).1) (Nat.cast_nonneg _), ?_⟩
    rcases S.eq_empty_or_nonempty with rfl | hS
    · simp
    · rw [div_le_one (by exact_mod_cast hS.card_pos)]
      refine (sum_le_card_nsmul _ _ 1 fun c _ => (b c).2).trans (by simp)

theorem collectFails_le {p : F → ℚ} (h0 : ∀ c, 0 ≤ p c) (h1 : ∀ c, p c ≤ 1) : ∀ (k n : ℕ) (S : Finset F), S.card = k + 1 → ∑ c ∈ S, p c * collectFails p k n (S.erase c) ≤ n
  | k, 0, S, _ => by cases k <;> simp [collectFails]
  | 0, n + 1, S, hS => by
    obtain ⟨c, rfl⟩ := card_eq_one.mp hS
    simp only [collectFails, mul_one, sum_singleton]
    push_cast
    have : (0 : ℚ) ≤ n := Nat.cast_nonneg _
    linarith [h1 c]
  | k + 1, n + 1, S, hS => by
    have hk : (0 : ℚ) < k + 1 := by positivity
    by_cases hP : ∑ c ∈ S, p c ≤ (n + 1 : ℕ)
    · refine le_trans (sum_le_sum fun c _ => ?_) hP
      exact mul_le_of_le_one_right (h0 c) (collectFails_bounds h0 h1 _ _ _).2
    · have hP := (not_le.mp hP).le
      have e1 : ∑ c ∈ S, p c * collectFails p (k + 1) (n + 1) (S.erase c) =
          (∑ d ∈ S, (p d * ∑ c ∈ S.erase d, p c * collectFails p k n ((S.erase d).erase c) + (1 - p d) * ∑ c ∈ S.erase d, p c * collectFails p k (n + 1) ((S.erase d).erase c))) / (k + 1) := by
        rw [sum_div]
        have e2 : ∀ c ∈ S, p c * collectFails p (k + 1) (n + 1) (S.erase c) =
            ∑ d ∈ S.erase c, p c * (p d * collectFails p k n ((S.erase d).erase c) + (1 - p d) * collectFails p k (n + 1) ((S.erase d).erase c)) / (k + 1) := by
          intro c hc
          rw [collectFails, card_erase_of_mem hc, hS, ← sum_div, ← mul_sum, mul_div_assoc]
          congr 2
          · exact sum_congr rfl fun d _ => by rw [erase_right_comm]
          · push_cast; simp
        rw [sum_congr rfl e2, sum_erase_comm]
        refine sum_congr rfl fun d _ => ?_
        rw [← sum_div, mul_sum, mul_sum, ← sum_add_distrib]
        congr 1
        exact sum_congr rfl fun c _ => by ring
      rw [e1, div_le_iff₀ hk]
      have hc : ∀ d ∈ S, (S.erase d).card = k + 1 := fun d hd => by rw [card_erase_of_mem hd, hS]; rfl
      have e3 : ∀ d ∈ S, p d * ∑ c ∈ S.erase d, p c * collectFails p k n ((S.erase d).erase c) + (1 - p d) * ∑ c ∈ S.erase d, p c * collectFails p k (n + 1) ((S.erase d).erase c) ≤ (n + 1 : ℚ) - p d := by
        intro d hd
        have i1 := mul_le_mul_of_nonneg_left (collectFails_le h0 h1 k n (S.erase d) (hc d hd)) (h0 d)
        have i2 := mul_le_mul_of_nonneg_left (collectFails_le h0 h1 k (n + 1) (S.erase d) (hc d hd)) (sub_nonneg.mpr (h1 d))
        push_cast at i1 i2
        nlinarith [i1, i2]
      refine (sum_le_sum e3).trans ?_
      rw [sum_sub_distrib, sum_const, hS, nsmul_eq_mul]
      push_cast at hP ⊢
      linarith

end

/-! ## The extractor -/

section
variable [DecidableEq F] {sub : F → Rewinding F (Option (Branches F))}

theorem collect_proper (hsub : ∀ c, (sub c).Proper) : ∀ (k n : ℕ) (S : Finset F) (found : List (F × Branches F)), S.card = k → (collect sub k n S found).Proper
  | k, 0, S, found, _ => by cases k <;> exact trivial
  | 0, n + 1, S, found, _ => trivial
  | k + 1, n + 1, S, found, hS => by
    refine ⟨card_pos.mp (by omega), fun c hc => (hsub c).bind fun o => ?_⟩
    have hc : (S.erase c).card = k := by rw [card_erase_of_mem hc, hS]; rfl
    cases o with
    | none => exact collect_proper hsub k (n + 1) _ _ hc
    | some t => exact collect_proper hsub k n _ _ hc

theorem collect_runs (W : List F → Bool) (hsub : ∀ c, (sub c).Proper) : ∀ (k n : ℕ) (S : Finset F) (found : List (F × Branches F)),
    (collect sub k n S found).runs W = collectRuns (fun c => (sub c).success W) (fun c => (sub c).runs W) k n S
  | k, 0, S, found => by cases k <;> rfl
  | 0, n + 1, S, found => rfl
  | k + 1, n + 1, S, found => by
    rw [collect, Rewinding.runs, collectRuns]
    congr 1
    refine sum_congr rfl fun c _ => ?_
    rw [Rewinding.runs_bind]
    congr 1
    exact (hsub c).expect_option W _ _ (collect_runs W hsub k (n + 1) _ _) fun t => collect_runs W hsub k n _ _

theorem collect_success (W : List F → Bool) (hsub : ∀ c, (sub c).Proper) : ∀ (k n : ℕ) (S : Finset F) (found : List (F × Branches F)), S.card = k →
    (collect sub k n S found).success W = 1 - collectFails (fun c => (sub c).success W) k n S
  | k, 0, S, found, _ => by cases k <;> simp [collect, Rewinding.success, Rewinding.expect, collectFails]
  | 0, n + 1, S, found, _ => by simp [collect, Rewinding.success, Rewinding.expect, collectFails]
  | k + 1, n + 1, S, found, hS => by
    have hS' : (S.card : ℚ) ≠ 0 := by rw [hS]; positivity
    have e : ∀ c ∈ S, ((sub c).bind fun | none => collect sub k (n + 1) (S.erase c) found | some t => collect sub k n (S.erase c) ((c, t) :: found)).success W =
        1 - ((sub c).success W * collectFails (fun c => (sub c).success W) k n (S.erase c) + (1 - (sub c).success W) * collectFails (fun c => (sub c).success W) k (n + 1) (S.erase c)) := by
      intro c hc
      have hc : (S.erase c).card = k := by rw [card_erase_of_mem hc, hS]; rfl
      rw [Rewinding.success, Rewinding.expect_bind, (hsub c).expect_option W _ _ (collect_success W hsub k (n + 1) _ _ hc) fun t => collect_success W hsub k n _ _ hc]
      ring
    rw [collect, Rewinding.success, Rewinding.expect]
    refine (congrArg (· / (S.card : ℚ)) (sum_congr rfl e)).trans ?_
    rw [collectFails, sum_sub_distrib, sum_const, nsmul_eq_mul, mul_one]
    rw [sub_div, div_self hS']

theorem collect_good {W : List F → Bool} {thr : List ℕ} {cs : List F} (hsub : ∀ c t, (sub c).Outcome W (some t) → t.Good W thr (cs ++ [c])) : ∀ (k n : ℕ) (S : Finset F) (found : List (F × Branches F)) (t : Branches F),
    (found.map Prod.fst).Nodup → (∀ c ∈ S, c ∉ found.map Prod.fst) → (∀ q ∈ found, q.2.Good W thr (cs ++ [q.1])) → (collect sub k n S found).Outcome W (some t) →
    ∃ l, t = .node l ∧ l.length = found.length + n ∧ (l.map Prod.fst).Nodup ∧ ∀ q ∈ l, q.2.Good W thr (cs ++ [q.1])
  | k, 0, S, found, t, h1, _, h3, ho => by
    have ho : some (Branches.node found) = some t := by cases k <;> exact ho
    exact ⟨found, (Option.some.inj ho).symm, rfl, h1, h3⟩
  | 0, n + 1, S, found, t, _, _, _, ho => by cases ho
  | k + 1, n + 1, S, found, t, h1, h2, h3, ho => by
    obtain ⟨c, hc, ho⟩ := ho
    obtain ⟨o, ho1, ho2⟩ := Rewinding.outcome_bind W ho
    cases o with
    | none => exact collect_good hsub k (n + 1) _ _ t h1 (fun d hd => h2 d (mem_of_mem_erase hd)) h3 ho2
    | some b =>
      obtain ⟨l, e1, e2, e3, e4⟩ := collect_good hsub k n _ _ t (by simpa using ⟨by simpa using h2 c hc, h1⟩) (fun d hd => by
        rw [List.map_cons, List.mem_cons, not_or]
        exact ⟨(mem_erase.mp hd).1, h2 d (mem_of_mem_erase hd)⟩) (fun q hq => by
        rcases List.mem_cons.mp hq with rfl | hq
        · exact hsub _ _ ho1
        · exact h3 q hq) ho2
      exact ⟨l, e1, by rw [e2, List.length_cons]; omega, e3, e4⟩

variable [Fintype F]

theorem card_pred : Fintype.card F - 1 + 1 = Fintype.card F := Nat.sub_add_cancel Fintype.card_pos

theorem erase_univ_card (c : F) : (univ.erase c).card = Fintype.card F - 1 := by rw [card_erase_of_mem (mem_univ c), card_univ]

theorem extractor_proper : ∀ (thr : List ℕ) (cs : List F), (extractor thr cs).Proper
  | [], cs => fun _ => trivial
  | m :: thr, cs => by
    refine ⟨⟨0, mem_univ 0⟩, fun c _ => (extractor_proper thr _).bind fun o => ?_⟩
    cases o with
    | none => trivial
    | some t => exact collect_proper (fun c => extractor_proper thr _) _ _ _ _ (erase_univ_card c)

theorem extractor_runs (W : List F → Bool) : ∀ (thr : List ℕ) (cs : List F), (extractor thr cs).runs W ≤ (thr.map fun m : ℕ => (m : ℚ) + 1).prod
  | [], cs => by simp [extractor, Rewinding.runs]
  | m :: thr, cs => by
    have hN : (0 : ℚ) < (univ : Finset F).card := by exact_mod_cast (card_pos.mpr ⟨0, mem_univ 0⟩)
    rw [extractor, Rewinding.runs, List.map_cons, List.prod_cons, div_le_iff₀ hN]
    have e : ∀ c ∈ (univ : Finset F), _ = _ := fun c _ => (Rewinding.runs_bind W (extractor thr (cs ++ [c])) _).trans (congrArg ((extractor thr (cs ++ [c])).runs W + ·)
      ((extractor_proper thr (cs ++ [c])).expect_option W (v := fun o => Rewinding.runs W (match o with | none => .done none | some t => collect (fun c => extractor thr (cs ++ [c])) (Fintype.card F - 1) m (univ.erase c) [(c, t)])) _ _ rfl
        fun t => collect_runs W (fun c => extractor_proper thr (cs ++ [c])) (Fintype.card F - 1) m (univ.erase c) [(c, t)]))
    refine (le_of_eq (sum_congr rfl e)).trans ?_
    have hk := collectRuns_le (p := fun c => (extractor thr (cs ++ [c])).success W) (κ := fun c => (extractor thr (cs ++ [c])).runs W) (fun c => Rewinding.success_nonneg W _) (fun c => Rewinding.success_le_one W _) (fun c => Rewinding.runs_nonneg W _) (Fintype.card F - 1) m univ (by rw [card_univ, card_pred])
    have hs : ∑ c : F, (extractor thr (cs ++ [c])).runs W ≤ (univ : Finset F).card * (thr.map fun m : ℕ => (m : ℚ) + 1).prod := by
      refine (sum_le_card_nsmul _ _ _ fun c _ => extractor_runs W thr (cs ++ [c])).trans (le_of_eq (nsmul_eq_mul _ _))
    simp only [Rewinding.runs, mul_zero, add_zero, sum_add_distrib] at hk ⊢
    have hm : (0 : ℚ) ≤ m := Nat.cast_nonneg _
    nlinarith [mul_le_mul_of_nonneg_left hs (by linarith : (0 : ℚ) ≤ m + 1)]

theorem extractor_success (W : List F → Bool) : ∀ (thr : List ℕ) (cs : List F),
    (count thr.length (fun x => W (cs ++ x) = true) : ℚ) / Fintype.card F ^ thr.length - thr.sum / Fintype.card F ≤ (extractor thr cs).success W
  | [], cs => by
    have : count 0 (fun x => W (cs ++ x) = true) ≤ if W cs then 1 else 0 := by
      split
      · exact (count_le _).trans (by simp)
      · rename_i h
        exact (count_none fun x hx => by rwa [List.length_eq_zero_iff.mp hx, List.append_nil]).le
    have h2 : (extractor [] cs).success W = if W cs then 1 else 0 := by
      cases h : W cs <;> simp [extractor, Rewinding.success, Rewinding.expect, h]
    rw [h2]
    simp only [List.length_nil, List.sum_nil, pow_zero, div_one, Nat.cast_zero, zero_div, sub_zero]
    calc (count 0 (fun x => W (cs ++ x) = true) : ℚ) ≤ ((if W cs then 1 else 0 : ℕ) : ℚ) := by exact_mod_cast this
      _ = _ := by split <;> simp
  | m :: thr, cs => by
    have hN : (0 : ℚ) < Fintype.card F := by exact_mod_cast Fintype.card_pos
    have e : ∀ c ∈ (univ : Finset F), ((extractor thr (cs ++ [c])).bind fun | none => .done none | some t => collect (fun c => extractor thr (cs ++ [c])) (Fintype.card F - 1) m (univ.erase c) [(c, t)]).success W =
        (extractor thr (cs ++ [c])).success W - (extractor thr (cs ++ [c])).success W * collectFails (fun c => (extractor thr (cs ++ [c])).success W) (Fintype.card F - 1) m (univ.erase c) := by
      intro c _
      rw [Rewinding.success, Rewinding.expect_bind, (extractor_proper thr (cs ++ [c])).expect_option W _ 0 (by simp [Rewinding.expect])
        fun t => collect_success W (fun c => extractor_proper thr (cs ++ [c])) (Fintype.card F - 1) m (univ.erase c) [(c, t)] (erase_univ_card c)]
      ring
    rw [extractor, Rewinding.success, Rewinding.expect]
    refine le_trans ?_ (le_of_eq (congrArg (· / ((univ : Finset F).card : ℚ)) (sum_congr rfl e)).symm)
    have hf := collectFails_le (p := fun c => (extractor thr (cs ++ [c])).success W) (fun c => Rewinding.success_nonneg W _) (fun c => Rewinding.success_le_one W _) (Fintype.card F - 1) m univ (by rw [card_univ, card_pred])
    rw [sum_sub_distrib, card_univ, le_div_iff₀ hN]
    have hs : ∑ c : F, ((count thr.length (fun x => W (cs ++ [c] ++ x) = true) : ℚ) / Fintype.card F ^ thr.length - thr.sum / Fintype.card F) ≤ ∑ c : F, (extractor thr (cs ++ [c])).success W :=
      sum_le_sum fun c _ => extractor_success W thr (cs ++ [c])
    rw [sum_sub_distrib, ← sum_div, sum_const, card_univ, nsmul_eq_mul, mul_div_cancel₀ _ hN.ne'] at hs
    have hc : (count (m :: thr).length (fun x => W (cs ++ x) = true) : ℚ) = ∑ c : F, (count thr.length (fun x => W (cs ++ [c] ++ x) = true) : ℚ) := by
      rw [List.length_cons, count_succ, Nat.cast_sum]
      simp
    rw [hc, List.length_cons, List.sum_cons, sub_mul, div_mul_cancel₀ _ hN.ne', pow_succ, ← div_div, div_mul_cancel₀ _ hN.ne']
    rw [Nat.cast_add]
    linarith

theorem extractor_good {W : List F → Bool} : ∀ (thr : List ℕ) (cs : List F) (t : Branches F), (extractor thr cs).Outcome W (some t) → t.Good W thr cs
  | [], cs, t, ho => by
    have ho : (if W cs then some Branches.leaf else none) = some t := ho
    split at ho
    · obtain rfl := Option.some.inj ho
      assumption
    · cases ho
  | m :: thr, cs, t, ho => by
    obtain ⟨c, -, ho⟩ := ho
    obtain ⟨o, h1, h2⟩ := Rewinding.outcome_bind W ho
    cases o with
    | none => cases h2
    | some b =>
      obtain ⟨l, rfl, e2, e3, e4⟩ := collect_good (cs := cs) (fun c t h => extractor_good thr (cs ++ [c]) t h) _ _ _ _ t (by simp) (by simp) (by simpa using extractor_good thr (cs ++ [c]) b h1) h2
      exact ⟨by rw [e2]; simp [Nat.add_comm], e3, e4⟩

/-! ## The tree of answers -/

theorem good_alive {W : List F → Bool} {W' : List F → Prop} : ∀ (thr : List ℕ) (cs : List F) (t : Branches F), t.Good W thr cs → (∀ x, t.Path x → W (cs ++ x) = true → W' (cs ++ x)) → Alive W' thr cs
  | [], cs, .leaf, hg, hW => by
    have := hW [] .leaf (by simpa [Branches.Good] using hg)
    rwa [List.append_nil] at this
  | m :: thr, cs, .node l, hg, hW => by
    obtain ⟨h1, h2, h3⟩ := hg
    have hsub : (((l.map Prod.fst).toFinset : Finset F) : Set F) ⊆ {c | Alive W' thr (cs ++ [c])} := by
      intro c hc
      rw [mem_coe, List.mem_toFinset, List.mem_map] at hc
      obtain ⟨q, hq, rfl⟩ := hc
      refine good_alive thr _ q.2 (h3 q hq) fun x hx hw => ?_
      have := hW (q.1 :: x) (.node (t := q.2) hq hx)
      simp only [List.append_assoc, List.singleton_append] at hw ⊢
      exact this hw
    refine lt_of_lt_of_le ?_ (Set.encard_le_encard hsub)
    rw [Set.encard_coe_eq_coe_finsetCard, List.toFinset_card_of_nodup h2, List.length_map, h1]
    exact_mod_cast Nat.lt_succ_self m
  | [], _, .node _, hg, _ => by simp [Branches.Good] at hg
  | _ :: _, _, .leaf, hg, _ => by simp [Branches.Good] at hg

theorem alive_pairs {W : List F → Prop} : ∀ (thr : List ℕ) (cs : List F), Alive W (thr ++ [1]) cs → Alive (fun x => ∃ r r', r ≠ r' ∧ W (x ++ [r]) ∧ W (x ++ [r'])) thr cs
  | [], cs, h => by
    have h : (1 : ℕ∞) < {c | W (cs ++ [c])}.encard := by exact_mod_cast h
    obtain ⟨a, b, ha, hb, hne⟩ := Set.one_lt_encard_iff.mp h
    exact ⟨a, b, hne, ha, hb⟩
  | m :: thr, cs, h => lt_of_lt_of_le h (Set.encard_le_encard fun _ hc => alive_pairs thr _ hc)

end

section
variable [AddCommGroup G] [Module F G] [DecidableEq G] [DecidableEq F] [Fintype F] {s s2 : Verifier F G} {g h : G} {Gs Hs : List G} {k : ℕ}

theorem accepted_iff {env : Env F G} (P : Interactive F G) (pre cs : List F) (r : F) : P.accepted env s g h Gs Hs pre k (cs ++ [r]) = true ↔ P.Convinces env s g h Gs Hs pre.length k (pre ++ cs) r := by
  rw [Interactive.accepted, Interactive.Convinces, List.dropLast_concat, List.getLastD_concat]
  constructor
  · intro hh
    cases e : s.verify { env with oracle := publicCoins (pre ++ cs) } (P.proof pre.length k (pre ++ cs)) g h Gs Hs r with
    | ok T => exact ⟨T, rfl⟩
    | error x => rw [e] at hh; cases hh
  · rintro ⟨T, e⟩
    rw [e]; rfl

/-- What the extractor finds gives a full tree of accepted answers. -/
theorem branches_tree {env : Env F G} (hb : env.batchInvert [] = .ok ([], 1)) (P : Interactive F G) (pre : List F) (hd : (draws s2.transcript).length = pre.length)
    (hcrc : (s.start (P.proof 0 0 [])).createRandomizedConstraints { env with oracle := publicCoins pre } = .ok s2) (hN : nextPowerOfTwo s2.numVars = 2 ^ k) {b : Branches F}
    (hg : b.Good (P.accepted env s g h Gs Hs pre k) (needed k s2.constraints.length) []) :
    ∃ t : R1CSTree F G k s2.constraints.length, t.Full ∧ t.Accepted s s2 g h Gs Hs ∧ t.AnswersOf P pre ∧
      ∀ a b' c d e L R us α β, (((((t.ys a).zs b').us c).xs d).ipp e).Path L R us α β → ∃ r, b.Path (t.challenges a b' c d e us ++ [r]) := by
  let thr : List ℕ := 2 ^ k :: s2.constraints.length :: 5 :: 6 :: 2 :: List.replicate k 7
  have hthr : thr.length = 5 + k := by simp [thr]; omega
  have ha := alive_pairs thr [] (good_alive (W' := fun x => b.Path x ∧ P.accepted env s g h Gs Hs pre k x = true) _ [] b hg fun x hx hw => ⟨hx, hw⟩)
  have hl := alive_live (Acc := AccsW s s2 g h Gs Hs k fun cs pr => pr = P.proof pre.length k (pre ++ cs) ∧ ∃ r, b.Path (cs ++ [r])) P pre (2 ^ k) (5 + k) (fun cs hcs hw => by
    obtain ⟨r, r', hr, ⟨hp, h1⟩, -, h2⟩ := hw
    obtain ⟨T, h1⟩ := (accepted_iff P pre cs r).mp h1
    obtain ⟨T', h2⟩ := (accepted_iff P pre cs r').mp h2
    refine ⟨_, ⟨{ env with oracle := publicCoins (pre ++ cs) }, r, r', T, T', P.sent_all pre k cs hcs, ?_, hr, .inr hb, ?_, h1, h2⟩, rfl, r, hp⟩
    · rw [P.sent_all pre k cs hcs]
      refine chalsOf_coins _ _ _ _ (proofMsgs_isMsg _ _) hd ?_
      rw [← P.sent_all pre k cs hcs]; simp [Interactive.sent]
    · obtain ⟨-, -, -, hO⟩ := Verifier.crc_log hcrc
      exact hO _ (coins_agree hd.le)) thr [] (by simpa using hthr) ha
  obtain ⟨t, h1, h2, h3⟩ := live_treeW hN hl
  exact ⟨t, h1, h2, fun a b' c d e L R us α β hp => (h3 a b' c d e L R us α β hp).1, fun a b' c d e L R us α β hp => (h3 a b' c d e L R us α β hp).2⟩

theorem needed_sum (k q : ℕ) : (needed k q).sum = knowledgeError k q := by
  simp [needed, knowledgeError]; ring

theorem needed_length (k q : ℕ) : (needed k q).length = 6 + k := by
  simp [needed]; omega

theorem needed_prod (k q : ℕ) : ((needed k q).map fun m : ℕ => (m : ℚ) + 1).prod = 252 * (2 ^ k + 1) * (q + 1) * 8 ^ k := by
  simp [needed]; norm_num; ring

theorem card_accepted {env : Env F G} (P : Interactive F G) (pre : List F) :
    Nat.card {p : (Fin (5 + k) → F) × F // P.Convinces env s g h Gs Hs pre.length k (pre ++ List.ofFn p.1) p.2} ≤ count (6 + k) fun x => P.accepted env s g h Gs Hs pre k ([] ++ x) = true := by
  rw [show 6 + k = 5 + k + 1 by omega]
  unfold count
  refine Nat.card_le_card_of_injective (fun p => ⟨Fin.snoc p.1.1 p.1.2, ?_⟩) ?_
  · have := (accepted_iff P pre (List.ofFn p.1.1) p.1.2).mpr p.2
    show P.accepted env s g h Gs Hs pre k ([] ++ List.ofFn _) = true
    rw [List.nil_append, List.ofFn_succ', List.concat_eq_append]
    simpa using this
  · intro p p' e
    have e := congrArg Subtype.val e
    simp only at e
    refine Subtype.ext (Prod.ext ?_ ?_)
    · have := congrArg Fin.init e
      simpa using this
    · have := congrFun e (Fin.last _)
      simpa using this

end

end Bp
