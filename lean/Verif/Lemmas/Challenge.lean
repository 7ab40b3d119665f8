import Verif.Spec.Challenge
import Verif.Lemmas.RandomOracle3
import Mathlib.Algebra.BigOperators.Fin
import Mathlib.Algebra.Order.Field.Basic
import Mathlib.Logic.Equiv.Fin.Basic
import Mathlib.Data.Fin.Rev

set_option linter.unusedSectionVars false

/-! # Lemmas: challenges that are made from random bytes -/

namespace Bp

theorem avg_prod {α β : Type} [Finite α] [Finite β] (f : α × β → ℚ) : avg f = avg fun a => avg fun b => f (a, b) := by
  have := Fintype.ofFinite α
  have := Fintype.ofFinite β
  simp only [avg_eq, Fintype.sum_prod_type, Fintype.card_prod, ← Finset.sum_div]
  rw [div_div, Nat.cast_mul, mul_comm]

/-- Reading bytes as a number is a bijection. -/
def bytesEquiv (m : ℕ) : Bytes m ≃ Fin (256 ^ m) := ((Equiv.arrowCongr Fin.revPerm (Equiv.refl _)).trans finFunctionFinEquiv)

theorem bytesEquiv_val {m : ℕ} (b : Bytes m) : (bytesEquiv m b).val = beNumber b := by
  rw [bytesEquiv, Equiv.trans_apply, finFunctionFinEquiv_apply, beNumber, ← Equiv.sum_comp Fin.revPerm]
  refine Finset.sum_congr rfl fun i _ => ?_
  have h1 : (Equiv.arrowCongr Fin.revPerm (Equiv.refl (Fin 256)) b) (Fin.revPerm i) = b i := by simp [Equiv.arrowCongr]
  rw [h1, Fin.revPerm_apply, Fin.val_rev]
  congr 2
  omega

theorem sum_range_mul_zmod {n : ℕ} [NeZero n] (f : ZMod n → ℚ) (q : ℕ) : ∑ i ∈ Finset.range (n * q), f (i : ZMod n) = q * ∑ x, f x := by
  induction q with
  | zero => simp
  | succ q ih =>
    rw [Nat.mul_succ, Finset.sum_range_add, ih]
    have : ∑ i ∈ Finset.range n, f ((n * q + i : ℕ) : ZMod n) = ∑ x, f x := by
      rw [Finset.sum_range fun i => f ((n * q + i : ℕ) : ZMod n)]
      refine Fintype.sum_equiv (ZMod.finEquiv n).toEquiv _ _ fun i => ?_
      congr 1
      obtain ⟨k, rfl⟩ : ∃ k, n = k + 1 := ⟨n - 1, by have := NeZero.ne n; omega⟩
      rw [Nat.cast_add, Nat.cast_mul, CharP.cast_eq_zero, zero_mul, zero_add]
      exact Fin.cast_val_eq_self i
    rw [this]
    push_cast
    ring

theorem sum_zmod_split {n : ℕ} [NeZero n] (f : ZMod n → ℚ) {t : ℕ} (ht : t ≤ n) : ∑ x, f x = ∑ i ∈ Finset.range t, f (i : ZMod n) + ∑ i ∈ Finset.range (n - t), f ((t + i : ℕ) : ZMod n) := by
  have h := sum_range_mul_zmod f 1
  rw [mul_one, Nat.cast_one, one_mul] at h
  rw [← h]
  have key : ∀ M, t + (n - t) = M → ∑ i ∈ Finset.range M, f (i : ZMod n) = ∑ i ∈ Finset.range t, f (i : ZMod n) + ∑ i ∈ Finset.range (n - t), f ((t + i : ℕ) : ZMod n) := by
    rintro M rfl
    rw [Finset.sum_range_add]
  exact key n (Nat.add_sub_cancel' ht)

theorem sum_range_split {n : ℕ} [NeZero n] (f : ZMod n → ℚ) (N : ℕ) : ∑ i ∈ Finset.range N, f (i : ZMod n) = (N / n : ℕ) * ∑ x, f x + ∑ i ∈ Finset.range (N % n), f (i : ZMod n) := by
  conv_lhs => rw [← Nat.div_add_mod N n, Finset.sum_range_add, sum_range_mul_zmod]
  congr 1
  refine Finset.sum_congr rfl fun i _ => ?_
  congr 1
  rw [Nat.cast_add, Nat.cast_mul, CharP.cast_eq_zero, zero_mul, zero_add]

theorem avg_bytes_eq {n : ℕ} {m : ℕ} (f : ZMod n → ℚ) : avg (fun b : Bytes m => f (challengeOf n b)) = (∑ i ∈ Finset.range (256 ^ m), f (i : ZMod n)) / (256 ^ m : ℕ) := by
  have := avg_equiv (bytesEquiv m) fun i => f (i.val : ZMod n)
  simp only [bytesEquiv_val] at this
  rw [show (fun b : Bytes m => f (challengeOf n b)) = fun b => f (beNumber b : ZMod n) from rfl, this, avg_eq, Fintype.card_fin, Finset.sum_range fun i => f (i : ZMod n)]

/-- The difference for one challenge, exactly. -/
theorem avg_bytes_sub {n : ℕ} [NeZero n] {m : ℕ} (f : ZMod n → ℚ) : avg (fun b : Bytes m => f (challengeOf n b)) - avg f =
    ((n - 256 ^ m % n : ℕ) * ∑ i ∈ Finset.range (256 ^ m % n), f (i : ZMod n) - (256 ^ m % n : ℕ) * ∑ i ∈ Finset.range (n - 256 ^ m % n), f ((256 ^ m % n + i : ℕ) : ZMod n)) / (256 ^ m * n : ℕ) := by
  have ht : 256 ^ m % n ≤ n := (Nat.mod_lt _ (Nat.pos_of_ne_zero (NeZero.ne n))).le
  have hN : ((256 ^ m : ℕ) : ℚ) ≠ 0 := by positivity
  have hn : ((n : ℕ) : ℚ) ≠ 0 := by exact_mod_cast NeZero.ne n
  have hd : ((256 ^ m : ℕ) : ℚ) = n * (256 ^ m / n : ℕ) + (256 ^ m % n : ℕ) := by exact_mod_cast (Nat.div_add_mod (256 ^ m) n).symm
  rw [avg_bytes_eq, avg_eq, ZMod.card, sum_range_split, sum_zmod_split f ht, Nat.cast_sub ht, Nat.cast_mul]
  generalize ∑ i ∈ Finset.range (256 ^ m % n), f (i : ZMod n) = s
  generalize ∑ i ∈ Finset.range (n - 256 ^ m % n), f ((256 ^ m % n + i : ℕ) : ZMod n) = s'
  rw [div_sub_div _ _ hN hn]
  congr 1
  rw [hd]
  ring

theorem avg_bytes_one {n : ℕ} [NeZero n] {m : ℕ} (f : ZMod n → ℚ) (h0 : ∀ x, 0 ≤ f x) (h1 : ∀ x, f x ≤ 1) : |avg (fun b : Bytes m => f (challengeOf n b)) - avg f| ≤ bias n (256 ^ m) := by
  have ht : 256 ^ m % n ≤ n := (Nat.mod_lt _ (Nat.pos_of_ne_zero (NeZero.ne n))).le
  rw [avg_bytes_sub, bias, abs_div, Nat.abs_cast]
  refine div_le_div_of_nonneg_right ?_ (Nat.cast_nonneg _)
  generalize hs : ∑ i ∈ Finset.range (256 ^ m % n), f (i : ZMod n) = s
  generalize hs' : ∑ i ∈ Finset.range (n - 256 ^ m % n), f ((256 ^ m % n + i : ℕ) : ZMod n) = s'
  have a0 : 0 ≤ s := hs ▸ Finset.sum_nonneg fun i _ => h0 _
  have a0' : 0 ≤ s' := hs' ▸ Finset.sum_nonneg fun i _ => h0 _
  have a1 : s ≤ (256 ^ m % n : ℕ) := by
    rw [← hs]
    refine (Finset.sum_le_card_nsmul _ _ 1 fun i _ => h1 _).trans ?_
    simp
  have a1' : s' ≤ (n - 256 ^ m % n : ℕ) := by
    rw [← hs']
    refine (Finset.sum_le_card_nsmul _ _ 1 fun i _ => h1 _).trans ?_
    simp
  rw [Nat.cast_mul, abs_le]
  have b1 := mul_le_mul_of_nonneg_left a1 (Nat.cast_nonneg (α := ℚ) (n - 256 ^ m % n))
  have b2 := mul_le_mul_of_nonneg_left a1' (Nat.cast_nonneg (α := ℚ) (256 ^ m % n))
  have b3 := mul_nonneg (Nat.cast_nonneg (α := ℚ) (n - 256 ^ m % n)) a0
  have b4 := mul_nonneg (Nat.cast_nonneg (α := ℚ) (256 ^ m % n)) a0'
  constructor <;> linarith [mul_comm ((256 ^ m % n : ℕ) : ℚ) ((n - 256 ^ m % n : ℕ) : ℚ)]

theorem bias_nonneg (n N : ℕ) : 0 ≤ bias n N := div_nonneg (Nat.cast_nonneg _) (Nat.cast_nonneg _)

theorem avg_succ {α : Type} [Finite α] {d : ℕ} (f : (Fin (d + 1) → α) → ℚ) : avg f = avg fun a : α => avg fun b : Fin d → α => f (Fin.cons a b) := by
  rw [← avg_equiv (Fin.consEquiv fun _ : Fin (d + 1) => α) f, avg_prod]
  rfl

/-- Many challenges. -/
theorem avg_bytes {n : ℕ} [NeZero n] {m : ℕ} : ∀ {d : ℕ} (f : (Fin d → ZMod n) → ℚ), (∀ x, 0 ≤ f x) → (∀ x, f x ≤ 1) →
    |avg (fun b : Fin d → Bytes m => f (challengesOf n b)) - avg f| ≤ d * bias n (256 ^ m)
  | 0, f, _, _ => by
    obtain ⟨c, rfl⟩ : ∃ c, f = fun _ => c := ⟨f Fin.elim0, funext fun x => congrArg f (Subsingleton.elim _ _)⟩
    simp only [avg_const, sub_self, abs_zero, Nat.cast_zero, zero_mul, le_refl]
  | d + 1, f, h0, h1 => by
    rw [avg_succ, avg_succ f]
    have hc : ∀ (a : Bytes m) (b : Fin d → Bytes m), challengesOf n (Fin.cons a b : Fin (d + 1) → Bytes m) = Fin.cons (challengeOf n a) (challengesOf n b) := by
      intro a b
      funext i
      refine Fin.cases rfl (fun i => rfl) i
    simp only [hc]
    have e1 := avg_bytes_one (m := m) (fun c : ZMod n => avg fun b : Fin d → Bytes m => f (Fin.cons c (challengesOf n b))) (fun c => avg_nonneg fun b => h0 _) (fun c => avg_le zero_le_one fun b => h1 _)
    have e2 := avg_sub_le (α := ZMod n) fun c => avg_bytes (m := m) (fun cs : Fin d → ZMod n => f (Fin.cons c cs)) (fun cs => h0 _) (fun cs => h1 _)
    rw [avg_const] at e2
    push_cast
    rw [abs_le] at *
    constructor <;> linarith [e1.1, e1.2, e2.1, e2.2]

/-- Many challenges and something else. -/
theorem avg_bytes_prod {n : ℕ} [NeZero n] {m d : ℕ} {C : Type} [Finite C] (f : (Fin d → ZMod n) × C → ℚ) (h0 : ∀ x, 0 ≤ f x) (h1 : ∀ x, f x ≤ 1) :
    |avg (fun x : (Fin d → Bytes m) × C => f (challengesOf n x.1, x.2)) - avg f| ≤ d * bias n (256 ^ m) := by
  rw [avg_prod, avg_prod f]
  exact avg_bytes (m := m) (fun cs => avg fun c => f (cs, c)) (fun cs => avg_nonneg fun c => h0 _) (fun cs => avg_le zero_le_one fun c => h1 _)

/-- No event becomes much more likely. -/
theorem avg_bytes_ratio_one {n : ℕ} [NeZero n] {m : ℕ} (f : ZMod n → ℚ) (h0 : ∀ x, 0 ≤ f x) : avg (fun b : Bytes m => f (challengeOf n b)) ≤ ((256 ^ m / n + 1) * n : ℕ) / (256 ^ m : ℕ) * avg f := by
  have ht : 256 ^ m % n ≤ n := (Nat.mod_lt _ (Nat.pos_of_ne_zero (NeZero.ne n))).le
  have hn : ((n : ℕ) : ℚ) ≠ 0 := by exact_mod_cast NeZero.ne n
  have hS := sum_zmod_split f ht
  have a0' : 0 ≤ ∑ i ∈ Finset.range (n - 256 ^ m % n), f ((256 ^ m % n + i : ℕ) : ZMod n) := Finset.sum_nonneg fun i _ => h0 _
  rw [avg_bytes_eq, avg_eq, ZMod.card, sum_range_split, div_mul_div_comm, mul_comm ((256 ^ m : ℕ) : ℚ) (n : ℚ), Nat.cast_mul, mul_comm (((256 ^ m / n + 1 : ℕ)) : ℚ) (n : ℚ), mul_assoc, mul_div_mul_left _ _ hn]
  refine div_le_div_of_nonneg_right ?_ (Nat.cast_nonneg _)
  push_cast
  linarith

theorem avg_mul_left {α : Type} [Finite α] (c : ℚ) (f : α → ℚ) : avg (fun a => c * f a) = c * avg f := by
  have := Fintype.ofFinite α
  rw [avg_eq, avg_eq, ← Finset.mul_sum, mul_div_assoc]

theorem avg_bytes_ratio {n : ℕ} [NeZero n] {m : ℕ} : ∀ {d : ℕ} (f : (Fin d → ZMod n) → ℚ), (∀ x, 0 ≤ f x) →
    avg (fun b : Fin d → Bytes m => f (challengesOf n b)) ≤ (((256 ^ m / n + 1) * n : ℕ) / (256 ^ m : ℕ) : ℚ) ^ d * avg f
  | 0, f, _ => by
    obtain ⟨c, rfl⟩ : ∃ c, f = fun _ => c := ⟨f Fin.elim0, funext fun x => congrArg f (Subsingleton.elim _ _)⟩
    simp only [avg_const, pow_zero, one_mul, le_refl]
  | d + 1, f, h0 => by
    rw [avg_succ, avg_succ f]
    have hc : ∀ (a : Bytes m) (b : Fin d → Bytes m), challengesOf n (Fin.cons a b : Fin (d + 1) → Bytes m) = Fin.cons (challengeOf n a) (challengesOf n b) := by
      intro a b
      funext i
      refine Fin.cases rfl (fun i => rfl) i
    simp only [hc]
    refine (avg_bytes_ratio_one (m := m) (fun c : ZMod n => avg fun b : Fin d → Bytes m => f (Fin.cons c (challengesOf n b))) fun c => avg_nonneg fun b => h0 _).trans ?_
    rw [pow_succ', mul_assoc]
    refine mul_le_mul_of_nonneg_left ?_ (div_nonneg (Nat.cast_nonneg _) (Nat.cast_nonneg _))
    rw [← avg_mul_left]
    exact avg_mono fun c => avg_bytes_ratio (m := m) (fun cs : Fin d → ZMod n => f (Fin.cons c cs)) fun cs => h0 _

open Classical in
theorem prob_card {α : Type} [Finite α] (E : α → Prop) : prob E = Nat.card {a // E a} / Nat.card α := by
  have := Fintype.ofFinite α
  rw [prob, avg_eq, Finset.sum_boole, Nat.card_eq_fintype_card, Nat.card_eq_fintype_card, Fintype.card_subtype]

end Bp
