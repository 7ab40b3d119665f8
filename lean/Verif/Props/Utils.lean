import Std.Data.String.ToNat
import Mathlib.Data.List.Nodup
import Verif.Lemmas.Bls
import Verif.Model.Utils

/-! # C45, C54: generators and challenges -/

namespace Bp
variable {F G : Type}

/-- The string ends in a decimal digit. -/
def EndsInDigit (s : String) : Prop := ∃ c ∈ s.toList.getLast?, c.isDigit

theorem reverse_takeWhile_digits {p : String} (h : ¬ EndsInDigit p) (i : ℕ) :
    (p ++ toString i).toList.reverse.takeWhile Char.isDigit = (toString i).toList.reverse := by
  rw [String.toList_append, List.reverse_append, List.takeWhile_append_of_pos]
  · suffices p.toList.reverse.takeWhile Char.isDigit = [] by rw [this, List.append_nil]
    cases e : p.toList.reverse with
    | nil => rfl
    | cons a l =>
      have : ¬ a.isDigit = true := by
        intro hd
        refine h ⟨a, ?_, hd⟩
        rw [Option.mem_def, ← List.head?_reverse, e]; rfl
      simp [this]
  · intro c hc
    rw [List.mem_reverse] at hc
    rw [show (toString i) = i.repr from rfl, Nat.toList_repr] at hc
    exact Nat.isDigit_of_mem_toDigits (by decide) (by decide) hc

/-- **C45** One generator list is a prefix of every longer one with the same prefix. -/
theorem c45_prefix (hash : String → G) (pre : String) {n m : ℕ} (h : n ≤ m) :
    (getGenerators hash pre m).take n = getGenerators hash pre n := by
  obtain ⟨k, rfl⟩ := Nat.exists_eq_add_of_le h
  simp only [getGenerators, generatorMessages, ← List.map_take]
  rw [← List.range'_append_1, List.take_append_of_le_length (by simp), List.take_of_length_le (by simp)]

/-- **C45** Entry `i` (counted from 0) is the hash of the prefix followed by the decimal digits of `i + 1`, and there are `n` entries. -/
theorem c45_entries (hash : String → G) (pre : String) (n : ℕ) :
    (getGenerators hash pre n).length = n ∧ ∀ i < n, (getGenerators hash pre n)[i]? = some (hash (pre ++ toString (i + 1))) := by
  refine ⟨by simp [getGenerators, generatorMessages], fun i hi => ?_⟩
  simp [getGenerators, generatorMessages, hi, Nat.add_comm]

/-- **C45** Messages with the same prefix are different, whatever the prefix. -/
theorem c45_same_prefix (pre : String) (n : ℕ) : (generatorMessages pre n).Nodup := by
  refine List.Nodup.map ?_ List.nodup_range'
  intro i j h
  have h' := congrArg String.toList h
  simp only [String.toList_append, List.append_cancel_left_eq] at h'
  exact Nat.repr_injective (String.toList_injective h')

/-- **C45** Messages of prefixes that do not end in a digit coincide only for the same prefix and the same index. -/
theorem c45_distinct {p q : String} (hp : ¬ EndsInDigit p) (hq : ¬ EndsInDigit q) {i j : ℕ} (h : p ++ toString i = q ++ toString j) : p = q ∧ i = j := by
  have e := congrArg (fun s : String => s.toList.reverse.takeWhile Char.isDigit) h
  simp only [reverse_takeWhile_digits hp, reverse_takeWhile_digits hq] at e
  have e' : (toString i).toList = (toString j).toList := List.reverse_injective e
  have hij : i = j := Nat.repr_injective (String.toList_injective e')
  subst hij
  have h' := congrArg String.toList h
  simp only [String.toList_append, List.append_cancel_right_eq] at h'
  exact ⟨String.toList_injective h', rfl⟩

/-- **C45** For a hash without collisions the lists for two different prefixes, neither ending in a digit, have no point in common and each has no repeated point. -/
theorem c45_disjoint (hash : String → G) (hinj : Function.Injective hash) {p q : String} (hp : ¬ EndsInDigit p) (hq : ¬ EndsInDigit q) (hpq : p ≠ q) (n m : ℕ) :
    (getGenerators hash p n ++ getGenerators hash q m).Nodup := by
  simp only [getGenerators]
  rw [← List.map_append]
  refine List.Nodup.map hinj ?_
  rw [List.nodup_append]
  refine ⟨c45_same_prefix p n, c45_same_prefix q m, ?_⟩
  intro a ha b hb e
  subst e
  simp only [generatorMessages, List.mem_map] at ha hb
  obtain ⟨i, -, rfl⟩ := ha
  obtain ⟨j, -, e⟩ := hb
  exact hpq (c45_distinct hp hq e.symm).1

/-- **C45** Without that condition the same message is hashed for two prefixes, so the generators are linearly dependent: `"G"` with index 11 and `"G1"` with index 1. -/
theorem c45_ambiguous (hash : String → G) : (getGenerators hash "G" 11)[10]? = (getGenerators hash "G1" 1)[0]? := by
  rw [(c45_entries hash "G" 11).2 10 (by omega), (c45_entries hash "G1" 1).2 0 (by omega)]
  have : "G" ++ toString (10 + 1) = "G1" ++ toString (0 + 1) := by decide +kernel
  rw [this]

example : ¬ EndsInDigit "G" := by
  rintro ⟨c, hc, hd⟩
  have : c = 'G' := by simpa using hc.symm
  subst this; exact absurd hd (by decide)
example : generatorMessages "G" 3 = ["G1", "G2", "G3"] := by decide +kernel

section
variable [Field F] [AddCommGroup G] [Module F G] (hash : List UInt8 → F) (enc : G → List UInt8) (gen : G)

theorem challengeLoop_spec (k : ℕ) (last : F) (state : List UInt8) :
    (challengeLoop hash enc gen k last state).1.length = k ∧
    (∀ j ≤ k, (challengeLoop hash enc gen j last state).1 = (challengeLoop hash enc gen k last state).1.take j) ∧
    (challengeLoop hash enc gen k last state).2 = state ++ (((last :: (challengeLoop hash enc gen k last state).1).take k).map fun c => enc (c • gen)).flatten := by
  induction k generalizing last state with
  | zero => simp [challengeLoop]
  | succ k ih =>
    obtain ⟨h1, h2, h3⟩ := ih (hash (state ++ enc (last • gen))) (state ++ enc (last • gen))
    refine ⟨by simp [challengeLoop, h1], ?_, ?_⟩
    · intro j hj
      cases j with
      | zero => simp [challengeLoop]
      | succ j => simp [challengeLoop, h2 j (by omega)]
    · simp only [challengeLoop, List.take_succ_cons, List.map_cons, List.flatten_cons]
      rw [h3, List.append_assoc]

theorem challengeLoop_hash (k : ℕ) (last : F) (state : List UInt8) (j : ℕ) (hj : j < k) :
    (challengeLoop hash enc gen k last state).1[j]? =
      some (hash (state ++ (((last :: (challengeLoop hash enc gen k last state).1).take (j + 1)).map fun c => enc (c • gen)).flatten)) := by
  induction k generalizing last state j with
  | zero => omega
  | succ k ih =>
    cases j with
    | zero => simp [challengeLoop]
    | succ j =>
      simp only [challengeLoop, List.getElem?_cons_succ, List.take_succ_cons, List.map_cons, List.flatten_cons]
      rw [ih _ _ j (by omega)]
      simp [List.append_assoc]

/-- **C54** `gen_challenges` returns `max 1 n` challenges (one even for `n = 0`); challenge `j` is the hash of the caller's state followed by the encodings of all inputs
and of the generator multiplied by every earlier challenge; the state handed back is everything hashed last. -/
theorem c54_challenges (input : List G) (state : List UInt8) (n : ℕ) :
    (genChallenges hash enc gen input state n).1.length = max 1 n ∧
    (∀ j < max 1 n, (genChallenges hash enc gen input state n).1[j]? =
      some (hash (state ++ (input.map enc).flatten ++ (((genChallenges hash enc gen input state n).1.take j).map fun c => enc (c • gen)).flatten))) ∧
    (genChallenges hash enc gen input state n).2 =
      state ++ (input.map enc).flatten ++ (((genChallenges hash enc gen input state n).1.take (n - 1)).map fun c => enc (c • gen)).flatten := by
  obtain ⟨h1, -, h3⟩ := challengeLoop_spec hash enc gen (n - 1) (hash (state ++ (input.map enc).flatten)) (state ++ (input.map enc).flatten)
  refine ⟨?_, ?_, ?_⟩
  · simp only [genChallenges, List.length_cons, h1]; omega
  · intro j hj
    cases j with
    | zero => simp [genChallenges]
    | succ j =>
      simp only [genChallenges, List.getElem?_cons_succ]
      rw [challengeLoop_hash _ _ _ _ _ _ _ (by omega)]
  · simp only [genChallenges]
    exact h3

/-- **C54** Asking for more challenges does not change the first ones. -/
theorem c54_prefix (input : List G) (state : List UInt8) {n m : ℕ} (h1 : 1 ≤ n) (h : n ≤ m) :
    (genChallenges hash enc gen input state m).1.take n = (genChallenges hash enc gen input state n).1 := by
  obtain ⟨n, rfl⟩ := Nat.exists_eq_add_of_le h1
  simp only [genChallenges]
  rw [Nat.add_comm 1 n, List.take_succ_cons, Nat.add_sub_cancel,
    (challengeLoop_spec hash enc gen (m - 1) _ _).2.1 n (by omega)]

end

example : (genChallenges (F := Fr) (G := Fr) (fun b => (b.length : Fr)) (fun g => if g = 1 then [1] else [2, 2]) 1 [5, 6] [7] 3).1 = [5, 7, 9] := by decide +kernel

end Bp
