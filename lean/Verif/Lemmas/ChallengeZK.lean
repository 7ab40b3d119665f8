import Verif.Lemmas.Challenge

set_option linter.unusedSectionVars false

/-! # Lemmas: zero knowledge with challenges that are made from random bytes

As in Lemmas/RandomOracle3; the only place where the distribution of the challenges matters is that two of them must not be zero. -/

namespace Bp
variable {n : ℕ} [Fact n.Prime] {G : Type} [AddCommGroup G] [Module (ZMod n) G]

theorem avg_marginal {R : Type} [Finite R] [Nonempty R] {ι : Type} [Finite ι] [Nonempty ι] {k : ℕ} (i : Fin k) (f : R → ℚ) : avg (fun x : (Fin k → R) × ι => f (x.1 i)) = avg f := by
  rw [avg_prod]
  simp only [avg_const]
  have := avg_equiv (Equiv.funSplitAt i R) fun p => f p.1
  rw [avg_prod] at this
  simp only [avg_const] at this
  exact this

/-- The probability that a challenge is zero. -/
noncomputable def zeroBytes (n m : ℕ) : ℚ := prob fun b : Bytes m => challengeOf n b = 0

theorem zeroBytes_nonneg (n m : ℕ) : 0 ≤ zeroBytes n m := avg_nonneg fun _ => by split <;> simp

open Classical in
theorem avg_zero_bytes {m k : ℕ} {ι : Type} [Finite ι] [Nonempty ι] (i : Fin k) : avg (fun x : (Fin k → Bytes m) × ι => if challengesOf n x.1 i = 0 then (1 : ℚ) else 0) ≤ zeroBytes n m := by
  refine le_of_eq ((avg_marginal (ι := ι) i fun b : Bytes m => if challengeOf n b = 0 then (1 : ℚ) else 0).trans ?_)
  unfold zeroBytes prob
  refine congrArg avg (funext fun b => ?_)
  by_cases hz : challengeOf n b = 0 <;> simp only [hz, if_true, if_false]

namespace Distinguisher

theorem realBytes_mem (m : ℕ) (env : Env (ZMod n) G) (Gs Hs : List G) (A : Distinguisher (ZMod n) G) : ∀ K, 0 ≤ A.realBytes m env Gs Hs K ∧ A.realBytes m env Gs Hs K ≤ 1 := by
  induction A with
  | decide b => intro K; rw [realBytes]; cases b <;> simp
  | ask q next ih =>
    intro K
    rw [realBytes]
    split
    · exact ih _ _
    · exact ⟨avg_nonneg fun a => (ih _ _).1, avg_le zero_le_one fun a => (ih _ _).2⟩
  | prove p s next ih =>
    intro K
    rw [realBytes]
    constructor
    · refine avg_nonneg fun x => ?_
      split
      · exact (ih _ _).1
      · exact le_refl _
    · refine avg_le zero_le_one fun x => ?_
      split
      · exact (ih _ _).2
      · exact zero_le_one

theorem simulatedBytes_mem (m : ℕ) (env : Env (ZMod n) G) (g h : G) (Gs Hs : List G) (A : Distinguisher (ZMod n) G) : ∀ K, 0 ≤ A.simulatedBytes m env g h Gs Hs K ∧ A.simulatedBytes m env g h Gs Hs K ≤ 1 := by
  induction A with
  | decide b => intro K; rw [simulatedBytes]; cases b <;> simp
  | ask q next ih =>
    intro K
    rw [simulatedBytes]
    split
    · exact ih _ _
    · exact ⟨avg_nonneg fun a => (ih _ _).1, avg_le zero_le_one fun a => (ih _ _).2⟩
  | prove p s next ih =>
    intro K
    rw [simulatedBytes]
    constructor
    · refine avg_nonneg fun x => ?_
      split
      · exact (ih _ _).1
      · exact le_refl _
    · refine avg_le zero_le_one fun x => ?_
      split
      · exact (ih _ _).2
      · exact zero_le_one

open Classical in
theorem real_simulated_bytes (m : ℕ) {g h : G} {Gs Hs : List G} {D : ℕ} (hb : Function.Bijective fun a : ZMod n => a • h) (env env' : Env (ZMod n) G) (A : Distinguisher (ZMod n) G) :
    ∀ (Q P : ℕ) (K : Answered (ZMod n) G) (keys : List (Transcript (ZMod n) G)), A.Within g h Gs Hs D Q P → (∀ q, K q ≠ none → q ∈ keys) →
      |A.realBytes m env Gs Hs K - A.simulatedBytes m env' g h Gs Hs K| ≤ (P * (keys.length + Q + P * D) : ℕ) / n + P * (2 * zeroBytes n m) := by
  induction A with
  | decide b =>
    intro Q P K keys _ _
    have hz0 : 0 ≤ zeroBytes n m := zeroBytes_nonneg n m
    rw [realBytes, simulatedBytes, sub_self, abs_zero]
    positivity
  | ask q next ih =>
    intro Q P K keys hA hK
    obtain ⟨Q', rfl, hA⟩ := hA
    rw [realBytes, simulatedBytes]
    cases hq : K q with
    | some a =>
      refine (ih a Q' P K keys (hA a) hK).trans (add_le_add (div_le_div_of_nonneg_right ?_ (Nat.cast_nonneg _)) le_rfl)
      exact_mod_cast Nat.mul_le_mul_left _ (by omega)
    | none =>
      refine (avg_sub_le (d := fun _ => ((P * (keys.length + (Q' + 1) + P * D) : ℕ) : ℚ) / n + P * (2 * zeroBytes n m)) fun a => ?_).trans (le_of_eq (avg_const _))
      refine (ih (challengeOf n a) Q' P (K.add q (challengeOf n a)) (q :: keys) (hA _) ?_).trans (le_of_eq ?_)
      · intro t ht
        unfold Answered.add at ht
        split at ht
        · next e => rw [e]; exact List.mem_cons_self
        · exact List.mem_cons_of_mem _ (hK t ht)
      · rw [List.length_cons, show keys.length + 1 + Q' = keys.length + (Q' + 1) by omega]
  | prove p s next ih =>
    intro Q P K keys hA hK
    obtain ⟨hp, hD, P', rfl, hA⟩ := hA
    have h0 : 0 < s.numDraws := by unfold Verifier.numDraws; omega
    have h3 : 3 < s.numDraws := by unfold Verifier.numDraws; omega
    have hget : ∀ (w : Fin s.numDraws → Bytes m) (i : Fin s.numDraws), (List.ofFn (challengesOf n w)).getD i 0 = challengesOf n w i := by
      intro w i
      rw [List.getD_eq_getElem?_getD, List.getElem?_ofFn, dif_pos i.2]
      rfl
    have hex : ∀ w : Fin s.numDraws → Bytes m, ∃ φ : { c : Coins (ZMod n) // c.Drawn s.numVars 0 } ≃ { sc : SimCoins (ZMod n) G // sc.Drawn s.numVars 0 }, challengesOf n w ⟨0, h0⟩ ≠ 0 → challengesOf n w ⟨3, h3⟩ ≠ 0 →
        ∀ c, s.simulate { env' with oracle := nextCoins s.transcript (List.ofFn (challengesOf n w)) } g h Gs Hs (φ c).1 = p.prove { env with oracle := nextCoins s.transcript (List.ofFn (challengesOf n w)) } c.1 Gs Hs := by
      intro w
      by_cases hw : challengesOf n w ⟨0, h0⟩ ≠ 0 ∧ challengesOf n w ⟨3, h3⟩ ≠ 0
      · obtain ⟨φ, hφ⟩ := hp.sim hb env env' (List.ofFn (challengesOf n w)) (by rw [hget w ⟨0, h0⟩]; exact hw.1) (by rw [hget w ⟨3, h3⟩]; exact hw.2)
        exact ⟨φ, fun _ _ => hφ⟩
      · obtain ⟨φ, -⟩ := hp.sim hb env env' [1, 1, 1, 1] one_ne_zero one_ne_zero
        exact ⟨φ, fun a b => absurd ⟨a, b⟩ hw⟩
    choose φ hφ using hex
    rw [realBytes, simulatedBytes, ← avg_equiv (Equiv.prodShear (Equiv.refl _) φ)]
    set ε : ℚ := ((P' * (keys.length + D + Q + P' * D) : ℕ) : ℚ) / n + P' * (2 * zeroBytes n m) with hε
    have hz0 : 0 ≤ zeroBytes n m := zeroBytes_nonneg n m
    have hε0 : 0 ≤ ε := by rw [hε]; positivity
    refine (avg_sub_le (d := fun x : (Fin s.numDraws → Bytes m) × { c : Coins (ZMod n) // c.Drawn s.numVars 0 } => ε + (if challengesOf n x.1 ⟨0, h0⟩ = 0 then (1 : ℚ) else 0) + (if challengesOf n x.1 ⟨3, h3⟩ = 0 then (1 : ℚ) else 0) +
      (keys.map fun q => if s.opening (Provable.first p Gs Hs x.2.1) <+: q then (1 : ℚ) else 0).sum) ?_).trans ?_
    · rintro ⟨w, c⟩
      simp only [Equiv.prodShear_apply, Equiv.refl_apply]
      obtain ⟨pr, T, e1, e2, e3, e4, e5⟩ := hp.run env (nextCoins s.transcript (List.ofFn (challengesOf n w))) c.1
      obtain ⟨pr', T', e1', -, -, -, -⟩ := hp.run env (K.over (nextCoins s.transcript (List.ofFn (challengesOf n w)))) c.1
      have hs0 : 0 ≤ (keys.map fun q => if s.opening (Provable.first p Gs Hs c.1) <+: q then (1 : ℚ) else 0).sum := by
        refine List.sum_nonneg fun x hx => ?_
        obtain ⟨q, -, rfl⟩ := List.mem_map.mp hx
        split <;> simp
      have h10 : (0 : ℚ) ≤ if challengesOf n w ⟨0, h0⟩ = 0 then (1 : ℚ) else 0 := by split <;> simp
      have h13 : (0 : ℚ) ≤ if challengesOf n w ⟨3, h3⟩ = 0 then (1 : ℚ) else 0 := by split <;> simp
      have key : ∀ a b : ℚ, 0 ≤ a ∧ a ≤ 1 → 0 ≤ b ∧ b ≤ 1 → |a - b| ≤ 1 := fun a b ha hb => abs_le.mpr ⟨by linarith [ha.1, hb.2], by linarith [ha.2, hb.1]⟩
      have r1 : 0 ≤ (match p.prove { env with oracle := K.over (nextCoins s.transcript (List.ofFn (challengesOf n w))) } c.1 Gs Hs with
          | .ok (pr, T) => (next pr).realBytes m env Gs Hs (K.record (K.over (nextCoins s.transcript (List.ofFn (challengesOf n w)))) s.transcript T)
          | .error _ => 0) ∧ (match p.prove { env with oracle := K.over (nextCoins s.transcript (List.ofFn (challengesOf n w))) } c.1 Gs Hs with
          | .ok (pr, T) => (next pr).realBytes m env Gs Hs (K.record (K.over (nextCoins s.transcript (List.ofFn (challengesOf n w)))) s.transcript T)
          | .error _ => 0) ≤ 1 := by
        rw [e1']
        exact realBytes_mem _ _ _ _ _ _
      have r2 : 0 ≤ (match s.simulate { env' with oracle := nextCoins s.transcript (List.ofFn (challengesOf n w)) } g h Gs Hs (φ w c).1 with
          | .ok (pr, T) => (next pr).simulatedBytes m env' g h Gs Hs (K.record (nextCoins s.transcript (List.ofFn (challengesOf n w))) s.transcript T)
          | .error _ => 0) ∧ (match s.simulate { env' with oracle := nextCoins s.transcript (List.ofFn (challengesOf n w)) } g h Gs Hs (φ w c).1 with
          | .ok (pr, T) => (next pr).simulatedBytes m env' g h Gs Hs (K.record (nextCoins s.transcript (List.ofFn (challengesOf n w))) s.transcript T)
          | .error _ => 0) ≤ 1 := by
        split
        · exact simulatedBytes_mem _ _ _ _ _ _ _ _
        · exact ⟨le_refl _, zero_le_one⟩
      by_cases hw0 : challengesOf n w ⟨0, h0⟩ = 0
      · refine (key _ _ r1 r2).trans ?_
        rw [if_pos hw0]
        linarith
      by_cases hw3 : challengesOf n w ⟨3, h3⟩ = 0
      · refine (key _ _ r1 r2).trans ?_
        rw [if_pos hw3]
        linarith
      by_cases hbad : ∃ q ∈ keys, s.opening (Provable.first p Gs Hs c.1) <+: q
      · refine (key _ _ r1 r2).trans ?_
        obtain ⟨q, hq, hpre⟩ := hbad
        have : (1 : ℚ) ≤ (keys.map fun q => if s.opening (Provable.first p Gs Hs c.1) <+: q then (1 : ℚ) else 0).sum := by
          refine (le_of_eq ?_).trans (List.single_le_sum ?_ _ (List.mem_map.mpr ⟨q, hq, rfl⟩))
          · rw [if_pos hpre]
          · intro x hx
            obtain ⟨q, -, rfl⟩ := List.mem_map.mp hx
            split <;> simp
        linarith
      · have hfresh : ∀ t ∈ newDraws s.transcript T, K t = none := by
          intro t ht
          rw [e2] at ht
          refine known_fresh hK (fun q hq hpre => hbad ⟨q, hq, ?_⟩) ht
          rw [← e4]
          exact hpre
        have hag : AgreeAfter s.transcript.length (nextCoins s.transcript (List.ofFn (challengesOf n w))) (K.over (nextCoins s.transcript (List.ofFn (challengesOf n w)))) T := by
          intro pre l hn hpre
          rw [Answered.over, hfresh _ (mem_newDraws (e2 ▸ transcript_prefix s pr) hpre hn)]
          rfl
        have hrec : K.record (K.over (nextCoins s.transcript (List.ofFn (challengesOf n w)))) s.transcript T = K.record (nextCoins s.transcript (List.ofFn (challengesOf n w))) s.transcript T := by
          funext t
          unfold Answered.record
          split
          · next ht => rw [Answered.over, hfresh t ht]; rfl
          · rfl
        rw [hφ w hw0 hw3 c, e1, e5 _ hag]
        simp only
        rw [hrec]
        refine (ih pr Q P' (K.record (nextCoins s.transcript (List.ofFn (challengesOf n w))) s.transcript T) (newDraws s.transcript T ++ keys) (hA pr) ?_).trans ?_
        · intro t ht
          unfold Answered.record at ht
          split at ht
          · next e => exact List.mem_append_left _ e
          · exact List.mem_append_right _ (hK t ht)
        · refine le_trans (b := ε) (add_le_add (div_le_div_of_nonneg_right ?_ (Nat.cast_nonneg _)) le_rfl) (by linarith)
          rw [List.length_append, e3]
          exact_mod_cast Nat.mul_le_mul_left _ (by omega)
    · have : Nonempty { c : Coins (ZMod n) // c.Drawn s.numVars 0 } := ⟨⟨Coins.zero, Coins.zero_drawn _ _⟩⟩
      have : Nonempty ((Fin s.numDraws → Bytes m) × { c : Coins (ZMod n) // c.Drawn s.numVars 0 }) := ⟨(fun _ => 0, ⟨Coins.zero, Coins.zero_drawn _ _⟩)⟩
      rw [avg_add, avg_add, avg_add, avg_const, avg_sum]
      have b0 := avg_zero_bytes (n := n) (m := m) (ι := { c : Coins (ZMod n) // c.Drawn s.numVars 0 }) (⟨0, h0⟩ : Fin s.numDraws)
      have b3 := avg_zero_bytes (n := n) (m := m) (ι := { c : Coins (ZMod n) // c.Drawn s.numVars 0 }) (⟨3, h3⟩ : Fin s.numDraws)
      have bs : (keys.map fun q => avg fun x : (Fin s.numDraws → Bytes m) × { c : Coins (ZMod n) // c.Drawn s.numVars 0 } => if s.opening (Provable.first p Gs Hs x.2.1) <+: q then (1 : ℚ) else 0).sum ≤ keys.length * (1 / n) := by
        refine (List.sum_le_card_nsmul _ (1 / n : ℚ) ?_).trans (le_of_eq ?_)
        · intro x hx
          obtain ⟨q, -, rfl⟩ := List.mem_map.mp hx
          have := avg_opening (ι := Fin s.numDraws → Bytes m) hb hp.h_eq s Gs Hs q s.numVars
          rw [ZMod.card] at this
          refine le_trans (le_of_eq (congrArg avg (funext fun x => ?_))) this
          by_cases hz : s.opening (Provable.first p Gs Hs x.2.1) <+: q <;> simp only [hz, if_true, if_false]
        · rw [List.length_map, nsmul_eq_mul]
      refine (add_le_add (add_le_add (add_le_add (le_refl ε) b0) b3) bs).trans ?_
      have : ε + zeroBytes n m + zeroBytes n m + keys.length * (1 / n) = ((P' * (keys.length + D + Q + P' * D) + keys.length : ℕ) : ℚ) / n + (P' + 1 : ℕ) * (2 * zeroBytes n m) := by
        rw [hε]
        push_cast
        ring
      rw [this]
      refine add_le_add (div_le_div_of_nonneg_right ?_ (Nat.cast_nonneg _)) le_rfl
      have : P' * (keys.length + D + Q + P' * D) + keys.length ≤ (P' + 1) * (keys.length + Q + (P' + 1) * D) := by nlinarith [Nat.zero_le (P' * D), Nat.zero_le Q, Nat.zero_le D]
      exact_mod_cast this

theorem simulatedBytes_same (m : ℕ) {g h : G} {Gs Hs : List G} (env : Env (ZMod n) G) {A A' : Distinguisher (ZMod n) G} (hs : SameStatements A A') : ∀ K, A.simulatedBytes m env g h Gs Hs K = A'.simulatedBytes m env g h Gs Hs K := by
  induction hs with
  | decide b => intro K; rfl
  | ask q _ ih =>
    intro K
    rw [simulatedBytes, simulatedBytes]
    split
    · exact ih _ _
    · exact congrArg avg (funext fun a => ih _ _)
  | prove p p' s _ ih =>
    intro K
    rw [simulatedBytes, simulatedBytes]
    refine congrArg avg (funext fun x => ?_)
    split
    · exact ih _ _
    · rfl

end Distinguisher

end Bp
