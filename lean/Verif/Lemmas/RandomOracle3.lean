import Verif.Lemmas.RandomOracle2
import Mathlib.Tactic.Ring

set_option linter.unusedSectionVars false

/-! # Telling real proofs from simulated proofs -/

namespace Bp
variable {F G : Type} [Field F] [AddCommGroup G] [Module F G]

/-- The log at the point where the first point of the proof has been written to it. -/
def Verifier.opening (s : Verifier F G) (A : G) : Transcript F G := s.transcript ++ [.u64 "m" s.V.length, .point "A_I1" A]

theorem opening_inj {s : Verifier F G} {A B : G} {q : Transcript F G} (h1 : s.opening A <+: q) (h2 : s.opening B <+: q) : A = B := by
  have h := List.IsPrefix.eq_of_length (List.prefix_of_prefix_length_le h1 h2 (by simp [Verifier.opening])) (by simp [Verifier.opening])
  have h := List.append_cancel_left h
  simp only [List.cons.injEq, TEvent.point.injEq, true_and, and_true] at h
  exact h

open Classical in
theorem avg_opening [Fintype F] {ι : Type} [Finite ι] {h : G} (hb : Function.Bijective fun a : F => a • h) {p : Prover F G} (hh : p.h = h) (s : Verifier F G) (Gs Hs : List G) (q : Transcript F G) (n : ℕ) :
    avg (fun x : ι × { c : Coins F // c.Drawn n 0 } => if s.opening (Provable.first p Gs Hs x.2.1) <+: q then (1 : ℚ) else 0) ≤ 1 / Fintype.card F := by
  have key := avg_indicator (F := F) (fun x : ι × { c : Coins F // c.Drawn n 0 } => s.opening (Provable.first p Gs Hs x.2.1) <+: q) (fun x a => (x.1, ⟨{ x.2.1 with iB1 := a }, x.2.2⟩)) ?_
  · convert key
  rintro ⟨w, c, hc⟩ ⟨w', c', hc'⟩ a b h1 h2 e
  have e1 := opening_inj h1 h2
  simp only [Provable.first, vecCommit, hh] at e1
  have e2 : c.iB1 = c'.iB1 := hb.1 (add_left_cancel e1)
  obtain ⟨rfl, e⟩ := Prod.mk.inj e
  have e3 := congrArg Subtype.val e
  simp only [Coins.mk.injEq] at e3
  obtain ⟨rfl, e3⟩ := e3
  refine ⟨?_, rfl⟩
  simp only [Prod.mk.injEq, Subtype.mk.injEq, true_and]
  cases c; cases c'
  simp only [Coins.mk.injEq] at e3 e2 ⊢
  exact ⟨e2, e3⟩

open Classical in
theorem avg_zero [Fintype F] {ι : Type} [Finite ι] {n : ℕ} (i : Fin n) : avg (fun x : (Fin n → F) × ι => if x.1 i = 0 then (1 : ℚ) else 0) ≤ 1 / Fintype.card F := by
  refine avg_indicator (fun x : (Fin n → F) × ι => x.1 i = 0) (fun x a => (Function.update x.1 i a, x.2)) ?_
  rintro ⟨w, c⟩ ⟨w', c'⟩ a b h1 h2 e
  simp only [Prod.mk.injEq] at e h1 h2 ⊢
  obtain ⟨e, rfl⟩ := e
  have ea : a = b := by simpa using congrFun e i
  refine ⟨⟨funext fun j => ?_, rfl⟩, ea⟩
  by_cases hj : j = i
  · rw [hj, h1, h2]
  · simpa [hj] using congrFun e j

theorem avg_const {α : Type} [Finite α] [Nonempty α] (x : ℚ) : avg (fun _ : α => x) = x := by
  haveI := Fintype.ofFinite α
  rw [avg_eq, Finset.sum_const, Finset.card_univ, nsmul_eq_mul, mul_comm, mul_div_assoc, div_self (by exact_mod_cast Fintype.card_ne_zero), mul_one]

/-- The oracle has not been asked anything along the log of this proof. -/
theorem known_fresh {s : Verifier F G} {pr : R1CSProof F G} {keys : List (Transcript F G)} {K : Answered F G} (hK : ∀ q, K q ≠ none → q ∈ keys)
    (hk : ∀ q ∈ keys, ¬ s.opening pr.A_I1 <+: q) {t : Transcript F G} (ht : t ∈ newDraws s.transcript (s.proofLog pr)) : K t = none := by
  by_contra hne
  refine hk t (hK t hne) ?_
  rw [Verifier.proofLog, List.append_assoc, newDraws_append, List.cons_append, List.cons_append, drawsFrom, drawsFrom] at ht
  have := drawsFrom_pre _ _ t ht
  rw [List.append_assoc] at this
  exact this

theorem transcript_prefix (s : Verifier F G) (pr : R1CSProof F G) : s.transcript <+: s.proofLog pr := ⟨_, by rw [Verifier.proofLog, List.append_assoc]⟩

namespace Distinguisher

open Classical in
theorem real_simulated [Fintype F] {g h : G} {Gs Hs : List G} {D : ℕ} (hb : Function.Bijective fun a : F => a • h) (env env' : Env F G) (A : Distinguisher F G) :
    ∀ (Q P : ℕ) (K : Answered F G) (keys : List (Transcript F G)), A.Within g h Gs Hs D Q P → (∀ q, K q ≠ none → q ∈ keys) →
      |A.real env Gs Hs K - A.simulated env' g h Gs Hs K| ≤ (P * (keys.length + Q + P * D + 2) : ℕ) / Fintype.card F := by
  induction A with
  | decide b =>
    intro Q P K keys _ _
    rw [real, simulated, sub_self, abs_zero]
    positivity
  | ask q next ih =>
    intro Q P K keys hA hK
    obtain ⟨Q', rfl, hA⟩ := hA
    rw [real, simulated]
    cases hq : K q with
    | some a =>
      refine (ih a Q' P K keys (hA a) hK).trans (div_le_div_of_nonneg_right ?_ (Nat.cast_nonneg _))
      exact_mod_cast Nat.mul_le_mul_left _ (by omega)
    | none =>
      refine (avg_sub_le (d := fun _ => ((P * (keys.length + (Q' + 1) + P * D + 2) : ℕ) : ℚ) / Fintype.card F) fun a => ?_).trans (le_of_eq (avg_const _))
      refine (ih a Q' P (K.add q a) (q :: keys) (hA a) ?_).trans (le_of_eq ?_)
      · intro t ht
        unfold Answered.add at ht
        split at ht
        · next e => rw [e]; exact List.mem_cons_self
        · exact List.mem_cons_of_mem _ (hK t ht)
      · rw [List.length_cons, show keys.length + 1 + Q' = keys.length + (Q' + 1) by omega]
  | prove p s next ih =>
    intro Q P K keys hA hK
    obtain ⟨hp, hD, P', rfl, hA⟩ := hA
    have h0 : 0 < s.numDraws := by unfold Verifier.numDraws; omega
    have h3 : 3 < s.numDraws := by unfold Verifier.numDraws; omega
    have hget : ∀ (w : Fin s.numDraws → F) (i : Fin s.numDraws), (List.ofFn w).getD i 0 = w i := by
      intro w i
      rw [List.getD_eq_getElem?_getD, List.getElem?_ofFn, dif_pos i.2]
      rfl
    have hex : ∀ w : Fin s.numDraws → F, ∃ φ : { c : Coins F // c.Drawn s.numVars 0 } ≃ { sc : SimCoins F G // sc.Drawn s.numVars 0 }, w ⟨0, h0⟩ ≠ 0 → w ⟨3, h3⟩ ≠ 0 →
        ∀ c, s.simulate { env' with oracle := nextCoins s.transcript (List.ofFn w) } g h Gs Hs (φ c).1 = p.prove { env with oracle := nextCoins s.transcript (List.ofFn w) } c.1 Gs Hs := by
      intro w
      by_cases hw : w ⟨0, h0⟩ ≠ 0 ∧ w ⟨3, h3⟩ ≠ 0
      · obtain ⟨φ, hφ⟩ := hp.sim hb env env' (List.ofFn w) (by rw [hget w ⟨0, h0⟩]; exact hw.1) (by rw [hget w ⟨3, h3⟩]; exact hw.2)
        exact ⟨φ, fun _ _ => hφ⟩
      · obtain ⟨φ, -⟩ := hp.sim hb env env' [1, 1, 1, 1] one_ne_zero one_ne_zero
        exact ⟨φ, fun a b => absurd ⟨a, b⟩ hw⟩
    choose φ hφ using hex
    rw [real, simulated, ← avg_equiv (Equiv.prodShear (Equiv.refl _) φ)]
    set ε : ℚ := ((P' * (keys.length + D + Q + P' * D + 2) : ℕ) : ℚ) / Fintype.card F with hε
    have hε0 : 0 ≤ ε := by rw [hε]; positivity
    refine (avg_sub_le (d := fun x : (Fin s.numDraws → F) × { c : Coins F // c.Drawn s.numVars 0 } => ε + (if x.1 ⟨0, h0⟩ = 0 then (1 : ℚ) else 0) + (if x.1 ⟨3, h3⟩ = 0 then (1 : ℚ) else 0) +
      (keys.map fun q => if s.opening (Provable.first p Gs Hs x.2.1) <+: q then (1 : ℚ) else 0).sum) ?_).trans ?_
    · rintro ⟨w, c⟩
      simp only [Equiv.prodShear_apply, Equiv.refl_apply]
      obtain ⟨pr, T, e1, e2, e3, e4, e5⟩ := hp.run env (nextCoins s.transcript (List.ofFn w)) c.1
      obtain ⟨pr', T', e1', -, -, -, -⟩ := hp.run env (K.over (nextCoins s.transcript (List.ofFn w))) c.1
      have hs0 : 0 ≤ (keys.map fun q => if s.opening (Provable.first p Gs Hs c.1) <+: q then (1 : ℚ) else 0).sum := by
        refine List.sum_nonneg fun x hx => ?_
        obtain ⟨q, -, rfl⟩ := List.mem_map.mp hx
        split <;> simp
      have h10 : (0 : ℚ) ≤ if w ⟨0, h0⟩ = 0 then (1 : ℚ) else 0 := by split <;> simp
      have h13 : (0 : ℚ) ≤ if w ⟨3, h3⟩ = 0 then (1 : ℚ) else 0 := by split <;> simp
      have key : ∀ a b : ℚ, 0 ≤ a ∧ a ≤ 1 → 0 ≤ b ∧ b ≤ 1 → |a - b| ≤ 1 := fun a b ha hb => abs_le.mpr ⟨by linarith [ha.1, hb.2], by linarith [ha.2, hb.1]⟩
      have r1 : 0 ≤ (match p.prove { env with oracle := K.over (nextCoins s.transcript (List.ofFn w)) } c.1 Gs Hs with
          | .ok (pr, T) => (next pr).real env Gs Hs (K.record (K.over (nextCoins s.transcript (List.ofFn w))) s.transcript T)
          | .error _ => 0) ∧ (match p.prove { env with oracle := K.over (nextCoins s.transcript (List.ofFn w)) } c.1 Gs Hs with
          | .ok (pr, T) => (next pr).real env Gs Hs (K.record (K.over (nextCoins s.transcript (List.ofFn w))) s.transcript T)
          | .error _ => 0) ≤ 1 := by
        rw [e1']
        exact real_mem _ _ _ _ _
      have r2 : 0 ≤ (match s.simulate { env' with oracle := nextCoins s.transcript (List.ofFn w) } g h Gs Hs (φ w c).1 with
          | .ok (pr, T) => (next pr).simulated env' g h Gs Hs (K.record (nextCoins s.transcript (List.ofFn w)) s.transcript T)
          | .error _ => 0) ∧ (match s.simulate { env' with oracle := nextCoins s.transcript (List.ofFn w) } g h Gs Hs (φ w c).1 with
          | .ok (pr, T) => (next pr).simulated env' g h Gs Hs (K.record (nextCoins s.transcript (List.ofFn w)) s.transcript T)
          | .error _ => 0) ≤ 1 := by
        split
        · exact simulated_mem _ _ _ _ _ _ _
        · exact ⟨le_refl _, zero_le_one⟩
      by_cases hw0 : w ⟨0, h0⟩ = 0
      · refine (key _ _ r1 r2).trans ?_
        rw [if_pos hw0]
        linarith
      by_cases hw3 : w ⟨3, h3⟩ = 0
      · refine (key _ _ r1 r2).trans ?_
        rw [if_pos hw3]
        linarith
      by_cases hbad : ∃ q ∈ keys, s.opening (Provable.first p Gs Hs c.1) <+: q
      · refine (key _ _ r1 r2).trans ?_
        obtain ⟨q, hq, hpre⟩ := hbad
        have : (1 : ℚ) ≤ (keys.map fun q => if s.opening (Provable.first p Gs Hs c.1) <+: q then (1 : ℚ) else 0).sum := by
          refine (le_of_eq ?_).trans (List.single_le_sum ?_ _ (List.mem_map.mpr ⟨q, hq, rfl⟩))
          · rw [if_pos hpre]
          · intro x hx
            obtain ⟨q, -, rfl⟩ := List.mem_map.mp hx
            split <;> simp
        linarith
      · have hfresh : ∀ t ∈ newDraws s.transcript T, K t = none := by
          intro t ht
          rw [e2] at ht
          refine known_fresh hK (fun q hq hpre => hbad ⟨q, hq, ?_⟩) ht
          rw [← e4]
          exact hpre
        have hag : AgreeAfter s.transcript.length (nextCoins s.transcript (List.ofFn w)) (K.over (nextCoins s.transcript (List.ofFn w))) T := by
          intro pre l hn hpre
          rw [Answered.over, hfresh _ (mem_newDraws (e2 ▸ transcript_prefix s pr) hpre hn)]
          rfl
        have hrec : K.record (K.over (nextCoins s.transcript (List.ofFn w))) s.transcript T = K.record (nextCoins s.transcript (List.ofFn w)) s.transcript T := by
          funext t
          unfold Answered.record
          split
          · next ht => rw [Answered.over, hfresh t ht]; rfl
          · rfl
        rw [hφ w hw0 hw3 c, e1, e5 _ hag]
        simp only
        rw [hrec]
        refine (ih pr Q P' (K.record (nextCoins s.transcript (List.ofFn w)) s.transcript T) (newDraws s.transcript T ++ keys) (hA pr) ?_).trans ?_
        · intro t ht
          unfold Answered.record at ht
          split at ht
          · next e => exact List.mem_append_left _ e
          · exact List.mem_append_right _ (hK t ht)
        · refine le_trans (b := ε) (div_le_div_of_nonneg_right ?_ (Nat.cast_nonneg _)) (by linarith)
          rw [List.length_append, e3]
          exact_mod_cast Nat.mul_le_mul_left _ (by omega)
    · haveI : Nonempty ((Fin s.numDraws → F) × { c : Coins F // c.Drawn s.numVars 0 }) := ⟨(fun _ => 0, ⟨Coins.zero, Coins.zero_drawn _ _⟩)⟩
      rw [avg_add, avg_add, avg_add, avg_const, avg_sum]
      have b0 := avg_zero (F := F) (ι := { c : Coins F // c.Drawn s.numVars 0 }) (⟨0, h0⟩ : Fin s.numDraws)
      have b3 := avg_zero (F := F) (ι := { c : Coins F // c.Drawn s.numVars 0 }) (⟨3, h3⟩ : Fin s.numDraws)
      have bs : (keys.map fun q => avg fun x : (Fin s.numDraws → F) × { c : Coins F // c.Drawn s.numVars 0 } => if s.opening (Provable.first p Gs Hs x.2.1) <+: q then (1 : ℚ) else 0).sum ≤ keys.length * (1 / Fintype.card F) := by
        refine (List.sum_le_card_nsmul _ (1 / Fintype.card F : ℚ) ?_).trans (le_of_eq ?_)
        · intro x hx
          obtain ⟨q, -, rfl⟩ := List.mem_map.mp hx
          exact avg_opening hb hp.h_eq s Gs Hs q _
        · rw [List.length_map, nsmul_eq_mul]
      refine (add_le_add (add_le_add (add_le_add (le_refl ε) b0) b3) bs).trans ?_
      have : ε + 1 / Fintype.card F + 1 / Fintype.card F + keys.length * (1 / Fintype.card F) = ((P' * (keys.length + D + Q + P' * D + 2) + 2 + keys.length : ℕ) : ℚ) / Fintype.card F := by
        rw [hε]
        push_cast
        ring
      rw [this]
      refine div_le_div_of_nonneg_right ?_ (Nat.cast_nonneg _)
      have : P' * (keys.length + D + Q + P' * D + 2) + 2 + keys.length ≤ (P' + 1) * (keys.length + Q + (P' + 1) * D + 2) := by nlinarith [Nat.zero_le (P' * D), Nat.zero_le Q, Nat.zero_le D]
      exact_mod_cast this

theorem simulated_same {g h : G} {Gs Hs : List G} (env : Env F G) {A A' : Distinguisher F G} (hs : SameStatements A A') : ∀ K, A.simulated env g h Gs Hs K = A'.simulated env g h Gs Hs K := by
  induction hs with
  | decide b => intro K; rfl
  | ask q _ ih =>
    intro K
    rw [simulated, simulated]
    split
    · exact ih _ _
    · exact congrArg avg (funext fun a => ih a _)
  | prove p p' s _ ih =>
    intro K
    rw [simulated, simulated]
    refine congrArg avg (funext fun x => ?_)
    split
    · exact ih _ _
    · rfl

end Distinguisher

end Bp
