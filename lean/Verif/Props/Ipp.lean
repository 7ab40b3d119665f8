import Verif.Lemmas.Ipp2
import Mathlib.Tactic.NormNum
import Mathlib.Data.Rat.Defs

/-! # C13, C14, C15: inner-product argument -/

set_option linter.unusedSectionVars false
set_option linter.unusedSimpArgs false

namespace Bp
variable {F G : Type} [Field F] [AddCommGroup G] [Module F G]
open Finset

/-- The round challenges that `verification_scalars` recomputes for a proof. -/
abbrev roundChallenges (O : Oracle F G) (t : Transcript F G) (n : ℕ) (L R : List G) : List F :=
  (ippChallenges O (t.ippDomainSep n) (L.zip R)).1

/-- C13: completeness.  For vectors of length `2^k` (`k < 32`) `create_ipp` succeeds, and if the round challenges are non-zero
`verify_ipp` accepts the proof for `P = <a∘Gf, G> + <b∘Hf, H> + <a,b> Q`, ending with the prover's transcript.
For `k = 0` the verifier calls `batch_invert` on an empty vector, whose behaviour is outside the repository. -/
theorem c13_ipp_complete [DecidableEq G] (env : Env F G) (k : ℕ) (hk : k < 32) (hb : k ≠ 0 ∨ env.batchInvert [] = .ok ([], 1))
    (t : Transcript F G) (Q : G) (Gf Hf : List F) (Gs Hs : List G) (a b : List F)
    (h1 : Gs.length = 2 ^ k) (h2 : Hs.length = 2 ^ k) (h3 : a.length = 2 ^ k) (h4 : b.length = 2 ^ k)
    (h5 : Gf.length = 2 ^ k) (h6 : Hf.length = 2 ^ k) :
    ∃ pr t', createIpp env.oracle t Q Gf Hf Gs Hs a b = .ok (pr, t') ∧
      ((∀ u ∈ roundChallenges env.oracle t (2 ^ k) pr.L pr.R, u ≠ 0) →
        verifyIpp env (2 ^ k) t Gf Hf
          (msm (List.zipWith (· * ·) a Gf) Gs + msm (List.zipWith (· * ·) b Hf) Hs + dot a b • Q) Q Gs Hs pr.a pr.b pr.L pr.R = .ok t') := by
  obtain ⟨pr, hL, hR, hc, he⟩ := createIpp_complete env.oracle t Q k Gf Hf Gs Hs a b h1 h2 h3 h4 h5 h6
  refine ⟨pr, _, hc, fun h0 => ?_⟩
  rw [verifyIpp_eq env k hk t Gf Hf _ Q Gs Hs pr.a pr.b pr.L pr.R hL hR h1 h2 h5 h6 h0 hb, he h0,
    msm_hadamard (by omega), msm_hadamard (by omega)]
  simp [ippCommit]

/-- C13: for well-sized inputs `verify_ipp` accepts exactly when the folded equation holds (nothing else is checked). -/
theorem c13_verify_iff [DecidableEq G] (env : Env F G) (k : ℕ) (hk : k < 32) (hb : k ≠ 0 ∨ env.batchInvert [] = .ok ([], 1))
    (t : Transcript F G) (Gf Hf : List F) (P Q : G) (Gs Hs : List G) (a b : F) (L R : List G)
    (hL : L.length = k) (hR : R.length = k) (h1 : Gs.length = 2 ^ k) (h2 : Hs.length = 2 ^ k)
    (h5 : Gf.length = 2 ^ k) (h6 : Hf.length = 2 ^ k) (us : List F) (hus : us = roundChallenges env.oracle t (2 ^ k) L R)
    (h0 : ∀ u ∈ us, u ≠ 0) :
    (∃ t', verifyIpp env (2 ^ k) t Gf Hf P Q Gs Hs a b L R = .ok t') ↔
      P + msm (us.map (fun u => u * u)) L + msm (us.map (fun u => u⁻¹ * u⁻¹)) R =
        a • foldAll us (scaled Gf Gs) + b • foldAll (us.map (·⁻¹)) (scaled Hf Hs) + (a * b) • Q := by
  subst hus
  rw [verifyIpp_eq env k hk t Gf Hf P Q Gs Hs a b L R hL hR h1 h2 h5 h6 h0 hb]
  have hlen : (ippChallenges env.oracle (t.ippDomainSep (2 ^ k)) (L.zip R)).1.length = k := by
    rw [length_ippChallenges]; simp [hL, hR]
  rw [← msm_sVec _ _ (by simp [h1, h5, hlen]), ← msm_sVec _ _ (by simp [h2, h6, hlen]), ← sVec_reverse]
  unfold roundChallenges
  generalize (ippChallenges env.oracle (t.ippDomainSep (2 ^ k)) (L.zip R)).1 = us
  have e : ippExpected Q us (scaled Gf Gs) (scaled Hf Hs) L R a b = P ↔
      P + msm (us.map (fun u => u * u)) L + msm (us.map (fun u => u⁻¹ * u⁻¹)) R =
      a • msm (sVec us) (scaled Gf Gs) + b • msm (sVec us).reverse (scaled Hf Hs) + (a * b) • Q := by
    constructor
    · intro h; rw [← h, ippExpected]; abel
    · intro h
      have : P = a • msm (sVec us) (scaled Gf Gs) + b • msm (sVec us).reverse (scaled Hf Hs) + (a * b) • Q
        - msm (us.map (fun u => u * u)) L - msm (us.map (fun u => u⁻¹ * u⁻¹)) R := by rw [← h]; abel
      rw [this, ippExpected]; abel
  rw [← e]
  split <;> simp_all [Res.err]

/-- C14: `verification_scalars` returns the squares and inverse squares of the round challenges, and the coefficients with which
repeated folding combines the generators; reversing inverts them. -/
theorem c14_scalars (env : Env F G) (k : ℕ) (hk : k < 32) (hb : k ≠ 0 ∨ env.batchInvert [] = .ok ([], 1)) (L R : List G)
    (hL : L.length = k) (hR : R.length = k) (t : Transcript F G) (us : List F) (hus : us = roundChallenges env.oracle t (2 ^ k) L R)
    (h0 : ∀ u ∈ us, u ≠ 0) :
    ∃ s t', verificationScalars env L R (2 ^ k) t = .ok ((us.map (fun u => u * u), us.map (fun u => u⁻¹ * u⁻¹), s), t') ∧
      us.length = k ∧ s.length = 2 ^ k ∧
      (∀ i, i < 2 ^ k → s.getD i 0 = foldCoeff us i ∧ s.reverse.getD i 0 = (s.getD i 0)⁻¹) ∧
      ∀ Gs : List G, Gs.length = 2 ^ k → msm s Gs = foldAll us Gs ∧ msm s.reverse Gs = foldAll (us.map (·⁻¹)) Gs := by
  subst hus
  have hlen : (ippChallenges env.oracle (t.ippDomainSep (2 ^ k)) (L.zip R)).1.length = k := by
    rw [length_ippChallenges]; simp [hL, hR]
  refine ⟨_, _, verificationScalars_ok env k hk L R hL hR t h0 hb, hlen, by rw [length_sVec, hlen], fun i hi => ?_, fun Gs hG => ?_⟩
  · rw [← hlen] at hi
    refine ⟨sVec_getD _ hi, ?_⟩
    rw [sVec_reverse, sVec_getD _ (by simpa using hi), sVec_getD _ hi, foldCoeff_inv]
  · exact ⟨msm_sVec _ _ (by rw [hlen, hG]), by rw [sVec_reverse]; exact msm_sVec _ _ (by rw [List.length_map, hlen, hG])⟩

/-- C15: wrong number of `L` points is reported. -/
theorem c15_wrong_length_rejected (env : Env F G) (L R : List G) (n : ℕ) (t : Transcript F G) (h : 32 ≤ L.length ∨ n ≠ 2 ^ L.length) :
    verificationScalars env L R n t = Res.err .verificationError := by
  unfold verificationScalars
  by_cases h32 : L.length ≥ 32
  · simp [h32]
  · rw [if_neg h32, if_pos]
    rcases h with h | h
    · exact absurd h h32
    · exact h

/-- C15: well-sized `L` and `R` are accepted. -/
theorem c15_well_sized_accepted (env : Env F G) (L R : List G) (hL : L.length < 32) (hR : R.length = L.length) (t : Transcript F G)
    (hb : L ≠ [] ∨ env.batchInvert [] = .ok ([], 1)) (h0 : ∀ u ∈ roundChallenges env.oracle t (2 ^ L.length) L R, u ≠ 0) :
    ∃ r, verificationScalars env L R (2 ^ L.length) t = .ok r :=
  ⟨_, verificationScalars_ok env L.length hL L R rfl hR t h0 (hb.imp (fun h hl => h (List.length_eq_zero_iff.mp hl)) id)⟩

/-- C15: the stand-alone `verify_ipp` unwraps that error: a proof with the wrong number of rounds panics the verifier. -/
theorem c15_verify_ipp_panics [DecidableEq G] (env : Env F G) (n : ℕ) (t : Transcript F G) (Gf Hf : List F) (P Q : G) (Gs Hs : List G) (a b : F)
    (L R : List G) (h : 32 ≤ L.length ∨ n ≠ 2 ^ L.length) :
    ∃ why, verifyIpp env n t Gf Hf P Q Gs Hs a b L R = Res.panic why := by
  unfold verifyIpp
  rw [c15_wrong_length_rejected env L R n t h]
  exact ⟨_, rfl⟩

/-- C15: the length of `R` is not checked: a shorter `R` passes the length checks and runs into an index panic. -/
theorem c15_short_R_panics (env : Env F G) (L R : List G) (t : Transcript F G) (hL : L.length < 32) (hR : R.length < L.length) (hne : R ≠ [])
    (h0 : ∀ u ∈ roundChallenges env.oracle t (2 ^ L.length) L R, u ≠ 0) :
    ∃ why, verificationScalars env L R (2 ^ L.length) t = Res.panic why := by
  unfold verificationScalars
  rw [if_neg (by omega), if_neg (by simp)]
  simp only
  unfold roundChallenges at h0
  generalize hc : ippChallenges env.oracle (t.ippDomainSep (2 ^ L.length)) (L.zip R) = c at *
  have hlen : c.1.length = R.length := by rw [← hc, length_ippChallenges]; simp; omega
  have hne' : c.1 ≠ [] := by
    intro h; rw [h] at hlen; exact hne (List.length_eq_zero_iff.mp hlen.symm)
  unfold ippScalars
  rw [env.batchInvert_spec c.1 hne' h0]
  simp only [bind, Except.bind]
  rw [mapM_range_ok _ (fun i => (c.1.map (fun x => x⁻¹)).getD i 0 * (c.1.map (fun x => x⁻¹)).getD i 0)]
  · simp only
    obtain ⟨m, hm⟩ : ∃ m, 2 ^ L.length - 1 = m + 1 := by
      have : 2 ^ 1 ≤ 2 ^ L.length := Nat.pow_le_pow_right (by omega) (by omega)
      exact ⟨2 ^ L.length - 2, by omega⟩
    have : sLoop L.length (c.1.map (fun u => u * u)) c.1.prod⁻¹ (2 ^ L.length) = Res.panic "index out of bounds" := by
      unfold sLoop
      rw [hm, List.range'_succ, List.foldlM_cons]
      have : idx (c.1.map (fun u => u * u)) (L.length - 1) = Res.panic "index out of bounds" := by
        unfold idx
        rw [List.getElem?_eq_none (by simp; omega)]
      simp [this, Res.panic, bind, Except.bind]
    rw [this]
    exact ⟨_, rfl⟩
  · intro i hi
    rw [idx_lt 0 (by simpa using hi)]
    simp only [pure, Except.pure]

/-- C15: a longer `R` passes `verification_scalars` and panics in the multi-exponentiation of `verify_ipp`. -/
theorem c15_long_R_panics [DecidableEq G] (env : Env F G) (t : Transcript F G) (Gf Hf : List F) (P Q : G) (Gs Hs : List G) (a b : F)
    (L R : List G) (hL : L.length < 32) (hL0 : L ≠ []) (hR : L.length < R.length) (h1 : Gs.length = 2 ^ L.length) (h2 : Hs.length = 2 ^ L.length)
    (h5 : Gf.length = 2 ^ L.length) (h6 : Hf.length = 2 ^ L.length)
    (h0 : ∀ u ∈ roundChallenges env.oracle t (2 ^ L.length) L R, u ≠ 0) :
    ∃ why, verifyIpp env (2 ^ L.length) t Gf Hf P Q Gs Hs a b L R = Res.panic why := by
  have hz : L.zip R = L.zip (R.take L.length) := by
    have h1 : (L.zip R).take L.length = L.zip (R.take L.length) := by simp [List.zip, List.take_zipWith]
    rw [← h1, List.take_of_length_le (by simp)]
  have hv := verificationScalars_ok env L.length hL L (R.take L.length) rfl (by simp; omega) t (by rw [← hz]; exact h0)
    (Or.inl (fun h => hL0 (List.length_eq_zero_iff.mp h)))
  have hv' : verificationScalars env L R (2 ^ L.length) t = verificationScalars env L (R.take L.length) (2 ^ L.length) t := by
    unfold verificationScalars; rw [hz]
  unfold verifyIpp
  rw [hv', hv]
  generalize hc : ippChallenges env.oracle (t.ippDomainSep (2 ^ L.length)) (L.zip (R.take L.length)) = c at *
  have hlen : c.1.length = L.length := by rw [← hc, length_ippChallenges]; simp; omega
  simp only [bind, Except.bind]
  unfold multiScalarMul
  rw [if_neg]
  · exact ⟨_, rfl⟩
  · simp only [List.length_append, List.length_singleton, List.length_map, List.length_take, List.length_zipWith, List.length_reverse, length_sVec, hlen, h1, h2, h5, h6]
    omega

/-! ## Non-vacuity -/

theorem ippChallenges_const (c : F) (ps : List (G × G)) : ∀ t : Transcript F G, ∀ u ∈ (ippChallenges (fun _ => c) t ps).1, u = c := by
  induction ps with
  | nil => intro t u hu; simp [ippChallenges] at hu
  | cons p ps ih =>
    intro t u hu
    simp only [ippChallenges, Transcript.challengeScalar, List.mem_cons] at hu
    rcases hu with rfl | hu
    · rfl
    · exact ih _ u hu

/-- The hypotheses of C13 are met by concrete vectors of length 2 with factors, and the whole round trip succeeds. -/
example : ∃ (pr : IppProof ℚ ℚ) (t' : Transcript ℚ ℚ), createIpp (fun _ => 2) [] (7 : ℚ) [1, 3] [1, 5] [11, 13] [17, 19] [2, 3] [4, 6] = .ok (pr, t') ∧
    verifyIpp (Env.std (fun _ => 2)) 2 [] [1, 3] [1, 5]
      (msm (List.zipWith (· * ·) [2, 3] [1, 3] : List ℚ) [11, 13] + msm (List.zipWith (· * ·) [4, 6] [1, 5] : List ℚ) [17, 19] + dot ([2, 3] : List ℚ) [4, 6] • (7 : ℚ))
      7 [11, 13] [17, 19] pr.a pr.b pr.L pr.R = .ok t' := by
  obtain ⟨pr, t', h, hv⟩ := c13_ipp_complete (Env.std (fun _ => (2 : ℚ))) 1 (by norm_num) (Or.inl (by norm_num)) ([] : Transcript ℚ ℚ) (7 : ℚ)
    [1, 3] [1, 5] [11, 13] [17, 19] [2, 3] [4, 6] rfl rfl rfl rfl rfl rfl
  refine ⟨pr, t', h, hv ?_⟩
  intro u hu
  rw [ippChallenges_const 2 _ _ u hu]; norm_num

/-- A wrong claimed inner product is rejected for concrete values (so `c13_verify_iff` is not trivially true). -/
example : ¬ ((1 : ℚ) + msm ([] : List ℚ) ([] : List ℚ) + msm ([] : List ℚ) ([] : List ℚ) =
    (2 : ℚ) • foldAll ([] : List ℚ) (scaled [(1 : ℚ)] [(3 : ℚ)]) + (5 : ℚ) • foldAll ([] : List ℚ) (scaled [(1 : ℚ)] [(7 : ℚ)]) + (2 * 5 : ℚ) • (1 : ℚ)) := by
  norm_num [foldAll, scaled]

/-- Concrete coefficients: three rounds, index 5 = 101b. -/
example : foldCoeff [(2 : ℚ), 3, 5] 5 = 2 * 3⁻¹ * 5 := by
  have h : (5 : ℕ).testBit 2 = true ∧ (5 : ℕ).testBit 1 = false ∧ (5 : ℕ).testBit 0 = true := by decide
  norm_num [foldCoeff, Finset.prod_range_succ, h]

/-- Malformed proofs exist. -/
example : verificationScalars (Env.std (fun _ => (2 : ℚ))) [(1 : ℚ)] [1] 4 [] = Res.err .verificationError :=
  c15_wrong_length_rejected _ _ _ _ _ (Or.inr (by norm_num))

example : ∃ why, verificationScalars (Env.std (fun _ => (2 : ℚ))) [(1 : ℚ), 2] [1] 4 [] = Res.panic why :=
  c15_short_R_panics _ [(1 : ℚ), 2] [1] [] (by decide) (by decide) (by simp) (by
    intro u hu; rw [ippChallenges_const 2 _ _ u hu]; norm_num)

example : ∃ why, verifyIpp (Env.std (fun _ => (2 : ℚ))) 2 [] [1, 1] [1, 1] 0 (1 : ℚ) [1, 2] [3, 4] 5 6 [1] [1, 2] = Res.panic why :=
  c15_long_R_panics _ [] [1, 1] [1, 1] 0 1 [1, 2] [3, 4] 5 6 [(1 : ℚ)] [1, 2] (by decide) (by simp) (by decide) rfl rfl rfl rfl (by
    intro u hu; rw [ippChallenges_const 2 _ _ u hu]; norm_num)

end Bp
