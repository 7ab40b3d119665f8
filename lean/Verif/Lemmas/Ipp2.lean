import Verif.Lemmas.Ipp

set_option linter.unusedSectionVars false
set_option linter.unusedSimpArgs false

namespace Bp
variable {F G : Type} [Field F] [AddCommGroup G] [Module F G]
open Finset

theorem isPowerOfTwo_pow (k : ℕ) : isPowerOfTwo (2 ^ k) = true := by
  simp [isPowerOfTwo, Nat.log_pow]

theorem scaled_append {f f' : List F} {g g' : List G} (h : f.length = g.length) : scaled (f ++ f') (g ++ g') = scaled f g ++ scaled f' g' := by
  simp [scaled, List.zipWith_append h]

theorem scaled_take (f : List F) (g : List G) (n : ℕ) : (scaled f g).take n = scaled (f.take n) (g.take n) := by
  simp [scaled, List.take_zipWith]

theorem scaled_drop (f : List F) (g : List G) (n : ℕ) : (scaled f g).drop n = scaled (f.drop n) (g.drop n) := by
  simp [scaled, List.drop_zipWith]

theorem msm_hadamard {a f : List F} (h : a.length = f.length) (g : List G) : msm (List.zipWith (· * ·) a f) g = msm a (scaled f g) := by
  induction a generalizing f g with
  | nil => simp
  | cons x a ih =>
    rcases f with _ | ⟨y, f⟩
    · simp at h
    rcases g with _ | ⟨p, g⟩
    · simp [scaled]
    have := ih (f := f) (by simpa using h) g
    simp only [scaled] at this
    simp only [scaled, List.zipWith_cons_cons, msm_cons, this, mul_smul]

theorem msm_factors (x : F) (f s : List F) (g : List G) :
    msm (List.zipWith (fun f si => (x * si) * f) f s) g = x • msm s (scaled f g) := by
  induction s generalizing f g with
  | nil => simp
  | cons y s ih =>
    rcases f with _ | ⟨z, f⟩
    · simp [scaled]
    rcases g with _ | ⟨p, g⟩
    · simp [scaled]
    have := ih f g
    simp only [scaled] at this
    simp only [scaled, List.zipWith_cons_cons, msm_cons, this, mul_smul, smul_add]

theorem foldPointsFactors_eq (x y : F) {f f' : List F} {g g' : List G} :
    foldPointsFactors x y f f' g g' = foldPoints x y (scaled f g) (scaled f' g') := by
  induction f generalizing f' g g' with
  | nil => simp [foldPointsFactors, foldPoints, scaled]
  | cons z f ih =>
    rcases g with _ | ⟨p, g⟩
    · simp [foldPointsFactors, foldPoints, scaled]
    rcases f' with _ | ⟨z', f'⟩
    · simp [foldPointsFactors, foldPoints, scaled]
    rcases g' with _ | ⟨p', g'⟩
    · simp [foldPointsFactors, foldPoints, scaled]
    have := @ih f' g g'
    simp only [foldPointsFactors, foldPoints, scaled, List.zip_cons_cons, List.zipWith_cons_cons, mul_smul] at this ⊢
    rw [this]

theorem msm_round_factors (Q : G) {m : ℕ} {a b f e : List F} {g h : List G} (ha : a.length = m) (hb : b.length = m) (hf : f.length = m) (he : e.length = m)
    (hg : g.length = m) (hh : h.length = m) :
    msm (List.zipWith (· * ·) a f ++ List.zipWith (· * ·) b e ++ [dot a b]) (g ++ h ++ [Q]) =
      msm (a ++ b ++ [dot a b]) (scaled f g ++ scaled e h ++ [Q]) := by
  rw [msm_append (by simp [*]), msm_append (by simp [*]), msm_append (by simp [*]), msm_append (by simp [*]), msm_hadamard (by omega),
    msm_hadamard (by omega)]

theorem half_take {α} {xs : List α} {n m : ℕ} (h : xs.length = n) (hn : n = 2 * m) : (xs.take m).length = m := by
  rw [List.length_take]; omega
theorem half_drop {α} {xs : List α} {n m : ℕ} (h : xs.length = n) (hn : n = 2 * m) : (xs.drop m).length = m := by
  rw [List.length_drop]; omega

/-- With factors, the first round is an ordinary round on the scaled generators. -/
theorem createIpp_even (O : Oracle F G) (t : Transcript F G) (Q : G) (n m : ℕ) (hn : n = 2 * m) (hm : 0 < m) (hp : isPowerOfTwo n = true)
    (Gf Hf : List F) (Gs Hs : List G) (a b : List F)
    (h1 : Gs.length = n) (h2 : Hs.length = n) (h3 : a.length = n) (h4 : b.length = n) (h5 : Gf.length = n) (h6 : Hf.length = n) :
    createIpp O t Q Gf Hf Gs Hs a b = ippLoop O Q n (t.ippDomainSep n) (scaled Gf Gs) (scaled Hf Hs) a b [] [] := by
  have hn1 : ¬ n ≤ 1 := by omega
  have hn' : n ≠ 1 := by omega
  have hk : n / 2 = m := by omega
  have lGst : (Gs.take m).length = m := half_take h1 hn
  have lGsd : (Gs.drop m).length = m := half_drop h1 hn
  have lHst : (Hs.take m).length = m := half_take h2 hn
  have lHsd : (Hs.drop m).length = m := half_drop h2 hn
  have lat : (a.take m).length = m := half_take h3 hn
  have lad : (a.drop m).length = m := half_drop h3 hn
  have lbt : (b.take m).length = m := half_take h4 hn
  have lbd : (b.drop m).length = m := half_drop h4 hn
  have lGft : (Gf.take m).length = m := half_take h5 hn
  have lGfd : (Gf.drop m).length = m := half_drop h5 hn
  have lHft : (Hf.take m).length = m := half_take h6 hn
  have lHfd : (Hf.drop m).length = m := half_drop h6 hn
  have hL := msm_round_factors Q lat lbd lGfd lHft lGsd lHst
  have hR := msm_round_factors Q lad lbt lGft lHfd lGst lHsd
  rw [ippLoop, if_neg hn1]
  unfold createIpp
  simp only [h1, hp, Bool.true_eq_false, if_false, h2, h3, h4, h5, h6, ne_eq, not_true_eq_false, or_self, hn', not_false_eq_true,
    if_true, hk, scaled_take, scaled_drop, foldPointsFactors_eq]
  simp only [innerProduct, hadamard, multiScalarMul, lGst, lGsd, lHst, lHsd, lat, lad, lbt, lbd, lGft, lGfd, lHft, lHfd, if_true, bind, Except.bind, List.length_append, List.length_singleton,
    List.length_zipWith, length_scaled, min_self, hL, hR]
  rfl

theorem createIpp_succ (O : Oracle F G) (t : Transcript F G) (Q : G) (k : ℕ) (Gf Hf : List F) (Gs Hs : List G) (a b : List F)
    (h1 : Gs.length = 2 ^ (k + 1)) (h2 : Hs.length = 2 ^ (k + 1)) (h3 : a.length = 2 ^ (k + 1)) (h4 : b.length = 2 ^ (k + 1))
    (h5 : Gf.length = 2 ^ (k + 1)) (h6 : Hf.length = 2 ^ (k + 1)) :
    createIpp O t Q Gf Hf Gs Hs a b = ippLoop O Q (2 ^ (k + 1)) (t.ippDomainSep (2 ^ (k + 1))) (scaled Gf Gs) (scaled Hf Hs) a b [] [] :=
  createIpp_even O t Q _ (2 ^ k) (by rw [pow_succ]; omega) (Nat.two_pow_pos _) (isPowerOfTwo_pow _) Gf Hf Gs Hs a b h1 h2 h3 h4 h5 h6

theorem createIpp_complete (O : Oracle F G) (t : Transcript F G) (Q : G) (k : ℕ) (Gf Hf : List F) (Gs Hs : List G) (a b : List F)
    (h1 : Gs.length = 2 ^ k) (h2 : Hs.length = 2 ^ k) (h3 : a.length = 2 ^ k) (h4 : b.length = 2 ^ k)
    (h5 : Gf.length = 2 ^ k) (h6 : Hf.length = 2 ^ k) :
    ∃ pr : IppProof F G, pr.L.length = k ∧ pr.R.length = k ∧
      createIpp O t Q Gf Hf Gs Hs a b = .ok (pr, (ippChallenges O (t.ippDomainSep (2 ^ k)) (pr.L.zip pr.R)).2) ∧
      ((∀ u ∈ (ippChallenges O (t.ippDomainSep (2 ^ k)) (pr.L.zip pr.R)).1, u ≠ 0) →
        ippExpected Q (ippChallenges O (t.ippDomainSep (2 ^ k)) (pr.L.zip pr.R)).1 (scaled Gf Gs) (scaled Hf Hs) pr.L pr.R pr.a pr.b
          = ippCommit Q (scaled Gf Gs) (scaled Hf Hs) a b) := by
  cases k with
  | zero =>
    have h1' : Gs.length = 1 := h1
    obtain ⟨g, rfl⟩ := List.length_eq_one_iff.mp h1
    obtain ⟨h, rfl⟩ := List.length_eq_one_iff.mp h2
    obtain ⟨x, rfl⟩ := List.length_eq_one_iff.mp h3
    obtain ⟨y, rfl⟩ := List.length_eq_one_iff.mp h4
    obtain ⟨f, rfl⟩ := List.length_eq_one_iff.mp h5
    obtain ⟨e, rfl⟩ := List.length_eq_one_iff.mp h6
    refine ⟨⟨[], [], x, y⟩, rfl, rfl, ?_, ?_⟩
    · unfold createIpp
      simp only [List.length_singleton, show isPowerOfTwo 1 = true from isPowerOfTwo_pow 0, Bool.true_eq_false, if_false, ne_eq, not_true_eq_false, or_self]
      rw [ippLoop]
      simp [idx, bind, Except.bind, pure, Except.pure, ippChallenges]
    · intro _; simp [ippChallenges, ippExpected, ippCommit, sVec, scaled]; abel
  | succ k =>
    obtain ⟨L, R, a', b', hL, hR, hrun, hexp⟩ := ippLoop_complete O Q (k + 1) (t.ippDomainSep (2 ^ (k + 1))) (scaled Gf Gs) (scaled Hf Hs) a b [] []
      (by simp [h1, h5]) (by simp [h2, h6]) h3 h4
    refine ⟨⟨L, R, a', b'⟩, hL, hR, ?_, hexp⟩
    rw [createIpp_succ O t Q k Gf Hf Gs Hs a b h1 h2 h3 h4 h5 h6, hrun]
    simp

/-- `verification_scalars` on well-sized proofs. -/
theorem verificationScalars_ok (env : Env F G) (k : ℕ) (hk : k < 32) (L R : List G) (hL : L.length = k) (hR : R.length = k) (t : Transcript F G)
    (h0 : ∀ u ∈ (ippChallenges env.oracle (t.ippDomainSep (2 ^ k)) (L.zip R)).1, u ≠ 0)
    (hb : k ≠ 0 ∨ env.batchInvert [] = .ok ([], 1)) :
    verificationScalars env L R (2 ^ k) t =
      .ok (((ippChallenges env.oracle (t.ippDomainSep (2 ^ k)) (L.zip R)).1.map (fun u => u * u),
        (ippChallenges env.oracle (t.ippDomainSep (2 ^ k)) (L.zip R)).1.map (fun u => u⁻¹ * u⁻¹),
        sVec (ippChallenges env.oracle (t.ippDomainSep (2 ^ k)) (L.zip R)).1),
        (ippChallenges env.oracle (t.ippDomainSep (2 ^ k)) (L.zip R)).2) := by
  unfold verificationScalars
  simp only [hL, ge_iff_le, not_le.mpr hk, if_false, ne_eq, not_true_eq_false]
  generalize hc : ippChallenges env.oracle (t.ippDomainSep (2 ^ k)) (L.zip R) = c at *
  have hlen : c.1.length = k := by rw [← hc, length_ippChallenges]; simp [hL, hR]
  have := ippScalars_ok env c.1 h0 (by
    rcases hb with h | h
    · left; intro he; rw [he] at hlen; simp at hlen; omega
    · right; exact h)
  rw [hlen] at this
  simp only [this, bind, Except.bind, pure, Except.pure]

/-- `verify_ipp` on well-sized inputs is the equation. -/
theorem verifyIpp_eq [DecidableEq G] (env : Env F G) (k : ℕ) (hk : k < 32) (t : Transcript F G) (Gf Hf : List F) (P Q : G) (Gs Hs : List G) (a b : F)
    (L R : List G) (hL : L.length = k) (hR : R.length = k)
    (h1 : Gs.length = 2 ^ k) (h2 : Hs.length = 2 ^ k) (h5 : Gf.length = 2 ^ k) (h6 : Hf.length = 2 ^ k)
    (h0 : ∀ u ∈ (ippChallenges env.oracle (t.ippDomainSep (2 ^ k)) (L.zip R)).1, u ≠ 0)
    (hb : k ≠ 0 ∨ env.batchInvert [] = .ok ([], 1)) :
    verifyIpp env (2 ^ k) t Gf Hf P Q Gs Hs a b L R =
      if ippExpected Q (ippChallenges env.oracle (t.ippDomainSep (2 ^ k)) (L.zip R)).1 (scaled Gf Gs) (scaled Hf Hs) L R a b = P then
        .ok (ippChallenges env.oracle (t.ippDomainSep (2 ^ k)) (L.zip R)).2 else Res.err .verificationError := by
  unfold verifyIpp
  rw [verificationScalars_ok env k hk L R hL hR t h0 hb]
  generalize hc : ippChallenges env.oracle (t.ippDomainSep (2 ^ k)) (L.zip R) = c at *
  have hlen : c.1.length = k := by rw [← hc, length_ippChallenges]; simp [hL, hR]
  simp only [bind, Except.bind]
  have hl1 : (List.zipWith (fun g si => a * si * g) Gf (sVec c.1)).length = 2 ^ k := by
    simp [h5, hlen]
  have hl2 : (List.zipWith (fun h si => b * si * h) Hf (sVec c.1).reverse).length = 2 ^ k := by
    simp [h6, hlen]
  have htake : List.take Gs.length (List.zipWith (fun g si => a * si * g) Gf (sVec c.1)) = List.zipWith (fun g si => a * si * g) Gf (sVec c.1) := by
    apply List.take_of_length_le
    rw [hl1, h1]
  rw [htake]
  rw [multiScalarMul_ok (by simp only [List.length_append, List.length_singleton, List.length_map, hl1, hl2, hlen, h1, h2, hL, hR])]
  have : msm ([a * b] ++ List.zipWith (fun g si => a * si * g) Gf (sVec c.1) ++ List.zipWith (fun h si => b * si * h) Hf (sVec c.1).reverse ++
      List.map (fun u => -u) (List.map (fun u => u * u) c.1) ++ List.map (fun u => -u) (List.map (fun u => u⁻¹ * u⁻¹) c.1)) ([Q] ++ Gs ++ Hs ++ L ++ R) =
      ippExpected Q c.1 (scaled Gf Gs) (scaled Hf Hs) L R a b := by
    rw [msm_append (by simp only [List.length_append, List.length_singleton, List.length_map, hl1, hl2, hlen, h1, h2, hL, hR]),
      msm_append (by simp only [List.length_append, List.length_singleton, List.length_map, hl1, hl2, hlen, h1, h2, hL, hR]),
      msm_append (by simp only [List.length_append, List.length_singleton, List.length_map, hl1, hl2, hlen, h1, h2, hL, hR]),
      msm_append (by simp only [List.length_singleton]), msm_factors, msm_factors, msm_map_neg, msm_map_neg]
    simp only [msm_cons, msm_nil_left, ippExpected]
    abel
  simp only [this]
  rfl

end Bp
