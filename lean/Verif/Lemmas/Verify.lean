import Verif.Spec.R1CS
import Verif.Lemmas.Ipp2
import Verif.Lemmas.Flatten
import Verif.Lemmas.CS2

set_option linter.unusedSectionVars false
set_option linter.unusedSimpArgs false

namespace Bp
variable {F G : Type} [Field F] [AddCommGroup G] [SMul F G]
open Finset

theorem nextPowerOfTwo_ge (n : ℕ) : n ≤ nextPowerOfTwo n := Nat.le_pow_clog (by omega) n

theorem msm_map_range (f : ℕ → F) (n : ℕ) (Gs : List G) (h : Gs.length = n) :
    msm ((List.range n).map f) Gs = ∑ i ∈ range n, f i • Gs.getD i 0 := by
  rw [msm_eq_sum (n := n) (by simp) h]
  apply sum_congr rfl
  intro i hi
  rw [getD_map_range, if_pos (mem_range.mp hi)]

theorem uFactors_eq (n1 n N : ℕ) (u : F) (h1 : n1 ≤ n) (h2 : n ≤ N) :
    Verifier.uFactors n1 (n - n1) (N - n) u = (List.range N).map (ufac n1 u) := by
  refine ext_getD 0 (n := N) (by simp [Verifier.uFactors]; omega) (by simp) fun i hi => ?_
  rw [getD_map_range, if_pos hi, Verifier.uFactors, getD_append, getD_replicate, getD_replicate]
  simp only [List.length_replicate, ufac]
  split
  · rfl
  · rw [if_pos (by omega)]

theorem slice_ok {α} {xs : List α} {n : ℕ} (h : n ≤ xs.length) : slice xs 0 n = .ok (xs.take n) := by
  simp [slice, h]

theorem yInvWR_eq (wt : Weights F) (y : F) (n N : ℕ) (h : n ≤ N) (hR : wt.wR.length = n) :
    List.zipWith (fun wRi e => wRi * e) wt.wR (vandermonde y⁻¹ N) ++ List.replicate (N - n) 0
      = (List.range N).map (fun i => vpow y⁻¹ i * wt.wR.getD i 0) := by
  have hl : (List.zipWith (fun wRi e => wRi * e) wt.wR (vandermonde y⁻¹ N)).length = n := by simp [vandermonde, hR]; omega
  refine ext_getD 0 (n := N) (by rw [List.length_append, hl, List.length_replicate]; omega) (by simp) fun i hi => ?_
  rw [getD_map_range, if_pos hi, getD_append, hl, getD_replicate]
  split
  · rename_i h
    rw [getD_zipWith _ _ _ _ _ 0 0 (by omega) (by simp [vandermonde]; omega), vandermonde, getD_map_range, if_pos hi, mul_comm]
  · rename_i h
    rw [ite_self, getD_ge wt.wR 0 (by omega), mul_zero]

theorem yTerms_ok (wt : Weights F) (y : F) (n N m : ℕ) (h : n ≤ N) (hl : wt.Len n m) :
    Verifier.yTerms wt y n N = .ok (vandermonde y⁻¹ N, (List.range N).map (fun i => vpow y⁻¹ i * wt.wR.getD i 0), delta wt y n) := by
  unfold Verifier.yTerms
  simp only [yInvWR_eq wt y n N h hl.R]
  rw [slice_ok (by simpa using h)]
  simp only [bind, Except.bind]
  rw [innerProduct_ok (by simp [hl.L, h]), dot_eq_sum (n := n) (by simp [h]) hl.L]
  simp only [pure, Except.pure, delta]
  congr 3
  apply sum_congr rfl
  intro i hi
  have := mem_range.mp hi
  congr 1
  rw [← List.map_take, List.take_range, min_eq_left h, getD_map_range, if_pos this]

theorem gScalars_eq (n1 N : ℕ) (wt : Weights F) (y u x a : F) (s : List F) (hs : s.length = N) :
    Verifier.gScalars ((List.range N).map (fun i => vpow y⁻¹ i * wt.wR.getD i 0)) ((List.range N).map (ufac n1 u)) s x a N =
      (List.range N).map (fun i => ufac n1 u i * (x * (vpow y⁻¹ i * wt.wR.getD i 0)) - a * (s.getD i 0 * ufac n1 u i)) := by
  unfold Verifier.gScalars
  refine ext_getD 0 (n := N) (by simp [hs]) (by simp) fun i hi => ?_
  rw [getD_map_range, if_pos hi, getD_zipWith _ _ _ _ _ (0, 0) 0 (by simpa using hi) (by simpa [hs] using hi), List.zip,
    getD_zipWith _ _ _ _ _ 0 0 (by simpa using hi) (by simpa using hi), getD_map_range, getD_map_range, if_pos hi, if_pos hi,
    List.take_of_length_le (by omega)]
  ring

theorem getD_pad (xs : List F) (n N i : ℕ) (h : xs.length = n) : (xs ++ List.replicate (N - n) 0).getD i 0 = xs.getD i 0 := by
  rw [getD_append, getD_replicate, ite_self]
  split
  · rfl
  · rw [getD_ge xs 0 (by omega)]

theorem hScalars_eq (n1 n N m : ℕ) (wt : Weights F) (y u x b : F) (s : List F) (hs : s.length = N) (h : n ≤ N) (hl : wt.Len n m) :
    Verifier.hScalars (vandermonde y⁻¹ N) ((List.range N).map (ufac n1 u)) s wt.wL wt.wO x b N (N - n) =
      (List.range N).map (fun i => ufac n1 u i * (vpow y⁻¹ i * (x * wt.wL.getD i 0 + wt.wO.getD i 0) - 1)
        - b * (s.reverse.getD i 0 * (vpow y⁻¹ i * ufac n1 u i))) := by
  unfold Verifier.hScalars
  have e1 : (wt.wL ++ List.replicate (N - n) 0).length = N := by simp [hl.L]; omega
  have e2 : (wt.wO ++ List.replicate (N - n) 0).length = N := by simp [hl.O]; omega
  have e3 : (vandermonde y⁻¹ N).length = N := by simp [vandermonde]
  refine ext_getD 0 (n := N) ?_ (by simp) fun i hi => ?_
  · simp only [List.length_zipWith, List.length_zip, e1, e2, e3, List.length_map, List.length_range, List.length_take, List.length_reverse, hs, min_self]
  rw [getD_map_range, if_pos hi, getD_zipWith _ _ _ _ _ (((0, 0), 0), 0) 0
      (by simp only [List.length_zip, e1, e3, List.length_map, List.length_range, List.length_take, List.length_reverse, hs, min_self]; exact hi) (by omega),
    List.zip, getD_zipWith _ _ _ _ _ ((0, 0), 0) 0
      (by simp only [List.length_zip, e1, e3, List.length_map, List.length_range, List.length_take, List.length_reverse, hs, min_self]; exact hi) (by omega),
    List.zip, getD_zipWith _ _ _ _ _ (0, 0) 0
      (by simp only [List.length_zip, e1, e3, List.length_map, List.length_range, List.length_take, List.length_reverse, hs, min_self]; exact hi) (by simpa [hs] using hi),
    List.zip, getD_zipWith _ _ _ _ _ 0 0 (by omega) (by simpa using hi), getD_pad _ _ _ _ hl.L, getD_pad _ _ _ _ hl.O, vandermonde, getD_map_range,
    getD_map_range, if_pos hi, if_pos hi, List.take_of_length_le (by simp [hs])]
  ring

section WithModule
variable {F G : Type} [Field F] [AddCommGroup G] [Module F G]
theorem msm_scaled_range (s : List F) (f : ℕ → F) (N : ℕ) (Gs : List G) (hs : s.length = N) (hG : Gs.length = N) :
    msm s (scaled ((List.range N).map f) Gs) = ∑ i ∈ range N, (s.getD i 0 * f i) • Gs.getD i 0 := by
  rw [msm_eq_sum (n := N) hs (by simp [hG])]
  apply sum_congr rfl
  intro i hi
  have hi := mem_range.mp hi
  rw [scaled, getD_zipWith _ _ _ _ _ 0 0 (by simpa using hi) (by omega), getD_map_range, if_pos hi, mul_smul]
end WithModule

section WithModule
variable {F G : Type} [Field F] [AddCommGroup G] [Module F G]
/-- The multi-exponentiation is the combination of the two checks. -/
theorem checkArgs_eq (n1 n N : ℕ) (hn1 : n1 ≤ n) (hn : n ≤ N) (V : List G) (pr : R1CSProof F G) (g h : G) (GN HN : List G)
    (hG : GN.length = N) (hH : HN.length = N) (wt : Weights F) (hl : wt.Len n V.length) (ch : Chals F) (us : List F) (hN : N = 2 ^ us.length)
    (hL : pr.ipp.L.length = us.length) (hR : pr.ipp.R.length = us.length) (r : F) :
    multiScalarMul
      (Verifier.checkArgs n1 n N V pr g h GN HN wt (vandermonde ch.y⁻¹ N) ((List.range N).map (fun i => vpow ch.y⁻¹ i * wt.wR.getD i 0)) (delta wt ch.y n) ch
        (us.map (fun u => u * u)) (us.map (fun u => u⁻¹ * u⁻¹)) (sVec us) r).1
      (Verifier.checkArgs n1 n N V pr g h GN HN wt (vandermonde ch.y⁻¹ N) ((List.range N).map (fun i => vpow ch.y⁻¹ i * wt.wR.getD i 0)) (delta wt ch.y n) ch
        (us.map (fun u => u * u)) (us.map (fun u => u⁻¹ * u⁻¹)) (sVec us) r).2
    = .ok (ippCheck n1 N pr g h GN HN wt ch us + r • polyCheck V pr g h wt n ch) := by
  have hs : (sVec us).length = N := by rw [length_sVec, hN]
  unfold Verifier.checkArgs
  simp only
  rw [uFactors_eq n1 n N ch.u hn1 hn, gScalars_eq n1 N wt ch.y ch.u ch.x pr.ipp.a (sVec us) hs,
    hScalars_eq n1 n N V.length wt ch.y ch.u ch.x pr.ipp.b (sVec us) hs hn hl]
  rw [multiScalarMul_ok (by simp [hl.V, hG, hH, hL, hR])]
  congr 1
  rw [msm_append (by simp [hl.V, hG, hH, hL, hR]), msm_append (by simp [hl.V, hG, hH, hL, hR]), msm_append (by simp [hl.V, hG, hH, hL, hR]),
    msm_append (by simp [hl.V, hG, hH, hL, hR])]
  rw [show ∀ (l : List F) (a b : F), l ++ [a] ++ [b] = l ++ [a, b] from fun l a b => by simp,
    msm_append (by simp [hl.V]), msm_append (by simp [hl.V]), msm_append (by simp [hl.V])]
  rw [msm_map_range _ N GN hG, msm_map_range _ N HN hH]
  have hV : msm (wt.wV.map (fun c => c * (r * (ch.x * ch.x)))) V = (r * (ch.x * ch.x)) • ∑ j ∈ range V.length, wt.wV.getD j 0 • V.getD j 0 := by
    rw [← msm_eq_sum hl.V rfl, ← msm_map_mul]
    congr 1
    apply List.map_congr_left
    intro c _; ring
  rw [hV]
  simp only [msm_cons, msm_nil_left, sub_smul, sum_sub_distrib, add_zero]
  have hfa : foldAll us (ippG n1 N ch.u GN) = ∑ i ∈ range N, ((sVec us).getD i 0 * ufac n1 ch.u i) • GN.getD i 0 := by
    rw [← msm_sVec us _ (by simp [ippG, hG, hN]), ippG, msm_scaled_range _ _ _ _ hs hG]
  have hfb : foldAll (us.map (·⁻¹)) (ippH n1 N ch.u ch.y HN) =
      ∑ i ∈ range N, ((sVec us).reverse.getD i 0 * (vpow ch.y⁻¹ i * ufac n1 ch.u i)) • HN.getD i 0 := by
    rw [← msm_sVec _ _ (by simp [ippH, hH, hN]), ← sVec_reverse, ippH, msm_scaled_range _ _ _ _ (by simpa using hs) hH]
  unfold ippCheck polyCheck ippPoint
  rw [hfa, hfb]
  have hga : ∑ i ∈ range N, (pr.ipp.a * ((sVec us).getD i 0 * ufac n1 ch.u i)) • GN.getD i 0 =
      pr.ipp.a • ∑ i ∈ range N, ((sVec us).getD i 0 * ufac n1 ch.u i) • GN.getD i 0 := by
    rw [smul_sum]; exact sum_congr rfl fun i _ => mul_smul _ _ _
  have hgb : ∑ i ∈ range N, (pr.ipp.b * ((sVec us).reverse.getD i 0 * (vpow ch.y⁻¹ i * ufac n1 ch.u i))) • HN.getD i 0 =
      pr.ipp.b • ∑ i ∈ range N, ((sVec us).reverse.getD i 0 * (vpow ch.y⁻¹ i * ufac n1 ch.u i)) • HN.getD i 0 := by
    rw [smul_sum]; exact sum_congr rfl fun i _ => mul_smul _ _ _
  rw [hga, hgb]
  simp only [ippPoint.y]
  generalize ∑ i ∈ range N, (ufac n1 ch.u i * (ch.x * (vpow ch.y⁻¹ i * wt.wR.getD i 0))) • GN.getD i 0 = X1
  generalize ∑ i ∈ range N, (ufac n1 ch.u i * (vpow ch.y⁻¹ i * (ch.x * wt.wL.getD i 0 + wt.wO.getD i 0) - 1)) • HN.getD i 0 = X2
  generalize ∑ i ∈ range N, ((sVec us).getD i 0 * ufac n1 ch.u i) • GN.getD i 0 = X3
  generalize ∑ i ∈ range N, ((sVec us).reverse.getD i 0 * (vpow ch.y⁻¹ i * ufac n1 ch.u i)) • HN.getD i 0 = X4
  generalize ∑ j ∈ range V.length, wt.wV.getD j 0 • V.getD j 0 = X5
  module
end WithModule

end Bp

namespace Bp
variable {F G : Type} [Field F] [AddCommGroup G] [SMul F G]
open Finset

theorem logY_norm (t : Transcript F G) (pr : R1CSProof F G) : logY t pr =
    t ++ [.point "A_I2" pr.A_I2, .point "A_O2" pr.A_O2, .point "S2" pr.S2, .challenge "y"] := rfl
theorem logZ_norm (t : Transcript F G) (pr : R1CSProof F G) : logZ t pr =
    t ++ [.point "A_I2" pr.A_I2, .point "A_O2" pr.A_O2, .point "S2" pr.S2, .challenge "y", .challenge "z"] := by simp [logZ, logY]
theorem logU_norm (t : Transcript F G) (pr : R1CSProof F G) : logU t pr =
    t ++ [.point "A_I2" pr.A_I2, .point "A_O2" pr.A_O2, .point "S2" pr.S2, .challenge "y", .challenge "z",
      .point "T_1" pr.T_1, .point "T_3" pr.T_3, .point "T_4" pr.T_4, .point "T_5" pr.T_5, .point "T_6" pr.T_6, .challenge "u"] := by
  simp [logU, logZ, logY]
theorem logX_norm (t : Transcript F G) (pr : R1CSProof F G) : logX t pr =
    t ++ [.point "A_I2" pr.A_I2, .point "A_O2" pr.A_O2, .point "S2" pr.S2, .challenge "y", .challenge "z",
      .point "T_1" pr.T_1, .point "T_3" pr.T_3, .point "T_4" pr.T_4, .point "T_5" pr.T_5, .point "T_6" pr.T_6, .challenge "u", .challenge "x"] := by
  simp [logX, logU, logZ, logY]
theorem logW_norm (t : Transcript F G) (pr : R1CSProof F G) : logW t pr =
    t ++ [.point "A_I2" pr.A_I2, .point "A_O2" pr.A_O2, .point "S2" pr.S2, .challenge "y", .challenge "z",
      .point "T_1" pr.T_1, .point "T_3" pr.T_3, .point "T_4" pr.T_4, .point "T_5" pr.T_5, .point "T_6" pr.T_6, .challenge "u", .challenge "x",
      .scalar "t_x" pr.t_x, .scalar "t_x_blinding" pr.t_x_blinding, .scalar "e_blinding" pr.e_blinding, .challenge "w"] := by
  simp [logW, logX, logU, logZ, logY]

section WithModule
variable {F G : Type} [Field F] [AddCommGroup G] [Module F G]
/-- `verify` on well-sized proofs and generators is the combined equation. -/
theorem verify_eq [DecidableEq G] (env : Env F G) (s s2 : Verifier F G) (pr : R1CSProof F G) (g h : G) (Gs Hs : List G) (r : F)
    (hcrc : (s.start pr).createRandomizedConstraints env = .ok s2) (k : ℕ) (hkN : nextPowerOfTwo s2.numVars = 2 ^ k) (hk : k < 32)
    (hG : 2 ^ k ≤ Gs.length) (hH : 2 ^ k ≤ Hs.length) (ch : Chals F) (hch : ch = drawn env.oracle s2.transcript pr) (wt : Weights F)
    (hwt : s2.flattenedConstraints ch.z = .ok wt) (hL : pr.ipp.L.length = k) (hR : pr.ipp.R.length = k) (us : List F)
    (hus : us = (ippChallenges env.oracle ((logW s2.transcript pr).ippDomainSep (2 ^ k)) (pr.ipp.L.zip pr.ipp.R)).1)
    (h0 : ∀ u ∈ us, u ≠ 0) (hb : k ≠ 0 ∨ env.batchInvert [] = .ok ([], 1)) :
    Verifier.verify env s pr g h Gs Hs r =
      if ippCheck s.numVars (2 ^ k) pr g h (Gs.take (2 ^ k)) (Hs.take (2 ^ k)) wt ch us + r • polyCheck s2.V pr g h wt s2.numVars ch = 0 then
        .ok (ippChallenges env.oracle ((logW s2.transcript pr).ippDomainSep (2 ^ k)) (pr.ipp.L.zip pr.ipp.R)).2
      else Res.err .verificationError := by
  have hn1 : s.numVars ≤ s2.numVars := by
    obtain ⟨vs, hv⟩ := Verifier.createRandomizedConstraints_steps hcrc
    exact hv.ext.num
  have hnN : s2.numVars ≤ 2 ^ k := hkN ▸ nextPowerOfTwo_ge _
  have hlen : us.length = k := by rw [hus, length_ippChallenges]; simp [hL, hR]
  have hlw : wt.Len s2.numVars s2.V.length := (Verifier.flattened_ok hwt).2.1
  have hcrc' : Verifier.createRandomizedConstraints env { s with transcript := s.transcript ++ [.u64 "m" s.V.length, .point "A_I1" pr.A_I1,
      .point "A_O1" pr.A_O1, .point "S1" pr.S1] } = .ok s2 := hcrc
  have hvs := verificationScalars_ok env k hk pr.ipp.L pr.ipp.R hL hR (logW s2.transcript pr) (hus ▸ h0) hb
  have hY := logY_norm s2.transcript pr
  have hZ := logZ_norm s2.transcript pr
  have hU := logU_norm s2.transcript pr
  have hX := logX_norm s2.transcript pr
  have hW := logW_norm s2.transcript pr
  unfold Verifier.verify
  simp only [bind, Except.bind, Transcript.challengeScalar, Transcript.commitPoint, Transcript.commitScalar, Transcript.appendU64,
    List.append_assoc, List.cons_append, List.nil_append, hcrc']
  rw [← hY, ← hZ, ← hU, ← hX, ← hW]
  rw [hkN, if_neg (by omega)]
  have hz : env.oracle (logZ s2.transcript pr) = ch.z := by rw [hch]; rfl
  have hy : env.oracle (logY s2.transcript pr) = ch.y := by rw [hch]; rfl
  have hu' : env.oracle (logU s2.transcript pr) = ch.u := by rw [hch]; rfl
  have hx : env.oracle (logX s2.transcript pr) = ch.x := by rw [hch]; rfl
  have hw : env.oracle (logW s2.transcript pr) = ch.w := by rw [hch]; rfl
  rw [hz, hy, hu', hx, hw]
  simp only [hwt]
  rw [yTerms_ok wt ch.y s2.numVars (2 ^ k) s2.V.length hnN hlw]
  simp only [hvs, ← hus]
  rw [slice_ok hG, slice_ok hH]
  simp only
  rw [checkArgs_eq s.numVars s2.numVars (2 ^ k) hn1 hnN s2.V pr g h (Gs.take (2 ^ k)) (Hs.take (2 ^ k)) (by simpa using hG) (by simpa using hH) wt hlw ch us
    (by rw [hlen]) (by rw [hL, hlen]) (by rw [hR, hlen]) r]
  rfl
end WithModule

end Bp
