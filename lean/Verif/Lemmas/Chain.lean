import Verif.Spec.Chain
import Verif.Lemmas.RandomOracle3
import Verif.Props.Verify
import Verif.Props.SoundnessR1CS

/-! # Chains of proofs -/

set_option linter.unusedSectionVars false

namespace Bp
variable {F G : Type} [Field F] [AddCommGroup G] [Module F G]

theorem mem_ippChallenges {O : Oracle F G} : ∀ (ps : List (G × G)) (t : Transcript F G) (u : F), u ∈ (ippChallenges O t ps).1 → ∃ d ∈ drawsFrom t (roundsLog ps), u = O d
  | [], t, u, h => by simp [ippChallenges] at h
  | q :: ps, t, u, h => by
    have e : (roundsLog (q :: ps) : Transcript F G) = .point "L" q.1 :: .point "R" q.2 :: .challenge "u" :: roundsLog ps := rfl
    rw [e]
    simp only [ippChallenges, Transcript.commitPoint, Transcript.challengeScalar, List.mem_cons] at h
    simp only [drawsFrom, TEvent.isChallenge, if_true, List.mem_cons, reduceCtorEq, if_false]
    rcases h with rfl | h
    · exact ⟨_, .inl rfl, rfl⟩
    · obtain ⟨d, h1, h2⟩ := mem_ippChallenges ps _ u h
      exact ⟨d, .inr h1, h2⟩

/-- All challenges that a proof without randomized constraints uses are drawn along its log. -/
theorem proofLog_draws (s : Verifier F G) (pr : R1CSProof F G) (O : Oracle F G) :
    (∃ d ∈ newDraws s.transcript (s.proofLog pr), (drawn O (s.start pr).transcript.r1cs1PhaseDomainSep pr).y = O d) ∧
    ∀ u ∈ ippRounds O (s.start pr).transcript.r1cs1PhaseDomainSep pr (nextPowerOfTwo s.numVars), ∃ d ∈ newDraws s.transcript (s.proofLog pr), u = O d := by
  rw [Verifier.proofLog, List.append_assoc, newDraws_append]
  constructor
  · refine ⟨logY (s.start pr).transcript.r1cs1PhaseDomainSep pr, ?_, rfl⟩
    simp [drawsFrom, TEvent.isChallenge, logY, Verifier.start, log1, Transcript.r1cs1PhaseDomainSep]
  · intro u hu
    obtain ⟨d, h1, h2⟩ := mem_ippChallenges _ _ u hu
    refine ⟨d, ?_, h2⟩
    rw [drawsFrom_append, List.mem_append]
    refine .inr ?_
    convert h1 using 2
    simp [logW, logX, logU, logZ, logY, Verifier.start, log1, Transcript.r1cs1PhaseDomainSep, Transcript.ippDomainSep]

theorem newDraws_mono {t T T' : Transcript F G} (h : T <+: T') (ht : t <+: T) : ∀ d ∈ newDraws t T, d ∈ newDraws t T' := by
  obtain ⟨r, rfl⟩ := ht
  obtain ⟨r', rfl⟩ := h
  rw [newDraws_append, List.append_assoc, newDraws_append, drawsFrom_append]
  exact fun d hd => List.mem_append_left _ hd

theorem newDraws_later {t t' T : Transcript F G} (h : t <+: t') (ht : t' <+: T) : ∀ d ∈ newDraws t' T, d ∈ newDraws t T := by
  obtain ⟨r, rfl⟩ := h
  obtain ⟨r', rfl⟩ := ht
  rw [newDraws_append, List.append_assoc, newDraws_append, drawsFrom_append]
  exact fun d hd => List.mem_append_right _ hd

/-- One link: the honest prover is accepted, and both transcripts are the log of the proof. -/
theorem HonestPair.link [DecidableEq G] {env env' : Env F G} {m : ℕ} {dp : Drv (Prover F G) (List G)} {dv : List G → Drv (Verifier F G) Unit} {os ss : List (F × F)} (hp : HonestPair env env' none m os dp dv ss)
    (hO : env.oracle = env'.oracle) (hd : ∀ coms, OnePhase (dv coms)) (t : Transcript F G) (g h : G) (Gs Hs : List G) (hsize : nextPowerOfTwo m < 2 ^ 32) (hG : nextPowerOfTwo m ≤ Gs.length)
    (hH : nextPowerOfTwo m ≤ Hs.length) (hb : 1 < m ∨ env'.batchInvert [] = .ok ([], 1)) (c : Coins F) :
    ∃ coms p s pr T, dp (Prover.new g h t 0) = (.ok coms, p) ∧ dv coms (Verifier.new t 0) = (.ok (), s) ∧ (coms = os.map fun q => q.1 • g + q.2 • h) ∧ p.prove env c Gs Hs = .ok (pr, T) ∧ t <+: T ∧
      ((∀ d ∈ newDraws t T, env.oracle d ≠ 0) → ∀ r : F, s.verify env' pr g h Gs Hs r = .ok T) := by
  obtain ⟨coms, p, s, e1, e2, J, -, hl, o⟩ := hp _ _ (Joint.new env env' g h t 0 0) rfl
  have hl' : p.aL.length = m := by rw [hl]; simp [Prover.new]
  obtain ⟨hw, hst⟩ := J.session.inStep hO
  have hP : Provable g h Gs Hs p s := ⟨hw, hst, o.g, o.h, fun lc hlc => (J.good.sat lc hlc).2, fun lc hlc t ht => ((J.good.sat lc hlc).1 t ht).inRange, J.deferred, by rw [hl']; exact hG, by rw [hl']; exact hH⟩
  obtain ⟨pr, T, e3, e4, -, -, -⟩ := hP.run env env.oracle c
  obtain ⟨pr', T', e5, e6⟩ := c17_complete_one_phase env env' hO p s J.session J.deferred c Gs Hs hP.satisfied hP.inRange (by rwa [hl']) hP.lenG hP.lenH (by rwa [hl'])
  have e3 : p.prove env c Gs Hs = .ok (pr, T) := e3
  rw [e3] at e5
  simp only [Except.ok.injEq, Prod.mk.injEq] at e5
  obtain ⟨rfl, rfl⟩ := e5
  obtain ⟨-, Vs, -, f2⟩ := hd coms _ _ _ e2
  have f3 : t <+: s.transcript := by
    rw [f2, Verifier.new]
    exact ⟨_, by rw [Transcript.r1csDomainSep, List.append_assoc]⟩
  have f4 : s.transcript <+: T := e4 ▸ transcript_prefix s pr
  refine ⟨coms, p, s, pr, T, e1, e2, o.points, e3, f3.trans f4, fun h0 r => ?_⟩
  have hA : p.g = g := o.g
  have hB : p.h = h := o.h
  rw [← hA, ← hB]
  obtain ⟨d1, d2⟩ := proofLog_draws s pr env.oracle
  have hs : (p.start c Gs Hs).transcript = (s.start pr).transcript := by
    have q := prove_ok env p _ c Gs Hs hP.wf (hP.crc env (p.start c Gs Hs).transcript) (Nat.clog 2 p.aL.length) rfl hP.lenG hP.lenH hP.inRange
    obtain ⟨pr', T', ch, wp, lp, rp, e, H⟩ := q
    rw [e3] at e
    simp only [Except.ok.injEq, Prod.mk.injEq] at e
    obtain ⟨rfl, rfl⟩ := e
    have hv : s.V.length = p.v.length := by rw [hst.V, List.length_zipWith, hst.lenB, Nat.min_self]
    simp only [Prover.start, Verifier.start, log1, hst.transcript, hv, H.hA_I1, H.hA_O1, H.hS1]
  rw [hs, ← hst.num] at e6
  rw [← e4] at d1 d2
  refine e6 ?_ (fun u hu => ?_) r
  · obtain ⟨d, hd1, hd2⟩ := d1
    rw [hd2]
    exact h0 d (newDraws_later f3 f4 d hd1)
  · obtain ⟨d, hd1, rfl⟩ := d2 u hu
    exact h0 d (newDraws_later f3 f4 d hd1)

/-! ## The log -/

theorem proofLog_eq_fullLog (s : Verifier F G) (pr : R1CSProof F G) (t : Transcript F G) (Vs : List G) (hV : s.V = Vs) (ht : s.transcript = t.r1csDomainSep ++ Vs.map (TEvent.point "V"))
    (hl : pr.ipp.L.length = Nat.clog 2 s.numVars) : s.proofLog pr = fullLog t Vs pr false [] (2 ^ pr.ipp.L.length) := by
  rw [Verifier.proofLog, fullLog, preLog, ht, hV, hl, nextPowerOfTwo]
  simp [Transcript.r1csDomainSep]

theorem chainLog_append (t : Transcript F G) (l : List (List G × R1CSProof F G)) : chainLog t l = t ++ chainLog [] l := by
  induction l generalizing t with
  | nil => simp [chainLog]
  | cons q l ih =>
    rw [chainLog, ih, chainLog, ih (fullLog [] _ _ _ _ _)]
    simp [fullLog, preLog]

theorem roundsLog_append_inj : ∀ (a b : List (G × G)) (r r' : Transcript F G), a.length = b.length → roundsLog a ++ r = roundsLog b ++ r' → a = b ∧ r = r'
  | [], [], r, r', _, h => ⟨rfl, h⟩
  | p :: a, q :: b, r, r', hl, h => by
    simp only [roundsLog, List.flatMap_cons, List.cons_append, List.nil_append, List.cons.injEq, TEvent.point.injEq, true_and] at h
    obtain ⟨e1, e2⟩ := roundsLog_append_inj a b r r' (by simpa using hl) h.2.2
    rw [e1, Prod.ext h.1 h.2.1]
    exact ⟨rfl, e2⟩

theorem fullLog_append_inj {V V' : List G} {pr pr' : R1CSProof F G} {r r' : Transcript F G} (hl : pr.ipp.L.length = pr.ipp.R.length) (hl' : pr'.ipp.L.length = pr'.ipp.R.length)
    (h : fullLog [] V pr false [] (2 ^ pr.ipp.L.length) ++ r = fullLog [] V' pr' false [] (2 ^ pr'.ipp.L.length) ++ r') : V = V' ∧ pr.withFinal 0 0 = pr'.withFinal 0 0 ∧ r = r' := by
  unfold fullLog preLog at h
  simp only [List.append_assoc, List.cons_append, List.nil_append, List.cons.injEq, true_and, List.map_nil] at h
  obtain ⟨rfl, -, h⟩ := map_cons_inj (TEvent.point "V") (fun a b h => by simpa using h) _ _ (by simp) (by simp) _ _ _ _ h
  simp only [List.cons.injEq, TEvent.point.injEq, TEvent.scalar.injEq, TEvent.u64.injEq, true_and] at h
  obtain ⟨e1, e2, e3, f1, f2, f3, f4, f5, f6, f7, f8, f9, f10, f11, hN, h⟩ := h
  have hk := Nat.pow_right_injective (le_refl 2) hN
  obtain ⟨hz, hr⟩ := roundsLog_append_inj _ _ _ _ (by simp [← hl, ← hl', hk]) h
  have hL := congrArg (List.map Prod.fst) hz
  have hR := congrArg (List.map Prod.snd) hz
  rw [List.map_fst_zip hl.le, List.map_fst_zip hl'.le] at hL
  rw [List.map_snd_zip hl.ge, List.map_snd_zip hl'.ge] at hR
  refine ⟨rfl, ?_, hr⟩
  cases pr with | mk a1 a2 a3 a4 a5 a6 a7 a8 a9 b1 b2 b3 b4 b5 i =>
  cases pr' with | mk a1' a2' a3' a4' a5' a6' a7' a8' a9' b1' b2' b3' b4' b5' i' =>
  simp only [R1CSProof.withFinal] at *
  simp_all

theorem chainLog_inj : ∀ (l l' : List (List G × R1CSProof F G)), (∀ q ∈ l, q.2.ipp.L.length = q.2.ipp.R.length) → (∀ q ∈ l', q.2.ipp.L.length = q.2.ipp.R.length) → chainLog [] l = chainLog [] l' →
    (l.map fun q => (q.1, q.2.withFinal 0 0)) = l'.map fun q => (q.1, q.2.withFinal 0 0)
  | [], [], _, _, _ => rfl
  | [], q :: l', _, _, h => by
    rw [chainLog, chainLog, chainLog_append] at h
    simp [fullLog, preLog] at h
  | q :: l, [], _, _, h => by
    rw [chainLog, chainLog, chainLog_append (fullLog _ _ _ _ _ _)] at h
    simp [fullLog, preLog] at h
  | q :: l, q' :: l', h1, h2, h => by
    rw [chainLog, chainLog, chainLog_append, chainLog_append (fullLog [] q'.1 _ _ _ _)] at h
    obtain ⟨e1, e2, e3⟩ := fullLog_append_inj (h1 q (by simp)) (h2 q' (by simp)) h
    rw [List.map_cons, List.map_cons, e1, e2, chainLog_inj l l' (fun x hx => h1 x (by simp [hx])) (fun x hx => h2 x (by simp [hx])) e3]

theorem drawsFrom_self {T d : Transcript F G} {t : Transcript F G} (ht : t <+: T) (h : d ∈ newDraws t T) : d ∈ draws T := by
  obtain ⟨r, rfl⟩ := ht
  rw [newDraws_append] at h
  rw [draws, drawsFrom_append]
  exact List.mem_append_right _ (by simpa using h)

/-! ## The final scalars -/

open Finset in
/-- Two pairs of final scalars: the difference of the two checks. -/
theorem ippCheck_final (n1 k : ℕ) (pr : R1CSProof F G) (g h : G) (GN HN : List G) (wt : Weights F) (ch : Chals F) (us : List F) (hu : us.length = k) (hG : GN.length = 2 ^ k) (hH : HN.length = 2 ^ k) (a b : F) :
    ippCheck n1 (2 ^ k) (pr.withFinal a b) g h GN HN wt ch us - ippCheck n1 (2 ^ k) pr g h GN HN wt ch us = (pr.finalRelation n1 ch us a b).value (2 ^ k) g h GN HN := by
  have hs : (sVec us).length = 2 ^ k := by simp [hu]
  have hs' : (sVec (us.map (·⁻¹))).length = 2 ^ k := by simp [hu]
  have hfa : foldAll us (ippG n1 (2 ^ k) ch.u GN) = ∑ i ∈ range (2 ^ k), (foldCoeff us i * ufac n1 ch.u i) • GN.getD i 0 := by
    rw [← msm_sVec us _ (by simp [ippG, scaled, hG, hu]), ippG, msm_scaled_range _ _ _ _ hs hG]
    exact sum_congr rfl fun i hi => by rw [sVec_getD _ (by rw [hu]; exact mem_range.mp hi)]
  have hfb : foldAll (us.map (·⁻¹)) (ippH n1 (2 ^ k) ch.u ch.y HN) = ∑ i ∈ range (2 ^ k), (foldCoeff (us.map (·⁻¹)) i * (vpow ch.y⁻¹ i * ufac n1 ch.u i)) • HN.getD i 0 := by
    rw [← msm_sVec _ _ (by simp [ippH, scaled, hH, hu]), ippH, msm_scaled_range _ _ _ _ hs' hH]
    exact sum_congr rfl fun i hi => by rw [sVec_getD _ (by rw [List.length_map, hu]; exact mem_range.mp hi)]
  rw [ippCheck, ippCheck, GenRep.value, R1CSProof.finalRelation, hfa, hfb]
  have e1 : ∀ (c : F) (f : ℕ → F) (Xs : List G), ∑ i ∈ range (2 ^ k), (c * f i) • Xs.getD i 0 = c • ∑ i ∈ range (2 ^ k), f i • Xs.getD i 0 := fun c f Xs => by
    rw [smul_sum]; exact sum_congr rfl fun i _ => mul_smul _ _ _
  simp only [e1]
  rw [show ippPoint n1 (2 ^ k) (pr.withFinal a b) h GN HN wt ch = ippPoint n1 (2 ^ k) pr h GN HN wt ch from rfl]
  generalize ∑ i ∈ range (2 ^ k), (foldCoeff us i * ufac n1 ch.u i) • GN.getD i 0 = X1
  generalize ∑ i ∈ range (2 ^ k), (foldCoeff (us.map (·⁻¹)) i * (vpow ch.y⁻¹ i * ufac n1 ch.u i)) • HN.getD i 0 = X2
  generalize ippPoint n1 (2 ^ k) pr h GN HN wt ch = X3
  simp only [R1CSProof.withFinal]
  module

theorem foldCoeff_ne_zero {us : List F} (h : ∀ u ∈ us, u ≠ 0) : foldCoeff us 0 ≠ 0 := by
  rw [foldCoeff_zero]
  exact inv_ne_zero (List.prod_ne_zero fun h0 => h 0 h0 rfl)

end Bp
