import Verif.Spec.Simulator
import Verif.Lemmas.ZK2

set_option linter.unusedSectionVars false
set_option linter.unusedSimpArgs false

/-! # What a proof shows: views -/

namespace Bp
variable {F G : Type} [Field F] [AddCommGroup G] [Module F G]

/-- A proof that fits the equations of the verifier `s` with vectors `l` and `r`. -/
structure View (env : Env F G) (s s2 : Verifier F G) (g h : G) (Gs Hs : List G) (k : ℕ) (ch : Chals F) (wt : Weights F) (pr : R1CSProof F G) (t' : Transcript F G) (l r : ℕ → F) : Prop where
  hcrc : (s.start pr).createRandomizedConstraints env = .ok s2
  hn2 : s2.numVars ≤ s.numVars → pr.A_I2 = 0 ∧ pr.A_O2 = 0 ∧ pr.S2 = 0
  hch : ch = drawn env.oracle s2.transcript pr
  hwt : s2.flattenedConstraints ch.z = .ok wt
  ht : pr.t_x = dot (padL l s2.numVars (2 ^ k)) (padR r ch.y s2.numVars (2 ^ k))
  hpoly : polyCheck s2.V pr g h wt s2.numVars ch = 0
  hvec : ippPoint s.numVars (2 ^ k) pr h (Gs.take (2 ^ k)) (Hs.take (2 ^ k)) wt ch =
    msm (padL l s2.numVars (2 ^ k)) (ippG s.numVars (2 ^ k) ch.u (Gs.take (2 ^ k))) + msm (padR r ch.y s2.numVars (2 ^ k)) (ippH s.numVars (2 ^ k) ch.u ch.y (Hs.take (2 ^ k)))
  hipp : createIpp env.oracle (logW s2.transcript pr) (ch.w • g) ((List.range (2 ^ k)).map (ufac s.numVars ch.u))
    ((List.range (2 ^ k)).map fun i => vpow ch.y⁻¹ i * ufac s.numVars ch.u i) (Gs.take (2 ^ k)) (Hs.take (2 ^ k)) (padL l s2.numVars (2 ^ k)) (padR r ch.y s2.numVars (2 ^ k)) = .ok (pr.ipp, t')

theorem weights_agree {p2 : Prover F G} {s2 : Verifier F G} (hst2 : InStep p2 s2) {z : F} {w wt : Weights F} (hw : p2.flattenedConstraints z = .ok w) (hwt : s2.flattenedConstraints z = .ok wt) :
    w = { wt with wc := 0 } ∧ wt.wL = w.wL ∧ wt.wR = w.wR ∧ wt.wO = w.wO ∧ wt.wV = w.wV := by
  obtain ⟨wt', hwt', wL, wR, wO, wV⟩ := c10_flatten_agree p2 s2 hst2 z w hw
  rw [hwt] at hwt'
  cases hwt'
  obtain ⟨v, -, hv⟩ := Prover.flattened_ok hw
  have c0 : w.wc = 0 := by rw [hv]
  exact ⟨Weights.ext' wL.symm wR.symm wO.symm wV.symm c0, wL, wR, wO, wV⟩

section
variable {env env' : Env F G} {p p2 : Prover F G} {s : Verifier F G} {c : Coins F} {Gs Hs : List G} {k : ℕ} {ch : Chals F} {w : Weights F} {lp rp : VecPoly3 F} {pr : R1CSProof F G} {t' : Transcript F G}

/-- An honest proof of a true statement is a view. -/
theorem Honest.view (hO : env.oracle = env'.oracle) (H : Honest env p p2 c Gs Hs k ch w lp rp pr t') (hw : p.WF) (hst : InStep p s)
    (hcrc : (p.start c Gs Hs).createRandomizedConstraints env = .ok p2) (hsat : p2.Satisfied) (hkN : nextPowerOfTwo p2.aL.length = 2 ^ k) (hG : 2 ^ k ≤ Gs.length) (hH : 2 ^ k ≤ Hs.length)
    (hy : ch.y ≠ 0) :
    ∃ s2 wt, InStep p2 s2 ∧ w = { wt with wc := 0 } ∧ View env' s s2 p.g p.h Gs Hs k ch wt pr t' (fun i => lEntry p2 w ch (c.maskL p.aL.length i) i) (fun i => rEntry p2 w ch (c.maskR p.aL.length i) i) := by
  have hT : (p.start c Gs Hs).transcript = (s.start pr).transcript := by
    simp only [Prover.start, Verifier.start, hst.transcript, hst.V, H.hA_I1, H.hA_O1, H.hS1, List.length_zipWith, hst.lenB, Nat.min_self]
  obtain ⟨s2, hc2, hst2⟩ := crc_same hO (hst.start c Gs Hs pr hT) hcrc
  obtain ⟨wt, hwt, -⟩ := c10_flatten_agree p2 s2 hst2 ch.z w H.hwp
  obtain ⟨ew, wL, wR, wO, wV⟩ := weights_agree hst2 H.hwp hwt
  have hws : (p.start c Gs Hs).WF := by cases hw; constructor <;> assumption
  obtain ⟨vs, hsteps⟩ := Prover.createRandomizedConstraints_steps hcrc
  have hw2 : p2.WF := hsteps.ext.wf hws
  have hsc := Prover.sameCommits_crc hcrc
  have hh2 : p2.h = p.h := hsc.h
  have hg2 : p2.g = p.g := hsc.g
  have hnN : p2.aL.length ≤ 2 ^ k := hkN ▸ nextPowerOfTwo_ge _
  obtain ⟨tL, tR, tO, -⟩ := c08_phase1_untouched env _ _ hws hcrc
  have hnn : p.aL.length ≤ p2.aL.length := hsteps.ext.lenL
  have evL : hlvec lp ch.x p2.aL.length (2 ^ k - p2.aL.length) = padL (fun i => lEntry p2 w ch (c.maskL p.aL.length i) i) p2.aL.length (2 ^ k) := by
    rw [H.hlp, randomVec_append _ _ _ _ hnn, hlvec_entry]; rfl
  have evR : hrvec rp ch.x ch.y p2.aL.length (2 ^ k - p2.aL.length) = padR (fun i => rEntry p2 w ch (c.maskR p.aL.length i) i) ch.y p2.aL.length (2 ^ k) := by
    rw [H.hrp, randomVec_append _ _ _ _ hnn, hrvec_entry]; rfl
  have d1 := H.dot_eq hnN
  refine ⟨s2, wt, hst2, ew, hc2, fun hle => ?_, ?_, hwt, ?_, ?_, ?_, ?_⟩
  · rw [hst2.num, hst.num] at hle
    have h : ¬ p.aL.length < p2.aL.length := by omega
    refine ⟨?_, ?_, ?_⟩
    · rw [H.hA_I2, if_neg h, vecCommit, Honest.nz_split h, Honest.nz_split h]; simp
    · rw [H.hA_O2, if_neg h, Honest.nz_split h]; simp
    · rw [H.hS2, if_neg h, vecCommit, Honest.nz_split h, Honest.nz_split h]; simp
  · rw [H.hch, hO, hst2.transcript]
  · rw [hst2.num, ← evL, ← evR, d1]
  · have hp := Honest.polyCheck_eq H hw2 s2 hst2 wt hwt wL wR wO wV hy
    rw [← zCombination_equiv _ hst2.cons, zCombination_sat hsat, mul_zero, zero_smul, neg_zero] at hp
    rw [← hg2, ← hh2]; exact hp
  · have hi := Honest.ippPoint_eq H hw hw2 hnn hnN hG hH tL tR tO hh2 wt wL wR wO hy
    rw [ippCommit, d1, smul_smul, mul_comm pr.t_x, add_left_inj] at hi
    rw [hst.num, hst2.num, ← hh2, hi, evL, evR]
  · have := H.hipp
    rw [evL, evR, hg2, hO] at this
    rw [hst2.num, hst.num, hst2.transcript]
    exact this

end

/-- Every view comes from coins of every prover with a satisfying witness. -/
theorem View.explain {env env' : Env F G} (hO : env.oracle = env'.oracle) {p p2 : Prover F G} {s s2 : Verifier F G} {c c0 : Coins F} {Gs Hs : List G} {k : ℕ} {ch : Chals F} {w wt : Weights F}
    {pr : R1CSProof F G} {t' : Transcript F G} {l r : ℕ → F} {g h : G}
    (V : View env' s s2 g h Gs Hs k ch wt pr t' l r) (hx : ch.x ≠ 0) (hy : ch.y ≠ 0)
    (hw : p.WF) (hst : InStep p s) (hg : p.g = g) (hh : p.h = h)
    (hcrc : ({ p with transcript := (s.start pr).transcript } : Prover F G).createRandomizedConstraints env = .ok p2) (hsat : p2.Satisfied)
    (hin : ∀ lc ∈ p2.constraints, ∀ t ∈ lc.terms, Var.InRange p2.aL.length p2.v.length t.1)
    (hkN : nextPowerOfTwo p2.aL.length = 2 ^ k) (hG : 2 ^ k ≤ Gs.length) (hH : 2 ^ k ≤ Hs.length)
    {dlog : G → F} (hd : ∀ P : G, dlog P • h = P) (hinj : ∀ a b : F, a • h = b • h → a = b)
    (hwe : w = { wt with wc := 0 }) (hc : c = Coins.explain dlog p p2 Gs Hs pr ch w l r c0) :
    (p.start c Gs Hs).createRandomizedConstraints env = .ok p2 ∧ InStep p2 s2 ∧
      (∀ i < p2.aL.length, lEntry p2 w ch (c.maskL p.aL.length i) i = l i) ∧ (∀ i < p2.aL.length, rEntry p2 w ch (c.maskR p.aL.length i) i = r i) ∧
      Prover.prove env p c Gs Hs = .ok (pr, t') ∧ ∃ lp rp, Honest env p p2 c Gs Hs k ch w lp rp pr t' := by
  -- the first phase
  have eI : vecCommit p.h (Gs.take p.aL.length) (Hs.take p.aL.length) p.aL p.aR c.iB1 = pr.A_I1 := by
    rw [vecCommit_split, hc, Coins.explain, hh, hd]; abel
  have eO : msm p.aO (Gs.take p.aL.length) + c.oB1 • p.h = pr.A_O1 := by
    rw [hc, Coins.explain, hh, hd]; abel
  have mL1 : ∀ i < p.aL.length, c.sL1 i = lMask p2 w ch (l i) i := fun i hi => by rw [hc, Coins.explain]; simp only [hi, if_true]
  have mR1 : ∀ i < p.aL.length, c.sR1 i = rMask p2 w ch (r i) i := fun i hi => by rw [hc, Coins.explain]; simp only [hi, if_true]
  have mL2 : ∀ i < p2.aL.length - p.aL.length, c.sL2 i = lMask p2 w ch (l (p.aL.length + i)) (p.aL.length + i) := fun i hi => by
    rw [hc, Coins.explain]; simp only [hi, if_true]
  have mR2 : ∀ i < p2.aL.length - p.aL.length, c.sR2 i = rMask p2 w ch (r (p.aL.length + i)) (p.aL.length + i) := fun i hi => by
    rw [hc, Coins.explain]; simp only [hi, if_true]
  have eS : vecCommit p.h (Gs.take p.aL.length) (Hs.take p.aL.length) (randomVec c.sL1 p.aL.length) (randomVec c.sR1 p.aL.length) c.sB1 = pr.S1 := by
    rw [randomVec_congr mL1, randomVec_congr mR1, vecCommit_split, hc, Coins.explain, hh, hd]; abel
  have hstart : p.start c Gs Hs = { p with transcript := (s.start pr).transcript } := by
    rw [Prover.start, eI, eO, eS, Verifier.start, hst.transcript, hst.V, List.length_zipWith, hst.lenB, Nat.min_self]
  rw [← hstart] at hcrc
  have hT : (p.start c Gs Hs).transcript = (s.start pr).transcript := by rw [hstart]
  obtain ⟨s2', hc2, hst2⟩ := crc_same hO (hst.start c Gs Hs pr hT) hcrc
  rw [V.hcrc] at hc2
  cases hc2
  have hn1 : s.numVars = p.aL.length := hst.num
  have hn : s2.numVars = p2.aL.length := hst2.num
  have htr : p2.transcript = s2.transcript := hst2.transcript.symm
  obtain ⟨pr', t'', ch', w', lp', rp', hpr', H⟩ := prove_ok env p p2 c Gs Hs hw hcrc k hkN hG hH hin
  have hws : (p.start c Gs Hs).WF := by cases hw; constructor <;> assumption
  obtain ⟨vs, hsteps⟩ := Prover.createRandomizedConstraints_steps hcrc
  have hw2 : p2.WF := hsteps.ext.wf hws
  have hsc := Prover.sameCommits_crc hcrc
  have hh2 : p2.h = h := hsc.h.trans hh
  have hg2 : p2.g = g := hsc.g.trans hg
  have hnN : p2.aL.length ≤ 2 ^ k := hkN ▸ nextPowerOfTwo_ge _
  obtain ⟨tL, tR, tO, -⟩ := c08_phase1_untouched env _ _ hws hcrc
  have hnn : p.aL.length ≤ p2.aL.length := hsteps.ext.lenL
  have mL : ∀ i < p2.aL.length, c.maskL p.aL.length i = lMask p2 w ch (l i) i := fun i hi => by
    rw [Coins.maskL]
    split
    · exact mL1 i ‹_›
    · rw [mL2 _ (by omega), show p.aL.length + (i - p.aL.length) = i by omega]
  have mR : ∀ i < p2.aL.length, c.maskR p.aL.length i = rMask p2 w ch (r i) i := fun i hi => by
    rw [Coins.maskR]
    split
    · exact mR1 i ‹_›
    · rw [mR2 _ (by omega), show p.aL.length + (i - p.aL.length) = i by omega]
  -- points
  have e_I1 : pr'.A_I1 = pr.A_I1 := by rw [H.hA_I1, eI]
  have e_O1 : pr'.A_O1 = pr.A_O1 := by rw [H.hA_O1, eO]
  have e_S1 : pr'.S1 = pr.S1 := by rw [H.hS1, eS]
  have e_I2 : pr'.A_I2 = pr.A_I2 := by
    rw [H.hA_I2]
    by_cases h1 : p.aL.length < p2.aL.length
    · rw [if_pos h1, hh2, vecCommit_split, hc, Coins.explain]
      simp only [h1, if_true, hh, hd]; abel
    · rw [if_neg h1, (V.hn2 (by omega)).1, vecCommit, Honest.nz_split h1, Honest.nz_split h1]; simp
  have e_O2 : pr'.A_O2 = pr.A_O2 := by
    rw [H.hA_O2]
    by_cases h1 : p.aL.length < p2.aL.length
    · rw [if_pos h1, hh2, hc, Coins.explain]
      simp only [h1, if_true, hd]; abel
    · rw [if_neg h1, (V.hn2 (by omega)).2.1, Honest.nz_split h1]; simp
  have e_S2 : pr'.S2 = pr.S2 := by
    rw [H.hS2]
    by_cases h1 : p.aL.length < p2.aL.length
    · rw [if_pos h1, hh2, randomVec_congr mL2, randomVec_congr mR2, vecCommit_split, hc, Coins.explain]
      simp only [h1, if_true, hh, hd]; abel
    · rw [if_neg h1, (V.hn2 (by omega)).2.2, vecCommit, Honest.nz_split h1, Honest.nz_split h1]; simp
  have lY : logY p2.transcript pr' = logY s2.transcript pr := by rw [logY, logY, htr, e_I2, e_O2, e_S2]
  have lZ : logZ p2.transcript pr' = logZ s2.transcript pr := by rw [logZ, logZ, lY]
  have ey : ch'.y = ch.y := by rw [H.hch, V.hch, ← hO]; simp only [drawn]; rw [lY]
  have ez : ch'.z = ch.z := by rw [H.hch, V.hch, ← hO]; simp only [drawn]; rw [lZ]
  -- weights
  obtain ⟨ew, wL, wR, wO, wV⟩ := weights_agree hst2 H.hwp (by rw [ez]; exact V.hwt)
  rw [← hwe] at ew
  subst ew
  have htp : lp'.sip rp' = tPoly p2 w' ch (fun i => lMask p2 w' ch (l i) i) (fun i => rMask p2 w' ch (r i) i) := by
    rw [H.sip_eq hnn, tPoly_y ey]
    exact tPoly_congr mL mR
  have e_T1 : pr'.T_1 = pr.T_1 := by rw [H.hT_1, commitScalar, htp, hh2, hg2, hc, Coins.explain]; simp only [hg, hd]; abel
  have e_T3 : pr'.T_3 = pr.T_3 := by rw [H.hT_3, commitScalar, htp, hh2, hg2, hc, Coins.explain]; simp only [hg, hd]; abel
  have e_T4 : pr'.T_4 = pr.T_4 := by rw [H.hT_4, commitScalar, htp, hh2, hg2, hc, Coins.explain]; simp only [hg, hd]; abel
  have e_T5 : pr'.T_5 = pr.T_5 := by rw [H.hT_5, commitScalar, htp, hh2, hg2, hc, Coins.explain]; simp only [hg, hd]; abel
  have e_T6 : pr'.T_6 = pr.T_6 := by rw [H.hT_6, commitScalar, htp, hh2, hg2, hc, Coins.explain]; simp only [hg, hd]; abel
  have lU : logU p2.transcript pr' = logU s2.transcript pr := by rw [logU, logU, lZ, e_T1, e_T3, e_T4, e_T5, e_T6]
  have lX : logX p2.transcript pr' = logX s2.transcript pr := by rw [logX, logX, lU]
  have eu : ch'.u = ch.u := by rw [H.hch, V.hch, ← hO]; simp only [drawn]; rw [lU]
  have ex : ch'.x = ch.x := by rw [H.hch, V.hch, ← hO]; simp only [drawn]; rw [lX]
  -- the vectors
  have vL : ∀ i < p2.aL.length, lEntry p2 w' ch (c.maskL p.aL.length i) i = l i := fun i hi => by rw [mL i hi, lEntry_mask hx]
  have vR : ∀ i < p2.aL.length, rEntry p2 w' ch (c.maskR p.aL.length i) i = r i := fun i hi => by rw [mR i hi, rEntry_mask hx hy]
  have elv : hlvec lp' ch.x p2.aL.length (2 ^ k - p2.aL.length) = padL l p2.aL.length (2 ^ k) := by
    rw [H.hlp, randomVec_append _ _ _ _ hnn, ey, hlvec_entry, padL]
    congr 1
    exact List.map_congr_left fun i hi => vL i (List.mem_range.mp hi)
  have erv : hrvec rp' ch.x ch.y p2.aL.length (2 ^ k - p2.aL.length) = padR r ch.y p2.aL.length (2 ^ k) := by
    rw [H.hrp, randomVec_append _ _ _ _ hnn, ey, hrvec_entry, padR]
    congr 1
    exact List.map_congr_left fun i hi => vR i (List.mem_range.mp hi)
  have d2 := H.dot_eq hnN
  have e_t : pr'.t_x = pr.t_x := by rw [← d2, V.ht, hn, ex, ey, elv, erv]
  -- blindings
  have hp2 := Honest.polyCheck_eq H hw2 s2 hst2 wt (by rw [ez]; exact V.hwt) wL wR wO wV (by rw [ey]; exact hy)
  rw [← zCombination_equiv _ hst2.cons, zCombination_sat hsat, mul_zero, zero_smul, neg_zero] at hp2
  have e_b : pr'.t_x_blinding = pr.t_x_blinding := by
    refine hinj _ _ ?_
    have := hp2.trans V.hpoly.symm
    rw [polyCheck, polyCheck, e_t, e_T1, e_T3, e_T4, e_T5, e_T6, ey, ex, hg2, hh2] at this
    exact add_left_cancel (sub_right_inj.mp this)
  have hi2 := Honest.ippPoint_eq H hw hw2 hnn hnN hG hH tL tR tO hsc.h wt wL wR wO (by rw [ey]; exact hy)
  have e_e : pr'.e_blinding = pr.e_blinding := by
    refine hinj _ _ ?_
    have hv := V.hvec
    rw [hn1, hn] at hv
    rw [ippCommit, d2, smul_smul, mul_comm pr'.t_x, add_left_inj, ex, ey, eu, elv, erv, ← hv, ippPoint, ippPoint, e_I1, e_O1, e_S1, e_I2, e_O2, e_S2, ex, eu, hh2, ippPoint.y, ippPoint.y, ey] at hi2
    exact sub_right_inj.mp (add_right_cancel (add_right_cancel hi2))
  have lW : logW p2.transcript pr' = logW s2.transcript pr := by rw [logW, logW, lX, e_t, e_b, e_e]
  have eW : ch'.w = ch.w := by rw [H.hch, V.hch, ← hO]; simp only [drawn]; rw [lW]
  have ech : ch' = ch := Chals.ext' ey ez eu ex eW
  subst ech
  have hi := H.hipp
  have hv := V.hipp
  rw [hn1, hn] at hv
  rw [lW, hg2, elv, erv, hO, hv] at hi
  have e_p : pr'.ipp = pr.ipp ∧ t'' = t' := by
    have := Except.ok.inj hi
    exact ⟨(Prod.mk.inj this).1.symm, (Prod.mk.inj this).2.symm⟩
  have epr : pr' = pr := R1CSProof.ext' e_I1 e_O1 e_S1 e_I2 e_O2 e_S2 e_T1 e_T3 e_T4 e_T5 e_T6 e_t e_b e_e e_p.1
  rw [epr, e_p.2] at hpr' H
  exact ⟨hcrc, hst2, vL, vR, hpr', lp', rp', H⟩

end Bp
