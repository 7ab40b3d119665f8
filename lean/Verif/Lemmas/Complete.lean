import Verif.Lemmas.Honest
import Verif.Props.Lockstep

set_option linter.unusedSectionVars false
set_option linter.unusedSimpArgs false

namespace Bp
variable {F G : Type} [Field F] [AddCommGroup G] [Module F G]
open Finset

theorem Session.inStep {env env' : Env F G} (hO : env.oracle = env'.oracle) {p : Prover F G} {s : Verifier F G} (h : Session env env' p s) :
    p.WF ∧ InStep p s := by
  induction h with
  | new g h t k k' => exact ⟨Prover.wf_new g h t k, c04_new g h t k k'⟩
  | commit v b _ ih =>
    refine ⟨?_, (c04_commit _ _ ih.2 v b).2⟩
    exact (Prover.Steps.single (Prover.Step.commit (env := env) _ v b)).ext.wf ih.1
  | gadget _ hc hr hr' ih =>
    obtain ⟨b', s'', h1, -, h2⟩ := c04_gadget _ _ hO _ _ _ hc _ _ _ _ ih.2 hr
    rw [hr'] at h1
    cases h1
    obtain ⟨vs, hv⟩ := Prover.run1_steps hr
    exact ⟨hv.ext.wf ih.1, h2⟩

/-- The inner-product check of an honest proof holds. -/
theorem Honest.ippCheck_eq {env : Env F G} {p p2 : Prover F G} {c : Coins F} {Gs Hs : List G} {k : ℕ} {ch : Chals F} {wp : Weights F}
    {lp rp : VecPoly3 F} {pr : R1CSProof F G} {t' : Transcript F G} (H : Honest env p p2 c Gs Hs k ch wp lp rp pr t') (hw : p.WF) (hw2 : p2.WF)
    (hn1 : p.aL.length ≤ p2.aL.length) (hnN : p2.aL.length ≤ 2 ^ k) (hG : 2 ^ k ≤ Gs.length) (hH : 2 ^ k ≤ Hs.length)
    (tL : p2.aL.take p.aL.length = p.aL) (tR : p2.aR.take p.aL.length = p.aR) (tO : p2.aO.take p.aL.length = p.aO) (hh : p2.h = p.h)
    (wt : Weights F) (hL : wt.wL = wp.wL) (hR : wt.wR = wp.wR) (hO : wt.wO = wp.wO) (hy : ch.y ≠ 0)
    (h0 : ∀ u ∈ ippRounds env.oracle p2.transcript pr (2 ^ k), u ≠ 0) :
    pr.ipp.L.length = k ∧ pr.ipp.R.length = k ∧
    t' = (ippChallenges env.oracle ((logW p2.transcript pr).ippDomainSep (2 ^ k)) (pr.ipp.L.zip pr.ipp.R)).2 ∧
    ippCheck p.aL.length (2 ^ k) pr p2.g p2.h (Gs.take (2 ^ k)) (Hs.take (2 ^ k)) wt ch (ippRounds env.oracle p2.transcript pr (2 ^ k)) = 0 := by
  have hpt := Honest.ippPoint_eq H hw hw2 hn1 hnN hG hH tL tR tO hh wt hL hR hO hy
  have hGl : (Gs.take (2 ^ k)).length = 2 ^ k := by simpa using hG
  have hHl : (Hs.take (2 ^ k)).length = 2 ^ k := by simpa using hH
  obtain ⟨q, hqL, hqR, hq, he⟩ := createIpp_complete env.oracle (logW p2.transcript pr) (ch.w • p2.g) k
    ((List.range (2 ^ k)).map (ufac p.aL.length ch.u)) ((List.range (2 ^ k)).map (fun i => vpow ch.y⁻¹ i * ufac p.aL.length ch.u i))
    (Gs.take (2 ^ k)) (Hs.take (2 ^ k)) (hlvec lp ch.x p2.aL.length (2 ^ k - p2.aL.length)) (hrvec rp ch.x ch.y p2.aL.length (2 ^ k - p2.aL.length))
    hGl hHl (length_hlvec _ _ _ _ hnN) (length_hrvec _ _ _ _ _ hnN) (by simp) (by simp)
  have hq' := H.hipp
  rw [hq] at hq'
  have e1 : q = pr.ipp := by
    have := congrArg (fun x => x.toOption.map Prod.fst) hq'
    simpa [Except.toOption] using this
  have e2 : (ippChallenges env.oracle ((logW p2.transcript pr).ippDomainSep (2 ^ k)) (q.L.zip q.R)).2 = t' := by
    have := congrArg (fun x => x.toOption.map Prod.snd) hq'
    simpa [Except.toOption] using this
  subst e1
  refine ⟨hqL, hqR, e2.symm, ?_⟩
  have he := he h0
  unfold ippCheck
  rw [hpt]
  unfold ippRounds at h0 ⊢
  generalize hus : (ippChallenges env.oracle ((logW p2.transcript pr).ippDomainSep (2 ^ k)) (pr.ipp.L.zip pr.ipp.R)).1 = us at he ⊢
  have hlen : us.length = k := by rw [← hus, length_ippChallenges]; simp [hqL, hqR]
  rw [ippG, ippH, ← he, ippExpected, ← msm_sVec us _ (by simp [hlen, hG, scaled]), ← msm_sVec _ _ (by simp [hlen, hH, scaled]), ← sVec_reverse]
  module

/-- Exact outcome of verifying an honestly made proof. -/
theorem honest_verify [DecidableEq G] (env env' : Env F G) (hO : env.oracle = env'.oracle) (p p2 : Prover F G) (s : Verifier F G) (hw : p.WF)
    (hst : InStep p s) (c : Coins F) (Gs Hs : List G)
    (hcrc : (p.start c Gs Hs).createRandomizedConstraints env = .ok p2)
    (hin : ∀ lc ∈ p2.constraints, ∀ t ∈ lc.terms, Var.InRange p2.aL.length p2.v.length t.1)
    (k : ℕ) (hkN : nextPowerOfTwo p2.aL.length = 2 ^ k) (hk : k < 32) (hG : 2 ^ k ≤ Gs.length) (hH : 2 ^ k ≤ Hs.length)
    (hb : k ≠ 0 ∨ env'.batchInvert [] = .ok ([], 1)) :
    ∃ pr t', Prover.prove env p c Gs Hs = .ok (pr, t') ∧
      ((drawn env.oracle p2.transcript pr).y ≠ 0 → (∀ u ∈ ippRounds env.oracle p2.transcript pr (2 ^ k), u ≠ 0) → ∀ r : F,
        Verifier.verify env' s pr p.g p.h Gs Hs r =
          if (r * ((drawn env.oracle p2.transcript pr).x ^ 2 *
              zCombination (drawn env.oracle p2.transcript pr).z p2.constraints p2.assignment)) • p.g = 0
          then .ok t' else Res.err .verificationError) := by
  obtain ⟨pr, t', ch, wp, lp, rp, hpr, H⟩ := prove_ok env p p2 c Gs Hs hw hcrc k hkN hG hH hin
  refine ⟨pr, t', hpr, fun hy h0 r => ?_⟩
  have hws : (p.start c Gs Hs).WF := by cases hw; constructor <;> assumption
  obtain ⟨vs, hsteps⟩ := Prover.createRandomizedConstraints_steps hcrc
  have hw2 : p2.WF := hsteps.ext.wf hws
  have hsc := Prover.sameCommits_crc hcrc
  have hnN : p2.aL.length ≤ 2 ^ k := hkN ▸ nextPowerOfTwo_ge _
  obtain ⟨tL, tR, tO, -⟩ := c08_phase1_untouched env _ _ hws hcrc
  have hn1 : p.aL.length ≤ p2.aL.length := by
    have := congrArg List.length tL
    simp only [List.length_take, Prover.start] at this
    omega
  have hVl : s.V.length = p.v.length := by rw [hst.V]; simp [hw.lenB]
  have hst1 : InStep (p.start c Gs Hs) (s.start pr) := by
    refine ⟨hst.lenR, hst.lenO, hst.lenB, ?_, hst.num, hst.pending, hst.V, hst.cons, hst.deferred⟩
    simp only [Prover.start, Verifier.start, hst.transcript, hVl, H.hA_I1, H.hA_O1, H.hS1]
  obtain ⟨s2, hcrc2, hst2⟩ := crc_same hO hst1 hcrc
  have hch := H.hch
  obtain ⟨wt, hwt, hL, hR, hOw, hV⟩ := c10_flatten_agree p2 s2 hst2 ch.z wp H.hwp
  have hy' : ch.y ≠ 0 := by rw [hch]; exact hy
  obtain ⟨hlL, hlR, ht', hipp⟩ := Honest.ippCheck_eq H hw hw2 hn1 hnN hG hH tL tR tO hsc.h wt hL hR hOw hy' h0
  have hpoly := Honest.polyCheck_eq H hw2 s2 hst2 wt hwt hL hR hOw hV hy'
  have hg : p2.g = p.g := hsc.g
  have hh : p2.h = p.h := hsc.h
  have hch' : ch = drawn env'.oracle s2.transcript pr := by rw [hch, ← hO, hst2.transcript]
  rw [verify_eq env' s s2 pr p.g p.h Gs Hs r hcrc2 k (by rw [hst2.num]; exact hkN) hk hG hH ch hch' wt hwt hlL hlR
    (ippRounds env.oracle p2.transcript pr (2 ^ k)) (by rw [hst2.transcript, ← hO]; rfl) h0 hb]
  rw [hst.num, ← hg, ← hh, hipp, hpoly, zero_add, smul_neg, smul_smul, ← hO, hst2.transcript, ← ht', ← hch,
    ← zCombination_equiv _ hst2.cons]
  simp only [neg_eq_zero]

end Bp
