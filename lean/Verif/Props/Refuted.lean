import Verif.Lemmas.Refuted
import Verif.Lemmas.Sizes
import Verif.Props.Sizes
import Verif.Lemmas.Prove2

/-! # C83: proofs that the crate's own code makes from inputs for which the statement is false -/

set_option linter.unusedSectionVars false

namespace Bp
variable {F G : Type} [Field F] [AddCommGroup G] [Module F G] [ByteRep F]

/-- What C83 rests on: if the prover's own values violate a constraint, the proof is rejected but for few values of one challenge. -/
theorem rejected_core [DecidableEq G] (env : Env F G) (hb : env.batchInvert [] = .ok ([], 1)) (label : String) (g h : G) (hg : g ≠ 0) {m q : ℕ} (hsize : nextPowerOfTwo m < 2 ^ 32)
    {dp : Env F G → Drv (Prover F G) (List G)} {dv : Env F G → List G → Drv (Verifier F G) Unit} (hW : ∀ (e : Env F G) (O : Oracle F G), dp (e.withOracle O) = dp e)
    (hstep : ∀ (e : Env F G) coms p, dp e (Prover.new g h [.init label]) = (.ok coms, p) → ∃ s, dv e coms (Verifier.new [.init label]) = (.ok (), s) ∧ Shared e e g h p s ∧ s.deferred = [] ∧
      p.aL.length = m ∧ p.constraints.length = q ∧ ¬ p.assignment.Sat p.constraints) (c : Coins F) (Gs Hs : List G) :
    ∃ (log : Transcript F G) (bad : Finset F), bad.card ≤ q ∧ ∀ O : Oracle F G, (∀ l, O l ≠ 0) → ∀ pr coms,
      genProof (env.withOracle O) label g h c Gs Hs (dp (env.withOracle O)) = .ok (pr, coms) → O log ∉ bad → ∀ r : F, r ≠ 0 →
        verifyProof (env.withOracle O) label (dv (env.withOracle O) coms) pr g h Gs Hs r = Res.err .verificationError := by
  rcases hd : dp env (Prover.new g h [.init label]) with ⟨e | coms, p⟩
  · refine ⟨[], ∅, by simp, fun O _ pr coms hgen => ?_⟩
    rw [hW, genProof, hd] at hgen
    cases hgen
  obtain ⟨s, hv, J, -, hgates, hcons, hns⟩ := hstep env coms p hd
  obtain ⟨hw, hi⟩ := J.inStep rfl
  obtain ⟨bad, hcard, hbad⟩ := c11_violation_survives p.constraints p.assignment hns
  refine ⟨(p.start c Gs Hs).transcript.r1cs1PhaseDomainSep ++ [.point "A_I2" 0, .point "A_O2" 0, .point "S2" 0, .challenge "y", .challenge "z"], bad, by rw [← hcons]; exact hcard,
    fun O h0 pr coms' hgen hz r hr => ?_⟩
  have hd' : dp (env.withOracle O) (Prover.new g h [.init label]) = (.ok coms, p) := by rw [hW, hd]
  obtain ⟨s', hv', J', hdef', -⟩ := hstep (env.withOracle O) coms p hd'
  obtain ⟨hw', hi'⟩ := J'.inStep rfl
  unfold genProof at hgen
  rw [hd'] at hgen
  simp only at hgen
  cases hpr : p.prove (env.withOracle O) c Gs Hs with
  | error e => rw [hpr] at hgen; cases hgen
  | ok q =>
    obtain ⟨pr', t'⟩ := q
    rw [hpr] at hgen
    simp only [Except.ok.injEq, Prod.mk.injEq] at hgen
    obtain ⟨rfl, rfl⟩ := hgen
    obtain ⟨p2, k, ch, wp, lp, rp, hcrc, hk, hG, hH, hin, H⟩ := prove_inv hw' hpr
    have hdef : p.deferred = [] := by
      have := hi'.deferred
      rw [hdef'] at this
      exact List.forall₂_nil_right_iff.mp this
    have e2 : p2 = { p.start c Gs Hs with pending := none, transcript := (p.start c Gs Hs).transcript.r1cs1PhaseDomainSep } := by
      have hd0 : (p.start c Gs Hs).deferred = [] := hdef
      unfold Prover.createRandomizedConstraints at hcrc
      simp only [hd0, List.length_nil, if_true, Except.ok.injEq] at hcrc
      rw [← hcrc]
      simp only [hd0]
    have eL : p2.aL = p.aL := by rw [e2]; rfl
    have en : p2.aL.length = m := by rw [eL, hgates]
    obtain ⟨pr2, t2, hpr2, hres⟩ := c18_exact_outcome (env.withOracle O) (env.withOracle O) rfl p p2 s' J'.session c Gs Hs hcrc hin (by rw [en]; exact hsize) (by rw [hk]; exact hG) (by rw [hk]; exact hH) (.inr hb)
    rw [hpr] at hpr2
    simp only [Except.ok.injEq, Prod.mk.injEq] at hpr2
    obtain ⟨rfl, rfl⟩ := hpr2
    have hres := hres (h0 _) (fun u hu => ippChallenges_ne_zero (O := O) h0 hu) r
    have pg : p.g = g := J.g
    have ph : p.h = h := J.h
    rw [pg, ph] at hres
    have hz' : zCombination (drawn O p2.transcript pr').z p2.constraints p2.assignment ≠ 0 := by
      intro h00
      apply hz
      refine hbad _ ?_
      have eA : p2.assignment = p.assignment := by rw [e2]; rfl
      have eC : p2.constraints = p.constraints := by rw [e2]; rfl
      rw [eA, eC] at h00
      rw [← h00]
      congr 1
      show O _ = O _
      rw [logZ, logY, H.hA_I2, H.hA_O2, H.hS2, eL, e2]
      simp [vecCommit, msm, randomVec]
    have hne : ¬ (r * ((drawn O p2.transcript pr').x ^ 2 * zCombination (drawn O p2.transcript pr').z p2.constraints p2.assignment)) • g = 0 := by
      intro h00
      rcases smul_eq_zero.mp h00 with h00 | h00
      · exact mul_ne_zero hr (mul_ne_zero (pow_ne_zero _ (h0 _)) hz') h00
      · exact hg h00
    have hres : s'.verify (env.withOracle O) pr' g h Gs Hs r = Res.err .verificationError := hres.trans (if_neg hne)
    unfold verifyProof
    rw [hv']
    simp only [hres]
    rfl

/-- **C83**: the proving functions of the crate are called, one or several of them on one prover, on inputs of which at least one statement is false.  Then there is one place in the transcript and a set of at most as many field elements as there are
constraints, both fixed before any challenge is known, such that: whatever the challenges are (but not zero), if a proof comes out and the challenge in that place is not in the set, the verifying functions answer `VerificationError`. -/
theorem c83_rejected [DecidableEq G] (env : Env F G) (hb : env.batchInvert [] = .ok ([], 1)) (label : String) (g h : G) (hg : g ≠ 0) {stmts : List (Stmt F)} (hok : ∀ st ∈ stmts, st.Ok)
    (hsize : nextPowerOfTwo (totalGates stmts) < 2 ^ 32) {dp : Env F G → Drv (Prover F G) (List G)} {P : Prop} (ha : Attempts stmts dp P) (hP : ¬ P) (c : Coins F) (Gs Hs : List G) :
    ∃ (log : Transcript F G) (bad : Finset F), bad.card ≤ totalConstraints stmts ∧ ∀ O : Oracle F G, (∀ l, O l ≠ 0) → ∀ pr coms,
      genProof (env.withOracle O) label g h c Gs Hs (dp (env.withOracle O)) = .ok (pr, coms) → O log ∉ bad → ∀ r : F, r ≠ 0 →
        verifyProof (env.withOracle O) label (verifyStmts (env.withOracle O) g h stmts coms) pr g h Gs Hs r = Res.err .verificationError :=
  rejected_core env hb label g h hg hsize (dv := fun e => verifyStmts e g h stmts) ha.withOracle (fun e coms p hd => by
    obtain ⟨hl, s, hv, J, -, -, hclaim⟩ := ha.follows (env' := e) rfl g h hok (.new _ _ g h [.init label] 0 0) hd
    obtain ⟨hw, hi⟩ := J.inStep rfl
    obtain ⟨hgates, hcons, -⟩ := c65_list e g h label stmts coms hl.ge hv
    refine ⟨s, hv, J, (OnePhase.stmts _ g h stmts coms _ _ _ hv).1, by rw [← hi.num, hgates], by rw [hi.cons.length_eq, hcons], fun hsat => ?_⟩
    exact hP (hclaim p.assignment hw.gatesA (((c04_same_circuit p s hi).2.2.2 _).mp hsat) fun i x hx => by
      show p.v.getD i 0 = x
      rw [List.getD_eq_getElem?_getD, hx]; rfl)) c Gs Hs

open Classical in
/-- **C83**, counted: all challenges but one are given; of the values for the remaining one at most as many as there are constraints let the proof be accepted. -/
theorem c83_count [DecidableEq G] [Finite F] (env : Env F G) (hb : env.batchInvert [] = .ok ([], 1)) (label : String) (g h : G) (hg : g ≠ 0) {stmts : List (Stmt F)} (hok : ∀ st ∈ stmts, st.Ok)
    (hsize : nextPowerOfTwo (totalGates stmts) < 2 ^ 32) {dp : Env F G → Drv (Prover F G) (List G)} {P : Prop} (ha : Attempts stmts dp P) (hP : ¬ P) (c : Coins F) (Gs Hs : List G) :
    ∃ log : Transcript F G, ∀ O : Oracle F G, (∀ l, O l ≠ 0) →
      Set.ncard {z : F | z ≠ 0 ∧ ∃ pr coms r, r ≠ 0 ∧ genProof (env.withOracle (Function.update O log z)) label g h c Gs Hs (dp (env.withOracle (Function.update O log z))) = .ok (pr, coms) ∧
        verifyProof (env.withOracle (Function.update O log z)) label (verifyStmts (env.withOracle (Function.update O log z)) g h stmts coms) pr g h Gs Hs r = .ok ()} ≤ totalConstraints stmts := by
  obtain ⟨log, bad, hc, hbad⟩ := c83_rejected env hb label g h hg hok hsize ha hP c Gs Hs
  refine ⟨log, fun O h0 => le_trans (Set.ncard_le_ncard (t := (bad : Set F)) ?_ bad.finite_toSet) (by rw [Set.ncard_coe_finset]; exact hc)⟩
  rintro z ⟨hz, pr, coms, r, hr, hgen, hver⟩
  by_contra hn
  have := hbad (Function.update O log z) (fun l => by
    by_cases e : l = log
    · rw [e, Function.update_self]; exact hz
    · rw [Function.update_of_ne e]; exact h0 l) pr coms hgen (by rw [Function.update_self]; exact hn) r hr
  rw [hver] at this
  cases this

/-! ## Cases -/

/-- The coins of the cases. -/
def refutedCoins : Coins Z101 := ⟨1, 2, 3, fun i => i + 4, fun i => i + 5, 6, 7, 8, fun _ => 9, fun _ => 10, 11, 12, 13, 14, 15⟩

/-- The set membership function called on `7` and the set `{2, 3, 5}`, of which it is no member, and on the same prover the non-zero function called on `4`. -/
def refutedRun (env : Env Z101 Z101) : Drv (Prover Z101 Z101) (List Z101) := do
  let cs ← proveSetMembership env 7 (some 3) [2, 3, 5] none (fun i => i + 1)
  let cs' ← (do let cs ← proveNonZeroVal env 4 (some 9) none (fun i => i + 20); let cs' ← pure []; return cs ++ cs' : Drv (Prover Z101 Z101) (List Z101))
  return cs ++ cs'

/-- The hypotheses are met. -/
example : ∃ (log : Transcript Z101 Z101) (bad : Finset Z101), bad.card ≤ totalConstraints [Stmt.setMembership ([2, 3, 5] : List Z101), .nonZero] ∧ ∀ O : Oracle Z101 Z101, (∀ l, O l ≠ 0) → ∀ pr coms,
    genProof ((Env.std fun _ => 2).withOracle O) "set" 1 5 refutedCoins [2, 3, 4, 5, 6, 7, 8, 9] [11, 12, 13, 14, 15, 16, 17, 18] (refutedRun ((Env.std fun _ => 2).withOracle O)) = .ok (pr, coms) → O log ∉ bad → ∀ r : Z101, r ≠ 0 →
      verifyProof ((Env.std fun _ => 2).withOracle O) "set" (verifyStmts ((Env.std fun _ => 2).withOracle O) 1 5 [Stmt.setMembership ([2, 3, 5] : List Z101), .nonZero] coms) pr 1 5
        [2, 3, 4, 5, 6, 7, 8, 9] [11, 12, 13, 14, 15, 16, 17, 18] r = Res.err .verificationError :=
  c83_rejected (Env.std fun _ => 2) (by simp [Env.std]) "set" 1 5 (by decide) (stmts := [Stmt.setMembership ([2, 3, 5] : List Z101), .nonZero])
    (by intro st hst; simp only [List.mem_cons, List.not_mem_nil, or_false] at hst; rcases hst with rfl | rfl <;> trivial) (by decide +kernel) (dp := refutedRun) (.cons (.setMembership (7 : Z101) [2, 3, 5] (some 3) none fun i => i + 1) (.cons (.nonZero (4 : Z101) (some 9) none fun i => i + 20) .nil))
    (fun h => absurd (show (7 : Z101) ∈ ([2, 3, 5] : List Z101) from h.1) (by decide)) refutedCoins _ _

/-- A proof does come out. -/
example : (genProof (Env.std fun _ => 2 : Env Z101 Z101) "set" 1 5 refutedCoins [2, 3, 4, 5, 6, 7, 8, 9] [11, 12, 13, 14, 15, 16, 17, 18] (refutedRun (Env.std fun _ => 2))).isOk = true := by decide +kernel

end Bp
