import Verif.Lemmas.ZK3

set_option linter.unusedSectionVars false
set_option linter.unusedSimpArgs false

/-! # The simulator makes views -/

namespace Bp
variable {F G : Type} [Field F] [AddCommGroup G] [Module F G]

omit [Field F] [AddCommGroup G] [Module F G] in
theorem shape_append_congr {t t' : Transcript F G} (h : shape t = shape t') (m m' : Transcript F G) (hm : shape m = shape m') : shape (t ++ m) = shape (t' ++ m') := by
  simp only [shape, List.map_append] at h hm ⊢
  rw [h, hm]

theorem shape_start (s : Verifier F G) (pr pr' : R1CSProof F G) : shape (s.start pr).transcript = shape (s.start pr').transcript := by
  simp [shape, Verifier.start, log1, TEvent.isChallenge]

/-- With fixed challenges a run of the verifier does not depend on the contents of the log. -/
theorem Verifier.run_fixed {env : Env F G} (hf : env.oracle.Fixed) {C : Type} {rnd : Bool} {α : Type} (onSpec : C → Verifier F G → Verifier F G)
    (hs : ∀ cb (s : Verifier F G) T, shape T = shape s.transcript → ∃ T', onSpec cb { s with transcript := T } = { onSpec cb s with transcript := T' } ∧ shape T' = shape (onSpec cb s).transcript)
    (c : Prog F C rnd α) : ∀ (s s2 : Verifier F G) (T : Transcript F G) (a : α), shape T = shape s.transcript → Verifier.run env onSpec c s = .ok (a, s2) →
      ∃ T2, Verifier.run env onSpec c { s with transcript := T } = .ok (a, { s2 with transcript := T2 }) ∧ shape T2 = shape s2.transcript := by
  induction c with
  | ret a => intro s s2 T b hT h; cases h; exact ⟨T, rfl, hT⟩
  | err e => intro s s2 T b hT h; cases h
  | panic w => intro s s2 T b hT h; cases h
  | multiply l r k ih =>
    intro s s2 T b hT h
    rw [Verifier.run] at h ⊢
    refine ih _ _ _ T _ ?_ h
    exact hT
  | allocate x k ih =>
    rintro ⟨t, cs, nv, V, df, pd, sd⟩ s2 T b hT h
    rw [Verifier.run] at h ⊢
    rcases pd with _ | i
    · exact ih _ _ _ T _ (by exact hT) h
    · exact ih _ _ _ T _ (by exact hT) h
  | allocateMultiplier x k ih =>
    intro s s2 T b hT h
    rw [Verifier.run] at h ⊢
    refine ih _ _ _ T _ ?_ h
    exact hT
  | constrain lc k ih =>
    intro s s2 T b hT h
    rw [Verifier.run] at h ⊢
    exact ih { s with constraints := s.constraints ++ [lc] } _ T _ hT h
  | specify cb k ih =>
    intro s s2 T b hT h
    obtain ⟨T', e, hT'⟩ := hs cb s T hT
    rw [Verifier.run, e]
    exact ih _ _ T' _ hT' h
  | evaluateLc lc k ih =>
    intro s s2 T b hT h
    rw [Verifier.run] at h ⊢
    refine ih _ _ _ T _ ?_ h
    exact hT
  | allocateSingle x k ih =>
    rintro ⟨t, cs, nv, V, df, pd, sd⟩ s2 T b hT h
    rw [Verifier.run] at h ⊢
    rcases pd with _ | i
    · exact ih _ _ _ T _ (by exact hT) h
    · exact ih _ _ _ T _ (by exact hT) h
  | challenge hr l k ih =>
    intro s s2 T b hT h
    have e : (T.challengeScalar env.oracle l).1 = (s.transcript.challengeScalar env.oracle l).1 := hf _ _ (shape_append_congr hT _ _ rfl)
    rw [Verifier.run] at h ⊢
    simp only at h ⊢
    rw [e]
    refine ih _ { s with transcript := (s.transcript.challengeScalar env.oracle l).2 } _ _ _ ?_ h
    exact shape_append_congr hT _ _ rfl
  | simplify lc k ih =>
    intro s s2 T b hT h
    rw [Verifier.run] at h ⊢
    refine ih _ _ _ T _ ?_ h
    exact hT

theorem Verifier.runCallbacks_fixed {env : Env F G} (hf : env.oracle.Fixed) (cbs : List (Callback F)) : ∀ (s s2 : Verifier F G) (T : Transcript F G), shape T = shape s.transcript →
    Verifier.runCallbacks env cbs s = .ok s2 → ∃ T2, Verifier.runCallbacks env cbs { s with transcript := T } = .ok { s2 with transcript := T2 } ∧ shape T2 = shape s2.transcript := by
  induction cbs with
  | nil => intro s s2 T hT h; cases h; exact ⟨T, rfl, hT⟩
  | cons cb cbs ih =>
    intro s s2 T hT h
    rw [Verifier.runCallbacks] at h ⊢
    cases hr : s.run2 env cb with
    | error e => rw [hr] at h; cases h
    | ok q =>
      obtain ⟨a, s1⟩ := q
      rw [hr] at h
      obtain ⟨T1, h1, hl⟩ := Verifier.run_fixed hf (fun (e : Empty) _ => e.elim) (fun e => e.elim) cb s s1 T a hT hr
      have h1 : ({ s with transcript := T } : Verifier F G).run2 env cb = .ok (a, { s1 with transcript := T1 }) := h1
      rw [h1]
      exact ih s1 s2 T1 hl h

theorem Verifier.crc_fixed {env : Env F G} (hf : env.oracle.Fixed) {s s2 : Verifier F G} {T : Transcript F G} (hT : shape T = shape s.transcript)
    (h : s.createRandomizedConstraints env = .ok s2) : ∃ T2, ({ s with transcript := T } : Verifier F G).createRandomizedConstraints env = .ok { s2 with transcript := T2 } ∧ shape T2 = shape s2.transcript := by
  unfold Verifier.createRandomizedConstraints at h ⊢
  simp only at h ⊢
  split at h
  · rename_i hd
    cases h
    rw [if_pos hd]
    exact ⟨_, rfl, shape_append_congr hT _ _ rfl⟩
  · rename_i hd
    rw [if_neg hd]
    exact Verifier.runCallbacks_fixed hf _ _ _ _ (shape_append_congr hT _ _ rfl) h

theorem drawn_fixed {O : Oracle F G} (hf : O.Fixed) {t t' : Transcript F G} (h : shape t = shape t') (pr pr' : R1CSProof F G) : drawn O t pr = drawn O t' pr' := by
  have lY : shape (logY t pr) = shape (logY t' pr') := shape_append_congr h _ _ rfl
  have lZ : shape (logZ t pr) = shape (logZ t' pr') := shape_append_congr lY _ _ rfl
  have lU : shape (logU t pr) = shape (logU t' pr') := shape_append_congr lZ _ _ rfl
  have lX : shape (logX t pr) = shape (logX t' pr') := shape_append_congr lU _ _ rfl
  have lW : shape (logW t pr) = shape (logW t' pr') := shape_append_congr lX _ _ rfl
  rw [drawn, drawn, hf _ _ lY, hf _ _ lZ, hf _ _ lU, hf _ _ lX, hf _ _ lW]

/-- The dry run. -/
structure Dry (env : Env F G) (s s0 : Verifier F G) (k : ℕ) (ch : Chals F) (wt : Weights F) : Prop where
  hcrc : (s.start blankProof).createRandomizedConstraints env = .ok s0
  hch : ch = drawn env.oracle s0.transcript blankProof
  hwt : s0.flattenedConstraints ch.z = .ok wt
  hk : nextPowerOfTwo s0.numVars = 2 ^ k

theorem Dry.run {env : Env F G} (hf : env.oracle.Fixed) {s s0 : Verifier F G} {k : ℕ} {ch : Chals F} {wt : Weights F} (D : Dry env s s0 k ch wt) (pr : R1CSProof F G) :
    ∃ T, (s.start pr).createRandomizedConstraints env = .ok { s0 with transcript := T } ∧ ∀ pr', ch = drawn env.oracle T pr' := by
  obtain ⟨T, h, hl⟩ := Verifier.crc_fixed hf (T := (s.start pr).transcript) (shape_start _ _ _) D.hcrc
  exact ⟨T, h, fun pr' => by rw [D.hch]; exact drawn_fixed hf hl.symm _ _⟩

theorem polyCheck_T1 (V : List G) (pr : R1CSProof F G) (g h : G) (wt : Weights F) (n : ℕ) (ch : Chals F) : polyCheck V pr g h wt n ch = polyCheck V { pr with T_1 := 0 } g h wt n ch + ch.x • pr.T_1 := by
  simp only [polyCheck, smul_zero]
  abel

theorem ippPoint_A (n1 N : ℕ) (pr : R1CSProof F G) (h : G) (GN HN : List G) (wt : Weights F) (ch : Chals F) :
    ippPoint n1 N pr h GN HN wt ch = ippPoint n1 N { pr with A_I1 := 0 } h GN HN wt ch + ch.x • pr.A_I1 := by
  simp only [ippPoint, ippPoint.y, smul_zero]
  abel

theorem length_padL (l : ℕ → F) {n N : ℕ} (h : n ≤ N) : (padL l n N).length = N := by simp [padL]; omega
theorem length_padR (r : ℕ → F) (y : F) {n N : ℕ} (h : n ≤ N) : (padR r y n N).length = N := by simp [padR]; omega

/-- With fixed challenges the simulator makes a view with the points and vectors it picked. -/
theorem simulate_view {env : Env F G} (hf : env.oracle.Fixed) {s s0 : Verifier F G} {k : ℕ} {ch : Chals F} {wt : Weights F} (D : Dry env s s0 k ch wt) (hx : ch.x ≠ 0) {g h : G} {Gs Hs : List G}
    (hG : 2 ^ k ≤ Gs.length) (hH : 2 ^ k ≤ Hs.length) (sc : SimCoins F G) (hd : s0.numVars ≤ s.numVars → sc.A_I2 = 0 ∧ sc.A_O2 = 0 ∧ sc.S2 = 0) :
    ∃ T ipp t', s.simulate env g h Gs Hs sc = .ok ({ sc.solved s0 s.numVars (2 ^ k) g h (Gs.take (2 ^ k)) (Hs.take (2 ^ k)) wt ch with ipp := ipp }, t') ∧
      View env s { s0 with transcript := T } g h Gs Hs k ch wt { sc.solved s0 s.numVars (2 ^ k) g h (Gs.take (2 ^ k)) (Hs.take (2 ^ k)) wt ch with ipp := ipp } t' sc.l sc.r := by
  obtain ⟨pr, hpr⟩ : ∃ pr, pr = sc.solved s0 s.numVars (2 ^ k) g h (Gs.take (2 ^ k)) (Hs.take (2 ^ k)) wt ch := ⟨_, rfl⟩
  rw [← hpr]
  obtain ⟨T, hcrc, hch⟩ := D.run hf pr
  have hn : s0.numVars ≤ 2 ^ k := D.hk ▸ nextPowerOfTwo_ge _
  obtain ⟨q, hqL, hqR, hq, he⟩ := createIpp_complete env.oracle (logW T pr) (ch.w • g) k
    ((List.range (2 ^ k)).map (ufac s.numVars ch.u)) ((List.range (2 ^ k)).map (fun i => vpow ch.y⁻¹ i * ufac s.numVars ch.u i))
    (Gs.take (2 ^ k)) (Hs.take (2 ^ k)) (padL sc.l s0.numVars (2 ^ k)) (padR sc.r ch.y s0.numVars (2 ^ k))
    (by simpa using hG) (by simpa using hH) (length_padL _ hn) (length_padR _ _ hn) (by simp) (by simp)
  refine ⟨T, q, _, ?_, hcrc, ?_, hch _, D.hwt, ?_, ?_, ?_, hq⟩
  · unfold Verifier.simulate
    simp only [D.hcrc, bind, Except.bind, ← D.hch, D.hwt, D.hk, ← hpr, hcrc, hq]
    rfl
  · simp only [hpr, SimCoins.solved, SimCoins.first]
    exact hd
  · simp only [hpr, SimCoins.solved, SimCoins.first]
  · rw [polyCheck_T1]
    simp only [hpr, SimCoins.solved]
    rw [smul_neg, smul_smul, mul_inv_cancel₀ hx, one_smul]
    exact add_neg_cancel _
  · rw [ippPoint_A]
    simp only [hpr, SimCoins.solved]
    rw [smul_smul, mul_inv_cancel₀ hx, one_smul]
    exact add_sub_cancel _ _

/-- The choices of the simulator that lead to a given proof. -/
def SimCoins.of (pr : R1CSProof F G) (n : ℕ) (l r : ℕ → F) : SimCoins F G :=
  ⟨pr.A_O1, pr.S1, pr.A_I2, pr.A_O2, pr.S2, pr.T_3, pr.T_4, pr.T_5, pr.T_6, pr.t_x_blinding, pr.e_blinding, fun i => if i < n then l i else 0, fun i => if i < n then r i else 0⟩

theorem padL_congr {l l' : ℕ → F} {n : ℕ} (h : ∀ i < n, l i = l' i) (N : ℕ) : padL l n N = padL l' n N := by
  rw [padL, padL, List.map_congr_left fun i hi => h i (List.mem_range.mp hi)]
theorem padR_congr {l l' : ℕ → F} {n : ℕ} (h : ∀ i < n, l i = l' i) (y : F) (N : ℕ) : padR l y n N = padR l' y n N := by
  rw [padR, padR, List.map_congr_left fun i hi => h i (List.mem_range.mp hi)]

theorem simulate_of_view {env : Env F G} (hf : env.oracle.Fixed) {s s0 s2 : Verifier F G} {k : ℕ} {ch ch' : Chals F} {wt wt' : Weights F} (D : Dry env s s0 k ch wt) (hx : ch.x ≠ 0) {g h : G} {Gs Hs : List G}
    {pr : R1CSProof F G} {t' : Transcript F G} {l r : ℕ → F} (V : View env s s2 g h Gs Hs k ch' wt' pr t' l r) :
    s.simulate env g h Gs Hs (SimCoins.of pr s2.numVars l r) = .ok (pr, t') := by
  obtain ⟨T, hcrc, hch⟩ := D.run hf pr
  have e2 := V.hcrc
  rw [hcrc] at e2
  cases e2
  have ec : ch' = ch := by rw [V.hch, ← hch]
  subst ec
  have ew := V.hwt
  rw [show ({ s0 with transcript := T } : Verifier F G).flattenedConstraints ch'.z = s0.flattenedConstraints ch'.z from rfl, D.hwt] at ew
  cases ew
  have eL : padL (SimCoins.of pr s0.numVars l r).l s0.numVars (2 ^ k) = padL l s0.numVars (2 ^ k) := padL_congr (fun i hi => by simp [SimCoins.of, hi]) _
  have eR : padR (SimCoins.of pr s0.numVars l r).r ch'.y s0.numVars (2 ^ k) = padR r ch'.y s0.numVars (2 ^ k) := padR_congr (fun i hi => by simp [SimCoins.of, hi]) _ _
  have hs : (SimCoins.of pr s0.numVars l r).solved s0 s.numVars (2 ^ k) g h (Gs.take (2 ^ k)) (Hs.take (2 ^ k)) wt ch' = { pr with ipp := ⟨[], [], 0, 0⟩ } := by
    have hv := V.hvec
    have hp := V.hpoly
    rw [ippPoint_A] at hv
    rw [polyCheck_T1] at hp
    rw [SimCoins.solved]
    rw [eL, eR, ← V.ht, ← hv]
    refine R1CSProof.ext' ?_ rfl rfl rfl rfl rfl ?_ rfl rfl rfl rfl rfl rfl rfl rfl
    · show ch'.x⁻¹ • (_ - _) = pr.A_I1
      refine Eq.trans (congrArg (ch'.x⁻¹ • ·) (add_sub_cancel_left _ _)) ?_
      simp only [smul_smul, inv_mul_cancel₀ hx, one_smul]
    · show -(ch'.x⁻¹ • _) = pr.T_1
      have hp' := eq_neg_of_add_eq_zero_left hp
      refine Eq.trans (congrArg (fun z => -(ch'.x⁻¹ • z)) hp') ?_
      simp only [smul_neg, neg_neg, smul_smul, inv_mul_cancel₀ hx, one_smul]
  have hi := V.hipp
  have hlw : logW T ({ pr with ipp := ⟨[], [], 0, 0⟩ } : R1CSProof F G) = logW T pr := rfl
  have hst : s.start ({ pr with ipp := ⟨[], [], 0, 0⟩ } : R1CSProof F G) = s.start pr := rfl
  unfold Verifier.simulate
  simp only [D.hcrc, bind, Except.bind, ← D.hch, D.hwt, D.hk, hs, hst, hcrc, eL, eR, hlw, hi]
  rfl

/-- The verifier accepts every view. -/
theorem View.accepted [DecidableEq G] {env : Env F G} {s s2 : Verifier F G} {g h : G} {Gs Hs : List G} {k : ℕ} {ch : Chals F} {wt : Weights F} {pr : R1CSProof F G} {t' : Transcript F G} {l r : ℕ → F}
    (V : View env s s2 g h Gs Hs k ch wt pr t' l r) (hkN : nextPowerOfTwo s2.numVars = 2 ^ k) (hk : k < 32) (hG : 2 ^ k ≤ Gs.length) (hH : 2 ^ k ≤ Hs.length)
    (h0 : ∀ u ∈ ippRounds env.oracle s2.transcript pr (2 ^ k), u ≠ 0) (hb : k ≠ 0 ∨ env.batchInvert [] = .ok ([], 1)) (e : F) : Verifier.verify env s pr g h Gs Hs e = .ok t' := by
  have hn : s2.numVars ≤ 2 ^ k := hkN ▸ nextPowerOfTwo_ge _
  obtain ⟨q, hqL, hqR, hq, he⟩ := createIpp_complete env.oracle (logW s2.transcript pr) (ch.w • g) k
    ((List.range (2 ^ k)).map (ufac s.numVars ch.u)) ((List.range (2 ^ k)).map (fun i => vpow ch.y⁻¹ i * ufac s.numVars ch.u i))
    (Gs.take (2 ^ k)) (Hs.take (2 ^ k)) (padL l s2.numVars (2 ^ k)) (padR r ch.y s2.numVars (2 ^ k))
    (by simpa using hG) (by simpa using hH) (length_padL _ hn) (length_padR _ _ hn) (by simp) (by simp)
  have hq' := V.hipp
  rw [hq] at hq'
  have e1 : q = pr.ipp := (Prod.mk.inj (Except.ok.inj hq')).1
  have e2 : (ippChallenges env.oracle ((logW s2.transcript pr).ippDomainSep (2 ^ k)) (q.L.zip q.R)).2 = t' := (Prod.mk.inj (Except.ok.inj hq')).2
  subst e1
  have he := he h0
  rw [verify_eq env s s2 pr g h Gs Hs e V.hcrc k hkN hk hG hH ch V.hch wt V.hwt hqL hqR _ rfl h0 hb, V.hpoly, smul_zero, add_zero, e2, if_pos]
  unfold ippCheck
  rw [V.hvec]
  unfold ippRounds at h0
  generalize hus : (ippChallenges env.oracle ((logW s2.transcript pr).ippDomainSep (2 ^ k)) (pr.ipp.L.zip pr.ipp.R)).1 = us at he ⊢
  have hlen : us.length = k := by rw [← hus, length_ippChallenges]; simp [hqL, hqR]
  have hc : msm (padL l s2.numVars (2 ^ k)) (ippG s.numVars (2 ^ k) ch.u (Gs.take (2 ^ k))) + msm (padR r ch.y s2.numVars (2 ^ k)) (ippH s.numVars (2 ^ k) ch.u ch.y (Hs.take (2 ^ k))) + (ch.w * pr.t_x) • g =
      ippCommit (ch.w • g) (ippG s.numVars (2 ^ k) ch.u (Gs.take (2 ^ k))) (ippH s.numVars (2 ^ k) ch.u ch.y (Hs.take (2 ^ k))) (padL l s2.numVars (2 ^ k)) (padR r ch.y s2.numVars (2 ^ k)) := by
    rw [ippCommit, V.ht, smul_smul, mul_comm ch.w]
  rw [hc, ippG, ippH, ← he, ippExpected, ← msm_sVec us _ (by simp [hlen, hG, scaled]), ← msm_sVec _ _ (by simp [hlen, hH, scaled]), ← sVec_reverse]
  module

end Bp
