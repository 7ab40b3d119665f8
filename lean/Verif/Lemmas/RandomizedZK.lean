import Verif.Lemmas.RandomOracle3
import Verif.Spec.RandomizedZK

set_option linter.unusedSectionVars false

/-! # The callbacks only ask the questions on the log -/

namespace Bp
variable {F G : Type} [Field F] [AddCommGroup G] [Module F G]

theorem Prover.run_after {n : ℕ} {env : Env F G} {O' : Oracle F G} {C : Type} {rnd : Bool} {α : Type} {onSpec : C → Prover F G → Prover F G}
    (hs : ∀ c s, (onSpec c s).transcript = s.transcript) : ∀ (c : Prog F C rnd α) (s s' : Prover F G) (a : α), n ≤ s.transcript.length → s.run env onSpec c = .ok (a, s') →
      AgreeAfter n env.oracle O' s'.transcript → s.run { env with oracle := O' } onSpec c = .ok (a, s') := by
  intro c
  induction c with
  | ret a => intro s s' a' _ h _; exact h
  | err e => intro s s' a _ h; simp [run, Res.err] at h
  | panic w => intro s s' a _ h; simp [run, Res.panic] at h
  | multiply l r k ih =>
    intro s s' a hn h hO
    simp only [run] at h ⊢
    cases hm : s.multiply l r with
    | error e => rw [hm] at h; simp at h
    | ok q =>
      rw [hm] at h
      obtain ⟨x, y, -, -, -, e⟩ := Prover.multiply_eq (vs := q.1) (p' := q.2) hm
      exact ih _ _ _ _ (by rw [e]; exact hn) h hO
  | allocate x k ih =>
    intro s s' a hn h hO
    simp only [run] at h ⊢
    cases hm : s.allocate x with
    | error e => rw [hm] at h; simp at h
    | ok q =>
      rw [hm] at h
      exact ih _ _ _ _ (by rw [Prover.allocate_transcript hm]; exact hn) h hO
  | allocateMultiplier x k ih =>
    intro s s' a hn h hO
    simp only [run] at h ⊢
    refine ih _ _ _ _ ?_ h hO
    unfold Prover.allocateMultiplier
    cases x <;> exact hn
  | constrain lc k ih =>
    intro s s' a hn h hO
    simp only [run] at h ⊢
    exact ih (s.constrain lc) _ _ hn h hO
  | specify cb k ih =>
    intro s s' a hn h hO
    simp only [run] at h ⊢
    exact ih _ _ _ (by rw [hs]; exact hn) h hO
  | evaluateLc lc k ih =>
    intro s s' a hn h hO
    simp only [run] at h ⊢
    cases hm : s.eval lc with
    | error e => rw [hm] at h; simp at h
    | ok q => rw [hm] at h; exact ih _ _ _ _ hn h hO
  | allocateSingle x k ih =>
    intro s s' a hn h hO
    simp only [run] at h ⊢
    cases hm : s.allocateSingle x with
    | error e => rw [hm] at h; simp at h
    | ok q =>
      rw [hm] at h
      exact ih _ _ _ _ (by rw [Prover.allocateSingle_transcript hm]; exact hn) h hO
  | challenge hr l k ih =>
    intro s s' a hn h hO
    simp only [run] at h ⊢
    obtain ⟨ls, h1, -, -⟩ := Prover.run_log hs _ _ _ _ h
    have e : env.oracle (s.transcript ++ [.challenge l]) = O' (s.transcript ++ [.challenge l]) := hO s.transcript l hn (by rw [h1]; simp [Transcript.challengeScalar])
    have := ih _ _ _ _ (by simp [Transcript.challengeScalar]; omega) h hO
    simp only [Transcript.challengeScalar] at this ⊢
    rw [← e]
    exact this
  | simplify lc k ih =>
    intro s s' a hn h hO
    simp only [run] at h ⊢
    exact ih (lc.simplify (env.hashOrd s.seed)) _ _ _ (by exact hn) h hO

theorem Prover.runCallbacks_after {n : ℕ} {env : Env F G} {O' : Oracle F G} : ∀ (cbs : List (Callback F)) (s s' : Prover F G), n ≤ s.transcript.length → s.runCallbacks env cbs = .ok s' → AgreeAfter n env.oracle O' s'.transcript →
    s.runCallbacks { env with oracle := O' } cbs = .ok s' := by
  intro cbs
  induction cbs with
  | nil => intro s s' _ h _; exact h
  | cons cb cbs ih =>
    intro s s' hn h hO
    simp only [runCallbacks] at h ⊢
    cases hr : s.run2 env cb with
    | error e => rw [hr] at h; simp at h
    | ok q =>
      rw [hr] at h
      obtain ⟨u, q⟩ := q
      simp only at h
      obtain ⟨ls, h1, -, -⟩ := Prover.run_log (fun e => e.elim) cb s q u hr
      obtain ⟨ls', h1', -⟩ := Prover.runCallbacks_log _ _ _ h
      have : s.run2 { env with oracle := O' } cb = .ok (u, q) := Prover.run_after (fun e => e.elim) cb s q u hn hr fun pre l h1 h2 => hO pre l h1 (h2.trans ⟨_, h1'.symm⟩)
      rw [this]
      exact ih q s' (by rw [h1]; simp; omega) h hO

theorem Prover.crc_after {n : ℕ} {env : Env F G} {O' : Oracle F G} {s s' : Prover F G} (hn : n ≤ s.transcript.length) (h : s.createRandomizedConstraints env = .ok s') (hO : AgreeAfter n env.oracle O' s'.transcript) :
    s.createRandomizedConstraints { env with oracle := O' } = .ok s' := by
  unfold createRandomizedConstraints at h ⊢
  simp only at h ⊢
  by_cases hd : s.deferred.length = 0
  · rw [if_pos hd] at h ⊢
    exact h
  · rw [if_neg hd] at h ⊢
    exact Prover.runCallbacks_after _ _ _ (by simp [Transcript.r1cs2PhaseDomainSep]; omega) h hO

theorem drawsFrom_challenges : ∀ (ls : List String) (acc : Transcript F G), (drawsFrom acc (ls.map TEvent.challenge)).length = ls.length
  | [], _ => rfl
  | l :: ls, acc => by
    rw [List.map_cons, drawsFrom]
    simp [TEvent.isChallenge, drawsFrom_challenges ls]

namespace Provable2
variable {g h : G} {Gs Hs : List G} {p : Prover F G} {s : Verifier F G}

theorem ready (hp : Provable2 g h Gs Hs p s) (env : Env F G) : p.Ready env Gs Hs := fun T => by
  obtain ⟨p2, h1, h2, h3, h4, -⟩ := hp.second env T
  exact ⟨p2, _, h1, h2, h3, rfl, by rw [h4]; exact hp.lenG, by rw [h4]; exact hp.lenH⟩

theorem run (hp : Provable2 g h Gs Hs p s) (env : Env F G) (O : Oracle F G) (c : Coins F) :
    ∃ pr T, p.prove { env with oracle := O } c Gs Hs = .ok (pr, T) ∧ (∃ rest, T = s.opening pr.A_I1 ++ rest) ∧ (newDraws s.transcript T).length = s.allDraws ∧ pr.A_I1 = Provable.first p Gs Hs c ∧
      ∀ O', AgreeAfter s.transcript.length O O' T → p.prove { env with oracle := O' } c Gs Hs = .ok (pr, T) := by
  obtain ⟨p2, hcrc, hsat, hin, hl, hd⟩ := hp.second { env with oracle := O } (p.start c Gs Hs).transcript
  have hk : nextPowerOfTwo p2.aL.length = 2 ^ Nat.clog 2 p2.aL.length := rfl
  have hn : p2.aL.length ≤ 2 ^ Nat.clog 2 p2.aL.length := nextPowerOfTwo_ge _
  have hG : 2 ^ Nat.clog 2 p2.aL.length ≤ Gs.length := by rw [hl]; exact hp.lenG
  have hH : 2 ^ Nat.clog 2 p2.aL.length ≤ Hs.length := by rw [hl]; exact hp.lenH
  obtain ⟨pr, T, ch, wp, lp, rp, e, H⟩ := prove_ok { env with oracle := O } p p2 c Gs Hs hp.wf hcrc _ hk hG hH hin
  obtain ⟨hT, l1, l2⟩ := H.log hn hG hH
  obtain ⟨ls, hls, -, -⟩ := Prover.crc_log hcrc
  have hv : s.V.length = p.v.length := by rw [hp.inStep.V, List.length_zipWith, hp.inStep.lenB, Nat.min_self]
  have h2 : p2.transcript = s.opening pr.A_I1 ++ [.point "A_O1" pr.A_O1, .point "S1" pr.S1] ++ .domSep (if decide (p.deferred ≠ []) then "r1cs-2phase" else "r1cs-1phase") :: ls.map TEvent.challenge := by
    have hA := H.hA_I1
    have hB := H.hA_O1
    have hC := H.hS1
    have hls : p2.transcript = (p.start c Gs Hs).transcript ++ .domSep (if decide (p.deferred ≠ []) then "r1cs-2phase" else "r1cs-1phase") :: ls.map TEvent.challenge := hls
    rw [hls]
    simp only [Verifier.opening, Prover.start, log1, hp.inStep.transcript, hv, hA, hB, hC]
    simp
  have hd' : ls.length = s.secondPhase.1 := by
    have hls : p2.transcript = (p.start c Gs Hs).transcript ++ .domSep (if decide (p.deferred ≠ []) then "r1cs-2phase" else "r1cs-1phase") :: ls.map TEvent.challenge := hls
    rw [hls, draws, drawsFrom_append, List.length_append, ← draws] at hd
    have hd := Nat.add_left_cancel hd
    rw [← hd, drawsFrom]
    simp [TEvent.isChallenge, drawsFrom_challenges]
  refine ⟨pr, T, e, ?_, ?_, H.hA_I1, fun O' hO => ?_⟩
  · rw [hT, logW, logX, logU, logZ, logY, h2, Transcript.ippDomainSep]
    simp only [List.append_assoc]
    exact ⟨_, rfl⟩
  · rw [hT, logW, logX, logU, logZ, logY, h2, Transcript.ippDomainSep, Verifier.opening]
    simp only [List.append_assoc]
    rw [newDraws_append]
    simp only [List.cons_append, List.nil_append, drawsFrom, TEvent.isChallenge, if_false, Bool.false_eq_true, if_true, drawsFrom_append, List.length_append, List.length_cons, drawsFrom_challenges, drawsFrom_rounds, List.length_zip, l1, l2,
      Nat.min_self]
    rw [hd', Verifier.allDraws, hp.inStep.num, ← hl]
    omega
  · have hn0 : s.transcript.length ≤ (p.start c Gs Hs).transcript.length := by rw [hp.inStep.transcript]; simp [Prover.start, log1]
    have hpre : p2.transcript <+: T := by
      rw [hT, logW, logX, logU, logZ, logY, Transcript.ippDomainSep]
      simp only [List.append_assoc]
      exact ⟨_, rfl⟩
    have hcrc' := Prover.crc_after (O' := O') hn0 hcrc fun pre l h1 h2 => hO pre l h1 (h2.trans hpre)
    obtain ⟨pr', T', ch', wp', lp', rp', e', H'⟩ := prove_ok { env with oracle := O' } p p2 c Gs Hs hp.wf hcrc' _ hk hG hH hin
    obtain ⟨f1, f2⟩ := H.local_run (n := s.transcript.length) (by rw [h2]; simp [Verifier.opening]) H' hn hG hH hO
    rw [e', f1, f2]

theorem sim (hp : Provable2 g h Gs Hs p s) (hb : Function.Bijective fun a : F => a • h) (env env' : Env F G) (w : List F) (hy : w.getD s.secondPhase.1 0 ≠ 0) (hx : w.getD (s.secondPhase.1 + 3) 0 ≠ 0) :
    ∃ φ : { c : Coins F // c.Drawn s.numVars s.secondPhase.2 } ≃ { sc : SimCoins F G // sc.Drawn s.numVars s.secondPhase.2 },
      ∀ c, s.simulate { env' with oracle := nextCoins s.transcript w } g h Gs Hs (φ c).1 = p.prove { env with oracle := nextCoins s.transcript w } c.1 Gs Hs := by
  obtain ⟨s0, h1, h2⟩ := simulator_equiv { env with oracle := nextCoins s.transcript w } { env' with oracle := nextCoins s.transcript w } rfl (nextCoins_fixed _ _) p s hp.wf hp.inStep (by rw [hp.h_eq]; exact hb) Gs Hs (hp.ready _)
  obtain ⟨p2, hcrc, hsat, hin, hl, hd⟩ := hp.second { env with oracle := nextCoins s.transcript w } (s.start blankProof).transcript
  have hT0 : InStep ({ p with transcript := (s.start blankProof).transcript } : Prover F G) (s.start blankProof) := { hp.inStep with transcript := rfl }
  obtain ⟨s2, hc2, hst2⟩ := crc_same (env := { env with oracle := nextCoins s.transcript w }) (env' := { env' with oracle := nextCoins s.transcript w }) rfl hT0 hcrc
  rw [h1] at hc2
  cases hc2
  have en : s0.numVars - s.numVars = s.secondPhase.2 := by rw [hst2.num, hl, hp.inStep.num]; omega
  have hd : (draws s0.transcript).length = (draws s.transcript).length + s.secondPhase.1 := by
    rw [hst2.transcript, hd]
    congr 1
    rw [Verifier.start, log1, draws, draws]
    simp only [List.append_assoc]
    rw [drawsFrom_append]
    simp [drawsFrom, TEvent.isChallenge]
  have hg : ∀ i, (List.replicate (draws s.transcript).length 0 ++ w).getD ((draws s.transcript).length + i) 0 = w.getD i 0 := by
    intro i
    rw [List.getD_eq_getElem?_getD, List.getD_eq_getElem?_getD, List.getElem?_append_right (by simp)]
    simp
  rw [show (({ env' with oracle := nextCoins s.transcript w } : Env F G).oracle) = publicCoins (List.replicate (draws s.transcript).length 0 ++ w) from rfl, drawn_coins _ _ _ hd, en, hp.g_eq, hp.h_eq] at h2
  refine h2 ?_ ?_
  · show List.getD _ ((draws s.transcript).length + s.secondPhase.1 + 3) 0 ≠ 0
    rw [Nat.add_assoc, hg]; exact hx
  · show List.getD _ ((draws s.transcript).length + s.secondPhase.1) 0 ≠ 0
    rw [hg]; exact hy

end Provable2

instance [Finite F] (n m : ℕ) : Finite { c : Coins F // c.Drawn n m } := by
  refine Finite.of_injective (β := (F × F × F × F × F × F × F × F × F × F × F) × ((Fin n → F) × (Fin n → F)) × (Fin m → F) × (Fin m → F))
    (fun c => ((c.1.iB1, c.1.oB1, c.1.sB1, c.1.iB2, c.1.oB2, c.1.sB2, c.1.t1B, c.1.t3B, c.1.t4B, c.1.t5B, c.1.t6B), ((fun i => c.1.sL1 i), fun i => c.1.sR1 i), (fun i => c.1.sL2 i), fun i => c.1.sR2 i)) ?_
  rintro ⟨⟨a1, a2, a3, l, r, a4, a5, a6, l2, r2, a7, a8, a9, b1, b2⟩, h1, h2, h3⟩ ⟨⟨a1', a2', a3', l', r', a4', a5', a6', l2', r2', a7', a8', a9', b1', b2'⟩, h1', h2', h3'⟩ h
  simp only [Prod.mk.injEq] at h
  obtain ⟨⟨e1, e2, e3, f1, f2, f3, e4, e5, e6, e7, e8⟩, ⟨eL, eR⟩, eL2, eR2⟩ := h
  simp only at h1 h2 h1' h2'
  refine Subtype.ext ?_
  simp only [Coins.mk.injEq]
  refine ⟨e1, e2, e3, funext fun i => ?_, funext fun i => ?_, f1, f2, f3, funext fun i => ?_, funext fun i => ?_, e4, e5, e6, e7, e8⟩
  · by_cases hi : i < n
    · exact congrFun eL ⟨i, hi⟩
    · rw [(h1 i (by omega)).1, (h1' i (by omega)).1]
  · by_cases hi : i < n
    · exact congrFun eR ⟨i, hi⟩
    · rw [(h1 i (by omega)).2, (h1' i (by omega)).2]
  · by_cases hi : i < m
    · exact congrFun eL2 ⟨i, hi⟩
    · rw [(h2 i (by omega)).1, (h2' i (by omega)).1]
  · by_cases hi : i < m
    · exact congrFun eR2 ⟨i, hi⟩
    · rw [(h2 i (by omega)).2, (h2' i (by omega)).2]

open Classical in
theorem avg_opening2 [Fintype F] {ι : Type} [Finite ι] {h : G} (hb : Function.Bijective fun a : F => a • h) {p : Prover F G} (hh : p.h = h) (s : Verifier F G) (Gs Hs : List G) (q : Transcript F G) (n m : ℕ) :
    avg (fun x : ι × { c : Coins F // c.Drawn n m } => if s.opening (Provable.first p Gs Hs x.2.1) <+: q then (1 : ℚ) else 0) ≤ 1 / Fintype.card F := by
  have key := avg_indicator (F := F) (fun x : ι × { c : Coins F // c.Drawn n m } => s.opening (Provable.first p Gs Hs x.2.1) <+: q) (fun x a => (x.1, ⟨{ x.2.1 with iB1 := a }, x.2.2⟩)) ?_
  · convert key
  rintro ⟨w, c, hc⟩ ⟨w', c', hc'⟩ a b h1 h2 e
  have e1 := opening_inj h1 h2
  simp only [Provable.first, vecCommit, hh] at e1
  have e2 : c.iB1 = c'.iB1 := hb.1 (add_left_cancel e1)
  obtain ⟨rfl, e⟩ := Prod.mk.inj e
  have e3 := congrArg Subtype.val e
  simp only [Coins.mk.injEq] at e3
  obtain ⟨rfl, e3⟩ := e3
  refine ⟨?_, rfl⟩
  simp only [Prod.mk.injEq, Subtype.mk.injEq, true_and]
  cases c; cases c'
  simp only [Coins.mk.injEq] at e3 e2 ⊢
  exact ⟨e2, e3⟩


theorem transcript_prefix2 {s : Verifier F G} {A : G} {T : Transcript F G} (h : ∃ rest, T = s.opening A ++ rest) : s.transcript <+: T := by
  obtain ⟨rest, rfl⟩ := h
  rw [Verifier.opening, List.append_assoc]
  exact ⟨_, rfl⟩

theorem opening_draws {s : Verifier F G} {A : G} {T t : Transcript F G} (h : ∃ rest, T = s.opening A ++ rest) (ht : t ∈ newDraws s.transcript T) : s.opening A <+: t := by
  obtain ⟨rest, rfl⟩ := h
  rw [Verifier.opening, List.append_assoc, newDraws_append, List.cons_append, List.cons_append, drawsFrom, drawsFrom] at ht
  have := drawsFrom_pre _ _ t ht
  rw [List.append_assoc] at this
  exact this

namespace Distinguisher

theorem real2_mem (env : Env F G) (Gs Hs : List G) (A : Distinguisher F G) : ∀ K, 0 ≤ A.real2 env Gs Hs K ∧ A.real2 env Gs Hs K ≤ 1 := by
  induction A with
  | decide b => intro K; rw [real2]; cases b <;> simp
  | ask q next ih =>
    intro K
    rw [real2]
    split
    · exact ih _ _
    · exact ⟨avg_nonneg fun a => (ih a _).1, avg_le zero_le_one fun a => (ih a _).2⟩
  | prove p s next ih =>
    intro K
    rw [real2]
    constructor
    · refine avg_nonneg fun x => ?_
      split
      · exact (ih _ _).1
      · exact le_refl _
    · refine avg_le zero_le_one fun x => ?_
      split
      · exact (ih _ _).2
      · exact zero_le_one

theorem simulated2_mem (env : Env F G) (g h : G) (Gs Hs : List G) (A : Distinguisher F G) : ∀ K, 0 ≤ A.simulated2 env g h Gs Hs K ∧ A.simulated2 env g h Gs Hs K ≤ 1 := by
  induction A with
  | decide b => intro K; rw [simulated2]; cases b <;> simp
  | ask q next ih =>
    intro K
    rw [simulated2]
    split
    · exact ih _ _
    · exact ⟨avg_nonneg fun a => (ih a _).1, avg_le zero_le_one fun a => (ih a _).2⟩
  | prove p s next ih =>
    intro K
    rw [simulated2]
    constructor
    · refine avg_nonneg fun x => ?_
      split
      · exact (ih _ _).1
      · exact le_refl _
    · refine avg_le zero_le_one fun x => ?_
      split
      · exact (ih _ _).2
      · exact zero_le_one

open Classical in
theorem real_simulated2 [Fintype F] {g h : G} {Gs Hs : List G} {D : ℕ} (hb : Function.Bijective fun a : F => a • h) (env env' : Env F G) (A : Distinguisher F G) :
    ∀ (Q P : ℕ) (K : Answered F G) (keys : List (Transcript F G)), A.Within2 g h Gs Hs D Q P → (∀ q, K q ≠ none → q ∈ keys) →
      |A.real2 env Gs Hs K - A.simulated2 env' g h Gs Hs K| ≤ (P * (keys.length + Q + P * D + 2) : ℕ) / Fintype.card F := by
  induction A with
  | decide b =>
    intro Q P K keys _ _
    rw [real2, simulated2, sub_self, abs_zero]
    positivity
  | ask q next ih =>
    intro Q P K keys hA hK
    obtain ⟨Q', rfl, hA⟩ := hA
    rw [real2, simulated2]
    cases hq : K q with
    | some a =>
      refine (ih a Q' P K keys (hA a) hK).trans (div_le_div_of_nonneg_right ?_ (Nat.cast_nonneg _))
      exact_mod_cast Nat.mul_le_mul_left _ (by omega)
    | none =>
      refine (avg_sub_le (d := fun _ => ((P * (keys.length + (Q' + 1) + P * D + 2) : ℕ) : ℚ) / Fintype.card F) fun a => ?_).trans (le_of_eq (avg_const _))
      refine (ih a Q' P (K.add q a) (q :: keys) (hA a) ?_).trans (le_of_eq ?_)
      · intro t ht
        unfold Answered.add at ht
        split at ht
        · next e => rw [e]; exact List.mem_cons_self
        · exact List.mem_cons_of_mem _ (hK t ht)
      · rw [List.length_cons, show keys.length + 1 + Q' = keys.length + (Q' + 1) by omega]
  | prove p s next ih =>
    intro Q P K keys hA hK
    obtain ⟨hp, hD, P', rfl, hA⟩ := hA
    have h0 : s.secondPhase.1 < s.allDraws := by unfold Verifier.allDraws; omega
    have h3 : s.secondPhase.1 + 3 < s.allDraws := by unfold Verifier.allDraws; omega
    have hget : ∀ (w : Fin s.allDraws → F) (i : Fin s.allDraws), (List.ofFn w).getD i 0 = w i := by
      intro w i
      rw [List.getD_eq_getElem?_getD, List.getElem?_ofFn, dif_pos i.2]
      rfl
    have hex : ∀ w : Fin s.allDraws → F, ∃ φ : { c : Coins F // c.Drawn s.numVars s.secondPhase.2 } ≃ { sc : SimCoins F G // sc.Drawn s.numVars s.secondPhase.2 }, w ⟨s.secondPhase.1, h0⟩ ≠ 0 → w ⟨s.secondPhase.1 + 3, h3⟩ ≠ 0 →
        ∀ c, s.simulate { env' with oracle := nextCoins s.transcript (List.ofFn w) } g h Gs Hs (φ c).1 = p.prove { env with oracle := nextCoins s.transcript (List.ofFn w) } c.1 Gs Hs := by
      intro w
      by_cases hw : w ⟨s.secondPhase.1, h0⟩ ≠ 0 ∧ w ⟨s.secondPhase.1 + 3, h3⟩ ≠ 0
      · obtain ⟨φ, hφ⟩ := hp.sim hb env env' (List.ofFn w) (by rw [hget w ⟨s.secondPhase.1, h0⟩]; exact hw.1) (by rw [hget w ⟨s.secondPhase.1 + 3, h3⟩]; exact hw.2)
        exact ⟨φ, fun _ _ => hφ⟩
      · obtain ⟨φ, -⟩ := hp.sim hb env env' (List.replicate (s.secondPhase.1 + 4) 1) (by simp [List.getD_eq_getElem?_getD]) (by simp [List.getD_eq_getElem?_getD])
        exact ⟨φ, fun a b => absurd ⟨a, b⟩ hw⟩
    choose φ hφ using hex
    rw [real2, simulated2, ← avg_equiv (Equiv.prodShear (Equiv.refl _) φ)]
    set ε : ℚ := ((P' * (keys.length + D + Q + P' * D + 2) : ℕ) : ℚ) / Fintype.card F with hε
    have hε0 : 0 ≤ ε := by rw [hε]; positivity
    refine (avg_sub_le (d := fun x : (Fin s.allDraws → F) × { c : Coins F // c.Drawn s.numVars s.secondPhase.2 } => ε + (if x.1 ⟨s.secondPhase.1, h0⟩ = 0 then (1 : ℚ) else 0) + (if x.1 ⟨s.secondPhase.1 + 3, h3⟩ = 0 then (1 : ℚ) else 0) +
      (keys.map fun q => if s.opening (Provable.first p Gs Hs x.2.1) <+: q then (1 : ℚ) else 0).sum) ?_).trans ?_
    · rintro ⟨w, c⟩
      simp only [Equiv.prodShear_apply, Equiv.refl_apply]
      obtain ⟨pr, T, e1, e2, e3, e4, e5⟩ := hp.run env (nextCoins s.transcript (List.ofFn w)) c.1
      obtain ⟨pr', T', e1', -, -, -, -⟩ := hp.run env (K.over (nextCoins s.transcript (List.ofFn w))) c.1
      have hs0 : 0 ≤ (keys.map fun q => if s.opening (Provable.first p Gs Hs c.1) <+: q then (1 : ℚ) else 0).sum := by
        refine List.sum_nonneg fun x hx => ?_
        obtain ⟨q, -, rfl⟩ := List.mem_map.mp hx
        split <;> simp
      have h10 : (0 : ℚ) ≤ if w ⟨s.secondPhase.1, h0⟩ = 0 then (1 : ℚ) else 0 := by split <;> simp
      have h13 : (0 : ℚ) ≤ if w ⟨s.secondPhase.1 + 3, h3⟩ = 0 then (1 : ℚ) else 0 := by split <;> simp
      have key : ∀ a b : ℚ, 0 ≤ a ∧ a ≤ 1 → 0 ≤ b ∧ b ≤ 1 → |a - b| ≤ 1 := fun a b ha hb => abs_le.mpr ⟨by linarith [ha.1, hb.2], by linarith [ha.2, hb.1]⟩
      have r1 : 0 ≤ (match p.prove { env with oracle := K.over (nextCoins s.transcript (List.ofFn w)) } c.1 Gs Hs with
          | .ok (pr, T) => (next pr).real2 env Gs Hs (K.record (K.over (nextCoins s.transcript (List.ofFn w))) s.transcript T)
          | .error _ => 0) ∧ (match p.prove { env with oracle := K.over (nextCoins s.transcript (List.ofFn w)) } c.1 Gs Hs with
          | .ok (pr, T) => (next pr).real2 env Gs Hs (K.record (K.over (nextCoins s.transcript (List.ofFn w))) s.transcript T)
          | .error _ => 0) ≤ 1 := by
        rw [e1']
        exact real2_mem _ _ _ _ _
      have r2 : 0 ≤ (match s.simulate { env' with oracle := nextCoins s.transcript (List.ofFn w) } g h Gs Hs (φ w c).1 with
          | .ok (pr, T) => (next pr).simulated2 env' g h Gs Hs (K.record (nextCoins s.transcript (List.ofFn w)) s.transcript T)
          | .error _ => 0) ∧ (match s.simulate { env' with oracle := nextCoins s.transcript (List.ofFn w) } g h Gs Hs (φ w c).1 with
          | .ok (pr, T) => (next pr).simulated2 env' g h Gs Hs (K.record (nextCoins s.transcript (List.ofFn w)) s.transcript T)
          | .error _ => 0) ≤ 1 := by
        split
        · exact simulated2_mem _ _ _ _ _ _ _
        · exact ⟨le_refl _, zero_le_one⟩
      by_cases hw0 : w ⟨s.secondPhase.1, h0⟩ = 0
      · refine (key _ _ r1 r2).trans ?_
        rw [if_pos hw0]
        linarith
      by_cases hw3 : w ⟨s.secondPhase.1 + 3, h3⟩ = 0
      · refine (key _ _ r1 r2).trans ?_
        rw [if_pos hw3]
        linarith
      by_cases hbad : ∃ q ∈ keys, s.opening (Provable.first p Gs Hs c.1) <+: q
      · refine (key _ _ r1 r2).trans ?_
        obtain ⟨q, hq, hpre⟩ := hbad
        have : (1 : ℚ) ≤ (keys.map fun q => if s.opening (Provable.first p Gs Hs c.1) <+: q then (1 : ℚ) else 0).sum := by
          refine (le_of_eq ?_).trans (List.single_le_sum ?_ _ (List.mem_map.mpr ⟨q, hq, rfl⟩))
          · rw [if_pos hpre]
          · intro x hx
            obtain ⟨q, -, rfl⟩ := List.mem_map.mp hx
            split <;> simp
        linarith
      · have hfresh : ∀ t ∈ newDraws s.transcript T, K t = none := by
          intro t ht
          by_contra hne
          refine hbad ⟨t, hK t hne, ?_⟩
          rw [← e4]
          exact opening_draws e2 ht
        have hag : AgreeAfter s.transcript.length (nextCoins s.transcript (List.ofFn w)) (K.over (nextCoins s.transcript (List.ofFn w))) T := by
          intro pre l hn hpre
          rw [Answered.over, hfresh _ (mem_newDraws (transcript_prefix2 e2) hpre hn)]
          rfl
        have hrec : K.record (K.over (nextCoins s.transcript (List.ofFn w))) s.transcript T = K.record (nextCoins s.transcript (List.ofFn w)) s.transcript T := by
          funext t
          unfold Answered.record
          split
          · next ht => rw [Answered.over, hfresh t ht]; rfl
          · rfl
        rw [hφ w hw0 hw3 c, e1, e5 _ hag]
        simp only
        rw [hrec]
        refine (ih pr Q P' (K.record (nextCoins s.transcript (List.ofFn w)) s.transcript T) (newDraws s.transcript T ++ keys) (hA pr) ?_).trans ?_
        · intro t ht
          unfold Answered.record at ht
          split at ht
          · next e => exact List.mem_append_left _ e
          · exact List.mem_append_right _ (hK t ht)
        · refine le_trans (b := ε) (div_le_div_of_nonneg_right ?_ (Nat.cast_nonneg _)) (by linarith)
          rw [List.length_append, e3]
          exact_mod_cast Nat.mul_le_mul_left _ (by omega)
    · haveI : Nonempty ((Fin s.allDraws → F) × { c : Coins F // c.Drawn s.numVars s.secondPhase.2 }) := ⟨(fun _ => 0, ⟨Coins.zero, Coins.zero_drawn _ _⟩)⟩
      rw [avg_add, avg_add, avg_add, avg_const, avg_sum]
      have b0 := avg_zero (F := F) (ι := { c : Coins F // c.Drawn s.numVars s.secondPhase.2 }) (⟨s.secondPhase.1, h0⟩ : Fin s.allDraws)
      have b3 := avg_zero (F := F) (ι := { c : Coins F // c.Drawn s.numVars s.secondPhase.2 }) (⟨s.secondPhase.1 + 3, h3⟩ : Fin s.allDraws)
      have bs : (keys.map fun q => avg fun x : (Fin s.allDraws → F) × { c : Coins F // c.Drawn s.numVars s.secondPhase.2 } => if s.opening (Provable.first p Gs Hs x.2.1) <+: q then (1 : ℚ) else 0).sum ≤ keys.length * (1 / Fintype.card F) := by
        refine (List.sum_le_card_nsmul _ (1 / Fintype.card F : ℚ) ?_).trans (le_of_eq ?_)
        · intro x hx
          obtain ⟨q, -, rfl⟩ := List.mem_map.mp hx
          exact avg_opening2 hb hp.h_eq s Gs Hs q _ _
        · rw [List.length_map, nsmul_eq_mul]
      refine (add_le_add (add_le_add (add_le_add (le_refl ε) b0) b3) bs).trans ?_
      have : ε + 1 / Fintype.card F + 1 / Fintype.card F + keys.length * (1 / Fintype.card F) = ((P' * (keys.length + D + Q + P' * D + 2) + 2 + keys.length : ℕ) : ℚ) / Fintype.card F := by
        rw [hε]
        push_cast
        ring
      rw [this]
      refine div_le_div_of_nonneg_right ?_ (Nat.cast_nonneg _)
      have : P' * (keys.length + D + Q + P' * D + 2) + 2 + keys.length ≤ (P' + 1) * (keys.length + Q + (P' + 1) * D + 2) := by nlinarith [Nat.zero_le (P' * D), Nat.zero_le Q, Nat.zero_le D]
      exact_mod_cast this

theorem simulated2_same {g h : G} {Gs Hs : List G} (env : Env F G) {A A' : Distinguisher F G} (hs : SameStatements A A') : ∀ K, A.simulated2 env g h Gs Hs K = A'.simulated2 env g h Gs Hs K := by
  induction hs with
  | decide b => intro K; rfl
  | ask q _ ih =>
    intro K
    rw [simulated2, simulated2]
    split
    · exact ih _ _
    · exact congrArg avg (funext fun a => ih a _)
  | prove p p' s _ ih =>
    intro K
    rw [simulated2, simulated2]
    refine congrArg avg (funext fun x => ?_)
    split
    · exact ih _ _
    · rfl

end Distinguisher

end Bp
