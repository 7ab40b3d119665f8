import Verif.Lemmas.RandomOracle
import Verif.Lemmas.Average
import Verif.Props.Simulator
import Mathlib.Logic.Equiv.Prod
import Mathlib.Tactic.FieldSimp

set_option linter.unusedSectionVars false

/-! # Real and simulated proofs in the random-oracle model -/

namespace Bp
variable {F G : Type} [Field F] [AddCommGroup G] [Module F G]

theorem drawsFrom_pre : ∀ (rest acc : Transcript F G), ∀ t ∈ drawsFrom acc rest, acc <+: t
  | [], _, _, ht => by cases ht
  | e :: rest, acc, t, ht => by
    rw [drawsFrom] at ht
    split at ht
    · rcases List.mem_cons.mp ht with rfl | ht
      · exact ⟨_, rfl⟩
      · exact List.IsPrefix.trans ⟨_, rfl⟩ (drawsFrom_pre _ _ t ht)
    · exact List.IsPrefix.trans ⟨_, rfl⟩ (drawsFrom_pre _ _ t ht)

theorem length_draws_shape : ∀ (t acc : Transcript F G), (drawsFrom acc t).length = (shape t).count true
  | [], _ => rfl
  | e :: t, acc => by
    rw [drawsFrom, shape, List.map_cons]
    have ih := length_draws_shape t (acc ++ [e])
    rw [shape] at ih
    cases h : e.isChallenge
    · simp [ih]
    · simp [ih]

theorem publicCoins_fixed (cs : List F) : (publicCoins cs : Oracle F G).Fixed := fun t t' h => by
  rw [publicCoins, publicCoins, draws, draws, length_draws_shape, length_draws_shape, h]

theorem nextCoins_fixed (t0 : Transcript F G) (w : List F) : (nextCoins t0 w : Oracle F G).Fixed := publicCoins_fixed _

theorem mem_newDraws {t0 pre T : Transcript F G} {l : String} (h0 : t0 <+: T) (h : pre ++ [.challenge l] <+: T) (hn : t0.length ≤ pre.length) : pre ++ [.challenge l] ∈ newDraws t0 T := by
  obtain ⟨rest, rfl⟩ := h0
  have := mem_draws h
  rw [draws, drawsFrom_append, List.mem_append] at this
  rcases this with h | h
  · have := length_of_mem_draws h
    simp at this
    omega
  · rw [newDraws, List.drop_left]
    exact h

theorem newDraws_append (t0 rest : Transcript F G) : newDraws t0 (t0 ++ rest) = drawsFrom t0 rest := by rw [newDraws, List.drop_left]

theorem length_newDraws_proofLog (s : Verifier F G) (pr : R1CSProof F G) : (newDraws s.transcript (s.proofLog pr)).length = 5 + min pr.ipp.L.length pr.ipp.R.length := by
  rw [Verifier.proofLog, List.append_assoc, newDraws_append, drawsFrom_append, List.length_append, drawsFrom_rounds, List.length_zip]
  simp [drawsFrom, TEvent.isChallenge]

namespace Provable
variable {g h : G} {Gs Hs : List G} {p : Prover F G} {s : Verifier F G}

theorem crc (hp : Provable g h Gs Hs p s) (env : Env F G) (T : Transcript F G) :
    ({ p with transcript := T } : Prover F G).createRandomizedConstraints env = .ok { p with pending := none, transcript := T.r1cs1PhaseDomainSep } := by
  unfold Prover.createRandomizedConstraints
  simp only
  rw [if_pos (by simp [hp.onePhase])]

theorem ready (hp : Provable g h Gs Hs p s) (env : Env F G) : p.Ready env Gs Hs := fun T => ⟨_, _, hp.crc env T, hp.satisfied, hp.inRange, rfl, hp.lenG, hp.lenH⟩

theorem deferred (hp : Provable g h Gs Hs p s) : s.deferred = [] := by
  have := hp.inStep.deferred
  rw [hp.onePhase] at this
  exact List.forall₂_nil_left_iff.mp this

/-- The point that hides the inputs of the gates. -/
def first (p : Prover F G) (Gs Hs : List G) (c : Coins F) : G := vecCommit p.h (Gs.take p.aL.length) (Hs.take p.aL.length) p.aL p.aR c.iB1

theorem run (hp : Provable g h Gs Hs p s) (env : Env F G) (O : Oracle F G) (c : Coins F) :
    ∃ pr T, p.prove { env with oracle := O } c Gs Hs = .ok (pr, T) ∧ T = s.proofLog pr ∧ (newDraws s.transcript T).length = s.numDraws ∧ pr.A_I1 = first p Gs Hs c ∧
      ∀ O', AgreeAfter s.transcript.length O O' T → p.prove { env with oracle := O' } c Gs Hs = .ok (pr, T) := by
  have hcrc := fun O : Oracle F G => hp.crc { env with oracle := O } (p.start c Gs Hs).transcript
  have hn : p.aL.length ≤ 2 ^ Nat.clog 2 p.aL.length := nextPowerOfTwo_ge _
  obtain ⟨pr, T, ch, wp, lp, rp, e, H⟩ := prove_ok { env with oracle := O } p _ c Gs Hs hp.wf (hcrc O) (Nat.clog 2 p.aL.length) rfl hp.lenG hp.lenH hp.inRange
  obtain ⟨hT, l1, l2⟩ := H.log hn hp.lenG hp.lenH
  have hlog : T = s.proofLog pr := by
    rw [hT, Verifier.proofLog]
    have hA := H.hA_I1
    have hB := H.hA_O1
    have hC := H.hS1
    have hv : s.V.length = p.v.length := by rw [hp.inStep.V, List.length_zipWith, hp.inStep.lenB, Nat.min_self]
    simp only [logW, logX, logU, logZ, logY, Transcript.r1cs1PhaseDomainSep, Transcript.ippDomainSep, Prover.start, log1, hp.inStep.transcript, hp.inStep.num, hv, hA, hB, hC]
    simp [nextPowerOfTwo]
  refine ⟨pr, T, e, hlog, ?_, H.hA_I1, fun O' hO => ?_⟩
  · rw [hlog, length_newDraws_proofLog s pr, l1, l2, Nat.min_self, Verifier.numDraws, hp.inStep.num]
  · obtain ⟨pr', T', ch', wp', lp', rp', e', H'⟩ := prove_ok { env with oracle := O' } p _ c Gs Hs hp.wf (hcrc O') (Nat.clog 2 p.aL.length) rfl hp.lenG hp.lenH hp.inRange
    obtain ⟨f1, f2⟩ := H.local_run (n := s.transcript.length) (by rw [hp.inStep.transcript]; simp [Prover.start, log1, Transcript.r1cs1PhaseDomainSep]) H' hn hp.lenG hp.lenH hO
    rw [e', f1, f2]

theorem sim (hp : Provable g h Gs Hs p s) (hb : Function.Bijective fun a : F => a • h) (env env' : Env F G) (w : List F) (hy : w.getD 0 0 ≠ 0) (hx : w.getD 3 0 ≠ 0) :
    ∃ φ : { c : Coins F // c.Drawn s.numVars 0 } ≃ { sc : SimCoins F G // sc.Drawn s.numVars 0 },
      ∀ c, s.simulate { env' with oracle := nextCoins s.transcript w } g h Gs Hs (φ c).1 = p.prove { env with oracle := nextCoins s.transcript w } c.1 Gs Hs := by
  obtain ⟨s0, h1, h2⟩ := simulator_equiv { env with oracle := nextCoins s.transcript w } { env' with oracle := nextCoins s.transcript w } rfl (nextCoins_fixed _ _) p s hp.wf hp.inStep (by rw [hp.h_eq]; exact hb) Gs Hs (hp.ready _)
  have e := crc_onePhase (s := s.start blankProof) hp.deferred h1
  have en : s0.numVars = s.numVars := by rw [e]; rfl
  have hd : (draws s0.transcript).length = (draws s.transcript).length := by
    rw [e]
    show (draws (s.start blankProof).transcript.r1cs1PhaseDomainSep).length = _
    rw [Verifier.start, log1, Transcript.r1cs1PhaseDomainSep, draws, draws]
    simp only [List.append_assoc]
    rw [drawsFrom_append]
    simp [drawsFrom, TEvent.isChallenge]
  have hg : ∀ i, (List.replicate (draws s.transcript).length 0 ++ w).getD ((draws s.transcript).length + i) 0 = w.getD i 0 := by
    intro i
    rw [List.getD_eq_getElem?_getD, List.getD_eq_getElem?_getD, List.getElem?_append_right (by simp)]
    simp
  rw [show (({ env' with oracle := nextCoins s.transcript w } : Env F G).oracle) = publicCoins (List.replicate (draws s.transcript).length 0 ++ w) from rfl, drawn_coins _ _ _ hd, en, Nat.sub_self, hp.g_eq, hp.h_eq] at h2
  refine h2 ?_ ?_
  · show List.getD _ ((draws s.transcript).length + 3) 0 ≠ 0
    rw [hg]; exact hx
  · show List.getD _ ((draws s.transcript).length + 0) 0 ≠ 0
    rw [hg]; exact hy

end Provable

instance [Finite F] (n : ℕ) : Finite { c : Coins F // c.Drawn n 0 } := by
  refine Finite.of_injective (β := (F × F × F × F × F × F × F × F) × (Fin n → F) × (Fin n → F))
    (fun c => ((c.1.iB1, c.1.oB1, c.1.sB1, c.1.t1B, c.1.t3B, c.1.t4B, c.1.t5B, c.1.t6B), (fun i => c.1.sL1 i), fun i => c.1.sR1 i)) ?_
  rintro ⟨⟨a1, a2, a3, l, r, a4, a5, a6, l2, r2, a7, a8, a9, b1, b2⟩, h1, h2, h3⟩ ⟨⟨a1', a2', a3', l', r', a4', a5', a6', l2', r2', a7', a8', a9', b1', b2'⟩, h1', h2', h3'⟩ h
  simp only [Prod.mk.injEq] at h
  obtain ⟨⟨e1, e2, e3, e4, e5, e6, e7, e8⟩, eL, eR⟩ := h
  obtain ⟨f1, f2, f3⟩ := h3 rfl
  obtain ⟨f1', f2', f3'⟩ := h3' rfl
  simp only at h1 h2 h1' h2' f1 f2 f3 f1' f2' f3'
  refine Subtype.ext ?_
  simp only [Coins.mk.injEq]
  refine ⟨e1, e2, e3, funext fun i => ?_, funext fun i => ?_, by rw [f1, f1'], by rw [f2, f2'], by rw [f3, f3'], funext fun i => ?_, funext fun i => ?_, e4, e5, e6, e7, e8⟩
  · by_cases hi : i < n
    · exact congrFun eL ⟨i, hi⟩
    · rw [(h1 i (by omega)).1, (h1' i (by omega)).1]
  · by_cases hi : i < n
    · exact congrFun eR ⟨i, hi⟩
    · rw [(h1 i (by omega)).2, (h1' i (by omega)).2]
  · rw [(h2 i (by omega)).1, (h2' i (by omega)).1]
  · rw [(h2 i (by omega)).2, (h2' i (by omega)).2]

theorem Coins.zero_drawn (n m : ℕ) : (Coins.zero : Coins F).Drawn n m := ⟨fun _ _ => ⟨rfl, rfl⟩, fun _ _ => ⟨rfl, rfl⟩, fun _ => ⟨rfl, rfl, rfl⟩⟩

namespace Distinguisher

theorem real_mem (env : Env F G) (Gs Hs : List G) (A : Distinguisher F G) : ∀ K, 0 ≤ A.real env Gs Hs K ∧ A.real env Gs Hs K ≤ 1 := by
  induction A with
  | decide b => intro K; rw [real]; cases b <;> simp
  | ask q next ih =>
    intro K
    rw [real]
    split
    · exact ih _ _
    · exact ⟨avg_nonneg fun a => (ih a _).1, avg_le zero_le_one fun a => (ih a _).2⟩
  | prove p s next ih =>
    intro K
    rw [real]
    constructor
    · refine avg_nonneg fun x => ?_
      split
      · exact (ih _ _).1
      · exact le_refl _
    · refine avg_le zero_le_one fun x => ?_
      split
      · exact (ih _ _).2
      · exact zero_le_one

theorem simulated_mem (env : Env F G) (g h : G) (Gs Hs : List G) (A : Distinguisher F G) : ∀ K, 0 ≤ A.simulated env g h Gs Hs K ∧ A.simulated env g h Gs Hs K ≤ 1 := by
  induction A with
  | decide b => intro K; rw [simulated]; cases b <;> simp
  | ask q next ih =>
    intro K
    rw [simulated]
    split
    · exact ih _ _
    · exact ⟨avg_nonneg fun a => (ih a _).1, avg_le zero_le_one fun a => (ih a _).2⟩
  | prove p s next ih =>
    intro K
    rw [simulated]
    constructor
    · refine avg_nonneg fun x => ?_
      split
      · exact (ih _ _).1
      · exact le_refl _
    · refine avg_le zero_le_one fun x => ?_
      split
      · exact (ih _ _).2
      · exact zero_le_one

end Distinguisher

end Bp
