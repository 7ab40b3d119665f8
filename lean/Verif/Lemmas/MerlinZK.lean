import Verif.Lemmas.MerlinGame
import Verif.Lemmas.ChallengeZK

set_option linter.unusedSectionVars false

/-! # A distinguisher that asks the hash of bytes is one that asks the oracle of logs -/

namespace Bp

section
variable {F G : Type} [Field F] [AddCommGroup G] [Module F G]

theorem simulate_proofLog {env : Env F G} {s : Verifier F G} (hs : s.deferred = []) {g h : G} {Gs Hs : List G} (hG : nextPowerOfTwo s.numVars ≤ Gs.length) (hH : nextPowerOfTwo s.numVars ≤ Hs.length) {sc : SimCoins F G}
    {pr : R1CSProof F G} {T : Transcript F G} (hr : s.simulate env g h Gs Hs sc = .ok (pr, T)) : T = s.proofLog pr := by
  have crc : ∀ pr : R1CSProof F G, (s.start pr).createRandomizedConstraints env = .ok { s.start pr with pending := none, transcript := (s.start pr).transcript.r1cs1PhaseDomainSep } := by
    intro pr
    unfold Verifier.createRandomizedConstraints
    have hd : (s.start pr).deferred = [] := hs
    simp only [hd, List.length_nil, if_true]
  unfold Verifier.simulate at hr
  simp only [crc, bind, Except.bind] at hr
  split at hr
  · cases hr
  rename_i wt _
  have en : nextPowerOfTwo s.numVars = 2 ^ Nat.clog 2 s.numVars := rfl
  have hn : s.numVars ≤ 2 ^ Nat.clog 2 s.numVars := nextPowerOfTwo_ge _
  simp only [Verifier.start, en] at hr
  generalize hch : drawn env.oracle _ blankProof = ch at hr
  generalize hpr : SimCoins.solved sc _ _ _ _ _ _ _ _ _ = pr0 at hr
  obtain ⟨q, hqL, hqR, hq, -⟩ := createIpp_complete env.oracle (logW (Transcript.r1cs1PhaseDomainSep (log1 s.transcript s.V.length pr0.A_I1 pr0.A_O1 pr0.S1)) pr0) (ch.w • g) (Nat.clog 2 s.numVars)
    ((List.range (2 ^ Nat.clog 2 s.numVars)).map (ufac s.numVars ch.u)) ((List.range (2 ^ Nat.clog 2 s.numVars)).map (fun i => vpow ch.y⁻¹ i * ufac s.numVars ch.u i))
    (Gs.take (2 ^ Nat.clog 2 s.numVars)) (Hs.take (2 ^ Nat.clog 2 s.numVars)) (padL sc.l s.numVars (2 ^ Nat.clog 2 s.numVars)) (padR sc.r ch.y s.numVars (2 ^ Nat.clog 2 s.numVars))
    (by simpa [nextPowerOfTwo] using hG) (by simpa [nextPowerOfTwo] using hH) (length_padL _ hn) (length_padR _ _ hn) (by simp) (by simp)
  rw [hq] at hr
  simp only [pure, Except.pure, Except.ok.injEq, Prod.mk.injEq] at hr
  obtain ⟨rfl, rfl⟩ := hr
  rw [(ippChallenges_log _ _ _).1]
  simp [Verifier.proofLog, logW, logX, logU, logZ, logY, log1, Transcript.r1cs1PhaseDomainSep, Transcript.ippDomainSep, nextPowerOfTwo]

/-- The distinguisher that asks the logs. -/
noncomputable def RawDistinguisher.toLogs (W : Wire F G) : RawDistinguisher F G → Distinguisher F G
  | .decide b => .decide b
  | .ask q next => .ask (readOps W q) fun a => (next a).toLogs W
  | .prove p s next => .prove p s fun pr => (next pr).toLogs W

theorem RawDistinguisher.toLogs_within {W : Wire F G} {g h : G} {Gs Hs : List G} {D : ℕ} (A : RawDistinguisher F G) : ∀ {Q P}, A.Within g h Gs Hs D Q P → (A.toLogs W).Within g h Gs Hs D Q P := by
  induction A with
  | decide b => intro Q P _; trivial
  | ask q next ih =>
    rintro Q P ⟨Q', rfl, h⟩
    exact ⟨Q', rfl, fun a => ih a (h a)⟩
  | prove p s next ih =>
    rintro Q P ⟨h1, h2, P', rfl, h⟩
    exact ⟨h1.1, h2, P', rfl, fun pr => ih pr (h pr)⟩

/-- The answers known for operations, and those known for logs. -/
def SameAnswers (W : Wire F G) (K : AnsweredOps F) (K' : Answered F G) : Prop := ∀ q, K' (readOps W q) = K q

variable {W : Wire F G} {a b : ℕ}

theorem SameAnswers.add (hW : W.Faithful a b) {K : AnsweredOps F} {K' : Answered F G} (h : SameAnswers W K K') (q : List StrobeOp) (x : F) : SameAnswers W (K.add q x) (K'.add (readOps W q) x) := by
  intro q'
  unfold Answered.add AnsweredOps.add
  by_cases e : q' = q
  · subst e; simp
  · rw [if_neg e, if_neg fun h => e (readOps_inj hW h), h]

theorem SameAnswers.over (hW : W.Faithful a b) {K : AnsweredOps F} {K' : Answered F G} (h : SameAnswers W K K') (O : Oracle F G) {t : Transcript F G} (ht : t.Regular) : K.over W O t = K'.over O t := by
  unfold Answered.over AnsweredOps.over
  rw [← h, readOps_ops hW ht]

theorem SameAnswers.record (hW : W.Faithful a b) {K : AnsweredOps F} {K' : Answered F G} (h : SameAnswers W K K') {O O' : Oracle F G} {t0 T : Transcript F G} (hT : ∀ t ∈ newDraws t0 T, t.Regular)
    (hO : ∀ t ∈ newDraws t0 T, O t = O' t) : SameAnswers W (K.record W O t0 T) (K'.record O' t0 T) := by
  intro q
  unfold Answered.record AnsweredOps.record
  cases hf : (newDraws t0 T).find? fun t => t.ops W = q with
  | none =>
    have hf := List.find?_eq_none.mp hf
    rw [if_neg, h]
    intro hm
    refine hf _ hm ?_
    have := readOps_inj hW (readOps_ops hW (hT _ hm))
    simpa using this
  | some t =>
    have hm := List.mem_of_find?_eq_some hf
    have e : t.ops W = q := by simpa using List.find?_some hf
    subst e
    rw [readOps_ops hW (hT t hm), if_pos hm, ← hO t hm]

theorem newDraws_regular {s : Verifier F G} (hs : s.transcript.Regular) (hV : s.V.length < 2 ^ 64) (hn : nextPowerOfTwo s.numVars < 2 ^ 64) (pr : R1CSProof F G) : ∀ t ∈ newDraws s.transcript (s.proofLog pr), t.Regular := by
  intro t ht
  unfold newDraws at ht
  have h1 := drawsFrom_prefix _ _ _ ht
  have h2 : s.transcript ++ (s.proofLog pr).drop s.transcript.length = s.proofLog pr := by
    rw [Verifier.proofLog, List.append_assoc, List.drop_left]
  rw [h2] at h1
  exact (proofLog_regular hs hV hn pr).pre h1 (draw_ne_nil _ _ _ ht)

end

variable {n : ℕ} [Fact n.Prime] {G : Type} [AddCommGroup G] [Module (ZMod n) G] {W : Wire (ZMod n) G} {a b : ℕ}

theorem RawDistinguisher.real_toLogs (hW : W.Faithful a b) (m : ℕ) (env : Env (ZMod n) G) {g h : G} {Gs Hs : List G} {D : ℕ} (A : RawDistinguisher (ZMod n) G) :
    ∀ {Q P K K'}, A.Within g h Gs Hs D Q P → SameAnswers W K K' → A.real m W env Gs Hs K = (A.toLogs W).realBytes m env Gs Hs K' := by
  induction A with
  | decide b => intros; rfl
  | ask q next ih =>
    rintro Q P K K' ⟨Q', rfl, hw⟩ hK
    rw [RawDistinguisher.real, RawDistinguisher.toLogs, Distinguisher.realBytes, hK q]
    cases K q with
    | some x => exact ih x (hw x) hK
    | none => exact congrArg avg (funext fun x => ih _ (hw _) (hK.add hW q _))
  | prove p s next ih =>
    rintro Q P K K' ⟨⟨hp, hs, hV, hN⟩, -, P', rfl, hw⟩ hK
    rw [RawDistinguisher.real, RawDistinguisher.toLogs, Distinguisher.realBytes]
    refine congrArg avg (funext fun x => ?_)
    generalize (nextCoins s.transcript (List.ofFn (challengesOf n x.1)) : Oracle (ZMod n) G) = O
    obtain ⟨pr, T, h1, rfl, -, -, h2⟩ := hp.run env (K.over W O) x.2.1
    have hreg := newDraws_regular hs hV hN pr
    have h3 := h2 (K'.over O) fun pre l hn hpre => hK.over hW O ((proofLog_regular hs hV hN pr).pre hpre (by simp))
    rw [h1, h3]
    exact ih pr (hw pr) (hK.record hW hreg fun t ht => hK.over hW O (hreg t ht))

theorem RawDistinguisher.simulated_toLogs (hW : W.Faithful a b) (m : ℕ) (env : Env (ZMod n) G) {g h : G} {Gs Hs : List G} {D : ℕ} (A : RawDistinguisher (ZMod n) G) :
    ∀ {Q P K K'}, A.Within g h Gs Hs D Q P → SameAnswers W K K' → A.simulated m W env g h Gs Hs K = (A.toLogs W).simulatedBytes m env g h Gs Hs K' := by
  induction A with
  | decide b => intros; rfl
  | ask q next ih =>
    rintro Q P K K' ⟨Q', rfl, hw⟩ hK
    rw [RawDistinguisher.simulated, RawDistinguisher.toLogs, Distinguisher.simulatedBytes, hK q]
    cases K q with
    | some x => exact ih x (hw x) hK
    | none => exact congrArg avg (funext fun x => ih _ (hw _) (hK.add hW q _))
  | prove p s next ih =>
    rintro Q P K K' ⟨⟨hp, hs, hV, hN⟩, -, P', rfl, hw⟩ hK
    rw [RawDistinguisher.simulated, RawDistinguisher.toLogs, Distinguisher.simulatedBytes]
    refine congrArg avg (funext fun x => ?_)
    cases hsim : s.simulate { env with oracle := nextCoins s.transcript (List.ofFn (challengesOf n x.1)) } g h Gs Hs x.2.1 with
    | error e => rfl
    | ok r =>
      obtain ⟨pr, T⟩ := r
      obtain rfl := simulate_proofLog hp.deferred (hp.inStep.num ▸ hp.lenG) (hp.inStep.num ▸ hp.lenH) hsim
      exact ih pr (hw pr) (hK.record hW (newDraws_regular hs hV hN pr) fun _ _ => rfl)

end Bp
