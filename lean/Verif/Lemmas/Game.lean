import Verif.Lemmas.Uniform
import Verif.Lemmas.Attack

/-! # The log of a proof, and the questions of the game -/

set_option linter.unusedSectionVars false

namespace Bp
variable {F G M : Type} [Field F] [AddCommGroup G] [SMul F G]

/-- A verifier without randomized constraints. -/
theorem crc_onePhase {env : Env F G} {s s2 : Verifier F G} (hs : s.deferred = []) (h : s.createRandomizedConstraints env = .ok s2) : s2 = { s with pending := none, transcript := s.transcript.r1cs1PhaseDomainSep } := by
  unfold Verifier.createRandomizedConstraints at h
  simp only [hs, List.length_nil, if_true, Except.ok.injEq] at h
  rw [← h, hs]

theorem nextPowerOfTwo_inj {n k : ℕ} (h : nextPowerOfTwo n = 2 ^ k) : Nat.clog 2 n = k := Nat.pow_right_injective (le_refl 2) h

theorem verify_proofLog [DecidableEq G] {env : Env F G} {s : Verifier F G} (hs : s.deferred = []) {pr : R1CSProof F G} {g h : G} {Gs Hs : List G} {r : F} {T : Transcript F G} (hv : s.verify env pr g h Gs Hs r = .ok T) :
    T = s.proofLog pr ∧ pr.ipp.L.length = Nat.clog 2 s.numVars ∧ pr.ipp.R.length = Nat.clog 2 s.numVars := by
  obtain ⟨s2, wt, k, i1, i2, i3, i4, i5, i6, i7, i8, i9⟩ := verify_inv hv
  have e := crc_onePhase (s := s.start pr) hs i1
  have en : s2.numVars = s.numVars := by rw [e]; rfl
  rw [en] at i2
  refine ⟨?_, i7.trans (nextPowerOfTwo_inj i2).symm, i8.trans (nextPowerOfTwo_inj i2).symm⟩
  rw [i9, (ippChallenges_log _ _ _).1, ← i2, e]
  simp [Verifier.proofLog, logW, logX, logU, logZ, logY, Verifier.start, log1, Transcript.r1cs1PhaseDomainSep, Transcript.ippDomainSep]

theorem drawsFrom_none : ∀ (t acc : Transcript F G), (∀ e ∈ t, e.isChallenge = false) → drawsFrom acc t = []
  | [], _, _ => rfl
  | e :: t, acc, h => by
    rw [drawsFrom, h e (by simp), if_neg (by simp)]
    exact drawsFrom_none t _ fun e he => h e (by simp [he])

theorem drawsFrom_rounds : ∀ (ps : List (G × G)) (acc : Transcript F G), (drawsFrom acc (roundsLog ps)).length = ps.length
  | [], _ => rfl
  | q :: ps, acc => by
    have e : (roundsLog (q :: ps) : Transcript F G) = .point "L" q.1 :: .point "R" q.2 :: .challenge "u" :: roundsLog ps := rfl
    rw [e]
    simp [drawsFrom, TEvent.isChallenge, drawsFrom_rounds ps]

theorem length_draws_proofLog (s : Verifier F G) (pr : R1CSProof F G) (hs : ∀ e ∈ s.transcript, e.isChallenge = false) : (draws (s.proofLog pr)).length = 5 + min pr.ipp.L.length pr.ipp.R.length := by
  unfold draws Verifier.proofLog
  rw [drawsFrom_append, drawsFrom_append, drawsFrom_none _ _ hs, List.nil_append, List.length_append, drawsFrom_rounds, List.length_zip]
  simp [drawsFrom, TEvent.isChallenge]

theorem OnePhase.noDraw {d : Drv (Verifier F G) Unit} (h : OnePhase d) {label : String} {s : Verifier F G} (hs : d (Verifier.new [.init label]) = (.ok (), s)) : ∀ e ∈ s.transcript, e.isChallenge = false := by
  rw [h.log hs]
  intro e he
  rcases List.mem_append.mp he with he | he
  · simp only [List.mem_cons, List.not_mem_nil, or_false] at he
    rcases he with rfl | rfl <;> rfl
  · obtain ⟨V, -, rfl⟩ := List.mem_map.mp he
    rfl

/-- All draws of the proof are questions of the game. -/
theorem Forger.game_asked (A : Forger F G) (s : Verifier F G) (Q : ℕ) {cs : List F} {D : ℕ} (hl : cs.length = Q + D) (hD : (draws (s.proofLog (A.out (cs.take Q)))).length ≤ D) :
    ∀ d ∈ draws (s.proofLog (A.out (cs.take Q))), d ∈ askedBy (A.game s Q) cs := by
  intro d hd
  obtain ⟨i, hi, rfl⟩ := List.getElem_of_mem hd
  refine List.mem_map.mpr ⟨Q + i, List.mem_range.mpr (by omega), ?_⟩
  unfold Forger.game
  have e1 : (cs.take (Q + i)).length = Q + i := by rw [List.length_take]; omega
  rw [e1, if_neg (by omega), List.take_take, Nat.min_eq_left (by omega), Nat.add_sub_cancel_left, List.getD_eq_getElem?_getD, List.getElem?_eq_getElem hi]
  rfl

/-- The commitments can be read off the log. -/
theorem points_inj : ∀ {V V' : List G} {t : Transcript F G} {n n' : ℕ}, V.map (TEvent.point "V") ++ [TEvent.u64 "m" n] <+: t → V'.map (TEvent.point "V") ++ [TEvent.u64 "m" n'] <+: t → V = V'
  | [], [], _, _, _, _, _ => rfl
  | [], v :: V', t, n, n', ⟨a, ha⟩, ⟨b, hb⟩ => by rw [← hb] at ha; simp at ha
  | v :: V, [], t, n, n', ⟨a, ha⟩, ⟨b, hb⟩ => by rw [← hb] at ha; simp at ha
  | v :: V, v' :: V', t, n, n', ⟨a, ha⟩, ⟨b, hb⟩ => by
    cases t with
    | nil => simp at ha
    | cons e t =>
      simp only [List.map_cons, List.cons_append, List.cons.injEq] at ha hb
      obtain ⟨rfl, ha⟩ := ha
      obtain ⟨hb', hb⟩ := hb
      rw [points_inj (V := V) (V' := V') ⟨a, ha⟩ ⟨b, hb⟩]
      simp only [TEvent.point.injEq, true_and] at hb'
      rw [hb']

theorem Uniform.eq_of_prefix {label : String} {m : ℕ} {dv : List G → Drv (Verifier F G) Unit} (hu : Uniform label m dv) {a b : List G} (ha : a.length = m) (hb : b.length = m) {s s' : Verifier F G}
    (hs : dv a (Verifier.new [.init label]) = (.ok (), s)) (hs' : dv b (Verifier.new [.init label]) = (.ok (), s')) {pr pr' : R1CSProof F G} {t : Transcript F G} (h : (s.start pr).transcript <+: t)
    (h' : (s'.start pr').transcript <+: t) : s = s' := by
  refine hu.eq_of_V ha hb hs hs' ?_
  obtain ⟨u, hu1⟩ := h
  obtain ⟨u', hu2⟩ := h'
  simp only [Verifier.start, log1, (hu.onePhase a).log hs, (hu.onePhase b).log hs', List.append_assoc, List.cons_append, List.nil_append] at hu1 hu2
  rw [← hu1] at hu2
  simp only [List.cons.injEq, true_and] at hu2
  refine points_inj (t := s.V.map (TEvent.point "V") ++ TEvent.u64 "m" s.V.length :: TEvent.point "A_I1" pr.A_I1 :: TEvent.point "A_O1" pr.A_O1 :: TEvent.point "S1" pr.S1 :: u) (n := s.V.length) (n' := s'.V.length)
    ⟨TEvent.point "A_I1" pr.A_I1 :: TEvent.point "A_O1" pr.A_O1 :: TEvent.point "S1" pr.S1 :: u, by simp⟩ ⟨TEvent.point "A_I1" pr'.A_I1 :: TEvent.point "A_O1" pr'.A_O1 :: TEvent.point "S1" pr'.S1 :: u', by rw [← hu2]; simp⟩

/-! ## Points and combinations -/

variable [AddCommGroup M] [SMul F M]

theorem mapG_roundsLog (f : M → G) (ps : List (M × M)) : (roundsLog ps : Transcript F M).mapG f = roundsLog (ps.map fun q => (f q.1, f q.2)) := by
  induction ps with
  | nil => rfl
  | cons q ps ih =>
    have e : (roundsLog (q :: ps) : Transcript F M) = [.point "L" q.1, .point "R" q.2, .challenge "u"] ++ roundsLog ps := rfl
    rw [e, mapG_append, ih]
    rfl

theorem mapG_proofLog (f : M → G) (s : Verifier F M) (pr : R1CSProof F M) : (s.mapG f).proofLog (pr.mapG f) = (s.proofLog pr).mapG f := by
  unfold Verifier.proofLog
  rw [mapG_append, mapG_append, mapG_roundsLog]
  simp [Verifier.mapG, R1CSProof.mapG, IppProof.mapG, Transcript.mapG, TEvent.mapG, List.zip_map]
  rfl

theorem mapG_game (f : M → G) (A : Forger F M) (s : Verifier F M) (Q : ℕ) (cs : List F) : (A.mapG f).game (s.mapG f) Q cs = (A.game s Q cs).mapG f := by
  unfold Forger.game
  split
  · rfl
  · show (draws ((s.mapG f).proofLog ((A.out _).mapG f))).getD _ _ = _
    rw [mapG_proofLog, mapG_draws, List.getD_eq_getElem?_getD, List.getD_eq_getElem?_getD, List.getElem?_map]
    cases (draws (s.proofLog (A.out (cs.take Q))))[cs.length - Q]? <;> rfl

/-- The combinations in the questions of the game are those of the prover's questions and of the log. -/
theorem game_points (A : Forger F M) (s : Verifier F M) (Q : ℕ) (cs : List F) {i : ℕ} (hi : i < cs.length) :
    ∀ p ∈ (A.game s Q (cs.take i)).points, p ∈ (s.proofLog (A.out (cs.take Q)) :: askedBy A.ask (cs.take Q)).flatMap Transcript.points := by
  intro p hp
  have e1 : (cs.take i).length = i := by rw [List.length_take]; omega
  unfold Forger.game at hp
  rw [e1] at hp
  split at hp
  · rename_i hlt
    refine List.mem_flatMap.mpr ⟨A.ask (cs.take i), List.mem_cons_of_mem _ ?_, hp⟩
    have := askedBy_mem (ask := A.ask) (cs := cs.take Q) (j := i) (by rw [List.length_take]; omega)
    rwa [List.take_take, Nat.min_eq_left (le_of_lt hlt)] at this
  · rename_i hge
    rw [List.take_take, Nat.min_eq_left (by omega), List.getD_eq_getElem?_getD] at hp
    cases hd : (draws (s.proofLog (A.out (cs.take Q))))[i - Q]? with
    | none => rw [hd] at hp; simp [Transcript.points] at hp
    | some d =>
      rw [hd] at hp
      exact List.mem_flatMap.mpr ⟨_, by simp, draws_points (List.mem_of_getElem? hd) p hp⟩

end Bp
