import Verif.Lemmas.RandomizedZK
import Verif.Props.Shuffle
import Verif.Props.RandomOracle

/-! # C73: zero knowledge of proofs with randomized constraints

As C66, for statements with callbacks: the challenges that the callbacks draw are programmed as well. -/

namespace Bp
variable {F G : Type} [Field F] [AddCommGroup G] [Module F G]

/-- **C73**: somebody who asks the oracle at most `Q` questions, and gets at most `P` proofs (with at most `D` challenges each) of provable statements of their choice, with or without randomized constraints, cannot tell the proofs
of the code from proofs that are made without the witnesses, except with probability `P * (Q + P * D + 2) / |F|`. -/
theorem c73_zero_knowledge [Fintype F] {g h : G} {Gs Hs : List G} (hb : Function.Bijective fun a : F => a • h) (env env' : Env F G) (A : Distinguisher F G) (Q P D : ℕ) (hA : A.Within2 g h Gs Hs D Q P) :
    |A.real2 env Gs Hs (fun _ => none) - A.simulated2 env' g h Gs Hs (fun _ => none)| ≤ (P * (Q + P * D + 2) : ℕ) / Fintype.card F := by
  have := A.real_simulated2 hb env env' Q P (fun _ => none) [] hA (fun _ h => absurd rfl h)
  simpa using this

/-- **C73**, witness indistinguishability: which witnesses the provers use makes almost no difference. -/
theorem c73_witness [Fintype F] {g h : G} {Gs Hs : List G} (hb : Function.Bijective fun a : F => a • h) (env : Env F G) (A A' : Distinguisher F G) (hs : A.SameStatements A') (Q P D : ℕ) (hA : A.Within2 g h Gs Hs D Q P)
    (hA' : A'.Within2 g h Gs Hs D Q P) :
    |A.real2 env Gs Hs (fun _ => none) - A'.real2 env Gs Hs (fun _ => none)| ≤ 2 * ((P * (Q + P * D + 2) : ℕ) / Fintype.card F) := by
  have h1 := c73_zero_knowledge hb env env A Q P D hA
  have h2 := c73_zero_knowledge hb env env A' Q P D hA'
  rw [Distinguisher.simulated2_same env hs] at h1
  rw [abs_le] at h1 h2 ⊢
  constructor
  · linarith [h1.1, h2.2]
  · linarith [h1.2, h2.1]

/-- **C73**, the committed values stay secret (see `c66_private`). -/
theorem c73_private [Fintype F] {g h : G} {Gs Hs : List G} (hb : Function.Bijective fun a : F => a • h) (env : Env F G) {m : ℕ} (v v' : Fin m → F) (D D' : (Fin m → F) → Distinguisher F G)
    (hs : ∀ b b', (∀ i, v i • g + b i • h = v' i • g + b' i • h) → (D b).SameStatements (D' b')) (Q P d : ℕ) (hD : ∀ b, (D b).Within2 g h Gs Hs d Q P) (hD' : ∀ b, (D' b).Within2 g h Gs Hs d Q P) :
    |avg (fun b => (D b).real2 env Gs Hs fun _ => none) - avg (fun b => (D' b).real2 env Gs Hs fun _ => none)| ≤ 2 * ((P * (Q + P * d + 2) : ℕ) / Fintype.card F) := by
  obtain ⟨γ, hγ⟩ := hb.2 g
  have hγ : g = γ • h := hγ.symm
  rw [← avg_equiv (Equiv.addRight fun i => γ * (v i - v' i)) fun b => (D' b).real2 env Gs Hs fun _ => none]
  refine (avg_sub_le (d := fun _ => 2 * (((P * (Q + P * d + 2) : ℕ) : ℚ) / Fintype.card F)) fun b => c73_witness hb env (D b) (D' _) (hs _ _ fun i => ?_) Q P d (hD b) (hD' _)).trans (le_of_eq (avg_const _))
  rw [hγ, smul_smul, smul_smul, ← add_smul, ← add_smul]
  congr 1
  simp only [Equiv.coe_addRight, Pi.add_apply]
  ring

/-! ## When is a statement provable? -/

theorem draws_start (s : Verifier F G) (pr : R1CSProof F G) : (draws (s.start pr).transcript).length = (draws s.transcript).length := by
  rw [Verifier.start, log1, draws, draws]
  simp only [List.append_assoc]
  rw [drawsFrom_append]
  simp [drawsFrom, TEvent.isChallenge]

/-- The dry run finds the numbers of challenges and gates of the prover's callbacks. -/
theorem secondPhase_eq {p p2 : Prover F G} {s : Verifier F G} {n d : ℕ} (hst : InStep p s) (h1 : ({ p with transcript := (s.start blankProof).transcript } : Prover F G).createRandomizedConstraints (Env.std fun _ => 0) = .ok p2)
    (h2 : p2.aL.length = p.aL.length + n) (h3 : (draws p2.transcript).length = (draws (s.start blankProof).transcript).length + d) : s.secondPhase = (d, n) := by
  have hT0 : InStep ({ p with transcript := (s.start blankProof).transcript } : Prover F G) (s.start blankProof) := { hst with transcript := rfl }
  obtain ⟨s2, hc2, hst2⟩ := crc_same (env := Env.std fun _ => 0) (env' := Env.std fun _ => 0) rfl hT0 h1
  rw [Verifier.secondPhase, hc2]
  simp only
  rw [hst2.transcript, h3, draws_start, hst2.num, h2, hst.num]
  simp

/-- **C73**: statements without randomized constraints are provable in this sense when they are so in that of C66, with the same number of challenges. -/
theorem c73_onePhase {g h : G} {Gs Hs : List G} {p : Prover F G} {s : Verifier F G} (hp : Provable g h Gs Hs p s) : Provable2 g h Gs Hs p s ∧ s.secondPhase = (0, 0) ∧ s.allDraws = s.numDraws := by
  have hd : ∀ T : Transcript F G, (draws T.r1cs1PhaseDomainSep).length = (draws T).length + 0 := fun T => by
    rw [Transcript.r1cs1PhaseDomainSep, draws, draws, drawsFrom_append]
    simp [drawsFrom, TEvent.isChallenge]
  have h0 : s.secondPhase = (0, 0) := secondPhase_eq hp.inStep (hp.crc _ _) rfl (hd _)
  refine ⟨⟨hp.wf, hp.inStep, hp.g_eq, hp.h_eq, fun env T => ⟨_, hp.crc env T, hp.satisfied, hp.inRange, ?_, ?_⟩, ?_, ?_⟩, h0, ?_⟩
  · rw [h0]; rfl
  · rw [h0]; exact hd _
  · rw [h0]; exact hp.lenG
  · rw [h0]; exact hp.lenH
  · rw [Verifier.allDraws, h0, Verifier.numDraws]; simp

/-! ## Shuffles -/

theorem productWith_transcript {C : Type} {rnd : Bool} {env : Env F G} {onSpec : C → Prover F G → Prover F G} (z : F) : ∀ (xs : List Var) (l l' : LC F) (p p' : Prover F G),
    Prover.run env onSpec (productWith z l xs : Prog F C rnd _) p = .ok (l', p') → p'.transcript = p.transcript
  | [], l, l', p, p', h => by
    have h : (Except.ok (l, p) : Res (LC F × Prover F G)) = .ok (l', p') := h
    simp only [Except.ok.injEq, Prod.mk.injEq] at h
    rw [h.2]
  | x :: xs, l, l', p, p', h => by
    unfold productWith at h
    rw [Prog.bind_eq, Prover.run_bind] at h
    cases hm : p.multiply l (LC.varSub x (LC.ofScalar z)) with
    | error e =>
      simp only [Prog.mul, Prover.run, hm] at h
      cases h
    | ok q =>
      simp only [Prog.mul, Prover.run, hm] at h
      rw [productWith_transcript z xs _ _ _ _ h]
      obtain ⟨x, y, -, -, -, e⟩ := Prover.multiply_eq (vs := q.1) (p' := q.2) hm
      rw [e]
      rfl

theorem shuffle_transcript {C : Type} {rnd : Bool} {env : Env F G} {onSpec : C → Prover F G → Prover F G} (z : F) (xs ys : List Var) (p p' : Prover F G)
    (h : Prover.run env onSpec (shuffleCircuit z xs ys : Prog F C rnd _) p = .ok ((), p')) : p'.transcript = p.transcript := by
  unfold shuffleCircuit at h
  rw [Prog.bind_eq, Prover.run_bind] at h
  cases h1 : Prover.run env onSpec (productWith z (LC.ofScalar 1) xs : Prog F C rnd _) p with
  | error e => rw [h1] at h; cases h
  | ok q =>
    rw [h1] at h
    simp only at h
    rw [Prog.bind_eq, Prover.run_bind] at h
    cases h2 : Prover.run env onSpec (productWith z (LC.ofScalar 1) ys : Prog F C rnd _) q.2 with
    | error e => rw [h2] at h; cases h
    | ok q' =>
      rw [h2] at h
      simp only [Prog.con, Prover.run, Except.ok.injEq, Prod.mk.injEq, true_and] at h
      rw [← h]
      exact (productWith_transcript z _ _ _ _ _ h2).trans (productWith_transcript z _ _ _ _ _ h1)

/-- **C73**, shuffles: a prover that commits to values, and to the same values in another order, over whatever transcript, has a provable statement; the callback draws one challenge and makes two gates for each value. -/
theorem c73_shuffle_provable (env : Env F G) (t : Transcript F G) (g h : G) (Gs Hs : List G) (xs ys : List (F × F)) (hp : (xs.map Prod.fst).Perm (ys.map Prod.fst)) (hG : nextPowerOfTwo (2 * xs.length) ≤ Gs.length)
    (hH : nextPowerOfTwo (2 * xs.length) ≤ Hs.length) :
    ∃ coms p s, proveShuffle env xs ys (Prover.new g h t 0) = (.ok coms, p) ∧ verifyShuffle env xs.length coms (Verifier.new t) = (.ok (), s) ∧ (coms = (xs ++ ys).map fun q => q.1 • g + q.2 • h) ∧
      Provable2 g h Gs Hs p s ∧ s.secondPhase = (1, 2 * xs.length) ∧ s.allDraws = 6 + Nat.clog 2 (2 * xs.length) := by
  have hlen : xs.length = ys.length := by simpa using hp.length_eq
  obtain ⟨cs, p1, s1, c1, c2, J1, hp1, hl1, e1, o1, hf⟩ := (Joint.new env env g h t 0 0).commitAll rfl (xs ++ ys)
  have hcl : cs.length = 2 * xs.length := by have := hf.length_eq; simp at this; omega
  obtain ⟨vs, ws, hvs, hws⟩ : ∃ vs ws, vs = (cs.map Prod.snd).take xs.length ∧ ws = (cs.map Prod.snd).drop xs.length := ⟨_, _, rfl, rfl⟩
  have hv : List.Forall₂ p1.HasV vs (xs.map Prod.fst) := by
    have := List.forall₂_take xs.length hf
    rw [List.map_append, List.take_left' (by simp)] at this
    rwa [hvs]
  have hw : List.Forall₂ p1.HasV ws (ys.map Prod.fst) := by
    have := List.forall₂_drop xs.length hf
    rw [List.map_append, List.drop_left' (by simp)] at this
    rwa [hws]
  have hpd : p1.pending = none := hp1
  have hl0 : p1.aL.length = 0 := by rw [hl1]; rfl
  have hd : (p1.specify (shuffleCallback vs ws)).deferred = [shuffleCallback vs ws] := by simp [Prover.specify, J1.deferred]
  have S : Session env env (p1.specify (shuffleCallback vs ws)) (s1.specify (shuffleCallback vs ws)) :=
    Session.gadget (RA := fun _ _ => True) (c := shuffleGadget vs ws) (c' := shuffleGadget vs ws) (a := ()) (b := ()) J1.session (.specify (Callback.Same.shuffle vs ws) (.ret trivial)) rfl rfl
  obtain ⟨hwf, hst⟩ := S.inStep rfl
  have second : ∀ (env : Env F G) (T : Transcript F G), ∃ p2, ({ p1.specify (shuffleCallback vs ws) with transcript := T } : Prover F G).createRandomizedConstraints env = .ok p2 ∧ p2.Satisfied ∧
      (∀ lc ∈ p2.constraints, ∀ t ∈ lc.terms, Var.InRange p2.aL.length p2.v.length t.1) ∧ p2.aL.length = (p1.specify (shuffleCallback vs ws)).aL.length + 2 * xs.length ∧ (draws p2.transcript).length = (draws T).length + 1 := by
    intro env T
    obtain ⟨T', hT'⟩ : ∃ T', T' = (T.r1cs2PhaseDomainSep.challengeScalar env.oracle "shuffle challenge").2 := ⟨_, rfl⟩
    have hg := J1.good.relog hpd T' []
    obtain ⟨⟨⟩, p2, r2, n2⟩ := PS.shuffle (env := env) (onSpec := fun (e : Empty) (_ : Prover F G) => e.elim) (rnd := true) hg (T.r1cs2PhaseDomainSep.challengeScalar env.oracle "shuffle challenge").1
      (hv.imp fun _ _ h => h.relog hpd T' []) (hw.imp fun _ _ h => h.relog hpd T' []) hp
    refine ⟨p2, Prover.createRandomized_one hd ?_, fun lc hlc => (n2.good.sat lc hlc).2, fun lc hlc t ht => ((n2.good.sat lc hlc).1 t ht).inRange, ?_, ?_⟩
    · show Prover.run env _ (shuffleCircuit (T.r1cs2PhaseDomainSep.challengeScalar env.oracle "shuffle challenge").1 vs ws) _ = _
      exact hT' ▸ r2
    · have := (PC.shuffle (pd := none) (C := Empty) (rnd := true) (T.r1cs2PhaseDomainSep.challengeScalar env.oracle "shuffle challenge").1 vs ws G env (fun (e : Empty) (_ : Prover F G) => e.elim) (fun e => e.elim) _ _ _ rfl r2).2
      rw [this]
      show p1.aL.length + _ = p1.aL.length + _
      rw [hv.length_eq, hw.length_eq]
      simp
      omega
    · rw [shuffle_transcript _ _ _ _ _ r2]
      show (draws T').length = _
      rw [hT', Transcript.challengeScalar, Transcript.r1cs2PhaseDomainSep, draws, draws, drawsFrom_append, drawsFrom_append]
      simp [drawsFrom, TEvent.isChallenge]
  obtain ⟨p2, k1, -, -, k2, k3⟩ := second (Env.std fun _ => 0) ((s1.specify (shuffleCallback vs ws)).start blankProof).transcript
  have h2 := secondPhase_eq hst k1 k2 k3
  refine ⟨cs.map Prod.fst, p1.specify (shuffleCallback vs ws), s1.specify (shuffleCallback vs ws), ?_, ?_, o1.points, ⟨hwf, hst, o1.g, o1.h, ?_, ?_, ?_⟩, h2, ?_⟩
  · unfold proveShuffle
    refine Drv.bind_ok.mpr ⟨_, p1, c1, Drv.bind_ok.mpr ⟨(), _, ?_, rfl⟩⟩
    rw [← hvs, ← hws]
    rfl
  · unfold verifyShuffle
    refine Drv.bind_ok.mpr ⟨_, _, Drv.lift_ok.mpr ⟨takeComms_ok.mpr ⟨by simp [hcl], (List.take_of_length_le (by simp [hcl])).symm⟩, rfl⟩, Drv.bind_ok.mpr ⟨_, s1, c2, ?_⟩⟩
    rw [← hvs, ← hws]
    rfl
  · rw [h2]; exact second
  · rw [h2]
    show nextPowerOfTwo (p1.aL.length + 2 * xs.length) ≤ _
    rwa [hl0, Nat.zero_add]
  · rw [h2]
    show nextPowerOfTwo (p1.aL.length + 2 * xs.length) ≤ _
    rwa [hl0, Nat.zero_add]
  · rw [Verifier.allDraws, h2, hst.num]
    show 1 + 5 + Nat.clog 2 (p1.aL.length + 2 * xs.length) = _
    rw [hl0, Nat.zero_add]

theorem Distinguisher.SameStatements.refl : ∀ A : Distinguisher F G, A.SameStatements A
  | .decide b => .decide b
  | .ask q next => .ask q fun a => refl (next a)
  | .prove p s next => .prove p p s fun pr => refl (next pr)

/-- The user commits to the values `v` with the blindings `b`, and proves that the second half is a shuffle of the first half.  The observer sees the commitments and the proof, and goes on as they like. -/
def shuffleSeen (env : Env F G) (label : String) (k : ℕ) (g h : G) (next : List G → R1CSProof F G → Distinguisher F G) (v b : Fin (2 * k) → F) : Distinguisher F G :=
  let o := List.ofFn fun i => (v i, b i)
  let coms := o.map fun q => q.1 • g + q.2 • h
  .prove (proveShuffle env (o.take k) (o.drop k) (Prover.new g h [.init label] 0)).2 (verifyShuffle env k coms (Verifier.new [.init label])).2 (next coms)

/-- **C73**, a shuffle reveals neither the values nor their order: whether the user has committed to the values `v` or `v'` (both of which are shuffles), somebody who sees the commitments and the proof, who asks the oracle `Q`
questions and gets `P` other proofs, finds out at most with a small advantage. -/
theorem c73_shuffle_private [Fintype F] {g h : G} {Gs Hs : List G} (hb : Function.Bijective fun a : F => a • h) (env : Env F G) (label : String) (k : ℕ) (v v' : Fin (2 * k) → F)
    (hv : ((List.ofFn v).take k).Perm ((List.ofFn v).drop k)) (hv' : ((List.ofFn v').take k).Perm ((List.ofFn v').drop k)) (hG : nextPowerOfTwo (2 * k) ≤ Gs.length) (hH : nextPowerOfTwo (2 * k) ≤ Hs.length)
    (next : List G → R1CSProof F G → Distinguisher F G) (Q P d : ℕ) (hd : 6 + Nat.clog 2 (2 * k) ≤ d) (hn : ∀ coms pr, (next coms pr).Within2 g h Gs Hs d Q P) :
    |avg (fun b => (shuffleSeen env label k g h next v b).real2 env Gs Hs fun _ => none) - avg (fun b => (shuffleSeen env label k g h next v' b).real2 env Gs Hs fun _ => none)|
      ≤ 2 * (((P + 1) * (Q + (P + 1) * d + 2) : ℕ) / Fintype.card F) := by
  have within : ∀ v : Fin (2 * k) → F, ((List.ofFn v).take k).Perm ((List.ofFn v).drop k) → ∀ b, (shuffleSeen env label k g h next v b).Within2 g h Gs Hs d Q (P + 1) := by
    intro v hv b
    have hl : ((List.ofFn fun i => (v i, b i)).take k).length = k := by simp; omega
    have hf : (List.ofFn fun i => (v i, b i)).map Prod.fst = List.ofFn v := by rw [List.map_ofFn]; rfl
    obtain ⟨coms, p, s, h1, h2, h3, h4, -, h6⟩ := c73_shuffle_provable env [.init label] g h Gs Hs ((List.ofFn fun i => (v i, b i)).take k) ((List.ofFn fun i => (v i, b i)).drop k)
      (by rw [List.map_take, List.map_drop, hf]; exact hv) (by rwa [hl]) (by rwa [hl])
    rw [hl] at h2 h6
    rw [List.take_append_drop] at h3
    rw [h3] at h2
    refine ⟨?_, ?_, P, rfl, fun pr => hn _ _⟩
    · rw [h1, h2]; exact h4
    · rw [h2]; exact h6.le.trans hd
  refine c73_private hb env v v' _ _ (fun b b' e => ?_) Q (P + 1) d (within v hv) (within v' hv')
  have hc : (List.ofFn fun i => (v i, b i)).map (fun q => q.1 • g + q.2 • h) = (List.ofFn fun i => (v' i, b' i)).map (fun q => q.1 • g + q.2 • h) := by
    rw [List.map_ofFn, List.map_ofFn]
    exact congrArg List.ofFn (funext e)
  unfold shuffleSeen
  simp only
  rw [hc]
  exact .prove _ _ _ fun pr => .refl _

/-! ## The hypotheses are met -/

/-- An observer who asks about the commitments and the proof, and decides by comparing the answer with the proof. -/
def demoNext (coms : List Z101) (pr : R1CSProof Z101 Z101) : Distinguisher Z101 Z101 := .ask [.point "V" (coms.getD 0 0), .scalar "t" pr.t_x, .challenge "y"] fun r => .decide (decide (pr.t_x = r))

/-- 3, 4 and 4, 3; or 5, 9 and 5, 9. -/
example : |avg (fun b => (shuffleSeen (Env.std fun _ => 0) "s" 2 1 5 demoNext ![3, 4, 4, 3] b).real2 (Env.std fun _ => 0) [2, 3, 4, 5] [6, 7, 8, 9] fun _ => none) -
    avg (fun b => (shuffleSeen (Env.std fun _ => 0) "s" 2 1 5 demoNext ![5, 9, 5, 9] b).real2 (Env.std fun _ => 0) [2, 3, 4, 5] [6, 7, 8, 9] fun _ => none)| ≤ 22 / 101 := by
  have := c73_shuffle_private five_bijective (Env.std fun _ => 0) "s" 2 (g := (1 : Z101)) (Gs := [2, 3, 4, 5]) (Hs := [6, 7, 8, 9]) ![3, 4, 4, 3] ![5, 9, 5, 9] (by decide) (by decide) (by decide +kernel) (by decide +kernel) demoNext 1 0 8
    (by decide +kernel) (fun _ _ => ⟨0, rfl, fun _ => trivial⟩)
  rw [ZMod.card] at this
  norm_num at this ⊢
  exact this

/-- A shuffle is simulated with an error of at most 11 in 101. -/
example : |(shuffleSeen (Env.std fun _ => 0) "s" 2 1 5 demoNext ![3, 4, 4, 3] ![7, 8, 9, 1]).real2 (Env.std fun _ => 0) [2, 3, 4, 5] [6, 7, 8, 9] (fun _ => none) -
    (shuffleSeen (Env.std fun _ => 0) "s" 2 1 5 demoNext ![3, 4, 4, 3] ![7, 8, 9, 1]).simulated2 (Env.std fun _ => 0) 1 5 [2, 3, 4, 5] [6, 7, 8, 9] (fun _ => none)| ≤ 11 / 101 := by
  obtain ⟨coms, p, s, h1, h2, h3, h4, -, h6⟩ := c73_shuffle_provable (Env.std fun _ => (0 : Z101)) [.init "s"] (1 : Z101) 5 [2, 3, 4, 5] [6, 7, 8, 9] [(3, 7), (4, 8)] [(4, 9), (3, 1)] (.swap _ _ _) (by decide +kernel) (by decide +kernel)
  subst h3
  have := c73_zero_knowledge (g := (1 : Z101)) (Gs := [2, 3, 4, 5]) (Hs := [6, 7, 8, 9]) five_bijective (Env.std fun _ => 0) (Env.std fun _ => 0) (shuffleSeen (Env.std fun _ => 0) "s" 2 1 5 demoNext ![3, 4, 4, 3] ![7, 8, 9, 1]) 1 1 8
    ⟨by
      show Provable2 _ _ _ _ (proveShuffle _ [(3, 7), (4, 8)] [(4, 9), (3, 1)] _).2 (verifyShuffle _ 2 ([((3 : Z101), (7 : Z101)), (4, 8), (4, 9), (3, 1)].map _) _).2
      rw [h1, show verifyShuffle _ 2 ([((3 : Z101), (7 : Z101)), (4, 8), (4, 9), (3, 1)].map _) _ = _ from h2]
      exact h4, by
      show (verifyShuffle _ 2 ([((3 : Z101), (7 : Z101)), (4, 8), (4, 9), (3, 1)].map _) _).2.allDraws ≤ 8
      rw [show verifyShuffle _ 2 ([((3 : Z101), (7 : Z101)), (4, 8), (4, 9), (3, 1)].map _) _ = _ from h2]
      exact h6.le.trans (by decide +kernel), 0, rfl, fun _ => ⟨0, rfl, fun _ => trivial⟩⟩
  rw [ZMod.card] at this
  norm_num at this ⊢
  exact this

/-- Two provers with the same commitments and different values: 3, 4 and 4, 3 with certain blindings are 5, 9 and 9, 5 with others. -/
example : ∃ (p p' : Prover Z101 Z101) (s : Verifier Z101 Z101), p.v = [3, 4, 4, 3] ∧ p'.v = [5, 9, 9, 5] ∧
    |(Distinguisher.prove p s (demoNext [])).real2 (Env.std fun _ => 0) [2, 3, 4, 5] [6, 7, 8, 9] (fun _ => none) - (Distinguisher.prove p' s (demoNext [])).real2 (Env.std fun _ => 0) [2, 3, 4, 5] [6, 7, 8, 9] (fun _ => none)| ≤ 22 / 101 := by
  obtain ⟨coms, p, s, h1, h2, h3, h4, -, h6⟩ := c73_shuffle_provable (Env.std fun _ => (0 : Z101)) [.init "s"] (1 : Z101) 5 [2, 3, 4, 5] [6, 7, 8, 9] [(3, 7), (4, 8)] [(4, 9), (3, 1)] (.swap _ _ _) (by decide +kernel) (by decide +kernel)
  obtain ⟨coms', p', s', h1', h2', h3', h4', -, h6'⟩ := c73_shuffle_provable (Env.std fun _ => (0 : Z101)) [.init "s"] (1 : Z101) 5 [2, 3, 4, 5] [6, 7, 8, 9] [(5, 47), (9, 7)] [(9, 8), (5, 41)] (.swap _ _ _) (by decide +kernel) (by decide +kernel)
  have e : coms = coms' := by rw [h3, h3']; decide +kernel
  subst e
  have e : s = s' := congrArg Prod.snd (h2.symm.trans h2')
  subst e
  refine ⟨p, p', s, ?_, ?_, ?_⟩
  · have e : _ = p := congrArg Prod.snd h1
    rw [← e]; rfl
  · have e : _ = p' := congrArg Prod.snd h1'
    rw [← e]; rfl
  · have := c73_witness (g := (1 : Z101)) five_bijective (Env.std fun _ => 0) _ _ (.prove p p' s fun pr => .refl (demoNext [] pr)) 1 1 8 ⟨h4, h6.le.trans (by decide +kernel), 0, rfl, fun _ => ⟨0, rfl, fun _ => trivial⟩⟩
      ⟨h4', h6'.le.trans (by decide +kernel), 0, rfl, fun _ => ⟨0, rfl, fun _ => trivial⟩⟩
    rw [ZMod.card] at this
    norm_num at this ⊢
    exact this

end Bp
