import Verif.Lemmas.ZK5
import Verif.Props.ZK

/-! # C56: a proof can be made without the witness

For fixed challenges (interactive protocol with an honest verifier, or a programmed oracle) the proofs of a prover with a satisfying witness and
those of `Verifier.simulate`, which only uses the circuit, the commitments and the generators, are distributed alike. -/

namespace Bp
variable {F G : Type} [Field F] [AddCommGroup G] [Module F G]

/-- The bijection of C56, for a prover and a verifier that are in step. -/
theorem simulator_equiv (env env' : Env F G) (hO : env.oracle = env'.oracle) (hf : env'.oracle.Fixed) (p : Prover F G) (s : Verifier F G) (hw : p.WF) (hst : InStep p s)
    (hb : Function.Bijective fun a : F => a • p.h) (Gs Hs : List G) (hr : p.Ready env Gs Hs) :
    ∃ s0, (s.start blankProof).createRandomizedConstraints env' = .ok s0 ∧
      ((drawn env'.oracle s0.transcript blankProof).x ≠ 0 → (drawn env'.oracle s0.transcript blankProof).y ≠ 0 →
        ∃ φ : { c : Coins F // c.Drawn s.numVars (s0.numVars - s.numVars) } ≃ { sc : SimCoins F G // sc.Drawn s.numVars (s0.numVars - s.numVars) },
          ∀ c, s.simulate env' p.g p.h Gs Hs (φ c).1 = Prover.prove env p c.1 Gs Hs) := by
  obtain ⟨s0, k, ch, wt, D, hle, hG, hH⟩ := ready_dry hO hf hw hst hr
  refine ⟨s0, D.hcrc, fun hx hy => ?_⟩
  rw [← D.hch] at hx hy
  have hn1 : s.numVars = p.aL.length := hst.num
  -- the run of the verifier for any proof
  have key : ∀ c : Coins F, ∃ sc : SimCoins F G, SimMatches env Gs Hs p s0.numVars c sc ∧ sc.Drawn s.numVars (s0.numVars - s.numVars) := by
    intro c
    obtain ⟨p2, k', ch', w, lp, rp, pr, t', hcrc, hk, hG', hH', hpr, H, hv, s2, wt', hst2, hc2, hwt⟩ := ready_view hO hw hst hr c
    obtain ⟨T, hT, hch⟩ := D.run hf pr
    rw [hc2] at hT
    cases hT
    have ec : ch' = ch := by rw [H.hch, hO, ← hst2.transcript, hch pr]
    subst ec
    obtain ⟨s2, wt2, hst2', -, V⟩ := hv hy
    have en : p2.aL.length = s0.numVars := hst2.num.symm
    refine ⟨_, ⟨p2, ch', w, lp, rp, k', pr, t', hcrc, hpr, H, en, hx, hy, rfl⟩, fun i hi => ⟨if_neg (by omega), if_neg (by omega)⟩, fun h0 => ?_⟩
    exact V.hn2 (by rw [hst2'.num, en]; omega)
  have sim : ∀ (c : Coins F) (sc : SimCoins F G), SimMatches env Gs Hs p s0.numVars c sc → s.simulate env' p.g p.h Gs Hs sc = Prover.prove env p c Gs Hs := by
    rintro c sc ⟨p2, ch', w, lp, rp, k1, pr, t', hcrc, hpr, H, en, hx', hy', rfl⟩
    obtain ⟨p2', k', ch2, w2, lp2, rp2, pr2, t2, hcrc2, hk, hG', hH', hpr2, H2, hv, -⟩ := ready_view hO hw hst hr c
    rw [hcrc] at hcrc2
    cases hcrc2
    rw [hpr] at hpr2
    cases hpr2
    have hch : ch2 = ch' := by rw [H2.hch, H.hch]
    subst hch
    have hwv : w2 = w := by
      have := H2.hwp
      rw [H.hwp] at this
      exact (Except.ok.inj this).symm
    subst hwv
    obtain ⟨s2, wt2, hst2, -, V⟩ := hv hy'
    have e2 : s2.numVars = s0.numVars := hst2.num.trans en
    have ek : k' = k := by
      have h1 := D.hk
      rw [← en, hk] at h1
      exact Nat.pow_right_injective (le_refl 2) h1
    subst ek
    rw [hpr, ← e2]
    exact simulate_of_view hf D hx V
  choose f hf1 hf2 using key
  refine ⟨Equiv.ofBijective (fun c => ⟨f c.1, hf2 c.1⟩) ⟨?_, ?_⟩, fun c => sim _ _ (hf1 c.1)⟩
  · rintro ⟨c, hc⟩ ⟨c', hc'⟩ h
    have h : f c = f c' := congrArg Subtype.val h
    refine Subtype.ext ?_
    rw [hn1] at hc hc'
    refine SimMatches.inj rfl hb.1 ?_ hc hc' (hf1 c) (h ▸ hf1 c')
    rw [← sim _ _ (hf1 c), ← sim _ _ (hf1 c'), h]
  · rintro ⟨sc, hd⟩
    obtain ⟨T, ipp, t', hsim, V⟩ := simulate_view hf D hx (g := p.g) (h := p.h) hG hH sc (fun h => hd.2 (by omega))
    obtain ⟨pr, hpr⟩ : ∃ pr, pr = ({ sc.solved s0 s.numVars (2 ^ k) p.g p.h (Gs.take (2 ^ k)) (Hs.take (2 ^ k)) wt ch with ipp := ipp } : R1CSProof F G) := ⟨_, rfl⟩
    rw [← hpr] at V hsim
    obtain ⟨p2, k', hcrc, hsat, hin, hk, hG', hH'⟩ := hr (s.start pr).transcript
    obtain ⟨dlog, hdl⟩ := hb.2.hasRightInverse
    have hT0 : InStep ({ p with transcript := (s.start pr).transcript } : Prover F G) (s.start pr) := { hst with transcript := rfl }
    obtain ⟨s2', hc2, hst2⟩ := crc_same hO hT0 hcrc
    rw [V.hcrc] at hc2
    cases hc2
    have en : p2.aL.length = s0.numVars := hst2.num.symm
    have ek : k' = k := by
      have h1 := D.hk
      rw [← en, hk] at h1
      exact Nat.pow_right_injective (le_refl 2) h1
    subst ek
    obtain ⟨c, hc⟩ : ∃ c, c = Coins.explain dlog p p2 Gs Hs pr ch { wt with wc := 0 } sc.l sc.r Coins.zero := ⟨_, rfl⟩
    obtain ⟨r1, r2, r3, r4, r5, lp, rp, r6⟩ := V.explain hO hx hy hw hst rfl rfl hcrc hsat hin hk hG' hH' hdl (fun a b h => hb.1 h) rfl hc
    have hcd : c.Drawn s.numVars (s0.numVars - s.numVars) := by
      rw [hc, Coins.explain, hn1, ← en]
      exact ⟨fun i hi => ⟨if_neg (by omega), if_neg (by omega)⟩, fun i hi => ⟨if_neg (by omega), if_neg (by omega)⟩, fun h0 => ⟨if_neg (by omega), if_neg (by omega), if_neg (by omega)⟩⟩
    refine ⟨⟨c, hcd⟩, Subtype.ext ?_⟩
    refine SimMatches.det (hf1 c) ⟨p2, ch, _, lp, rp, k', pr, t', r1, r5, r6, en, hx, hy, ?_⟩
    rw [hpr]
    rcases sc with ⟨a1, a2, a3, a4, a5, a6, a7, a8, a9, b1, b2, l, r⟩
    simp only [SimCoins.of, SimCoins.solved, SimCoins.first, SimCoins.mk.injEq, true_and]
    refine ⟨funext fun i => ?_, funext fun i => ?_⟩
    · split
      · exact (r3 i (by omega)).symm
      · exact (hd.1 i (by omega)).1
    · split
      · exact (r4 i (by omega)).symm
      · exact (hd.1 i (by omega)).2

/-- Perfect honest-verifier zero knowledge.  The dry run of the simulator succeeds; if its challenges `x` and `y` are not zero, then the coins of
the prover are in bijection with the choices of the simulator, and corresponding ones give the same proof and the same transcript. -/
theorem c56_simulator (env env' : Env F G) (hO : env.oracle = env'.oracle) (hf : env'.oracle.Fixed) (p : Prover F G) (s : Verifier F G) (hs : Session env env' p s)
    (hb : Function.Bijective fun a : F => a • p.h) (Gs Hs : List G) (hr : p.Ready env Gs Hs) :
    ∃ s0, (s.start blankProof).createRandomizedConstraints env' = .ok s0 ∧
      ((drawn env'.oracle s0.transcript blankProof).x ≠ 0 → (drawn env'.oracle s0.transcript blankProof).y ≠ 0 →
        ∃ φ : { c : Coins F // c.Drawn s.numVars (s0.numVars - s.numVars) } ≃ { sc : SimCoins F G // sc.Drawn s.numVars (s0.numVars - s.numVars) },
          ∀ c, s.simulate env' p.g p.h Gs Hs (φ c).1 = Prover.prove env p c.1 Gs Hs) := by
  obtain ⟨hw, hst⟩ := Session.inStep hO hs
  exact simulator_equiv env env' hO hf p s hw hst hb Gs Hs hr

/-- So every outcome (proof and final transcript) is reached by as many coins of the prover as choices of the simulator. -/
theorem c56_same_distribution (env env' : Env F G) (hO : env.oracle = env'.oracle) (hf : env'.oracle.Fixed) (h0 : ∀ t, env'.oracle t ≠ 0) (p : Prover F G) (s : Verifier F G) (hs : Session env env' p s)
    (hb : Function.Bijective fun a : F => a • p.h) (Gs Hs : List G) (hr : p.Ready env Gs Hs) :
    ∃ s0, (s.start blankProof).createRandomizedConstraints env' = .ok s0 ∧ ∀ o : Res (R1CSProof F G × Transcript F G),
      Nat.card { c : Coins F // c.Drawn s.numVars (s0.numVars - s.numVars) ∧ Prover.prove env p c Gs Hs = o } =
        Nat.card { sc : SimCoins F G // sc.Drawn s.numVars (s0.numVars - s.numVars) ∧ s.simulate env' p.g p.h Gs Hs sc = o } := by
  obtain ⟨s0, h1, h2⟩ := c56_simulator env env' hO hf p s hs hb Gs Hs hr
  obtain ⟨φ, hφ⟩ := h2 (h0 _) (h0 _)
  refine ⟨s0, h1, fun o => Nat.card_congr ?_⟩
  refine (Equiv.subtypeSubtypeEquivSubtypeInter _ _).symm.trans (Equiv.trans ?_ (Equiv.subtypeSubtypeEquivSubtypeInter _ _))
  exact φ.subtypeEquiv fun c => by rw [hφ]

/-- Whether or not there is a witness, with fixed non-zero challenges the verifier accepts what the simulator makes. -/
theorem c56_simulated_accepted [DecidableEq G] (O : Oracle F G) (hf : O.Fixed) (h0 : ∀ t, O t ≠ 0) (s s0 : Verifier F G) (hcrc : (s.start blankProof).createRandomizedConstraints (Env.std O) = .ok s0)
    (hin : ∀ lc ∈ s0.constraints, ∀ t ∈ lc.terms, Var.InRange s0.numVars s0.V.length t.1) (g h : G) (Gs Hs : List G) (k : ℕ) (hkN : nextPowerOfTwo s0.numVars = 2 ^ k) (hk : k < 32)
    (hG : 2 ^ k ≤ Gs.length) (hH : 2 ^ k ≤ Hs.length) (sc : SimCoins F G) (hd : sc.Drawn s.numVars (s0.numVars - s.numVars)) :
    ∃ pr t', s.simulate (Env.std O) g h Gs Hs sc = .ok (pr, t') ∧ ∀ e : F, Verifier.verify (Env.std O) s pr g h Gs Hs e = .ok t' := by
  obtain ⟨wt, hwt⟩ := (c10_verifier_flatten_total s0 (drawn O s0.transcript blankProof).z).mpr hin
  have hle : s.numVars ≤ s0.numVars := by
    obtain ⟨vs, hv⟩ := Verifier.createRandomizedConstraints_steps hcrc
    exact hv.ext.num
  have D : Dry (Env.std O) s s0 k (drawn O s0.transcript blankProof) wt := ⟨hcrc, rfl, hwt, hkN⟩
  obtain ⟨T, ipp, t', hsim, V⟩ := simulate_view hf D (h0 _) (g := g) (h := h) hG hH sc (fun h => hd.2 (by omega))
  have hz : ∀ (l : List (G × G)) (t : Transcript F G), ∀ u ∈ (ippChallenges O t l).1, u ≠ 0 := by
    intro l
    induction l with
    | nil => intro t u hu; cases hu
    | cons a l ih =>
      intro t u hu
      rw [ippChallenges] at hu
      rcases List.mem_cons.mp hu with rfl | hu
      · exact h0 _
      · exact ih _ u hu
  exact ⟨_, t', hsim, fun e => V.accepted hkN hk hG hH (hz _ _) (.inr (by simp [Env.std])) e⟩

/-! The two-phase session of `demoProduct`. -/

omit [Field F] [AddCommGroup G] [Module F G] in
theorem fixed_const {a : F} : Oracle.Fixed (fun _ : Transcript F G => a) := fun _ _ _ => rfl

/-- Proofs that the committed values multiply to `12`, and simulated ones. -/
example : ∃ s0, ((demoV (commitScalar 1 5 (3 : Z101) 7) (commitScalar 1 5 (4 : Z101) 8)).start blankProof).createRandomizedConstraints (Env.std fun _ => 2) = .ok s0 ∧
    ∀ o, Nat.card { c : Coins Z101 // c.Drawn 1 (s0.numVars - 1) ∧ Prover.prove (Env.std fun _ => 2) (zkP 3 4 7 8) c [1, 2, 3, 4] [5, 6, 7, 8] = o } =
      Nat.card { sc : SimCoins Z101 Z101 // sc.Drawn 1 (s0.numVars - 1) ∧
        (demoV (commitScalar 1 5 (3 : Z101) 7) (commitScalar 1 5 (4 : Z101) 8)).simulate (Env.std fun _ => 2) 1 5 [1, 2, 3, 4] [5, 6, 7, 8] sc = o } := by
  refine c56_same_distribution (Env.std fun _ => 2) (Env.std fun _ => 2) rfl fixed_const (fun _ => show (2 : Z101) ≠ 0 by decide) (zkP 3 4 7 8) _ (zk_session 3 4 7 8) ?_ _ _ (zk_ready _ _ _ _ (by decide +kernel))
  refine ⟨fun a b h => mul_right_cancel₀ (show (5 : Z101) ≠ 0 by decide) h, fun P => ⟨P * 81, ?_⟩⟩
  show P * 81 * 5 = P
  rw [mul_assoc, show (81 : Z101) * 5 = 1 by decide, mul_one]

/-- For challenges that are known beforehand even a false statement (that `3 * 5 = 12`) has an accepted proof. -/
example (sc : SimCoins Z101 Z101) (hd : sc.Drawn 1 1) : ∃ pr t', (demoV (commitScalar 1 5 (3 : Z101) 7) (commitScalar 1 5 (5 : Z101) 8)).simulate (Env.std fun _ => 2) 1 5 [1, 2, 3, 4] [5, 6, 7, 8] sc = .ok (pr, t') ∧
    ∀ e : Z101, Verifier.verify (Env.std fun _ => 2) (demoV (commitScalar 1 5 (3 : Z101) 7) (commitScalar 1 5 (5 : Z101) 8)) pr 1 5 [1, 2, 3, 4] [5, 6, 7, 8] e = .ok t' := by
  have hc : ∃ s0, ((demoV (commitScalar 1 5 (3 : Z101) 7) (commitScalar 1 5 (5 : Z101) 8)).start blankProof).createRandomizedConstraints (Env.std fun _ => (2 : Z101)) = .ok s0 ∧ s0.numVars = 2 ∧ s0.V.length = 2 ∧
    (s0.constraints.flatMap fun lc => lc.terms.map Prod.fst).all (fun v => decide (v.InRange 2 2)) = true := ⟨_, rfl, rfl, rfl, rfl⟩
  obtain ⟨s0, h1, h2, h3, h4⟩ := hc
  refine c56_simulated_accepted (fun _ => 2) fixed_const (fun _ => show (2 : Z101) ≠ 0 by decide) _ s0 h1 ?_ 1 5 _ _ 1 (by rw [h2]; decide +kernel) (by decide) (by simp) (by simp) sc (by rw [h2]; exact hd)
  intro lc hlc t ht
  have := List.all_eq_true.mp h4 t.1 (List.mem_flatMap.mpr ⟨lc, hlc, List.mem_map_of_mem ht⟩)
  rw [h2, h3]
  exact of_decide_eq_true this

end Bp
