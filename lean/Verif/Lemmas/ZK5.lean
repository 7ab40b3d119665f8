import Verif.Lemmas.ZK4

set_option linter.unusedSectionVars false

/-! # Coins of the prover and choices of the simulator -/

namespace Bp
variable {F G : Type} [Field F] [AddCommGroup G] [Module F G]

/-- The choices of the simulator that correspond to the coins `c` of the prover. -/
def SimMatches (env : Env F G) (Gs Hs : List G) (p : Prover F G) (n : ℕ) (c : Coins F) (sc : SimCoins F G) : Prop :=
  ∃ p2 ch w lp rp k pr t', (p.start c Gs Hs).createRandomizedConstraints env = .ok p2 ∧ Prover.prove env p c Gs Hs = .ok (pr, t') ∧ Honest env p p2 c Gs Hs k ch w lp rp pr t' ∧
    p2.aL.length = n ∧ ch.x ≠ 0 ∧ ch.y ≠ 0 ∧
    sc = SimCoins.of pr n (fun i => lEntry p2 w ch (c.maskL p.aL.length i) i) (fun i => rEntry p2 w ch (c.maskR p.aL.length i) i)

theorem SimMatches.det {env : Env F G} {Gs Hs : List G} {p : Prover F G} {n : ℕ} {c : Coins F} {sc sc' : SimCoins F G} (h : SimMatches env Gs Hs p n c sc) (h' : SimMatches env Gs Hs p n c sc') : sc = sc' := by
  obtain ⟨p2, ch, w, lp, rp, k, pr, t', a, b, H, hn, hx, hy, e⟩ := h
  obtain ⟨q2, dh, v, lq, rq, j, qr, u', a', b', K, hn', hx', hy', e'⟩ := h'
  rw [a] at a'
  cases a'
  rw [b] at b'
  cases b'
  have hch : dh = ch := by rw [K.hch, H.hch]
  subst hch
  have hwv : v = w := by
    have := K.hwp
    rw [H.hwp] at this
    exact (Except.ok.inj this).symm
  subst hwv
  rw [e, e']

theorem SimMatches.inj {env : Env F G} {Gs Hs : List G} {p : Prover F G} {n n2 : ℕ} (hn2 : n2 = n - p.aL.length) {c c' : Coins F} {sc : SimCoins F G} (hinj : Function.Injective fun a : F => a • p.h)
    (he : Prover.prove env p c Gs Hs = Prover.prove env p c' Gs Hs)
    (hd : c.Drawn p.aL.length n2) (hd' : c'.Drawn p.aL.length n2) (h : SimMatches env Gs Hs p n c sc) (h' : SimMatches env Gs Hs p n c' sc) : c = c' := by
  obtain ⟨p2, ch, w, lp, rp, k, pr, t', a, b, H, hn, hx, hy, e⟩ := h
  obtain ⟨q2, dh, v, lq, rq, j, qr, u', a', b', K, hn', hx', hy', e'⟩ := h'
  rw [b, b'] at he
  cases he
  have hs : p.start c' Gs Hs = p.start c Gs Hs := by
    rw [Prover.start, Prover.start, ← H.hA_I1, ← H.hA_O1, ← H.hS1, ← K.hA_I1, ← K.hA_O1, ← K.hS1]
  rw [hs, a] at a'
  cases a'
  have hch : dh = ch := by rw [K.hch, H.hch]
  subst hch
  have hwv : v = w := by
    have := K.hwp
    rw [H.hwp] at this
    exact (Except.ok.inj this).symm
  subst hwv
  obtain ⟨dlog, hdl⟩ := hinj.hasLeftInverse
  have hnn : p.aL.length ≤ p2.aL.length := by
    obtain ⟨vs, hsteps⟩ := Prover.createRandomizedConstraints_steps a
    exact hsteps.ext.lenL
  have hsc := Prover.sameCommits_crc a
  have hh : p2.h = p.h := hsc.h
  have hg : p2.g = p.g := hsc.g
  have ee := e.symm.trans e'
  simp only [SimCoins.of, SimCoins.mk.injEq, true_and] at ee
  have fL : ∀ i < p2.aL.length, lEntry p2 v dh (c.maskL p.aL.length i) i = lEntry p2 v dh (c'.maskL p.aL.length i) i := fun i hi => by
    have := congrFun ee.1 i
    simpa only [hn ▸ hi, if_true] using this
  have fR : ∀ i < p2.aL.length, rEntry p2 v dh (c.maskR p.aL.length i) i = rEntry p2 v dh (c'.maskR p.aL.length i) i := fun i hi => by
    have := congrFun ee.2 i
    simpa only [hn ▸ hi, if_true] using this
  rw [hn2, ← hn] at hd hd'
  have r1 := explain_self H hnn hh hg hx hy (dlog := dlog) hdl (l := fun i => lEntry p2 v dh (c.maskL p.aL.length i) i) (r := fun i => rEntry p2 v dh (c.maskR p.aL.length i) i)
    (fun _ _ => rfl) (fun _ _ => rfl) (c0 := c) (fun _ _ => ⟨rfl, rfl⟩) (fun _ _ => ⟨rfl, rfl⟩) (fun _ => ⟨rfl, rfl, rfl⟩)
  have r2 := explain_self K hnn hh hg hx hy (dlog := dlog) hdl (l := fun i => lEntry p2 v dh (c.maskL p.aL.length i) i) (r := fun i => rEntry p2 v dh (c.maskR p.aL.length i) i)
    fL fR (c0 := c)
    (fun i hi => ⟨(hd.1 i hi).1.trans (hd'.1 i hi).1.symm, (hd.1 i hi).2.trans (hd'.1 i hi).2.symm⟩)
    (fun i hi => ⟨(hd.2.1 i hi).1.trans (hd'.2.1 i hi).1.symm, (hd.2.1 i hi).2.trans (hd'.2.1 i hi).2.symm⟩)
    (fun h0 => by
      have h1 := hd.2.2 (by omega)
      have h2 := hd'.2.2 (by omega)
      exact ⟨h1.1.trans h2.1.symm, h1.2.1.trans h2.2.1.symm, h1.2.2.trans h2.2.2.symm⟩)
  exact r1.symm.trans r2

/-- Coins that are all zero. -/
def Coins.zero : Coins F := ⟨0, 0, 0, fun _ => 0, fun _ => 0, 0, 0, 0, fun _ => 0, fun _ => 0, 0, 0, 0, 0, 0⟩

section
variable {env env' : Env F G} {p : Prover F G} {s : Verifier F G} {Gs Hs : List G}

/-- What the honest prover does with given coins. -/
theorem ready_view (hO : env.oracle = env'.oracle) (hw : p.WF) (hst : InStep p s) (hr : p.Ready env Gs Hs) (c : Coins F) :
    ∃ p2 k ch w lp rp pr t', (p.start c Gs Hs).createRandomizedConstraints env = .ok p2 ∧ nextPowerOfTwo p2.aL.length = 2 ^ k ∧ 2 ^ k ≤ Gs.length ∧ 2 ^ k ≤ Hs.length ∧
      Prover.prove env p c Gs Hs = .ok (pr, t') ∧ Honest env p p2 c Gs Hs k ch w lp rp pr t' ∧
      (ch.y ≠ 0 → ∃ s2 wt, InStep p2 s2 ∧ w = { wt with wc := 0 } ∧
        View env' s s2 p.g p.h Gs Hs k ch wt pr t' (fun i => lEntry p2 w ch (c.maskL p.aL.length i) i) (fun i => rEntry p2 w ch (c.maskR p.aL.length i) i)) ∧
      ∃ s2 wt, InStep p2 s2 ∧ (s.start pr).createRandomizedConstraints env' = .ok s2 ∧ s2.flattenedConstraints ch.z = .ok wt := by
  obtain ⟨p2, k, hcrc, hsat, hin, hk, hG, hH⟩ := hr (p.start c Gs Hs).transcript
  have hcrc : (p.start c Gs Hs).createRandomizedConstraints env = .ok p2 := hcrc
  obtain ⟨pr, t', ch, w, lp, rp, hpr, H⟩ := prove_ok env p p2 c Gs Hs hw hcrc k hk hG hH hin
  refine ⟨p2, k, ch, w, lp, rp, pr, t', hcrc, hk, hG, hH, hpr, H, fun hy => H.view hO hw hst hcrc hsat hk hG hH hy, ?_⟩
  have hT : (p.start c Gs Hs).transcript = (s.start pr).transcript := by
    simp only [Prover.start, Verifier.start, hst.transcript, hst.V, H.hA_I1, H.hA_O1, H.hS1, List.length_zipWith, hst.lenB, Nat.min_self]
  obtain ⟨s2, hc2, hst2⟩ := crc_same hO (hst.start c Gs Hs pr hT) hcrc
  obtain ⟨wt, hwt, -⟩ := c10_flatten_agree p2 s2 hst2 ch.z w H.hwp
  exact ⟨s2, wt, hst2, hc2, hwt⟩

/-- The dry run of the simulator succeeds. -/
theorem ready_dry (hO : env.oracle = env'.oracle) (hf : env'.oracle.Fixed) (hw : p.WF) (hst : InStep p s) (hr : p.Ready env Gs Hs) :
    ∃ s0 k ch wt, Dry env' s s0 k ch wt ∧ s.numVars ≤ s0.numVars ∧ 2 ^ k ≤ Gs.length ∧ 2 ^ k ≤ Hs.length := by
  obtain ⟨p2, k, ch, w, lp, rp, pr, t', hcrc, hk, hG, hH, hpr, H, -, s2, wt, hst2, hc2, hwt⟩ := ready_view hO hw hst hr Coins.zero
  obtain ⟨T, h, hl⟩ := Verifier.crc_fixed hf (T := (s.start blankProof).transcript) (shape_start _ _ _) hc2
  have hch : ch = drawn env'.oracle T blankProof := by
    rw [H.hch, hO, ← hst2.transcript]
    exact drawn_fixed hf hl.symm _ _
  obtain ⟨vs, hsteps⟩ := Prover.createRandomizedConstraints_steps hcrc
  have hnn : p.aL.length ≤ p2.aL.length := hsteps.ext.lenL
  refine ⟨{ s2 with transcript := T }, k, ch, wt, ⟨h, hch, hwt, ?_⟩, ?_, hG, hH⟩
  · show nextPowerOfTwo s2.numVars = _
    rw [hst2.num, hk]
  · show s.numVars ≤ s2.numVars
    rw [hst2.num, hst.num]; exact hnn

end

end Bp
