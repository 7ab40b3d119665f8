import Verif.Spec.ZK
import Verif.Lemmas.ZK

set_option linter.unusedSectionVars false

namespace Bp
variable {F G : Type} [Field F] [AddCommGroup G] [Module F G]

/-- The coins `c` of `p` and `c'` of `p'` lead to the same proof, with the same vectors. -/
def Matches (env : Env F G) (Gs Hs : List G) (p p' : Prover F G) (c c' : Coins F) : Prop :=
  ∃ p2 p2' ch w lp rp lp' rp' k pr t', (p.start c Gs Hs).createRandomizedConstraints env = .ok p2 ∧ (p'.start c' Gs Hs).createRandomizedConstraints env = .ok p2' ∧
    Prover.prove env p c Gs Hs = .ok (pr, t') ∧ Prover.prove env p' c' Gs Hs = .ok (pr, t') ∧
    Honest env p p2 c Gs Hs k ch w lp rp pr t' ∧ Honest env p' p2' c' Gs Hs k ch w lp' rp' pr t' ∧ ch.x ≠ 0 ∧ ch.y ≠ 0 ∧
    p'.aL.length = p.aL.length ∧ p2'.aL.length = p2.aL.length ∧
    (∀ i < p2.aL.length, lEntry p2' w ch (c'.maskL p.aL.length i) i = lEntry p2 w ch (c.maskL p.aL.length i) i) ∧
    (∀ i < p2.aL.length, rEntry p2' w ch (c'.maskR p.aL.length i) i = rEntry p2 w ch (c.maskR p.aL.length i) i) ∧
    Coins.SameUnused p.aL.length (p2.aL.length - p.aL.length) c c'

theorem Coins.SameUnused.symm {n1 n2 : ℕ} {c c' : Coins F} (h : Coins.SameUnused n1 n2 c c') : Coins.SameUnused n1 n2 c' c :=
  ⟨fun i hi => ⟨(h.1 i hi).1.symm, (h.1 i hi).2.symm⟩, fun i hi => ⟨(h.2.1 i hi).1.symm, (h.2.1 i hi).2.symm⟩,
    fun h0 => ⟨(h.2.2 h0).1.symm, (h.2.2 h0).2.1.symm, (h.2.2 h0).2.2.symm⟩⟩

theorem Matches.symm {env : Env F G} {Gs Hs : List G} {p p' : Prover F G} {c c' : Coins F} (h : Matches env Gs Hs p p' c c') : Matches env Gs Hs p' p c' c := by
  obtain ⟨p2, p2', ch, w, lp, rp, lp', rp', k, pr, t', a, a', b, b', H, H', hx, hy, n1, n2, eL, eR, hu⟩ := h
  refine ⟨p2', p2, ch, w, lp', rp', lp, rp, k, pr, t', a', a, b', b, H', H, hx, hy, n1.symm, n2.symm, ?_, ?_, ?_⟩
  · rw [n1, n2]; exact fun i hi => (eL i hi).symm
  · rw [n1, n2]; exact fun i hi => (eR i hi).symm
  · rw [n1, n2]; exact hu.symm

theorem Matches.unique {env : Env F G} {Gs Hs : List G} {p p' : Prover F G} {c c1 c' : Coins F} (hw : p.WF) (hinj : Function.Injective fun a : F => a • p.h)
    (h : Matches env Gs Hs p p' c c') (h1 : Matches env Gs Hs p p' c1 c') : c1 = c := by
  obtain ⟨p2, p2', ch, w, lp, rp, lp', rp', k, pr, t', a, a', b, b', H, H', hx, hy, n1, n2, eL, eR, hu⟩ := h
  obtain ⟨q2, q2', dh, v, lq, rq, lq', rq', j, qr, s', d, d', e, e', K, K', hx1, hy1, m1, m2, fL, fR, hv⟩ := h1
  rw [a'] at d'
  cases d'
  rw [b'] at e'
  cases e'
  have hch : dh = ch := by rw [K'.hch, H'.hch]
  subst hch
  have hwv : v = w := by
    have := K'.hwp
    rw [H'.hwp] at this
    exact (Except.ok.inj this).symm
  subst hwv
  have hs : p.start c1 Gs Hs = p.start c Gs Hs := by
    rw [Prover.start, Prover.start, ← H.hA_I1, ← H.hA_O1, ← H.hS1, ← K.hA_I1, ← K.hA_O1, ← K.hS1]
  rw [hs, a] at d
  cases d
  obtain ⟨dlog, hd⟩ := hinj.hasLeftInverse
  have hnn : p.aL.length ≤ p2.aL.length := by
    obtain ⟨vs, hsteps⟩ := Prover.createRandomizedConstraints_steps a
    exact hsteps.ext.lenL
  have hsc := Prover.sameCommits_crc a
  have hh : p2.h = p.h := hsc.h
  have hg : p2.g = p.g := hsc.g
  have r1 := explain_self H hnn hh hg hx hy (dlog := dlog) hd (l := fun i => lEntry p2 v dh (c.maskL p.aL.length i) i) (r := fun i => rEntry p2 v dh (c.maskR p.aL.length i) i)
    (fun _ _ => rfl) (fun _ _ => rfl) (c0 := c') hu.1 hu.2.1 (fun h => hu.2.2 (by omega))
  have r2 := explain_self K hnn hh hg hx hy (dlog := dlog) hd (l := fun i => lEntry p2 v dh (c.maskL p.aL.length i) i) (r := fun i => rEntry p2 v dh (c.maskR p.aL.length i) i)
    (fun i hi => (eL i hi).symm.trans (fL i hi)) (fun i hi => (eR i hi).symm.trans (fR i hi)) (c0 := c') hv.1 hv.2.1 (fun h => hv.2.2 (by omega))
  exact r2.symm.trans r1

theorem Matches.total {env : Env F G} {Gs Hs : List G} {p p' : Prover F G} {s : Verifier F G} (hw : p.WF) (hw' : p'.WF) (hst : InStep p s) (hst' : InStep p' s) (hg : p'.g = p.g) (hh : p'.h = p.h)
    (hb : Function.Bijective fun a : F => a • p.h) (hr : p.Ready env Gs Hs) (hr' : p'.Ready env Gs Hs) {c : Coins F} (hc : p.Regular env Gs Hs c) : ∃ c', Matches env Gs Hs p p' c c' := by
  obtain ⟨p2, pr, t', hcrc, hpr, hx, hy⟩ := hc
  obtain ⟨q2, k, hq, hsat, hin, hk, hG, hH⟩ := hr (p.start c Gs Hs).transcript
  have hq : (p.start c Gs Hs).createRandomizedConstraints env = .ok q2 := hq
  rw [hcrc] at hq
  cases hq
  obtain ⟨p2', k', hcrc', hsat', hin', -⟩ := hr' (p.start c Gs Hs).transcript
  obtain ⟨qr, u', ch, w, lp, rp, hqr, H⟩ := prove_ok env p p2 c Gs Hs hw hcrc k hk hG hH hin
  rw [hpr] at hqr
  cases hqr
  obtain ⟨dlog, hd⟩ := hb.2.hasRightInverse
  rw [← H.hch] at hx hy
  obtain ⟨c', hc'⟩ : ∃ c', c' = Coins.explain dlog p' p2' Gs Hs pr ch w (fun i => lEntry p2 w ch (c.maskL p.aL.length i) i) (fun i => rEntry p2 w ch (c.maskR p.aL.length i) i) c := ⟨_, rfl⟩
  obtain ⟨r1, r2, r3, r4, r5, r6, lp', rp', r7⟩ := explain_prove H hw hst hcrc hsat hk hG hH hx hy hw' hst' hg hh hcrc' hsat' hin' hd (fun a b h => hb.1 h) hc'
  refine ⟨c', p2, p2', ch, w, lp, rp, lp', rp', k, pr, t', hcrc, r1, hpr, r6, H, r7, hx, hy, r2, r3, r4, r5, ?_⟩
  rw [hc', Coins.explain, r2, r3]
  refine ⟨fun i hi => ⟨?_, ?_⟩, fun i hi => ⟨?_, ?_⟩, fun h0 => ⟨?_, ?_, ?_⟩⟩
  · exact if_neg (by omega)
  · exact if_neg (by omega)
  · exact if_neg (by omega)
  · exact if_neg (by omega)
  · exact if_neg (by omega)
  · exact if_neg (by omega)
  · exact if_neg (by omega)

theorem Matches.regular {env : Env F G} {Gs Hs : List G} {p p' : Prover F G} {c c' : Coins F} (h : Matches env Gs Hs p p' c c') : p'.Regular env Gs Hs c' := by
  obtain ⟨p2, p2', ch, w, lp, rp, lp', rp', k, pr, t', a, a', b, b', H, H', hx, hy, -⟩ := h
  exact ⟨p2', pr, t', a', b', by rw [← H'.hch]; exact hx, by rw [← H'.hch]; exact hy⟩

theorem Matches.prove_eq {env : Env F G} {Gs Hs : List G} {p p' : Prover F G} {c c' : Coins F} (h : Matches env Gs Hs p p' c c') :
    Prover.prove env p' c' Gs Hs = Prover.prove env p c Gs Hs := by
  obtain ⟨p2, p2', ch, w, lp, rp, lp', rp', k, pr, t', a, a', b, b', -⟩ := h
  rw [b, b']

theorem Matches.unused {env : Env F G} {Gs Hs : List G} {p p' : Prover F G} {c c' : Coins F} (h : Matches env Gs Hs p p' c c') {p2 : Prover F G}
    (hp : (p.start c Gs Hs).createRandomizedConstraints env = .ok p2) : Coins.SameUnused p.aL.length (p2.aL.length - p.aL.length) c c' := by
  obtain ⟨q2, p2', ch, w, lp, rp, lp', rp', k, pr, t', a, a', b, b', -, -, -, -, -, -, -, -, hu⟩ := h
  rw [hp] at a
  cases a
  exact hu

end Bp
