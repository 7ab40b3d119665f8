import Verif.Lemmas.PublicCoin
import Verif.Lemmas.Game
import Verif.Lemmas.ZK5
import Verif.Spec.RandomOracle

set_option linter.unusedSectionVars false

/-! # The prover only asks the questions on its log -/

namespace Bp
variable {F G : Type} [Field F] [AddCommGroup G] [Module F G]

/-- Two oracles answer alike every challenge drawn along the log `T` after its first `n` events. -/
def AgreeAfter (n : ℕ) (O O' : Oracle F G) (T : Transcript F G) : Prop :=
  ∀ pre label, n ≤ pre.length → (pre ++ [TEvent.challenge label] <+: T) → O (pre ++ [.challenge label]) = O' (pre ++ [.challenge label])

theorem AgreeAfter.at_log {n : ℕ} {O O' : Oracle F G} {T t t0 : Transcript F G} {l : String} (h : AgreeAfter n O O' T) (ht : t <+: T) (e : t = t0 ++ [.challenge l]) (hn : n ≤ t0.length) : O t = O' t := by
  subst e
  exact h _ _ hn ht

theorem ippLoop_local (Q : G) (k n : ℕ) : ∀ (O O' : Oracle F G) (t : Transcript F G) (Gs Hs : List G) (a b : List F) (Ls Rs : List G) (q : IppProof F G) (T : Transcript F G),
    Gs.length = 2 ^ k → Hs.length = 2 ^ k → a.length = 2 ^ k → b.length = 2 ^ k → ippLoop O Q (2 ^ k) t Gs Hs a b Ls Rs = .ok (q, T) → n ≤ t.length → AgreeAfter n O O' T → ippLoop O' Q (2 ^ k) t Gs Hs a b Ls Rs = .ok (q, T) := by
  induction k with
  | zero =>
    intro O O' t Gs Hs a b Ls Rs q T h1 h2 h3 h4 h ht hO
    rw [ippLoop] at h ⊢
    exact h
  | succ k ih =>
    intro O O' t Gs Hs a b Ls Rs q T h1 h2 h3 h4 h ht hO
    obtain ⟨L0, R0, hr⟩ := ippLoop_round O Q k t Gs Hs a b Ls Rs h1 h2 h3 h4
    rw [hr O t Ls Rs _ rfl] at h
    obtain ⟨g1, p1, a1, b1⟩ := fold_lens (O ((t.commitPoint "L" L0).commitPoint "R" R0 ++ [TEvent.challenge "u"])) (O ((t.commitPoint "L" L0).commitPoint "R" R0 ++ [TEvent.challenge "u"]))⁻¹ h1 h2 h3 h4
    obtain ⟨L, R, α, β, -, -, e, -⟩ := ippLoop_complete O Q k ((t.commitPoint "L" L0).commitPoint "R" R0 ++ [TEvent.challenge "u"]) _ _ _ _ (Ls ++ [L0]) (Rs ++ [R0]) g1 p1 a1 b1
    have hT : T = (t.commitPoint "L" L0).commitPoint "R" R0 ++ [TEvent.challenge "u"] ++ roundsLog (L.zip R) := by
      rw [e] at h
      rw [← (ippChallenges_log O _ _).1]
      exact (Prod.mk.inj (Except.ok.inj h)).2.symm
    rw [hr O' t Ls Rs _ (hO _ _ (by simp [Transcript.commitPoint]; omega) ⟨_, hT.symm⟩).symm]
    exact ih O O' _ _ _ _ _ _ _ _ _ g1 p1 a1 b1 h (by simp [Transcript.commitPoint]; omega) hO

theorem createIpp_local {n : ℕ} {O O' : Oracle F G} {t : Transcript F G} {Q : G} {k : ℕ} {Gf Hf : List F} {Gs Hs : List G} {a b : List F} (h1 : Gs.length = 2 ^ k) (h2 : Hs.length = 2 ^ k) (h3 : a.length = 2 ^ k)
    (h4 : b.length = 2 ^ k) (h5 : Gf.length = 2 ^ k) (h6 : Hf.length = 2 ^ k) {q : IppProof F G} {T : Transcript F G} (h : createIpp O t Q Gf Hf Gs Hs a b = .ok (q, T)) (ht : n ≤ t.length) (hO : AgreeAfter n O O' T) :
    createIpp O' t Q Gf Hf Gs Hs a b = .ok (q, T) := by
  cases k with
  | zero =>
    have h1 : Gs.length = 1 := h1
    unfold createIpp at h ⊢
    rw [h1] at h ⊢
    simp only [ne_eq, not_true_eq_false, if_false] at h ⊢
    rw [ippLoop] at h ⊢
    exact h
  | succ k =>
    rw [createIpp_succ _ _ _ _ _ _ _ _ _ _ h1 h2 h3 h4 h5 h6] at h ⊢
    exact ippLoop_local Q (k + 1) n O O' _ _ _ _ _ _ _ _ _ (by simp [h1, h5]) (by simp [h2, h6]) h3 h4 h (by simp [Transcript.ippDomainSep]; omega) hO

section
variable {env : Env F G} {p p2 : Prover F G} {c : Coins F} {Gs Hs : List G} {k : ℕ} {ch ch' : Chals F} {wp wp' : Weights F} {lp rp lp' rp' : VecPoly3 F} {pr pr' : R1CSProof F G} {T T' : Transcript F G} {O O' : Oracle F G}

/-- The final log of a run of the prover. -/
theorem Honest.log (H : Honest { env with oracle := O } p p2 c Gs Hs k ch wp lp rp pr T) (hn : p2.aL.length ≤ 2 ^ k) (hG : 2 ^ k ≤ Gs.length) (hH : 2 ^ k ≤ Hs.length) :
    T = (logW p2.transcript pr).ippDomainSep (2 ^ k) ++ roundsLog (pr.ipp.L.zip pr.ipp.R) ∧ pr.ipp.L.length = k ∧ pr.ipp.R.length = k := by
  obtain ⟨q, e1, e2, e3, -⟩ := createIpp_complete O (logW p2.transcript pr) (ch.w • p2.g) k ((List.range (2 ^ k)).map (ufac p.aL.length ch.u))
    ((List.range (2 ^ k)).map (fun i => vpow ch.y⁻¹ i * ufac p.aL.length ch.u i)) (Gs.take (2 ^ k)) (Hs.take (2 ^ k))
    (hlvec lp ch.x p2.aL.length (2 ^ k - p2.aL.length)) (hrvec rp ch.x ch.y p2.aL.length (2 ^ k - p2.aL.length)) (by simpa using hG) (by simpa using hH) (length_hlvec _ _ _ _ hn) (length_hrvec _ _ _ _ _ hn) (by simp) (by simp)
  have h := H.hipp
  have e3' := e3
  rw [show createIpp O _ _ _ _ _ _ _ _ = _ from h] at e3'
  obtain ⟨f1, f2⟩ := Prod.mk.inj (Except.ok.inj e3')
  rw [f2, f1, (ippChallenges_log _ _ _).1]
  exact ⟨rfl, e1, e2⟩

/-- Two runs of the prover with oracles that agree on the log of the first one. -/
theorem Honest.local_run {n : ℕ} (hn0 : n ≤ p2.transcript.length) (H : Honest { env with oracle := O } p p2 c Gs Hs k ch wp lp rp pr T) (H' : Honest { env with oracle := O' } p p2 c Gs Hs k ch' wp' lp' rp' pr' T') (hn : p2.aL.length ≤ 2 ^ k) (hG : 2 ^ k ≤ Gs.length)
    (hH : 2 ^ k ≤ Hs.length) (hO : AgreeAfter n O O' T) : pr' = pr ∧ T' = T := by
  obtain ⟨hT, -⟩ := H.log hn hG hH
  have pW : logW p2.transcript pr <+: T := ⟨_, by rw [hT, Transcript.ippDomainSep]; simp only [List.append_assoc]; rfl⟩
  have pX : logX p2.transcript pr <+: T := List.IsPrefix.trans ⟨_, rfl⟩ pW
  have pU : logU p2.transcript pr <+: T := List.IsPrefix.trans ⟨_, rfl⟩ pX
  have pZ : logZ p2.transcript pr <+: T := List.IsPrefix.trans ⟨_, rfl⟩ pU
  have pY : logY p2.transcript pr <+: T := List.IsPrefix.trans ⟨_, rfl⟩ pZ
  have e1 : pr'.A_I1 = pr.A_I1 := by rw [H.hA_I1, H'.hA_I1]
  have e2 : pr'.A_O1 = pr.A_O1 := by rw [H.hA_O1, H'.hA_O1]
  have e3 : pr'.S1 = pr.S1 := by rw [H.hS1, H'.hS1]
  have e4 : pr'.A_I2 = pr.A_I2 := by rw [H.hA_I2, H'.hA_I2]
  have e5 : pr'.A_O2 = pr.A_O2 := by rw [H.hA_O2, H'.hA_O2]
  have e6 : pr'.S2 = pr.S2 := by rw [H.hS2, H'.hS2]
  have lY : logY p2.transcript pr' = logY p2.transcript pr := by rw [logY, logY, e4, e5, e6]
  have lZ : logZ p2.transcript pr' = logZ p2.transcript pr := by rw [logZ, logZ, lY]
  have hy : ch'.y = ch.y := by
    rw [H.hch, H'.hch]
    show O' (logY _ _) = O (logY _ _)
    rw [lY]
    exact (hO.at_log (l := "y") (t0 := p2.transcript ++ [.point "A_I2" pr.A_I2, .point "A_O2" pr.A_O2, .point "S2" pr.S2]) pY (by simp [logY]) (by simp; omega)).symm
  have hz : ch'.z = ch.z := by
    rw [H.hch, H'.hch]
    show O' (logZ _ _) = O (logZ _ _)
    rw [lZ]
    exact (hO.at_log pZ rfl (by simp [logY]; omega)).symm
  have hw : wp' = wp := by
    have a := H'.hwp
    rw [hz, H.hwp] at a
    exact (Except.ok.inj a).symm
  have hl : lp' = lp := by rw [H.hlp, H'.hlp, hy, hw]
  have hr : rp' = rp := by rw [H.hrp, H'.hrp, hy, hw]
  have g1 : pr'.T_1 = pr.T_1 := by rw [H.hT_1, H'.hT_1, hl, hr]
  have g3 : pr'.T_3 = pr.T_3 := by rw [H.hT_3, H'.hT_3, hl, hr]
  have g4 : pr'.T_4 = pr.T_4 := by rw [H.hT_4, H'.hT_4, hl, hr]
  have g5 : pr'.T_5 = pr.T_5 := by rw [H.hT_5, H'.hT_5, hl, hr]
  have g6 : pr'.T_6 = pr.T_6 := by rw [H.hT_6, H'.hT_6, hl, hr]
  have lU : logU p2.transcript pr' = logU p2.transcript pr := by rw [logU, logU, lZ, g1, g3, g4, g5, g6]
  have lX : logX p2.transcript pr' = logX p2.transcript pr := by rw [logX, logX, lU]
  have hu : ch'.u = ch.u := by
    rw [H.hch, H'.hch]
    show O' (logU _ _) = O (logU _ _)
    rw [lU]
    exact (hO.at_log (l := "u") (t0 := logZ p2.transcript pr ++ [.point "T_1" pr.T_1, .point "T_3" pr.T_3, .point "T_4" pr.T_4, .point "T_5" pr.T_5, .point "T_6" pr.T_6]) pU (by simp [logU]) (by simp [logZ, logY]; omega)).symm
  have hx : ch'.x = ch.x := by
    rw [H.hch, H'.hch]
    show O' (logX _ _) = O (logX _ _)
    rw [lX]
    exact (hO.at_log pX rfl (by simp [logU, logZ, logY]; omega)).symm
  have k1 : pr'.t_x = pr.t_x := by rw [H.ht_x, H'.ht_x, hl, hr, hx]
  have k2 : pr'.t_x_blinding = pr.t_x_blinding := by rw [H.ht_x_blinding, H'.ht_x_blinding, hw, hx]
  have k3 : pr'.e_blinding = pr.e_blinding := by rw [H.he_blinding, H'.he_blinding, hu, hx]
  have lW : logW p2.transcript pr' = logW p2.transcript pr := by rw [logW, logW, lX, k1, k2, k3]
  have hww : ch'.w = ch.w := by
    rw [H.hch, H'.hch]
    show O' (logW _ _) = O (logW _ _)
    rw [lW]
    exact (hO.at_log (l := "w") (t0 := logX p2.transcript pr ++ [.scalar "t_x" pr.t_x, .scalar "t_x_blinding" pr.t_x_blinding, .scalar "e_blinding" pr.e_blinding]) pW (by simp [logW]) (by simp [logX, logU, logZ, logY]; omega)).symm
  have hi := H'.hipp
  rw [lW, hww, hy, hu, hx, hl, hr] at hi
  have hi' := createIpp_local (O' := O') (by simpa using hG) (by simpa using hH) (length_hlvec _ _ _ _ hn) (length_hrvec _ _ _ _ _ hn) (by simp) (by simp) H.hipp (by simp [logW, logX, logU, logZ, logY]; omega) hO
  rw [show createIpp O' _ _ _ _ _ _ _ _ = _ from hi] at hi'
  obtain ⟨f1, f2⟩ := Prod.mk.inj (Except.ok.inj hi')
  exact ⟨R1CSProof.ext' e1 e2 e3 e4 e5 e6 g1 g3 g4 g5 g6 k1 k2 k3 f1, f2⟩

end

end Bp
