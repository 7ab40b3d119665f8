import Verif.Lemmas.Game
import Verif.Props.Verify

/-! # Counting the answers with which a forger wins, given a rule for bad answers

Nothing is assumed of the multiplication of points by scalars. -/

set_option linter.unusedSectionVars false

namespace Bp
variable {F G : Type} [Field F] [AddCommGroup G] [SMul F G] [DecidableEq G]

theorem Forger.AcceptedWith.asked {A : Forger F G} {env : Env F G} {label : String} {m : ℕ} {dv : List G → Drv (Verifier F G) Unit} (hu : Uniform label m dv) {coms0 : List G} (h0 : coms0.length = m) {s0 : Verifier F G}
    (hs0 : dv coms0 (Verifier.new [.init label]) = (.ok (), s0)) {g h : G} {Gs Hs : List G} {Q : ℕ} {cs : List F} {r : F} {O : Oracle F G} {s : Verifier F G} {T : Transcript F G}
    (ha : A.AcceptedWith env label dv g h Gs Hs Q cs r O s T) (hm : (A.coms (cs.take Q)).length = m) (hl : cs.length = Q + s0.numDraws) : ∀ d ∈ draws T, d ∈ askedBy (A.game s Q) cs := by
  obtain ⟨rfl, e1, e2⟩ := verify_proofLog (OnePhase.new (hu.onePhase _) ha.built) ha.accepts
  refine A.game_asked s Q hl ?_
  rw [length_draws_proofLog s _ ((hu.onePhase _).noDraw ha.built), e1, e2, ← hu.numDraws hm h0 ha.built hs0, Nat.min_self]
  exact le_refl _

/-- If what is accepted is true or a bad answer was given, then a forger seldom wins. -/
theorem game_count [Fintype F] (env : Env F G) (label : String) (m : ℕ) (dv : List G → Drv (Verifier F G) Unit) (hu : Uniform label m dv) (coms0 : List G) (h0 : coms0.length = m)
    (s0 : Verifier F G) (hs0 : dv coms0 (Verifier.new [.init label]) = (.ok (), s0)) (g h : G) (Gs Hs : List G) {B : ℕ} (bad : BadRule F G B) (claim : List G → Prop)
    (hbad : ∀ (coms : List G) (s : Verifier F G), coms.length = m → dv coms (Verifier.new [.init label]) = (.ok (), s) → ∀ (O : Oracle F G) (pr : R1CSProof F G) (r r' : F) (T T' : Transcript F G), r ≠ r' →
      s.verify { env with oracle := O } pr g h Gs Hs r = .ok T → s.verify { env with oracle := O } pr g h Gs Hs r' = .ok T' → claim coms ∨ bad.Hit O T) (A : Forger F G) (Q : ℕ) :
    A.forging env label dv m claim g h Gs Hs Q s0.numDraws ≤ ((Q + s0.numDraws) * B + 1) * Fintype.card F ^ (Q + s0.numDraws) := by
  classical
  let st : List F → Verifier F G := fun cs => (dv (A.coms (cs.take Q)) (Verifier.new [.init label])).2
  let ask : List F → Transcript F G := fun cs => if cs.length < Q then A.ask cs else A.game (st cs) Q cs
  have hask : ∀ (cs : List F) s, dv (A.coms (cs.take Q)) (Verifier.new [.init label]) = (.ok (), s) → ∀ i, ask (cs.take i) = A.game s Q (cs.take i) := by
    intro cs s hs i
    dsimp only [ask, st]
    split
    · rename_i hlt
      rw [Forger.game, if_pos hlt]
    · rename_i hge
      rw [List.length_take] at hge
      rw [List.take_take, Nat.min_eq_left (by omega), hs]
  have hasked : ∀ (cs : List F) s, dv (A.coms (cs.take Q)) (Verifier.new [.init label]) = (.ok (), s) → ∀ i, askedBy ask (cs.take i) = askedBy (A.game s Q) (cs.take i) := by
    intro cs s hs i
    unfold askedBy
    refine List.map_congr_left fun j _ => ?_
    rw [List.take_take]
    exact hask cs s hs _
  refine count_wins _ (count_hit bad ask (Q + s0.numDraws)) (fun cs r => A.Forges env label dv m claim g h Gs Hs Q (List.ofFn cs) r) fun cs r r' hr h1 h2 => ?_
  obtain ⟨hm, hf, O, s, T, a⟩ := h1
  obtain ⟨-, -, O', s', T', b⟩ := h2
  generalize hcs : List.ofFn cs = l at *
  have hl : l.length = Q + s0.numDraws := by rw [← hcs]; simp
  obtain rfl : s = s' := (Prod.mk.inj (a.built.symm.trans b.built)).2
  have hT := a.asked hu h0 hs0 hm hl
  have hO : AgreeOn O O' T := fun pre l' hp => a.answers.agree b.answers (hT _ (mem_draws hp))
  have hv := c09_verify_challenges { env with oracle := O } s _ g h Gs Hs r T a.accepts O' hO
  have hall : askedBy ask l = askedBy (A.game s Q) l := by simpa [List.take_of_length_le] using hasked l s a.built l.length
  rcases hbad _ s hm a.built O' _ r r' T T' hr hv b.accepts with c | hh
  · exact absurd c hf
  · refine ⟨O', T, fun i c hi hn => ?_, fun d hd => hall ▸ hT d hd, hh⟩
    rw [hask l s a.built] at hn ⊢
    rw [hasked l s a.built] at hn
    exact b.answers i c hi hn

/-- What a prover that calculates with combinations achieves against points, it achieves against combinations, unless it gives a relation. -/
theorem Forger.Fools.lift {M : Type} [AddCommGroup M] [SMul F M] [DecidableEq M] {Φ : Type} [FunLike Φ M G] [AddMonoidHomClass Φ M G] [MulActionHomClass Φ F M G] {φ : Φ} {A : Forger F M} {env : Env F G} {label : String} {dv : List G → Drv (Verifier F G) Unit} {dv' : List M → Drv (Verifier F M) Unit} (hn : ∀ a, DrvNat φ (dv (a.map φ)) (dv' a))
    (h1 : ∀ a, OnePhase (dv' a)) {m : ℕ} {claim : List M → Prop} {g h : M} {Gs Hs : List M} {Q : ℕ} {cs : List F} {r : F} (hf : A.Fools φ env label dv dv' m claim g h Gs Hs Q cs r) :
    A.Forges (env.pull φ) label dv' m claim g h Gs Hs Q cs r := by
  obtain ⟨hm, hc, O, s, T, ⟨b1, b2, b3⟩, hr⟩ := hf
  have hb : dv ((A.coms (cs.take Q)).map φ) (Verifier.new [.init label]) = (.ok (), s) := b1
  rw [← mapG_new φ label, hn] at hb
  obtain ⟨e1, e2⟩ := Prod.mk.inj hb
  have hb' : dv' (A.coms (cs.take Q)) (Verifier.new [.init label]) = (.ok (), (dv' (A.coms (cs.take Q)) (Verifier.new [.init label])).2) := Prod.ext e1 rfl
  generalize (dv' (A.coms (cs.take Q)) (Verifier.new [.init label])).2 = s' at *
  subst e2
  obtain ⟨T', -, c1, rfl, c2⟩ := verify_lift (pr := A.out (cs.take Q)) b3 hr
  obtain ⟨rfl, -, -⟩ := verify_proofLog (OnePhase.new (h1 _) hb') c1
  have b2 : Answers (fun cs => (A.game s' Q cs).mapG φ) O cs := by
    have e : (A.mapG φ).game (s'.mapG φ) Q = fun cs => (A.game s' Q cs).mapG φ := funext fun cs => (mapG_game ..)
    rwa [e] at b2
  exact ⟨hm, hc, _, s', _, hb', b2.lift fun i hi j hj p hp p' hp' => c2 p (game_points A s' Q cs hi p hp) p' (game_points A s' Q cs hj p' hp'), c1⟩

end Bp
