import Verif.Spec.IppAlgebraic
import Verif.Lemmas.IppGame
import Verif.Lemmas.Algebraic2

/-! # The stand-alone verifier does not see how a point was made -/

set_option linter.unusedSectionVars false

namespace Bp
variable {F G M : Type} [Field F]

section
variable [AddCommGroup G] [SMul F G] [AddCommGroup M] [SMul F M]

/-- `verify_ipp` is `ippCalc` followed by the comparison. -/
theorem verifyIpp_calc [DecidableEq G] (env : Env F G) (n : ℕ) (t : Transcript F G) (Gf Hf : List F) (P Q : G) (Gs Hs : List G) (a b : F) (L R : List G) :
    verifyIpp env n t Gf Hf P Q Gs Hs a b L R = match ippCalc env n t Gf Hf Q Gs Hs a b L R with
      | .error e => .error e
      | .ok (e, T) => if e = P then .ok T else Res.err .verificationError := by
  unfold verifyIpp ippCalc
  simp only [bind, Except.bind]
  cases verificationScalars env L R n t with
  | error e => rfl
  | ok x =>
    obtain ⟨⟨u1, u2, u3⟩, t⟩ := x
    simp only
    cases multiScalarMul (F := F) (G := G) _ _ with
    | error e => rfl
    | ok res => rfl

theorem mapG_ippCalc {Φ : Type} [FunLike Φ M G] [AddMonoidHomClass Φ M G] [MulActionHomClass Φ F M G] (φ : Φ) (env : Env F G) (n : ℕ) (t : Transcript F M) (Gf Hf : List F) (Q : M) (Gs Hs : List M) (a b : F) (L R : List M) :
    ippCalc env n (t.mapG φ) Gf Hf (φ Q) (Gs.map φ) (Hs.map φ) a b (L.map φ) (R.map φ) = (ippCalc (env.pull φ) n t Gf Hf Q Gs Hs a b L R).map fun p => (φ p.1, p.2.mapG φ) := by
  unfold ippCalc
  simp only [bind, Except.bind, mapG_verificationScalars, List.length_map]
  cases verificationScalars (env.pull φ) L R n t with
  | error e => rfl
  | ok x =>
    obtain ⟨⟨u1, u2, u3⟩, t⟩ := x
    simp only [Except.map]
    rw [show [φ Q] ++ Gs.map φ ++ Hs.map φ ++ L.map φ ++ R.map φ = ([Q] ++ Gs ++ Hs ++ L ++ R).map φ by simp, mapG_multiScalarMul]
    cases multiScalarMul (F := F) (G := M) _ _ with
    | error e => rfl
    | ok res => rfl

/-- What the verifier accepts when it sees the points, it accepts when it sees the combinations, unless there is a relation. -/
theorem verifyIpp_lift [DecidableEq G] [DecidableEq M] {Φ : Type} [FunLike Φ M G] [AddMonoidHomClass Φ M G] [MulActionHomClass Φ F M G] {φ : Φ} {env : Env F G} {n : ℕ} {t : Transcript F M} {Gf Hf : List F} {P Q : M} {Gs Hs : List M}
    {pr : IppProof F M} {T : Transcript F G} (hv : verifyIpp env n (t.mapG φ) Gf Hf (φ P) (φ Q) (Gs.map φ) (Hs.map φ) pr.a pr.b (pr.L.map φ) (pr.R.map φ) = .ok T) {qs : List (Transcript F M)}
    (hn : ∀ ρ, ¬ IppRelation φ env n t Gf Hf P Q Gs Hs pr qs ρ) :
    ∃ T', verifyIpp (env.pull φ) n t Gf Hf P Q Gs Hs pr.a pr.b pr.L pr.R = .ok T' ∧
      ∀ p ∈ (T' :: qs).flatMap Transcript.points, ∀ p' ∈ (T' :: qs).flatMap Transcript.points, φ (p - p') = 0 → p - p' = 0 := by
  rw [verifyIpp_calc, mapG_ippCalc] at hv
  rw [verifyIpp_calc]
  cases hr : ippCalc (env.pull φ) n t Gf Hf Q Gs Hs pr.a pr.b pr.L pr.R with
  | error e => rw [hr] at hv; simp [Except.map] at hv
  | ok x =>
    obtain ⟨e, T'⟩ := x
    rw [hr] at hv
    simp only [Except.map] at hv
    split at hv
    · rename_i h0
      have he : e = P := by
        by_contra hne
        exact hn (e - P) ⟨sub_ne_zero.mpr hne, by rw [map_sub, h0, _root_.sub_self], e, T', hr, .inl rfl⟩
      refine ⟨T', by simp [he], fun p hp p' hp' h0 => ?_⟩
      by_contra hne
      exact hn _ ⟨hne, h0, e, T', hr, .inr ⟨p, p', hp, hp', rfl⟩⟩
    · simp [Res.err] at hv

theorem mapG_ippLog (f : M → G) (t : Transcript F M) (n : ℕ) (pr : IppProof F M) : ippLog (t.mapG f) n (pr.mapG f) = (ippLog t n pr).mapG f := by
  unfold ippLog
  have e : (pr.mapG f).L.zip (pr.mapG f).R = (pr.L.zip pr.R).map fun p => (f p.1, f p.2) := List.zip_map
  rw [mapG_append, e, mapG_roundsLog]
  simp [Transcript.ippDomainSep, Transcript.mapG, TEvent.mapG]

theorem IppForger.mapG_game (f : M → G) (A : IppForger F M) (t : Transcript F M) (l : String) (n q : ℕ) (cs : List F) : (A.mapG f).game (t.mapG f) l n q cs = (A.game t l n q cs).mapG f := by
  unfold IppForger.game
  split
  · rfl
  · show (draws (ippLog (Transcript.commitPoint (t.mapG f) l (f (A.com (cs.take q)))) n ((A.out (cs.take q)).mapG f))).getD _ [] = _
    rw [mapG_commitPoint, mapG_ippLog, mapG_draws, List.getD_eq_getElem?_getD, List.getD_eq_getElem?_getD, List.getElem?_map]
    cases (draws (ippLog (t.commitPoint l (A.com (cs.take q))) n (A.out (cs.take q))))[cs.length - q]? <;> rfl

/-- The combinations in the questions of the game are in the questions of the prover or in the log. -/
theorem IppForger.game_points (A : IppForger F M) (t : Transcript F M) (l : String) (n q : ℕ) (cs : List F) {i : ℕ} (hi : i < cs.length) :
    ∀ p ∈ (A.game t l n q (cs.take i)).points, p ∈ (ippLog (t.commitPoint l (A.com (cs.take q))) n (A.out (cs.take q)) :: askedBy A.ask (cs.take q)).flatMap Transcript.points := by
  intro p hp
  have hl : (cs.take i).length = i := by simp; omega
  unfold IppForger.game at hp
  rw [hl] at hp
  split at hp
  · rename_i hq
    refine List.mem_flatMap.mpr ⟨_, List.mem_cons_of_mem _ ?_, hp⟩
    have := askedBy_mem (ask := A.ask) (cs := cs.take q) (j := i) (by rw [List.length_take]; omega)
    rwa [List.take_take, Nat.min_eq_left (le_of_lt hq)] at this
  · rename_i hq
    rw [List.take_take, Nat.min_eq_left (by omega)] at hp
    refine List.mem_flatMap.mpr ⟨_, List.mem_cons_self, ?_⟩
    rw [List.getD_eq_getElem?_getD] at hp
    cases hd : (draws (ippLog (t.commitPoint l (A.com (cs.take q))) n (A.out (cs.take q))))[i - q]? with
    | none => rw [hd] at hp; simp [Transcript.points] at hp
    | some d =>
      rw [hd] at hp
      exact draws_points (List.mem_of_getElem? hd) p hp

end

section
variable [AddCommGroup G] [Module F G] [AddCommGroup M] [Module F M]

/-- Who fools the verifier with combinations, forges against a verifier that sees the combinations. -/
theorem IppForger.Fools.lift [DecidableEq G] [DecidableEq M] {φ : M →ₗ[F] G} {A : IppForger F M} {env : Env F G} {t : Transcript F M} {l : String} {k : ℕ} {Gf Hf : List F} {Q : M} {Gs Hs : List M} (h1 : Gs.length = 2 ^ k)
    (h2 : Hs.length = 2 ^ k) (h3 : Gf.length = 2 ^ k) (h4 : Hf.length = 2 ^ k) {q : ℕ} {cs : List F} (hf : A.Fools φ env t l (2 ^ k) Gf Hf Q Gs Hs q cs) : A.Forges (env.pull φ) t l (2 ^ k) Gf Hf Q Gs Hs q cs := by
  obtain ⟨hc, O, T, ha, hv, hr⟩ := hf
  rw [mapG_commitPoint] at hv
  obtain ⟨T', c1, c2⟩ := verifyIpp_lift hv hr
  obtain ⟨-, -, rfl⟩ := verifyIpp_inv h1 h2 h3 h4 c1
  refine ⟨hc, fun t => O (t.mapG φ), _, ?_, c1⟩
  have ha : Answers (fun cs => (A.game t l (2 ^ k) q cs).mapG φ) O cs := by
    rw [show (fun cs => (A.game t l (2 ^ k) q cs).mapG φ) = (A.mapG φ).game (t.mapG φ) l (2 ^ k) q from funext fun cs => (A.mapG_game φ t l (2 ^ k) q cs).symm]
    exact ha
  exact ha.lift fun i hi j hj p hp p' hp' => c2 p (A.game_points t l (2 ^ k) q cs hi p hp) p' (A.game_points t l (2 ^ k) q cs hj p' hp')

end
end Bp
