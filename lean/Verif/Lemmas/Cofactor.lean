import Verif.Spec.Cofactor
import Verif.Lemmas.GameCount
import Verif.Lemmas.Statements

/-! # The verifier, seen through a map of points -/

set_option linter.unusedSectionVars false

namespace Bp
variable {F E G : Type}

theorem mapG_take (f : E → G) (t : Transcript F E) (n : ℕ) : Transcript.mapG f (t.take n) = (Transcript.mapG f t).take n := List.map_take
theorem mapG_app (f : E → G) (t u : Transcript F E) : Transcript.mapG f (t ++ u) = Transcript.mapG f t ++ Transcript.mapG f u := List.map_append
theorem mapG_length (f : E → G) (t : Transcript F E) : (Transcript.mapG f t).length = t.length := List.length_map _

/-- A beginning of the mapped log that ends with a challenge is a mapped beginning of the log that ends with that challenge. -/
theorem mapG_prefix {f : E → G} {t : Transcript F E} {pre : Transcript F G} {l : String} (h : pre ++ [.challenge l] <+: t.mapG f) :
    ∃ p : Transcript F E, p ++ [.challenge l] <+: t ∧ p.mapG f = pre := by
  have hlen : pre.length + 1 ≤ t.length := by
    have := h.length_le
    simpa [mapG_length] using this
  have e : Transcript.mapG f (t.take (pre.length + 1)) = pre ++ [.challenge l] := by
    rw [mapG_take]
    conv_rhs => rw [List.prefix_iff_eq_take.mp h]
    simp
  obtain ⟨p, x, hp⟩ : ∃ p x, t.take (pre.length + 1) = p ++ [x] :=
    ⟨_, _, (List.dropLast_append_getLast (l := t.take (pre.length + 1)) (by intro h0; have := congrArg List.length h0; rw [List.length_take] at this; simp only [List.length_nil] at this; omega)).symm⟩
  rw [hp, mapG_app] at e
  obtain ⟨e1, e2⟩ := List.append_inj' e rfl
  have hx : x = .challenge l := by
    have : TEvent.mapG f x = .challenge l := by simpa [Transcript.mapG] using e2
    cases x <;> simp_all [TEvent.mapG]
  subst hx
  exact ⟨p, hp ▸ List.take_prefix _ _, e1⟩

/-- Along `t`, and along all that begins like `t`, the answers are those of `O`. -/
theorem along_take (O : Oracle F E) {t T : Transcript F E} (h : t <+: T) (u : Transcript F G) (hu : u.length ≤ t.length) : (O.along T : Oracle F G) u = O.along t u := by
  unfold Oracle.along
  rw [List.prefix_iff_eq_take.mp h, List.take_take, Nat.min_eq_left hu]

theorem along_self (O : Oracle F E) {t T : Transcript F E} (f : E → G) (h : t <+: T) : (O.along T : Oracle F G) (t.mapG f) = O t := by
  unfold Oracle.along
  rw [mapG_length, ← List.prefix_iff_eq_take.mp h]

/-- A rule for bad answers, for somebody who sees the points only through a map. -/
def BadRule.through {B : ℕ} (bad : BadRule F G B) (f : E → G) : BadRule F E B where
  bad O t := bad.bad (O.along t) (t.mapG f)
  few O t := bad.few _ _
  before O O' pre l hO := by
    rw [mapG_app]
    refine bad.before _ _ _ l fun p l' hp => ?_
    obtain ⟨q, hq, rfl⟩ := mapG_prefix hp
    have hq' : q ++ [.challenge l'] <+: pre ++ [.challenge l] := hq.trans (List.prefix_append _ _)
    have e : Transcript.mapG f q ++ [.challenge l'] = Transcript.mapG f (q ++ [.challenge l']) := by rw [mapG_app]; rfl
    rw [e, along_self O f hq', along_self O' f hq']
    exact hO q l' hq

theorem BadRule.through_hit {B : ℕ} (bad : BadRule F G B) (f : E → G) {O : Oracle F E} {T : Transcript F E} (h : bad.Hit (O.along T) (T.mapG f)) : (bad.through f).Hit O T := by
  obtain ⟨pre, l, hp, hb⟩ := h
  obtain ⟨q, hq, rfl⟩ := mapG_prefix hp
  refine ⟨q, l, hq, ?_⟩
  have e : Transcript.mapG f q ++ [.challenge l] = Transcript.mapG f (q ++ [.challenge l]) := by rw [mapG_app]; rfl
  rw [e, along_self O f hq] at hb
  show O _ ∈ bad.bad (O.along (q ++ [.challenge l])) (Transcript.mapG f (q ++ [.challenge l]))
  rw [← e] at hb ⊢
  have hag : AgreeOn (O.along (q ++ [.challenge l]) : Oracle F G) (O.along T) (Transcript.mapG f q) := fun p l' hp' => (along_take O hq _ (by
    have := hp'.length_le
    rw [mapG_length] at this
    exact this.trans (by simp))).symm
  rwa [bad.before _ _ _ l hag]

variable [Field F] [AddCommGroup E] [SMul F E] [AddCommGroup G] [SMul F G] [DecidableEq E] [DecidableEq G]

/-- What is accepted is accepted when it is seen through the map. -/
theorem verify_through (π : PointHom F E G) {env : Env F E} {s : Verifier F E} {pr : R1CSProof F E} {g h : E} {Gs Hs : List E} {r : F} {T : Transcript F E} (hv : s.verify env pr g h Gs Hs r = .ok T) :
    (s.mapG π).verify (env.seen (env.oracle.along T)) (pr.mapG π) (π g) (π h) (Gs.map π) (Hs.map π) r = .ok (T.mapG π) := by
  have hO : AgreeOn env.oracle (fun t => (env.oracle.along T : Oracle F G) (t.mapG π)) T := fun pre l hp => (along_self env.oracle π hp).symm
  have h1 := c09_verify_challenges env s pr g h Gs Hs r T hv _ hO
  have h2 : s.verify (Env.pull π (env.seen (env.oracle.along T))) pr g h Gs Hs r = .ok T := h1
  rw [verify_residual] at h2 ⊢
  rw [mapG_residual]
  cases hres : s.residual (Env.pull π (env.seen (env.oracle.along T))) pr g h Gs Hs r with
  | error e => rw [hres] at h2; simp at h2
  | ok p =>
    obtain ⟨ρ, T'⟩ := p
    rw [hres] at h2
    simp only [Except.map] at h2 ⊢
    split at h2
    · rename_i h0
      rw [h0, map_zero, if_pos rfl, Except.ok.inj h2]
    · simp [Res.err] at h2

/-- A map that identifies no two points hides nothing. -/
theorem verify_embed (ι : PointHom F G E) (hι : Function.Injective ι) (env : Env F E) (s : Verifier F G) (pr : R1CSProof F G) (g h : G) (Gs Hs : List G) (r : F) :
    (s.mapG ι).verify env (pr.mapG ι) (ι g) (ι h) (Gs.map ι) (Hs.map ι) r = (s.verify (env.pull ι) pr g h Gs Hs r).map (Transcript.mapG ι) := by
  rw [verify_residual, verify_residual, mapG_residual]
  cases s.residual (env.pull ι) pr g h Gs Hs r with
  | error e => rfl
  | ok p =>
    obtain ⟨ρ, T⟩ := p
    simp only [Except.map]
    by_cases h0 : ρ = 0
    · rw [if_pos (by rw [h0, map_zero]), if_pos h0]
    · rw [if_neg (fun h => h0 (hι (h.trans (map_zero ι).symm))), if_neg h0]
      rfl

end Bp
