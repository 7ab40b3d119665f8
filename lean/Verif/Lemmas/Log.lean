import Verif.Spec.Log
import Verif.Lemmas.Complete
import Verif.Lemmas.Verify2

set_option linter.unusedSectionVars false
set_option linter.unusedSimpArgs false

namespace Bp
variable {F G : Type} [Field F] [AddCommGroup G] [SMul F G]
open Finset

theorem AgreeOn.mono {O O' : Oracle F G} {t t' : Transcript F G} (h : AgreeOn O O' t') (hp : t <+: t') : AgreeOn O O' t :=
  fun pre l hl => h pre l (hl.trans hp)

/-! ## What a run does to the transcript -/

theorem Verifier.run_log {env : Env F G} {C : Type} {rnd : Bool} {α : Type} {onSpec : C → Verifier F G → Verifier F G}
    (hs : ∀ c s, (onSpec c s).transcript = s.transcript) : ∀ (c : Prog F C rnd α) (s s' : Verifier F G) (a : α), s.run env onSpec c = .ok (a, s') →
    ∃ labels : List String, s'.transcript = s.transcript ++ labels.map TEvent.challenge ∧ (rnd = false → labels = []) ∧
      ∀ O', AgreeOn env.oracle O' s'.transcript → s.run { env with oracle := O' } onSpec c = .ok (a, s') := by
  intro c
  induction c with
  | ret a =>
    intro s s' a' h
    simp only [run, Except.ok.injEq, Prod.mk.injEq] at h
    obtain ⟨rfl, rfl⟩ := h
    exact ⟨[], by simp, fun _ => rfl, fun _ _ => rfl⟩
  | err e => intro s s' a h; simp [run, Res.err] at h
  | panic w => intro s s' a h; simp [run, Res.panic] at h
  | multiply l r k ih =>
    intro s s' a h
    simp only [run] at h ⊢
    exact ih _ _ _ _ h
  | allocate x k ih =>
    intro s s' a h
    simp only [run] at h ⊢
    obtain ⟨ls, h1, h2, h3⟩ := ih _ _ _ _ h
    refine ⟨ls, ?_, h2, h3⟩
    rw [h1]; unfold Verifier.allocate; cases s.pending <;> rfl
  | allocateMultiplier x k ih =>
    intro s s' a h
    simp only [run] at h ⊢
    exact ih _ _ _ _ h
  | constrain lc k ih =>
    intro s s' a h
    simp only [run] at h ⊢
    exact ih _ _ _ h
  | specify cb k ih =>
    intro s s' a h
    simp only [run] at h ⊢
    obtain ⟨ls, h1, h2, h3⟩ := ih _ _ _ h
    exact ⟨ls, by rw [h1, hs], h2, h3⟩
  | evaluateLc lc k ih =>
    intro s s' a h
    simp only [run] at h ⊢
    exact ih _ _ _ _ h
  | allocateSingle x k ih =>
    intro s s' a h
    simp only [run] at h ⊢
    obtain ⟨ls, h1, h2, h3⟩ := ih _ _ _ _ h
    refine ⟨ls, ?_, h2, h3⟩
    rw [h1]; unfold Verifier.allocateSingle Verifier.allocate; cases s.pending <;> rfl
  | challenge hr l k ih =>
    intro s s' a h
    simp only [run] at h ⊢
    obtain ⟨ls, h1, h2, h3⟩ := ih _ _ _ _ h
    refine ⟨l :: ls, ?_, by simp [hr], fun O' hO => ?_⟩
    · rw [h1]; simp [Transcript.challengeScalar]
    · have := h3 O' hO
      simp only [Transcript.challengeScalar] at this ⊢
      rw [← hO s.transcript l ?_]
      · exact this
      · rw [h1]; simp [Transcript.challengeScalar]
  | simplify lc k ih =>
    intro s s' a h
    simp only [run] at h ⊢
    exact ih _ _ _ _ h

theorem Prover.allocate_transcript {p : Prover F G} {x q} (h : p.allocate x = .ok q) : q.2.transcript = p.transcript := by
  obtain ⟨r, p'⟩ := q
  rcases Prover.allocate_eq h with ⟨-, -, rfl⟩ | ⟨y, -, hp, -, rfl⟩ | ⟨y, i, -, hp, hiR, hiO, -, hiL, rfl⟩ <;> rfl

theorem Prover.allocateSingle_transcript {p : Prover F G} {x q} (h : p.allocateSingle x = .ok q) : q.2.transcript = p.transcript := by
  obtain ⟨r, p'⟩ := q
  obtain ⟨r0, h, -⟩ := Prover.allocateSingle_eq h
  exact Prover.allocate_transcript h

theorem Prover.run_log {env : Env F G} {C : Type} {rnd : Bool} {α : Type} {onSpec : C → Prover F G → Prover F G}
    (hs : ∀ c s, (onSpec c s).transcript = s.transcript) : ∀ (c : Prog F C rnd α) (s s' : Prover F G) (a : α), s.run env onSpec c = .ok (a, s') →
    ∃ labels : List String, s'.transcript = s.transcript ++ labels.map TEvent.challenge ∧ (rnd = false → labels = []) ∧
      ∀ O', AgreeOn env.oracle O' s'.transcript → s.run { env with oracle := O' } onSpec c = .ok (a, s') := by
  intro c
  induction c with
  | ret a =>
    intro s s' a' h
    simp only [run, Except.ok.injEq, Prod.mk.injEq] at h
    obtain ⟨rfl, rfl⟩ := h
    exact ⟨[], by simp, fun _ => rfl, fun _ _ => rfl⟩
  | err e => intro s s' a h; simp [run, Res.err] at h
  | panic w => intro s s' a h; simp [run, Res.panic] at h
  | multiply l r k ih =>
    intro s s' a h
    simp only [run] at h ⊢
    cases hm : s.multiply l r with
    | error e => rw [hm] at h; simp at h
    | ok q =>
      rw [hm] at h
      obtain ⟨ls, h1, h2, h3⟩ := ih _ _ _ _ h
      refine ⟨ls, ?_, h2, h3⟩
      obtain ⟨x, y, -, -, -, e⟩ := Prover.multiply_eq (vs := q.1) (p' := q.2) hm
      rw [h1, e]
      rfl
  | allocate x k ih =>
    intro s s' a h
    simp only [run] at h ⊢
    cases hm : s.allocate x with
    | error e => rw [hm] at h; simp at h
    | ok q =>
      rw [hm] at h
      obtain ⟨ls, h1, h2, h3⟩ := ih _ _ _ _ h
      refine ⟨ls, ?_, h2, h3⟩
      rw [h1, Prover.allocate_transcript hm]
  | allocateMultiplier x k ih =>
    intro s s' a h
    simp only [run] at h ⊢
    obtain ⟨ls, h1, h2, h3⟩ := ih _ _ _ _ h
    refine ⟨ls, ?_, h2, h3⟩
    rw [h1]; unfold Prover.allocateMultiplier; cases x <;> rfl
  | constrain lc k ih =>
    intro s s' a h
    simp only [run] at h ⊢
    exact ih _ _ _ h
  | specify cb k ih =>
    intro s s' a h
    simp only [run] at h ⊢
    obtain ⟨ls, h1, h2, h3⟩ := ih _ _ _ h
    exact ⟨ls, by rw [h1, hs], h2, h3⟩
  | evaluateLc lc k ih =>
    intro s s' a h
    simp only [run] at h ⊢
    cases hm : s.eval lc with
    | error e => rw [hm] at h; simp at h
    | ok q => rw [hm] at h; exact ih _ _ _ _ h
  | allocateSingle x k ih =>
    intro s s' a h
    simp only [run] at h ⊢
    cases hm : s.allocateSingle x with
    | error e => rw [hm] at h; simp at h
    | ok q =>
      rw [hm] at h
      obtain ⟨ls, h1, h2, h3⟩ := ih _ _ _ _ h
      refine ⟨ls, ?_, h2, h3⟩
      rw [h1, Prover.allocateSingle_transcript hm]
  | challenge hr l k ih =>
    intro s s' a h
    simp only [run] at h ⊢
    obtain ⟨ls, h1, h2, h3⟩ := ih _ _ _ _ h
    refine ⟨l :: ls, ?_, by simp [hr], fun O' hO => ?_⟩
    · rw [h1]; simp [Transcript.challengeScalar]
    · have := h3 O' hO
      simp only [Transcript.challengeScalar] at this ⊢
      rw [← hO s.transcript l ?_]
      · exact this
      · rw [h1]; simp [Transcript.challengeScalar]
  | simplify lc k ih =>
    intro s s' a h
    simp only [run] at h ⊢
    exact ih _ _ _ _ h

theorem Verifier.run_V {env : Env F G} {C : Type} {rnd : Bool} {α : Type} {onSpec : C → Verifier F G → Verifier F G}
    (hs : ∀ c s, (onSpec c s).V = s.V) : ∀ (c : Prog F C rnd α) (s s' : Verifier F G) (a : α), s.run env onSpec c = .ok (a, s') → s'.V = s.V := by
  intro c
  induction c with
  | ret a =>
    intro s s' a' h
    simp only [run, Except.ok.injEq, Prod.mk.injEq] at h
    rw [h.2]
  | err e => intro s s' a h; simp [run, Res.err] at h
  | panic w => intro s s' a h; simp [run, Res.panic] at h
  | multiply l r k ih => intro s s' a h; simp only [run] at h; have := ih _ _ _ _ h; exact this
  | allocate x k ih =>
    intro s s' a h
    simp only [run] at h
    rw [ih _ _ _ _ h]; unfold Verifier.allocate; cases s.pending <;> rfl
  | allocateMultiplier x k ih => intro s s' a h; simp only [run] at h; have := ih _ _ _ _ h; exact this
  | constrain lc k ih => intro s s' a h; simp only [run] at h; have := ih _ _ _ h; exact this
  | specify cb k ih =>
    intro s s' a h
    simp only [run] at h
    rw [ih _ _ _ h, hs]
  | evaluateLc lc k ih => intro s s' a h; simp only [run] at h; have := ih _ _ _ _ h; exact this
  | allocateSingle x k ih =>
    intro s s' a h
    simp only [run] at h
    rw [ih _ _ _ _ h]; unfold Verifier.allocateSingle Verifier.allocate; cases s.pending <;> rfl
  | challenge hr l k ih => intro s s' a h; simp only [run] at h; have := ih _ _ _ _ h; exact this
  | simplify lc k ih => intro s s' a h; simp only [run] at h; have := ih _ _ _ _ h; exact this

/-! ## First phase: only commits touch the transcript -/

theorem Verifier.run1_transcript {env : Env F G} {α : Type} {c : Prog1 F α} {s s' : Verifier F G} {a : α} (h : s.run1 env c = .ok (a, s')) :
    s'.transcript = s.transcript ∧ s'.V = s.V := by
  obtain ⟨ls, h1, h2, -⟩ := Verifier.run_log (onSpec := fun cb s => s.specify cb) (fun _ _ => rfl) c s s' a h
  refine ⟨by simpa [h2 rfl] using h1, Verifier.run_V (onSpec := fun cb s => s.specify cb) (fun _ _ => rfl) c s s' a h⟩

theorem Prover.run1_transcript {env : Env F G} {α : Type} {c : Prog1 F α} {s s' : Prover F G} {a : α} (h : s.run1 env c = .ok (a, s')) :
    s'.transcript = s.transcript := by
  obtain ⟨ls, h1, h2, -⟩ := Prover.run_log (onSpec := fun cb s => s.specify cb) (fun _ _ => rfl) c s s' a h
  simpa [h2 rfl] using h1

theorem Verifier.Reach.transcript {env : Env F G} {t0 : Transcript F G} {s : Verifier F G} (h : s.Reach env t0) :
    s.transcript = t0 ++ .domSep "r1cs v1" :: s.V.map (TEvent.point "V") := by
  induction h with
  | new k => simp [Verifier.new, Transcript.r1csDomainSep]
  | commit V _ ih => simp [Verifier.commit, Transcript.commitPoint, ih]
  | gadget _ hr ih =>
    obtain ⟨h1, h2⟩ := Verifier.run1_transcript hr
    rw [h1, h2, ih]

/-! ## Second phase -/

theorem Verifier.runCallbacks_log {env : Env F G} : ∀ (cbs : List (Callback F)) (s s' : Verifier F G), s.runCallbacks env cbs = .ok s' →
    ∃ labels : List String, s'.transcript = s.transcript ++ labels.map TEvent.challenge ∧
      ∀ O', AgreeOn env.oracle O' s'.transcript → s.runCallbacks { env with oracle := O' } cbs = .ok s' := by
  intro cbs
  induction cbs with
  | nil =>
    intro s s' h
    simp only [runCallbacks, Except.ok.injEq] at h
    subst h
    exact ⟨[], by simp, fun _ _ => rfl⟩
  | cons cb cbs ih =>
    intro s s' h
    simp only [runCallbacks] at h ⊢
    cases hr : s.run2 env cb with
    | error e => rw [hr] at h; simp at h
    | ok q =>
      rw [hr] at h
      obtain ⟨u, q⟩ := q
      simp only at h
      obtain ⟨ls, h1, -, h3⟩ := Verifier.run_log (fun e => e.elim) cb s q u hr
      obtain ⟨ls', h1', h3'⟩ := ih q s' h
      refine ⟨ls ++ ls', by rw [h1', h1]; simp, fun O' hO => ?_⟩
      have : s.run2 { env with oracle := O' } cb = .ok (u, q) := h3 O' (hO.mono ⟨ls'.map TEvent.challenge, h1'.symm⟩)
      rw [this]
      exact h3' O' hO

theorem Verifier.crc_log {env : Env F G} {s s' : Verifier F G} (h : s.createRandomizedConstraints env = .ok s') :
    ∃ labels : List String, s'.transcript = s.transcript ++
        .domSep (if decide (s.deferred ≠ []) then "r1cs-2phase" else "r1cs-1phase") :: labels.map TEvent.challenge ∧
      (s.deferred = [] → labels = []) ∧
      ∀ O', AgreeOn env.oracle O' s'.transcript → s.createRandomizedConstraints { env with oracle := O' } = .ok s' := by
  unfold createRandomizedConstraints at h ⊢
  simp only at h ⊢
  by_cases hd : s.deferred.length = 0
  · rw [if_pos hd] at h
    simp only [Except.ok.injEq] at h
    subst h
    refine ⟨[], ?_, fun _ => rfl, fun _ _ => by rw [if_pos hd]⟩
    have : s.deferred = [] := List.length_eq_zero_iff.mp hd
    simp [this, Transcript.r1cs1PhaseDomainSep]
  · rw [if_neg hd] at h
    obtain ⟨ls, h1, h3⟩ := Verifier.runCallbacks_log _ _ _ h
    refine ⟨ls, ?_, fun h => absurd (by simp [h]) hd, fun O' hO => by rw [if_neg hd]; exact h3 O' hO⟩
    have : s.deferred ≠ [] := fun h => hd (by simp [h])
    rw [h1]
    simp [this, Transcript.r1cs2PhaseDomainSep]

theorem Prover.runCallbacks_log {env : Env F G} : ∀ (cbs : List (Callback F)) (s s' : Prover F G), s.runCallbacks env cbs = .ok s' →
    ∃ labels : List String, s'.transcript = s.transcript ++ labels.map TEvent.challenge ∧
      ∀ O', AgreeOn env.oracle O' s'.transcript → s.runCallbacks { env with oracle := O' } cbs = .ok s' := by
  intro cbs
  induction cbs with
  | nil =>
    intro s s' h
    simp only [runCallbacks, Except.ok.injEq] at h
    subst h
    exact ⟨[], by simp, fun _ _ => rfl⟩
  | cons cb cbs ih =>
    intro s s' h
    simp only [runCallbacks] at h ⊢
    cases hr : s.run2 env cb with
    | error e => rw [hr] at h; simp at h
    | ok q =>
      rw [hr] at h
      obtain ⟨u, q⟩ := q
      simp only at h
      obtain ⟨ls, h1, -, h3⟩ := Prover.run_log (fun e => e.elim) cb s q u hr
      obtain ⟨ls', h1', h3'⟩ := ih q s' h
      refine ⟨ls ++ ls', by rw [h1', h1]; simp, fun O' hO => ?_⟩
      have : s.run2 { env with oracle := O' } cb = .ok (u, q) := h3 O' (hO.mono ⟨ls'.map TEvent.challenge, h1'.symm⟩)
      rw [this]
      exact h3' O' hO

theorem Prover.crc_log {env : Env F G} {s s' : Prover F G} (h : s.createRandomizedConstraints env = .ok s') :
    ∃ labels : List String, s'.transcript = s.transcript ++
        .domSep (if decide (s.deferred ≠ []) then "r1cs-2phase" else "r1cs-1phase") :: labels.map TEvent.challenge ∧
      (s.deferred = [] → labels = []) ∧
      ∀ O', AgreeOn env.oracle O' s'.transcript → s.createRandomizedConstraints { env with oracle := O' } = .ok s' := by
  unfold createRandomizedConstraints at h ⊢
  simp only at h ⊢
  by_cases hd : s.deferred.length = 0
  · rw [if_pos hd] at h
    simp only [Except.ok.injEq] at h
    subst h
    refine ⟨[], ?_, fun _ => rfl, fun _ _ => by rw [if_pos hd]⟩
    have : s.deferred = [] := List.length_eq_zero_iff.mp hd
    simp [this, Transcript.r1cs1PhaseDomainSep]
  · rw [if_neg hd] at h
    obtain ⟨ls, h1, h3⟩ := Prover.runCallbacks_log _ _ _ h
    refine ⟨ls, ?_, fun h => absurd (by simp [h]) hd, fun O' hO => by rw [if_neg hd]; exact h3 O' hO⟩
    have : s.deferred ≠ [] := fun h => hd (by simp [h])
    rw [h1]
    simp [this, Transcript.r1cs2PhaseDomainSep]

/-- A reachable prover: WF, generators, and its log. -/
theorem Prover.Reach.inv {env : Env F G} {g h : G} {t0 : Transcript F G} {p : Prover F G} (hp : p.Reach env g h t0) :
    p.WF ∧ p.g = g ∧ p.h = h ∧ p.v.length = p.vBlinding.length ∧
    p.transcript = t0 ++ .domSep "r1cs v1" :: (List.zipWith (commitScalar g h) p.v p.vBlinding).map (TEvent.point "V") := by
  induction hp with
  | new k =>
    refine ⟨?_, rfl, rfl, rfl, ?_⟩
    · exact Prover.wf_new _ _ _ _
    · simp [Prover.new, Transcript.r1csDomainSep]
  | commit v b _ ih =>
    obtain ⟨h1, h2, h3, h4, h5⟩ := ih
    refine ⟨(Prover.Steps.single (env := env) (.commit _ _ _)).ext.wf h1, h2, h3, by simp [Prover.commit, h4], ?_⟩
    simp only [Prover.commit, Transcript.commitPoint, h5, h2, h3]
    rw [List.zipWith_append h4]
    simp
  | gadget _ hr ih =>
    obtain ⟨h1, h2, h3, h4, h5⟩ := ih
    have e := Prover.sameCommits_run1 hr
    obtain ⟨vs, st⟩ := Prover.run1_steps hr
    refine ⟨st.ext.wf h1, e.g.trans h2, e.h.trans h3, by rw [e.v, e.vB, h4], ?_⟩
    rw [Prover.run1_transcript hr, h5, e.v, e.vB]

/-! ## The inner-product rounds -/

theorem ippChallenges_log (O : Oracle F G) : ∀ (ps : List (G × G)) (t : Transcript F G),
    (ippChallenges O t ps).2 = t ++ roundsLog ps ∧
    ∀ O', AgreeOn O O' (t ++ roundsLog ps) → ippChallenges O' t ps = ippChallenges O t ps := by
  intro ps
  induction ps with
  | nil => intro t; simp [ippChallenges, roundsLog]
  | cons p ps ih =>
    intro t
    obtain ⟨L, R⟩ := p
    simp only [ippChallenges, Transcript.challengeScalar, Transcript.commitPoint]
    have e : (t ++ [TEvent.point "L" L] ++ [TEvent.point "R" R] ++ [TEvent.challenge "u"]) ++ roundsLog ps = t ++ roundsLog ((L, R) :: ps) := by
      simp [roundsLog]
    obtain ⟨h1, h2⟩ := ih (t ++ [TEvent.point "L" L] ++ [TEvent.point "R" R] ++ [TEvent.challenge "u"])
    refine ⟨by rw [h1, e], fun O' hO => ?_⟩
    rw [h2 O' (by rw [e]; exact hO)]
    rw [hO (t ++ [TEvent.point "L" L] ++ [TEvent.point "R" R]) "u" ⟨_, e⟩]

theorem verificationScalars_oracle (env : Env F G) (O' : Oracle F G) (L R : List G) (n : ℕ) (t : Transcript F G)
    (hO : AgreeOn env.oracle O' (t.ippDomainSep n ++ roundsLog (L.zip R))) :
    verificationScalars { env with oracle := O' } L R n t = verificationScalars env L R n t := by
  unfold verificationScalars
  simp only [(ippChallenges_log env.oracle (L.zip R) (t.ippDomainSep n)).2 O' hO]
  rfl

end Bp
