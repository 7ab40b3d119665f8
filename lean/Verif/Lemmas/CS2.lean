import Verif.Lemmas.CS

set_option linter.unusedSectionVars false
set_option linter.unusedSimpArgs false

namespace Bp
variable {F G : Type} [Field F] [AddCommGroup G] [SMul F G]

/-! ### Verifier histories -/

structure Verifier.Ext (s s' : Verifier F G) : Prop where
  cons : s.constraints <+: s'.constraints
  V : s.V <+: s'.V
  num : s.numVars ≤ s'.numVars

theorem Verifier.Ext.refl (s : Verifier F G) : s.Ext s := ⟨List.prefix_rfl, List.prefix_rfl, le_refl _⟩
theorem Verifier.Ext.trans {s t u : Verifier F G} (a : s.Ext t) (b : t.Ext u) : s.Ext u :=
  ⟨a.cons.trans b.cons, a.V.trans b.V, a.num.trans b.num⟩

theorem Verifier.ext_allocate (s : Verifier F G) (x) : s.Ext (s.allocate x).2 := by
  unfold allocate
  rcases hp : s.pending with _ | i <;> exact ⟨List.prefix_rfl, List.prefix_rfl, by simp⟩

theorem Verifier.allocateSingle_eq (s : Verifier F G) (x) : (s.allocateSingle x).2 = (s.allocate none).2 ∧
    ((∃ i, (s.allocate none).1 = .ok (.left i) ∧ (s.allocateSingle x).1 = .ok (.left i, none)) ∨
     (∃ i, (s.allocate none).1 = .ok (.right i) ∧ (s.allocateSingle x).1 = .ok (.right i, some (.out i)))) := by
  unfold allocateSingle allocate
  rcases hp : s.pending with _ | i <;> simp

theorem Verifier.Step.ext {env : Env F G} {s s' : Verifier F G} {vs} (h : Verifier.Step env s vs s') : s.Ext s' := by
  cases h with
  | commit V => exact ⟨List.prefix_rfl, List.prefix_append _ _, le_refl _⟩
  | multiply l r =>
    refine ⟨?_, List.prefix_rfl, Nat.le_succ _⟩
    simp only [Verifier.multiply, Verifier.constrain, Verifier.allocateVars, List.append_assoc]
    exact List.prefix_append _ _
  | allocate x => exact ext_allocate _ _
  | allocateMultiplier x => exact ⟨List.prefix_rfl, List.prefix_rfl, Nat.le_succ _⟩
  | allocateSingle x => rw [(allocateSingle_eq s x).1]; exact ext_allocate _ _
  | constrain lc => exact ⟨List.prefix_append _ _, List.prefix_rfl, le_refl _⟩
  | specify cb => exact ⟨List.prefix_rfl, List.prefix_rfl, le_refl _⟩
  | challenge l => exact ⟨List.prefix_rfl, List.prefix_rfl, le_refl _⟩
  | simplify => exact ⟨List.prefix_rfl, List.prefix_rfl, le_refl _⟩
  | message t => exact ⟨List.prefix_rfl, List.prefix_rfl, le_refl _⟩
  | phase2 => exact ⟨List.prefix_rfl, List.prefix_rfl, le_refl _⟩

theorem Verifier.Steps.ext {env : Env F G} {p p' : Verifier F G} {vs} (h : Verifier.Steps env p vs p') : p.Ext p' := by
  induction h with
  | refl => exact Ext.refl _
  | tail _ s ih => exact ih.trans s.ext

theorem Verifier.Steps.trans {env : Env F G} {p q r : Verifier F G} {vs ws} (h : Verifier.Steps env p vs q)
    (h2 : Verifier.Steps env q ws r) : Verifier.Steps env p (vs ++ ws) r := by
  induction h2 with
  | refl => simpa using h
  | tail _ s ih => rw [← List.append_assoc]; exact .tail ih s

theorem Verifier.Steps.single {env : Env F G} {p q : Verifier F G} {vs} (h : Verifier.Step env p vs q) :
    Verifier.Steps env p vs q := by
  simpa using Steps.tail (.refl p) h

theorem Verifier.run_steps {env : Env F G} {C : Type} {rnd : Bool} {α : Type} {onSpec : C → Verifier F G → Verifier F G}
    (hs : ∀ c p, ∃ vs, Verifier.Steps env p vs (onSpec c p)) (c : Prog F C rnd α) :
    ∀ {p p' : Verifier F G} {a : α}, Verifier.run env onSpec c p = .ok (a, p') → ∃ vs, Verifier.Steps env p vs p' := by
  induction c with
  | ret a => intro p p' b h; simp only [run, Except.ok.injEq, Prod.mk.injEq] at h; obtain ⟨-, rfl⟩ := h; exact ⟨_, .refl _⟩
  | err e => intro p p' b h; cases h
  | panic e => intro p p' b h; cases h
  | multiply l r k ih =>
    intro p p' b h
    simp only [run] at h
    obtain ⟨ws, hw⟩ := ih _ h
    exact ⟨_, (Steps.single (.multiply _ l r)).trans hw⟩
  | allocate x k ih =>
    intro p p' b h
    simp only [run] at h
    obtain ⟨ws, hw⟩ := ih _ h
    exact ⟨_, (Steps.single (.allocate _ x)).trans hw⟩
  | allocateMultiplier x k ih =>
    intro p p' b h
    simp only [run] at h
    obtain ⟨ws, hw⟩ := ih _ h
    exact ⟨_, (Steps.single (.allocateMultiplier _ x)).trans hw⟩
  | constrain lc k ih =>
    intro p p' b h
    simp only [run] at h
    obtain ⟨ws, hw⟩ := ih h
    exact ⟨_, (Steps.single (.constrain _ lc)).trans hw⟩
  | specify cb k ih =>
    intro p p' b h
    simp only [run] at h
    obtain ⟨ws, hw⟩ := ih h
    obtain ⟨vs, hv⟩ := hs cb p
    exact ⟨_, hv.trans hw⟩
  | evaluateLc lc k ih =>
    intro p p' b h
    simp only [run] at h
    exact ih _ h
  | allocateSingle x k ih =>
    intro p p' b h
    simp only [run] at h
    obtain ⟨ws, hw⟩ := ih _ h
    exact ⟨_, (Steps.single (.allocateSingle _ x)).trans hw⟩
  | challenge hr l k ih =>
    intro p p' b h
    simp only [run] at h
    obtain ⟨ws, hw⟩ := ih _ h
    exact ⟨_, (Steps.single (.challenge _ l)).trans hw⟩
  | simplify lc k ih =>
    intro p p' b h
    simp only [run] at h
    obtain ⟨ws, hw⟩ := ih _ h
    exact ⟨_, (Steps.single (.simplify _)).trans hw⟩

theorem Verifier.run1_steps {env : Env F G} {α : Type} {c : Prog1 F α} {p p' : Verifier F G} {a : α}
    (h : p.run1 env c = .ok (a, p')) : ∃ vs, Verifier.Steps env p vs p' :=
  run_steps (fun cb q => ⟨_, Steps.single (.specify q cb)⟩) c h

theorem Verifier.run2_steps {env : Env F G} {c : Callback F} {p p' : Verifier F G} {a : Unit}
    (h : p.run2 env c = .ok (a, p')) : ∃ vs, Verifier.Steps env p vs p' :=
  run_steps (fun cb _ => cb.elim) c h

theorem Verifier.runCallbacks_steps {env : Env F G} (cbs : List (Callback F)) :
    ∀ {p p' : Verifier F G}, p.runCallbacks env cbs = .ok p' → ∃ vs, Verifier.Steps env p vs p' := by
  induction cbs with
  | nil => intro p p' h; simp only [runCallbacks, Except.ok.injEq] at h; subst h; exact ⟨_, .refl _⟩
  | cons cb cbs ih =>
    intro p p' h
    simp only [runCallbacks] at h
    split at h
    · rename_i u q hq
      obtain ⟨vs, hv⟩ := run2_steps hq
      obtain ⟨ws, hw⟩ := ih h
      exact ⟨_, hv.trans hw⟩
    · cases h

theorem Verifier.createRandomizedConstraints_steps {env : Env F G} {p p' : Verifier F G}
    (h : p.createRandomizedConstraints env = .ok p') : ∃ vs, Verifier.Steps env p vs p' := by
  unfold createRandomizedConstraints at h
  simp only at h
  split at h
  · rename_i h0
    simp only [Except.ok.injEq] at h
    subst h
    have e : p.deferred = [] := List.length_eq_zero_iff.mp h0
    have s1 := Verifier.Steps.single (Verifier.Step.phase2 (env := env) p)
    have s2 := Verifier.Steps.single (Verifier.Step.message (env := env) { p with pending := none, deferred := [] } p.transcript.r1cs1PhaseDomainSep)
    have := s1.trans s2
    exact ⟨[] ++ [], by simpa [e] using this⟩
  · obtain ⟨vs, hv⟩ := runCallbacks_steps _ h
    have s1 := Verifier.Steps.single (Verifier.Step.phase2 (env := env) p)
    have s2 := Verifier.Steps.single (Verifier.Step.message (env := env) { p with pending := none, deferred := [] } p.transcript.r1cs2PhaseDomainSep)
    exact ⟨_, (s1.trans s2).trans hv⟩

/-! ### Freshness -/

/-- All handed-out variables are distinct, in range and final. -/
structure Prover.Fresh (p : Prover F G) (vs : List Var) : Prop where
  nodup : vs.Nodup
  stable : ∀ v ∈ vs, p.Stable v ∧ v ≠ .one

theorem Prover.fresh_append {p p' : Prover F G} {vs ws : List Var} (hw : p.WF) (e : p.Ext p') (h : p.Fresh vs)
    (hn : ws.Nodup) (hs : ∀ w ∈ ws, p'.Stable w ∧ ¬ p.Stable w) : p'.Fresh (vs ++ ws) where
  nodup := by
    rw [List.nodup_append]
    refine ⟨h.nodup, hn, ?_⟩
    intro a ha b hb hab
    subst hab
    exact (hs a hb).2 (h.stable a ha).1
  stable v hv := by
    rcases List.mem_append.mp hv with hv | hv
    · exact ⟨e.stable hw v (h.stable v hv).1, (h.stable v hv).2⟩
    · refine ⟨(hs v hv).1, ?_⟩
      rintro rfl
      exact (hs _ hv).2 trivial

theorem Prover.new_allocate {p p' : Prover F G} {x r} (hw : p.WF) (h : p.allocate x = .ok (r, p')) :
    ∀ v, r = .ok v → p'.Stable v ∧ ¬ p.Stable v := by
  rcases allocate_eq h with ⟨-, rfl, rfl⟩ | ⟨y, -, hp, rfl, rfl⟩ | ⟨y, i, -, hp, hiR, hiO, rfl, hiL, rfl⟩
  · intro v hv; cases hv
  · rintro v ⟨⟩; simp [Prover.Stable]
  · rintro v ⟨⟩; simp [Prover.Stable, hp, hiL]

theorem Prover.Step.fresh {env : Env F G} {p p' : Prover F G} {vs ws} (hw : p.WF) (h : p.Fresh vs)
    (st : Prover.Step env p ws p') : p'.Fresh (vs ++ ws) := by
  have e := st.ext
  cases st with
  | commit v b =>
    refine fresh_append hw e h (by simp) ?_
    simp [Prover.Stable, Prover.commit]
  | multiply l r a b o _ h' =>
    obtain ⟨x, y, -, -, hvs, rfl⟩ := multiply_eq h'
    simp only [Prod.mk.injEq] at hvs
    obtain ⟨rfl, rfl, rfl⟩ := hvs
    refine fresh_append hw e h (by simp) ?_
    have hp : p.pending ≠ some p.aL.length := fun hp => by have := hw.pend _ hp; omega
    simp [Prover.Stable, Prover.constrain, Prover.allocateVars, hw.lenR, hw.lenO, hp]
  | allocate x r _ h' =>
    refine fresh_append hw e h ?_ ?_
    · rcases r with _ | r <;> simp [issued1]
    · rcases r with _ | r
      · simp [issued1]
      · simp only [issued1, List.mem_singleton, forall_eq]; exact new_allocate hw h' r rfl
  | allocateMultiplier x =>
    have hp : p.pending ≠ some p.aL.length := fun hp => by have := hw.pend _ hp; omega
    refine fresh_append hw e h ?_ ?_
    · rcases x with _ | ⟨l, r⟩ <;> simp [Prover.allocateMultiplier, issued3, Prover.allocateVars]
    · rcases x with _ | ⟨l, r⟩ <;>
        simp [Prover.allocateMultiplier, issued3, Prover.allocateVars, Prover.Stable, hw.lenR, hw.lenO, hp]
  | allocateSingle x r _ h' =>
    obtain ⟨r0, h0, hr⟩ := allocateSingle_eq h'
    have hnew := new_allocate hw h0
    refine fresh_append hw e h ?_ ?_
    · rcases hr with ⟨e, rfl, rfl⟩ | ⟨i, rfl, rfl⟩ | ⟨i, rfl, rfl⟩ <;> simp [issued2]
    · rcases hr with ⟨e, rfl, rfl⟩ | ⟨i, rfl, rfl⟩ | ⟨i, rfl, rfl⟩
      · simp [issued2]
      · simpa [issued2] using hnew _ rfl
      · have := hnew _ rfl
        simp only [issued2, List.mem_cons, List.not_mem_nil, or_false, forall_eq_or_imp, forall_eq]
        refine ⟨this, ?_⟩
        simpa [Prover.Stable] using this
  | constrain lc => exact fresh_append hw e h (by simp) (by simp)
  | specify cb => exact fresh_append hw e h (by simp) (by simp)
  | challenge l => exact fresh_append hw e h (by simp) (by simp)
  | simplify => exact fresh_append hw e h (by simp) (by simp)
  | message t => exact fresh_append hw e h (by simp) (by simp)
  | phase2 => exact fresh_append hw e h (by simp) (by simp)

theorem Prover.Steps.fresh {env : Env F G} {p p' : Prover F G} {vs ws} (hw : p.WF) (h : p.Fresh vs)
    (st : Prover.Steps env p ws p') : p'.Fresh (vs ++ ws) := by
  induction st with
  | refl => simpa using h
  | tail s1 s2 ih => rw [← List.append_assoc]; exact s2.fresh (s1.ext.wf hw) ih

def Verifier.WF (s : Verifier F G) : Prop := ∀ i, s.pending = some i → i < s.numVars

def Verifier.Stable (s : Verifier F G) : Var → Prop
  | .left i => i < s.numVars
  | .right i => i < s.numVars ∧ s.pending ≠ some i
  | .out i => i < s.numVars ∧ s.pending ≠ some i
  | .committed i => i < s.V.length
  | .one => True

structure Verifier.Fresh (p : Verifier F G) (vs : List Var) : Prop where
  nodup : vs.Nodup
  stable : ∀ v ∈ vs, p.Stable v ∧ v ≠ .one

theorem Verifier.Step.wf {env : Env F G} {s s' : Verifier F G} {vs} (h : Verifier.Step env s vs s') (hw : s.WF) : s'.WF := by
  have hal : ∀ x, (s.allocate x).2.WF := by
    intro x
    unfold Verifier.allocate
    rcases hp : s.pending with _ | i
    · rintro i ⟨⟩; simp
    · intro j hj; simp at hj
  cases h with
  | multiply l r => intro i hi; exact Nat.lt_succ_of_lt (hw i hi)
  | allocate x => exact hal x
  | allocateMultiplier x => intro i hi; exact Nat.lt_succ_of_lt (hw i hi)
  | allocateSingle x => rw [(allocateSingle_eq s x).1]; exact hal none
  | phase2 => intro i hi; simp at hi
  | _ => exact hw

theorem Verifier.Step.stable {env : Env F G} {s s' : Verifier F G} {vs} (h : Verifier.Step env s vs s') (hw : s.WF) :
    ∀ v, s.Stable v → s'.Stable v := by
  have hal : ∀ x v, s.Stable v → (s.allocate x).2.Stable v := by
    intro x v hv
    unfold Verifier.allocate
    rcases hp : s.pending with _ | i <;> cases v <;> simp only [Verifier.Stable, hp] at * <;> grind
  cases h with
  | multiply l r => intro v hv; cases v <;> simp only [Verifier.Stable, Verifier.multiply, Verifier.constrain, Verifier.allocateVars] at * <;> grind
  | allocate x => exact hal x
  | allocateMultiplier x => intro v hv; cases v <;> simp only [Verifier.Stable, Verifier.allocateMultiplier, Verifier.allocateVars] at * <;> grind
  | allocateSingle x => rw [(allocateSingle_eq s x).1]; exact hal none
  | commit V => intro v hv; cases v <;> simp only [Verifier.Stable, Verifier.commit, List.length_append] at * <;> grind
  | phase2 => intro v hv; cases v <;> simp only [Verifier.Stable] at * <;> grind
  | _ => intro v hv; cases v <;> exact hv

theorem Verifier.fresh_append {p p' : Verifier F G} {vs ws : List Var} (e : ∀ v, p.Stable v → p'.Stable v) (h : p.Fresh vs)
    (hn : ws.Nodup) (hs : ∀ w ∈ ws, p'.Stable w ∧ ¬ p.Stable w) : p'.Fresh (vs ++ ws) where
  nodup := by
    rw [List.nodup_append]
    refine ⟨h.nodup, hn, ?_⟩
    intro a ha b hb hab
    subst hab
    exact (hs a hb).2 (h.stable a ha).1
  stable v hv := by
    rcases List.mem_append.mp hv with hv | hv
    · exact ⟨e v (h.stable v hv).1, (h.stable v hv).2⟩
    · refine ⟨(hs v hv).1, ?_⟩
      rintro rfl
      exact (hs _ hv).2 trivial

theorem Verifier.Step.fresh {env : Env F G} {p p' : Verifier F G} {vs ws} (hw : p.WF) (h : p.Fresh vs)
    (st : Verifier.Step env p ws p') : p'.Fresh (vs ++ ws) := by
  have e := st.stable hw
  have hp : p.pending ≠ some p.numVars := fun hp => by have := hw _ hp; omega
  have hnew : ∀ x v, (p.allocate x).1 = .ok v → (p.allocate x).2.Stable v ∧ ¬ p.Stable v := by
    intro x v
    unfold Verifier.allocate
    rcases hq : p.pending with _ | i
    · rintro ⟨⟩; simp [Verifier.Stable]
    · rintro ⟨⟩; simp [Verifier.Stable, hq, hw i hq]
  cases st with
  | commit v =>
    refine fresh_append e h (by simp) ?_
    simp [Verifier.Stable, Verifier.commit]
  | multiply l r =>
    refine fresh_append e h (by simp [Verifier.multiply, Verifier.allocateVars]) ?_
    simp [Verifier.Stable, Verifier.multiply, Verifier.constrain, Verifier.allocateVars, hp]
  | allocate x =>
    refine fresh_append e h ?_ ?_
    · rcases (p.allocate x).1 with _ | r <;> simp [issued1]
    · rcases hr : (p.allocate x).1 with _ | r
      · simp [issued1]
      · simp only [issued1, List.mem_singleton, forall_eq]; exact hnew x r hr
  | allocateMultiplier x =>
    refine fresh_append e h (by simp [Verifier.allocateMultiplier, issued3, Verifier.allocateVars]) ?_
    simp [Verifier.Stable, Verifier.allocateMultiplier, issued3, Verifier.allocateVars, hp]
  | allocateSingle x =>
    obtain ⟨h2, hr⟩ := allocateSingle_eq p x
    refine fresh_append e h ?_ ?_
    · rcases hr with ⟨i, h0, hr⟩ | ⟨i, h0, hr⟩ <;> rw [hr] <;> simp [issued2]
    · rw [h2]
      rcases hr with ⟨i, h0, hr⟩ | ⟨i, h0, hr⟩ <;> rw [hr]
      · simpa [issued2] using hnew _ _ h0
      · have := hnew _ _ h0
        simp only [issued2, List.mem_cons, List.not_mem_nil, or_false, forall_eq_or_imp, forall_eq]
        refine ⟨this, ?_⟩
        simpa [Verifier.Stable] using this
  | _ => exact fresh_append e h (by simp) (by simp)

theorem Verifier.Steps.wf {env : Env F G} {p p' : Verifier F G} {ws} (hw : p.WF) (st : Verifier.Steps env p ws p') : p'.WF := by
  induction st with
  | refl => exact hw
  | tail _ s2 ih => exact s2.wf ih

theorem Verifier.Steps.fresh {env : Env F G} {p p' : Verifier F G} {vs ws} (hw : p.WF) (h : p.Fresh vs)
    (st : Verifier.Steps env p ws p') : p'.Fresh (vs ++ ws) := by
  induction st with
  | refl => simpa using h
  | tail s1 s2 ih => rw [← List.append_assoc]; exact s2.fresh (s1.wf hw) ih

/-! ### What a callback or gadget cannot touch -/

/-- The fields no gadget program can change. -/
structure Prover.SameCommits (p p' : Prover F G) : Prop where
  v : p'.v = p.v
  vB : p'.vBlinding = p.vBlinding
  g : p'.g = p.g
  h : p'.h = p.h

theorem Prover.SameCommits.trans {p q r : Prover F G} (a : p.SameCommits q) (b : q.SameCommits r) : p.SameCommits r :=
  ⟨b.v.trans a.v, b.vB.trans a.vB, b.g.trans a.g, b.h.trans a.h⟩

theorem Prover.SameCommits.after {p q r : Prover F G} (b : q.SameCommits r) (hv : q.v = p.v) (hb : q.vBlinding = p.vBlinding)
    (hg : q.g = p.g) (hh : q.h = p.h) : p.SameCommits r :=
  ⟨b.v.trans hv, b.vB.trans hb, b.g.trans hg, b.h.trans hh⟩

theorem Prover.sameCommits_allocate {p p' : Prover F G} {x r} (h : p.allocate x = .ok (r, p')) : p.SameCommits p' := by
  rcases allocate_eq h with ⟨-, -, rfl⟩ | ⟨y, -, hp, -, rfl⟩ | ⟨y, i, -, hp, hiR, hiO, -, hiL, rfl⟩ <;> exact ⟨rfl, rfl, rfl, rfl⟩

theorem Prover.sameCommits_run {env : Env F G} {C : Type} {rnd : Bool} {α : Type} {onSpec : C → Prover F G → Prover F G}
    (hs : ∀ c (p : Prover F G), p.SameCommits (onSpec c p)) (c : Prog F C rnd α) :
    ∀ {p p' : Prover F G} {a : α}, Prover.run env onSpec c p = .ok (a, p') → p.SameCommits p' := by
  induction c with
  | ret a => intro p p' b h; simp only [run, Except.ok.injEq, Prod.mk.injEq] at h; obtain ⟨-, rfl⟩ := h; exact ⟨rfl, rfl, rfl, rfl⟩
  | err e => intro p p' b h; cases h
  | panic e => intro p p' b h; cases h
  | multiply l r k ih =>
    intro p p' b h
    simp only [run] at h
    split at h
    · rename_i vs q hq
      obtain ⟨x, y, -, -, -, rfl⟩ := multiply_eq hq
      exact (ih _ h).after rfl rfl rfl rfl
    · cases h
  | allocate x k ih =>
    intro p p' b h
    simp only [run] at h
    split at h
    · rename_i r q hq
      exact (sameCommits_allocate hq).trans (ih _ h)
    · cases h
  | allocateMultiplier x k ih =>
    intro p p' b h
    simp only [run] at h
    refine SameCommits.trans ?_ (ih _ h)
    rcases x with _ | ⟨l, r⟩ <;> exact ⟨rfl, rfl, rfl, rfl⟩
  | constrain lc k ih =>
    intro p p' b h
    simp only [run] at h
    exact (ih h).after rfl rfl rfl rfl
  | specify cb k ih =>
    intro p p' b h
    simp only [run] at h
    exact (hs cb p).trans (ih h)
  | evaluateLc lc k ih =>
    intro p p' b h
    simp only [run] at h
    split at h
    · exact ih _ h
    · cases h
  | allocateSingle x k ih =>
    intro p p' b h
    simp only [run] at h
    split at h
    · rename_i r q hq
      obtain ⟨r0, h0, -⟩ := allocateSingle_eq hq
      exact (sameCommits_allocate h0).trans (ih _ h)
    · cases h
  | challenge hr l k ih =>
    intro p p' b h
    simp only [run] at h
    exact (ih _ h).after rfl rfl rfl rfl
  | simplify lc k ih =>
    intro p p' b h
    simp only [run] at h
    exact (ih _ h).after rfl rfl rfl rfl

theorem Prover.sameCommits_run2 {env : Env F G} {c : Callback F} {p p' : Prover F G} {a : Unit}
    (h : p.run2 env c = .ok (a, p')) : p.SameCommits p' :=
  sameCommits_run (fun cb _ => cb.elim) c h

theorem Prover.sameCommits_run1 {env : Env F G} {α : Type} {c : Prog1 F α} {p p' : Prover F G} {a : α}
    (h : p.run1 env c = .ok (a, p')) : p.SameCommits p' :=
  sameCommits_run (onSpec := fun cb p => p.specify cb) (fun _ _ => ⟨rfl, rfl, rfl, rfl⟩) c h

theorem Prover.sameCommits_runCallbacks {env : Env F G} (cbs : List (Callback F)) :
    ∀ {p p' : Prover F G}, p.runCallbacks env cbs = .ok p' → p.SameCommits p' := by
  induction cbs with
  | nil => intro p p' h; simp only [runCallbacks, Except.ok.injEq] at h; subst h; exact ⟨rfl, rfl, rfl, rfl⟩
  | cons cb cbs ih =>
    intro p p' h
    simp only [runCallbacks] at h
    split at h
    · rename_i u q hq
      exact (sameCommits_run2 hq).trans (ih h)
    · cases h

theorem Prover.sameCommits_crc {env : Env F G} {p p' : Prover F G}
    (h : p.createRandomizedConstraints env = .ok p') : p.SameCommits p' := by
  unfold createRandomizedConstraints at h
  simp only at h
  split at h
  · simp only [Except.ok.injEq] at h; subst h; exact ⟨rfl, rfl, rfl, rfl⟩
  · exact (sameCommits_runCallbacks _ h).after rfl rfl rfl rfl

end Bp
