import Verif.Spec.CS
import Verif.Lemmas.LC

set_option linter.unusedSectionVars false
set_option linter.unusedSimpArgs false

namespace Bp
variable {F G : Type} [Field F] [AddCommGroup G] [SMul F G]

/-- Consistency of the prover's state. -/
structure Prover.WF (p : Prover F G) : Prop where
  lenR : p.aR.length = p.aL.length
  lenO : p.aO.length = p.aL.length
  lenB : p.vBlinding.length = p.v.length
  pend : ∀ i, p.pending = some i → i < p.aL.length
  gates : ∀ i, p.aO.getD i 0 = p.aL.getD i 0 * p.aR.getD i 0

/-- The variable is in range and its value cannot change any more. -/
def Prover.Stable (p : Prover F G) : Var → Prop
  | .left i => i < p.aL.length
  | .right i => i < p.aL.length ∧ p.pending ≠ some i
  | .out i => i < p.aL.length ∧ p.pending ≠ some i
  | .committed i => i < p.v.length
  | .one => True

def Prover.StableLC (p : Prover F G) (l : LC F) : Prop := ∀ t ∈ l.terms, p.Stable t.1

/-- What any call preserves. -/
structure Prover.Ext (p p' : Prover F G) : Prop where
  wf : p.WF → p'.WF
  stable : p.WF → ∀ v, p.Stable v → p'.Stable v
  val : p.WF → ∀ v, p.Stable v → p'.assignment.val v = p.assignment.val v
  cons : p.constraints <+: p'.constraints
  v : p.v <+: p'.v
  vB : p.vBlinding <+: p'.vBlinding
  lenL : p.aL.length ≤ p'.aL.length
  g : p'.g = p.g
  h : p'.h = p.h
  aL : p.aL <+: p'.aL

theorem Prover.Ext.refl (p : Prover F G) : p.Ext p :=
  ⟨id, fun _ _ h => h, fun _ _ _ => rfl, List.prefix_rfl, List.prefix_rfl, List.prefix_rfl, le_refl _, rfl, rfl, List.prefix_rfl⟩

theorem Prover.Ext.trans {p q r : Prover F G} (a : p.Ext q) (b : q.Ext r) : p.Ext r where
  wf h := b.wf (a.wf h)
  stable h v hv := b.stable (a.wf h) v (a.stable h v hv)
  val h v hv := (b.val (a.wf h) v (a.stable h v hv)).trans (a.val h v hv)
  cons := a.cons.trans b.cons
  v := a.v.trans b.v
  vB := a.vB.trans b.vB
  lenL := a.lenL.trans b.lenL
  g := b.g.trans a.g
  h := b.h.trans a.h
  aL := a.aL.trans b.aL

theorem getD_append_left {α} (xs ys : List α) (d : α) {i : ℕ} (h : i < xs.length) :
    (xs ++ ys).getD i d = xs.getD i d := by
  simp [List.getD_eq_getElem?_getD, List.getElem?_append_left h]

theorem getD_append_single {α} (xs : List α) (y d : α) (i : ℕ) :
    (xs ++ [y]).getD i d = if i < xs.length then xs.getD i d else if i = xs.length then y else d := by
  simp only [List.getD_eq_getElem?_getD]
  split
  · rename_i h; rw [List.getElem?_append_left h]
  · rename_i h
    rw [List.getElem?_append_right (by omega)]
    split
    · rename_i h2; simp [h2]
    · rename_i h2
      rw [List.getElem?_eq_none (by simp; omega)]; rfl

theorem getD_ge {α} (xs : List α) (d : α) {i : ℕ} (h : xs.length ≤ i) : xs.getD i d = d := by
  simp [List.getD_eq_getElem?_getD, List.getElem?_eq_none h]

theorem getD_set {α} (xs : List α) (i j : ℕ) (y d : α) (h : i < xs.length) :
    (xs.set i y).getD j d = if i = j then y else xs.getD j d := by
  simp only [List.getD_eq_getElem?_getD, List.getElem?_set]
  split
  · rename_i e; subst e; simp [h]
  · rfl

theorem idx_ok {α} {xs : List α} {i : ℕ} {x : α} : idx xs i = .ok x ↔ ∃ h : i < xs.length, xs[i] = x := by
  unfold idx
  by_cases h : i < xs.length
  · simp [List.getElem?_eq_getElem h, h]
  · simp [List.getElem?_eq_none (not_lt.mp h), Res.panic, h]

theorem idx_getD {α} {xs : List α} {i : ℕ} (d : α) (h : i < xs.length) : idx xs i = .ok (xs.getD i d) := by
  unfold idx; simp [List.getD_eq_getElem?_getD, List.getElem?_eq_getElem h]

/-! ### Gates and assignment -/

theorem Prover.WF.gatesA {p : Prover F G} (h : p.WF) : p.assignment.Gates := h.gates

theorem Prover.wf_new (g h : G) (t : Transcript F G) (k : ℕ) : (Prover.new g h t k : Prover F G).WF :=
  ⟨rfl, rfl, rfl, by simp [Prover.new], by simp [Prover.new]⟩

/-- Appending a full gate. -/
theorem Prover.ext_allocateVars (p : Prover F G) (l r o : F) (ho : o = l * r) :
    p.Ext (p.allocateVars l r o).2 where
  wf h := by
    refine ⟨by simp [allocateVars, h.lenR], by simp [allocateVars, h.lenO], h.lenB, ?_, ?_⟩
    · intro i hi
      have := h.pend i hi
      simp [allocateVars]; omega
    · intro i
      simp only [allocateVars, getD_append_single, h.lenR, h.lenO]
      split
      · exact h.gates i
      · split
        · exact ho
        · simp
  stable h v hv := by
    cases v <;> simp only [Prover.Stable, allocateVars, List.length_append, List.length_singleton] at * <;> grind
  val h v hv := by
    cases v <;> simp only [Prover.Stable] at hv <;>
      simp only [Assignment.val, Prover.assignment, allocateVars]
    · exact getD_append_left _ _ _ hv
    · exact getD_append_left _ _ _ (by rw [h.lenR]; exact hv.1)
    · exact getD_append_left _ _ _ (by rw [h.lenO]; exact hv.1)
  cons := List.prefix_rfl
  v := List.prefix_rfl
  vB := List.prefix_rfl
  lenL := by simp [allocateVars]
  g := rfl
  h := rfl
  aL := List.prefix_append _ _

theorem Prover.ext_constrain (p : Prover F G) (lc : LC F) : p.Ext (p.constrain lc) where
  wf h := ⟨h.lenR, h.lenO, h.lenB, h.pend, h.gates⟩
  stable _ v hv := by cases v <;> exact hv
  val _ v _ := by cases v <;> rfl
  cons := List.prefix_append _ _
  v := List.prefix_rfl
  vB := List.prefix_rfl
  lenL := le_refl _
  g := rfl
  h := rfl
  aL := List.prefix_rfl

theorem Prover.multiply_eq {p : Prover F G} {l r : LC F} {vs} {p' : Prover F G} (h : p.multiply l r = .ok (vs, p')) :
    ∃ x y, p.eval l = .ok x ∧ p.eval r = .ok y ∧
      vs = (.left p.aL.length, .right p.aR.length, .out p.aO.length) ∧
      p' = (((p.allocateVars x y (x * y)).2.constrain ⟨l.terms ++ [(.left p.aL.length, -1)]⟩).constrain
        ⟨r.terms ++ [(.right p.aR.length, -1)]⟩) := by
  unfold multiply at h
  rcases hx : p.eval l with e | x
  · simp [hx, bind, Except.bind] at h
  rcases hy : p.eval r with e | y
  · simp [hx, hy, bind, Except.bind] at h
  simp only [hx, hy, bind, Except.bind, pure, Except.pure, Except.ok.injEq, Prod.mk.injEq] at h
  exact ⟨x, y, rfl, rfl, h.1.symm, h.2.symm⟩

theorem Prover.ext_multiply {p p' : Prover F G} {l r : LC F} {vs} (h : p.multiply l r = .ok (vs, p')) : p.Ext p' := by
  obtain ⟨x, y, -, -, -, rfl⟩ := multiply_eq h
  exact ((ext_allocateVars p x y _ rfl).trans (ext_constrain _ _)).trans (ext_constrain _ _)

theorem Prover.allocate_eq {p p' : Prover F G} {x r} (h : p.allocate x = .ok (r, p')) :
    (x = none ∧ r = .error .missingAssignment ∧ p' = p) ∨
    (∃ y, x = some y ∧ p.pending = none ∧ r = .ok (.left p.aL.length) ∧
      p' = { p with pending := some p.aL.length, aL := p.aL ++ [y], aR := p.aR ++ [0], aO := p.aO ++ [0] }) ∨
    (∃ y i, x = some y ∧ p.pending = some i ∧ i < p.aR.length ∧ i < p.aO.length ∧ r = .ok (.right i) ∧ ∃ hi : i < p.aL.length,
      p' = { p with pending := none, aR := p.aR.set i y, aO := p.aO.set i (p.aL[i] * y) }) := by
  unfold allocate at h
  cases x with
  | none => simp only [Except.ok.injEq, Prod.mk.injEq] at h; exact .inl ⟨rfl, h.1.symm, h.2.symm⟩
  | some y =>
    rcases hp : p.pending with _ | i
    · simp only [hp, Except.ok.injEq, Prod.mk.injEq] at h
      exact .inr (.inl ⟨y, rfl, rfl, h.1.symm, h.2.symm⟩)
    · simp only [hp] at h
      split at h
      · rename_i hlt
        rcases hx : idx p.aL i with e | z
        · simp [hx, bind, Except.bind] at h
        · simp only [hx, bind, Except.bind, pure, Except.pure, Except.ok.injEq, Prod.mk.injEq] at h
          obtain ⟨hi, rfl⟩ := idx_ok.mp hx
          exact .inr (.inr ⟨y, i, rfl, rfl, hlt.1, hlt.2, h.1.symm, hi, h.2.symm⟩)
      · cases h

theorem Prover.ext_allocate {p p' : Prover F G} {x r} (h : p.allocate x = .ok (r, p')) : p.Ext p' := by
  rcases allocate_eq h with ⟨-, -, rfl⟩ | ⟨y, -, hp, -, rfl⟩ | ⟨y, i, -, hp, hiR, hiO, -, hiL, rfl⟩
  · exact Ext.refl _
  · constructor
    · intro hw
      refine ⟨by simp [hw.lenR], by simp [hw.lenO], hw.lenB, ?_, ?_⟩
      · rintro i ⟨⟩; simp
      · intro i
        simp only [getD_append_single, hw.lenR, hw.lenO]
        split
        · exact hw.gates i
        · split <;> simp
    · intro hw v hv
      cases v <;> simp only [Prover.Stable, List.length_append, List.length_singleton, hp] at * <;> grind
    · intro hw v hv
      cases v <;> simp only [Prover.Stable] at hv <;>
        simp only [Assignment.val, Prover.assignment]
      · exact getD_append_left _ _ _ hv
      · exact getD_append_left _ _ _ (by rw [hw.lenR]; exact hv.1)
      · exact getD_append_left _ _ _ (by rw [hw.lenO]; exact hv.1)
    all_goals simp
  · constructor
    · intro hw
      refine ⟨by simp [hw.lenR], by simp [hw.lenO], hw.lenB, by simp, ?_⟩
      intro j
      simp only [getD_set _ _ _ _ _ hiR, getD_set _ _ _ _ _ hiO]
      split
      · rename_i e; subst e
        rw [List.getD_eq_getElem?_getD, List.getElem?_eq_getElem hiL]; rfl
      · exact hw.gates j
    · intro hw v hv
      cases v <;> simp only [Prover.Stable, hp] at * <;> grind
    · intro hw v hv
      cases v <;> simp only [Prover.Stable, hp] at hv <;>
        simp only [Assignment.val, Prover.assignment]
      · rw [getD_set _ _ _ _ _ hiR, if_neg]
        intro e; exact hv.2 (by rw [e])
      · rw [getD_set _ _ _ _ _ hiO, if_neg]
        intro e; exact hv.2 (by rw [e])
    all_goals simp

theorem Prover.ext_allocateMultiplier (p : Prover F G) (x) : p.Ext (p.allocateMultiplier x).2 := by
  rcases x with _ | ⟨l, r⟩
  · exact Ext.refl _
  · exact ext_allocateVars p l r _ rfl

theorem Prover.allocateSingle_eq {p p' : Prover F G} {x r} (h : p.allocateSingle x = .ok (r, p')) :
    ∃ r0, p.allocate x = .ok (r0, p') ∧
      ((∃ e, r0 = .error e ∧ r = .error e) ∨ (∃ i, r0 = .ok (.left i) ∧ r = .ok (.left i, none)) ∨
       (∃ i, r0 = .ok (.right i) ∧ r = .ok (.right i, some (.out i)))) := by
  unfold allocateSingle at h
  rcases ha : p.allocate x with e | ⟨r0, q⟩
  · simp [ha, bind, Except.bind] at h
  simp only [ha, bind, Except.bind, pure, Except.pure] at h
  refine ⟨r0, ?_⟩
  rcases allocate_eq ha with ⟨-, rfl, rfl⟩ | ⟨y, -, hp, rfl, rfl⟩ | ⟨y, i, -, hp, hiR, hiO, rfl, hiL, rfl⟩ <;>
    simp only [Except.ok.injEq, Prod.mk.injEq] at h <;> obtain ⟨rfl, rfl⟩ := h <;> simp

theorem Prover.ext_allocateSingle {p p' : Prover F G} {x r} (h : p.allocateSingle x = .ok (r, p')) : p.Ext p' := by
  obtain ⟨r0, h, -⟩ := allocateSingle_eq h
  exact ext_allocate h

theorem Prover.ext_commit (p : Prover F G) (v b : F) : p.Ext (p.commit v b).2 where
  wf h := ⟨h.lenR, h.lenO, by simp [commit, h.lenB], h.pend, h.gates⟩
  stable _ w hw := by
    cases w <;> simp only [Prover.Stable, commit, List.length_append, List.length_singleton] at * <;> grind
  val _ w hw := by
    cases w <;> simp only [Prover.Stable] at hw <;> simp only [Assignment.val, Prover.assignment, commit]
    exact getD_append_left _ _ _ hw
  cons := List.prefix_rfl
  v := List.prefix_append _ _
  vB := List.prefix_append _ _
  lenL := le_refl _
  g := rfl
  h := rfl
  aL := List.prefix_rfl

/-- Changing only bookkeeping, possibly dropping the pending gate. -/
theorem Prover.ext_book (p p' : Prover F G) (hL : p'.aL = p.aL) (hR : p'.aR = p.aR) (hO : p'.aO = p.aO) (hv : p'.v = p.v)
    (hb : p'.vBlinding = p.vBlinding) (hc : p'.constraints = p.constraints)
    (hp : p'.pending = p.pending ∨ p'.pending = none) (hg : p'.g = p.g) (hh : p'.h = p.h) : p.Ext p' where
  wf h := by
    refine ⟨by rw [hR, hL]; exact h.lenR, by rw [hO, hL]; exact h.lenO, by rw [hb, hv]; exact h.lenB, ?_, ?_⟩
    · intro i hi
      rw [hL]
      rcases hp with hp | hp
      · exact h.pend i (hp ▸ hi)
      · rw [hp] at hi; cases hi
    · intro i; rw [hL, hR, hO]; exact h.gates i
  stable _ v hv' := by
    cases v <;> simp only [Prover.Stable, hL, hv] at * <;> grind
  val _ v _ := by
    cases v <;> simp only [Assignment.val, Prover.assignment, hL, hR, hO, hv]
  cons := hc ▸ List.prefix_rfl
  v := hv ▸ List.prefix_rfl
  vB := hb ▸ List.prefix_rfl
  lenL := by rw [hL]
  g := hg
  h := hh
  aL := hL ▸ List.prefix_rfl

theorem Prover.Step.ext {env : Env F G} {p p' : Prover F G} {vs} (h : Prover.Step env p vs p') : p.Ext p' := by
  cases h with
  | commit v b => exact ext_commit _ _ _
  | multiply l r a b o _ h => exact ext_multiply h
  | allocate x r _ h => exact ext_allocate h
  | allocateMultiplier x => exact ext_allocateMultiplier _ _
  | allocateSingle x r _ h => exact ext_allocateSingle h
  | constrain lc => exact ext_constrain _ _
  | specify cb => exact ext_book _ _ rfl rfl rfl rfl rfl rfl (.inl rfl) rfl rfl
  | challenge l => exact ext_book _ _ rfl rfl rfl rfl rfl rfl (.inl rfl) rfl rfl
  | simplify => exact ext_book _ _ rfl rfl rfl rfl rfl rfl (.inl rfl) rfl rfl
  | message t => exact ext_book _ _ rfl rfl rfl rfl rfl rfl (.inl rfl) rfl rfl
  | phase2 => exact ext_book _ _ rfl rfl rfl rfl rfl rfl (.inr rfl) rfl rfl

theorem Prover.Steps.ext {env : Env F G} {p p' : Prover F G} {vs} (h : Prover.Steps env p vs p') : p.Ext p' := by
  induction h with
  | refl => exact Ext.refl _
  | tail _ s ih => exact ih.trans s.ext

theorem Prover.Steps.trans {env : Env F G} {p q r : Prover F G} {vs ws} (h : Prover.Steps env p vs q)
    (h2 : Prover.Steps env q ws r) : Prover.Steps env p (vs ++ ws) r := by
  induction h2 with
  | refl => simpa using h
  | tail _ s ih => rw [← List.append_assoc]; exact .tail ih s

theorem Prover.Steps.single {env : Env F G} {p q : Prover F G} {vs} (h : Prover.Step env p vs q) : Prover.Steps env p vs q := by
  simpa using Steps.tail (.refl p) h

/-- Every successful program run is a history. -/
theorem Prover.run_steps {env : Env F G} {C : Type} {rnd : Bool} {α : Type} {onSpec : C → Prover F G → Prover F G}
    (hs : ∀ c p, ∃ vs, Prover.Steps env p vs (onSpec c p)) (c : Prog F C rnd α) :
    ∀ {p p' : Prover F G} {a : α}, Prover.run env onSpec c p = .ok (a, p') → ∃ vs, Prover.Steps env p vs p' := by
  induction c with
  | ret a => intro p p' b h; simp only [run, Except.ok.injEq, Prod.mk.injEq] at h; obtain ⟨-, rfl⟩ := h; exact ⟨_, .refl _⟩
  | err e => intro p p' b h; cases h
  | panic e => intro p p' b h; cases h
  | multiply l r k ih =>
    intro p p' b h
    simp only [run] at h
    split at h
    · rename_i vs q hq
      obtain ⟨ws, hw⟩ := ih _ h
      exact ⟨_, (Steps.single (.multiply _ l r vs.1 vs.2.1 vs.2.2 _ hq)).trans hw⟩
    · cases h
  | allocate x k ih =>
    intro p p' b h
    simp only [run] at h
    split at h
    · rename_i r q hq
      obtain ⟨ws, hw⟩ := ih _ h
      exact ⟨_, (Steps.single (.allocate _ x r _ hq)).trans hw⟩
    · cases h
  | allocateMultiplier x k ih =>
    intro p p' b h
    simp only [run] at h
    obtain ⟨ws, hw⟩ := ih _ h
    exact ⟨_, (Steps.single (.allocateMultiplier _ x)).trans hw⟩
  | constrain lc k ih =>
    intro p p' b h
    simp only [run] at h
    obtain ⟨ws, hw⟩ := ih h
    exact ⟨_, (Steps.single (.constrain _ lc)).trans hw⟩
  | specify cb k ih =>
    intro p p' b h
    simp only [run] at h
    obtain ⟨ws, hw⟩ := ih h
    obtain ⟨vs, hv⟩ := hs cb p
    exact ⟨_, hv.trans hw⟩
  | evaluateLc lc k ih =>
    intro p p' b h
    simp only [run] at h
    split at h
    · exact ih _ h
    · cases h
  | allocateSingle x k ih =>
    intro p p' b h
    simp only [run] at h
    split at h
    · rename_i r q hq
      obtain ⟨ws, hw⟩ := ih _ h
      exact ⟨_, (Steps.single (.allocateSingle _ x r _ hq)).trans hw⟩
    · cases h
  | challenge hr l k ih =>
    intro p p' b h
    simp only [run] at h
    obtain ⟨ws, hw⟩ := ih _ h
    exact ⟨_, (Steps.single (.challenge _ l)).trans hw⟩
  | simplify lc k ih =>
    intro p p' b h
    simp only [run] at h
    obtain ⟨ws, hw⟩ := ih _ h
    exact ⟨_, (Steps.single (.simplify _)).trans hw⟩

theorem Prover.run1_steps {env : Env F G} {α : Type} {c : Prog1 F α} {p p' : Prover F G} {a : α}
    (h : p.run1 env c = .ok (a, p')) : ∃ vs, Prover.Steps env p vs p' :=
  run_steps (fun cb q => ⟨_, Steps.single (.specify q cb)⟩) c h

theorem Prover.run2_steps {env : Env F G} {c : Callback F} {p p' : Prover F G} {a : Unit}
    (h : p.run2 env c = .ok (a, p')) : ∃ vs, Prover.Steps env p vs p' :=
  run_steps (fun cb _ => cb.elim) c h

theorem Prover.runCallbacks_steps {env : Env F G} (cbs : List (Callback F)) :
    ∀ {p p' : Prover F G}, p.runCallbacks env cbs = .ok p' → ∃ vs, Prover.Steps env p vs p' := by
  induction cbs with
  | nil => intro p p' h; simp only [runCallbacks, Except.ok.injEq] at h; subst h; exact ⟨_, .refl _⟩
  | cons cb cbs ih =>
    intro p p' h
    simp only [runCallbacks] at h
    split at h
    · rename_i u q hq
      obtain ⟨vs, hv⟩ := run2_steps hq
      obtain ⟨ws, hw⟩ := ih h
      exact ⟨_, hv.trans hw⟩
    · cases h

theorem Prover.createRandomizedConstraints_steps {env : Env F G} {p p' : Prover F G}
    (h : p.createRandomizedConstraints env = .ok p') : ∃ vs, Prover.Steps env p vs p' := by
  unfold createRandomizedConstraints at h
  simp only at h
  split at h
  · rename_i h0
    simp only [Except.ok.injEq] at h
    subst h
    have e : p.deferred = [] := List.length_eq_zero_iff.mp h0
    have s1 := Prover.Steps.single (Prover.Step.phase2 (env := env) p)
    have s2 := Prover.Steps.single (Prover.Step.message (env := env) { p with pending := none, deferred := [] } p.transcript.r1cs1PhaseDomainSep)
    have := s1.trans s2
    exact ⟨[] ++ [], by simpa [e] using this⟩
  · obtain ⟨vs, hv⟩ := runCallbacks_steps _ h
    have s1 := Prover.Steps.single (Prover.Step.phase2 (env := env) p)
    have s2 := Prover.Steps.single (Prover.Step.message (env := env) { p with pending := none, deferred := [] } p.transcript.r1cs2PhaseDomainSep)
    exact ⟨_, (s1.trans s2).trans hv⟩

/-! ### evaluation -/

theorem Prover.evalVar_stable {p : Prover F G} (hw : p.WF) {v : Var} (hv : p.Stable v) :
    p.evalVar v = .ok (p.assignment.val v) := by
  cases v <;> simp only [Prover.Stable] at hv <;> simp only [evalVar, Assignment.val, Prover.assignment]
  · exact idx_getD _ hv
  · exact idx_getD _ hv
  · exact idx_getD _ (by rw [hw.lenR]; exact hv.1)
  · exact idx_getD _ (by rw [hw.lenO]; exact hv.1)

theorem Prover.evalVar_val {p : Prover F G} {v : Var} {x : F} (h : p.evalVar v = .ok x) : x = p.assignment.val v := by
  cases v <;> simp only [evalVar, Assignment.val, Prover.assignment] at *
  case one => cases h; rfl
  all_goals
    obtain ⟨hi, rfl⟩ := idx_ok.mp h
    simp [List.getD_eq_getElem?_getD, List.getElem?_eq_getElem hi]

theorem Prover.eval_val {p : Prover F G} {l : LC F} {x : F} (h : p.eval l = .ok x) : x = l.value p.assignment := by
  have key : ∀ (ts : List (Var × F)) (acc y : F),
      ts.foldlM (m := Except Fault) (fun sum t => do
        let val ← p.evalVar t.1
        return sum + t.2 * val) acc = .ok y → y = acc + LC.termsVal p.assignment ts := by
    intro ts
    induction ts with
    | nil => intro acc y h; simp only [List.foldlM_nil, pure, Except.pure, Except.ok.injEq] at h; simp [h]
    | cons t ts ih =>
      intro acc y h
      simp only [List.foldlM_cons] at h
      rcases hv : p.evalVar t.1 with e | z
      · simp [hv, bind, Except.bind] at h
      · simp only [hv, bind, Except.bind, pure, Except.pure] at h
        rw [ih _ _ h, evalVar_val hv, LC.termsVal_cons]; ring
  have := key l.terms 0 x h
  rw [this, LC.value_def]; ring

theorem Prover.eval_stable {p : Prover F G} (hw : p.WF) {l : LC F} (hl : p.StableLC l) :
    p.eval l = .ok (l.value p.assignment) := by
  have key : ∀ (ts : List (Var × F)) (acc : F), (∀ t ∈ ts, p.Stable t.1) →
      ts.foldlM (m := Except Fault) (fun sum t => do
        let val ← p.evalVar t.1
        return sum + t.2 * val) acc = .ok (acc + LC.termsVal p.assignment ts) := by
    intro ts
    induction ts with
    | nil => intro acc _; simp [pure, Except.pure]
    | cons t ts ih =>
      intro acc h
      simp only [List.foldlM_cons, evalVar_stable hw (h t (by simp)), bind, Except.bind, pure, Except.pure]
      have := ih (acc + t.2 * p.assignment.val t.1) (fun t ht => h t (by simp [ht]))
      simp only [bind, Except.bind, pure, Except.pure] at this
      rw [this, LC.termsVal_cons]
      congr 1; ring
  have := key l.terms 0 hl
  rw [zero_add] at this
  exact this

theorem Prover.Ext.stableLC {p q : Prover F G} (e : p.Ext q) (hw : p.WF) {l : LC F} (h : p.StableLC l) : q.StableLC l :=
  fun t ht => e.stable hw _ (h t ht)

theorem Prover.Ext.valueLC {p q : Prover F G} (e : p.Ext q) (hw : p.WF) {l : LC F} (h : p.StableLC l) :
    l.value q.assignment = l.value p.assignment := by
  simp only [LC.value]
  congr 1
  apply List.map_congr_left
  intro t ht
  rw [e.val hw _ (h t ht)]

end Bp
