import Verif.Lemmas.CS2
import Mathlib.Tactic.Abel
import Mathlib.Tactic.Module

/-! # C03, C05, C06, C07, C08, C23: constraint-system invariants -/

set_option linter.unusedSectionVars false
set_option linter.unusedSimpArgs false

namespace Bp
variable {F G : Type} [Field F] [AddCommGroup G] [Module F G]

/-- C03: in every state reachable from `Prover::new` by any history of calls in either phase, the three wire vectors have the same
length and every gate satisfies `output = left * right`. -/
theorem c03_gates_consistent (env : Env F G) (g h : G) (t : Transcript F G) (k : ℕ) (vs : List Var) (p : Prover F G)
    (hist : Prover.Steps env (Prover.new g h t k) vs p) :
    p.aL.length = p.aO.length ∧ p.aR.length = p.aO.length ∧
    ∀ (i : ℕ) (l r o : F), p.aL[i]? = some l → p.aR[i]? = some r → p.aO[i]? = some o → o = l * r := by
  have hw : p.WF := hist.ext.wf (Prover.wf_new g h t k)
  refine ⟨hw.lenO.symm, hw.lenR.trans hw.lenO.symm, ?_⟩
  intro i l r o hl hr ho
  have := hw.gates i
  simpa [List.getD_eq_getElem?_getD, hl, hr, ho] using this

/-- C03, also across the start of the second phase: running the deferred callbacks keeps the invariant. -/
theorem c03_gates_consistent_phase2 (env : Env F G) (g h : G) (t : Transcript F G) (k : ℕ) (vs : List Var) (p p' : Prover F G)
    (hist : Prover.Steps env (Prover.new g h t k) vs p) (h2 : p.createRandomizedConstraints env = .ok p') :
    p'.aL.length = p'.aO.length ∧ p'.aR.length = p'.aO.length ∧
    ∀ (i : ℕ) (l r o : F), p'.aL[i]? = some l → p'.aR[i]? = some r → p'.aO[i]? = some o → o = l * r := by
  obtain ⟨ws, hw⟩ := Prover.createRandomizedConstraints_steps h2
  exact c03_gates_consistent env g h t k _ p' (hist.trans hw)

/-- C03: a gadget program run is such a history (so the theorems above cover all gadgets). -/
theorem c03_program_is_history (env : Env F G) {α : Type} (c : Prog1 F α) (p p' : Prover F G) (a : α)
    (h : p.run1 env c = .ok (a, p')) : ∃ vs, Prover.Steps env p vs p' := Prover.run1_steps h

/-- A concrete history: half-allocated gate, then a multiplication, with a failed allocation in between. -/
example : ∃ p : Prover ℚ ℚ, ∃ vs, Prover.Steps (Env.std (fun _ => 1)) (Prover.new 1 1 [] 0) vs p ∧
    p.pending = some 0 ∧ p.aL = [5, 10] ∧ p.aR = [0, 15] ∧ p.aO = [0, 150] := by
  have s1 := Prover.Steps.single (Prover.Step.allocate (env := Env.std (fun _ => (1 : ℚ)))
    (Prover.new (1 : ℚ) (1 : ℚ) [] 0) (some 5) _ _ rfl)
  have s2 := s1.trans (Prover.Steps.single (Prover.Step.allocate _ none _ _ rfl))
  refine ⟨_, _, s2.trans (Prover.Steps.single (Prover.Step.multiply _ (LC.scalarMulVar 2 (.left 0)) (LC.scalarMulVar 3 (.left 0))
    _ _ _ _ rfl)), rfl, ?_, ?_, ?_⟩ <;>
  norm_num [Prover.new, Prover.constrain, Prover.allocateVars]

/-! ## C05 -/

/-- C05 (verifier): after `multiply(l, r)` in any state, in every later state of any history, every assignment satisfying gates and
constraints gives the returned output variable the value of `l` times the value of `r` (and the returned inputs the values of
`l` and `r`). -/
theorem c05_multiply_sound (env : Env F G) (s s' : Verifier F G) (l r : LC F) (vs : List Var)
    (later : Verifier.Steps env (s.multiply l r).2 vs s') (σ : Assignment F) (hg : σ.Gates) (hs : σ.Sat s'.constraints) :
    σ.val (s.multiply l r).1.2.2 = l.value σ * r.value σ ∧
    σ.val (s.multiply l r).1.1 = l.value σ ∧ σ.val (s.multiply l r).1.2.1 = r.value σ := by
  have hsub := later.ext.cons.subset
  have h1 : (⟨l.terms ++ [(.left s.numVars, -1)]⟩ : LC F).value σ = 0 :=
    hs _ (hsub (by simp [Verifier.multiply, Verifier.constrain, Verifier.allocateVars]))
  have h2 : (⟨r.terms ++ [(.right s.numVars, -1)]⟩ : LC F).value σ = 0 :=
    hs _ (hsub (by simp [Verifier.multiply, Verifier.constrain, Verifier.allocateVars]))
  simp only [LC.value_def, LC.termsVal_append, LC.termsVal_cons, LC.termsVal_nil] at h1 h2
  simp only [Verifier.multiply, Verifier.allocateVars, Assignment.val, LC.value_def] at *
  rw [hg]
  have e1 : LC.termsVal σ l.terms = σ.left s.numVars := by linear_combination h1
  have e2 : LC.termsVal σ r.terms = σ.right s.numVars := by linear_combination h2
  exact ⟨by rw [e1, e2], e1.symm, e2.symm⟩

/-- C05 (prover): the constraints added by `multiply` are satisfied by the prover's own assignment, and the returned variables have
the expected values. -/
theorem c05_multiply_complete (p : Prover F G) (hw : p.WF) (l r : LC F) (hl : p.StableLC l) (hr : p.StableLC r) :
    ∃ a b o p', p.multiply l r = .ok ((a, b, o), p') ∧
      (∀ lc ∈ p'.constraints, lc ∈ p.constraints ∨ lc.value p'.assignment = 0) ∧
      p'.assignment.val o = l.value p.assignment * r.value p.assignment ∧
      p'.assignment.val a = l.value p.assignment ∧ p'.assignment.val b = r.value p.assignment := by
  have e1 := Prover.eval_stable hw hl
  have e2 := Prover.eval_stable hw hr
  set x := l.value p.assignment with hx
  set y := r.value p.assignment with hy
  obtain ⟨q, hq⟩ : ∃ q, q = (((p.allocateVars x y (x * y)).2.constrain ⟨l.terms ++ [(.left p.aL.length, -1)]⟩).constrain
        ⟨r.terms ++ [(.right p.aR.length, -1)]⟩) := ⟨_, rfl⟩
  refine ⟨.left p.aL.length, .right p.aR.length, .out p.aO.length, q,
    by simp [hq, Prover.multiply, e1, e2, bind, Except.bind, Prover.allocateVars]; rfl, ?_⟩
  have ext : p.Ext q := hq ▸ ((Prover.ext_allocateVars p x y _ rfl).trans (Prover.ext_constrain _ _)).trans (Prover.ext_constrain _ _)
  have va : q.assignment.val (.left p.aL.length) = x := by
    simp [hq, Prover.assignment, Assignment.val, Prover.constrain, Prover.allocateVars, getD_append_single]
  have vb : q.assignment.val (.right p.aR.length) = y := by
    simp [hq, Prover.assignment, Assignment.val, Prover.constrain, Prover.allocateVars, getD_append_single]
  have vo : q.assignment.val (.out p.aO.length) = x * y := by
    simp [hq, Prover.assignment, Assignment.val, Prover.constrain, Prover.allocateVars, getD_append_single]
  refine ⟨?_, vo, va, vb⟩
  intro lc hlc
  have : lc ∈ (p.constraints ++ [⟨l.terms ++ [(.left p.aL.length, -1)]⟩]) ++ [⟨r.terms ++ [(.right p.aR.length, -1)]⟩] := by
    rw [hq] at hlc; exact hlc
  simp only [List.mem_append, List.mem_singleton] at this
  rcases this with (h | h) | h
  · exact .inl h
  · right; subst h
    have := ext.valueLC hw hl
    simp only [LC.value_def, LC.termsVal_append, LC.termsVal_cons, LC.termsVal_nil, va] at *
    rw [this]; simp [hx]
  · right; subst h
    have := ext.valueLC hw hr
    simp only [LC.value_def, LC.termsVal_append, LC.termsVal_cons, LC.termsVal_nil, vb] at *
    rw [this]; simp [hy]

/-- Satisfiable: `multiply` of two committed variables worth 3 and 4 on the verifier; the assignment exists. -/
example : ∃ (s : Verifier ℚ ℚ) (σ : Assignment ℚ), σ.Gates ∧
    σ.Sat (s.multiply (LC.ofVar (.committed 0)) (LC.ofVar (.committed 1))).2.constraints ∧
    σ.val (s.multiply (LC.ofVar (.committed 0)) (LC.ofVar (.committed 1))).1.2.2 = 12 := by
  refine ⟨Verifier.new [] 0, ⟨fun _ => 3, fun _ => 4, fun _ => 12, fun i => if i = 0 then 3 else 4⟩, ?_, ?_, ?_⟩
  · intro i; norm_num
  · intro lc h
    simp [Verifier.multiply, Verifier.constrain, Verifier.allocateVars, Verifier.new] at h
    rcases h with rfl | rfl <;> norm_num [LC.value, Assignment.val, LC.ofVar]
  · simp [Verifier.multiply, Verifier.allocateVars, Assignment.val]

/-! ## C06 -/

/-- C06 (prover): over any history from a new prover, no variable is ever handed out twice. -/
theorem c06_fresh_prover (env : Env F G) (g h : G) (t : Transcript F G) (k : ℕ) (vs : List Var) (p : Prover F G)
    (hist : Prover.Steps env (Prover.new g h t k) vs p) : vs.Nodup := by
  have := hist.fresh (vs := []) (Prover.wf_new g h t k) ⟨by simp, by simp⟩
  simpa using this.nodup

/-- C06 (verifier): over any history from a new verifier, no variable is ever handed out twice. -/
theorem c06_fresh_verifier (env : Env F G) (t : Transcript F G) (k : ℕ) (vs : List Var) (s : Verifier F G)
    (hist : Verifier.Steps env (Verifier.new t k) vs s) : vs.Nodup := by
  have := hist.fresh (vs := []) (by intro i hi; simp [Verifier.new] at hi) ⟨by simp, by simp⟩
  simpa using this.nodup

/-- Calls between two `allocate` calls: everything except `allocate`, `allocate_single` and the start of the second phase. -/
inductive Prover.Quiet (env : Env F G) : Prover F G → Prover F G → Prop where
  | refl (p) : Quiet env p p
  | commit {p q} (v b) : Quiet env p q → Quiet env p (q.commit v b).2
  | multiply {p q} (l r vs q') : Quiet env p q → q.multiply l r = .ok (vs, q') → Quiet env p q'
  | allocateMultiplier {p q} (x) : Quiet env p q → Quiet env p (q.allocateMultiplier x).2
  | constrain {p q} (lc) : Quiet env p q → Quiet env p (q.constrain lc)
  | specify {p q} (cb) : Quiet env p q → Quiet env p (q.specify cb)

theorem Prover.Quiet.pending {env : Env F G} {p q : Prover F G} (h : Prover.Quiet env p q) : q.pending = p.pending := by
  induction h with
  | refl => rfl
  | commit v b _ ih => exact ih
  | multiply l r vs q' _ hm ih => obtain ⟨x, y, -, -, -, rfl⟩ := Prover.multiply_eq hm; exact ih
  | allocateMultiplier x _ ih => rcases x with _ | ⟨l, r⟩ <;> exact ih
  | constrain lc _ ih => exact ih
  | specify cb _ ih => exact ih

theorem Prover.Quiet.ext {env : Env F G} {p q : Prover F G} (h : Prover.Quiet env p q) : p.Ext q := by
  induction h with
  | refl => exact Ext.refl _
  | commit v b _ ih => exact ih.trans (Prover.ext_commit _ _ _)
  | multiply l r vs q' _ hm ih => exact ih.trans (Prover.ext_multiply hm)
  | allocateMultiplier x _ ih => exact ih.trans (Prover.ext_allocateMultiplier _ _)
  | constrain lc _ ih => exact ih.trans (Prover.ext_constrain _ _)
  | specify cb _ ih => exact ih.trans (Prover.ext_book _ _ rfl rfl rfl rfl rfl rfl (.inl rfl) rfl rfl)

/-- C06 (prover): with no half-allocated gate, `allocate(Some x)` opens a new gate and returns its left wire with value `x`; after any
number of other calls, the next `allocate(Some y)` returns the right wire of that same gate, whose wires are now `x`, `y`, `x*y`,
and the one after that opens a new gate again. -/
theorem c06_allocate_pairs (env : Env F G) (p q : Prover F G) (hw : p.WF) (hp : p.pending = none) (x y : F) :
    ∃ p1, p.allocate (some x) = .ok (.ok (.left p.aL.length), p1) ∧ (Prover.Quiet env p1 q →
    ∃ q', q.allocate (some y) = .ok (.ok (.right p.aL.length), q') ∧ q'.pending = none ∧
      q'.assignment.val (.left p.aL.length) = x ∧ q'.assignment.val (.right p.aL.length) = y ∧
      q'.assignment.val (.out p.aL.length) = x * y) := by
  have ha : p.allocate (some x) = .ok (.ok (.left p.aL.length),
      { p with pending := some p.aL.length, aL := p.aL ++ [x], aR := p.aR ++ [0], aO := p.aO ++ [0] }) := by
    simp [Prover.allocate, hp]
  refine ⟨_, ha, fun hq => ?_⟩
  have hpend := hq.pending
  have hext := hq.ext
  have hw1 := (Prover.ext_allocate ha).wf hw
  have hwq := hext.wf hw1
  have hlt := hwq.pend _ hpend
  have hval := hext.val hw1 (.left p.aL.length) (by simp [Prover.Stable])
  have hx : q.aL[p.aL.length] = x := by
    simpa [Prover.assignment, Assignment.val, List.getD_eq_getElem?_getD, List.getElem?_eq_getElem hlt] using hval
  refine ⟨{ q with pending := none, aR := q.aR.set p.aL.length y, aO := q.aO.set p.aL.length (q.aL[p.aL.length] * y) }, ?_, rfl, ?_, ?_, ?_⟩
  · simp [Prover.allocate, hpend, hwq.lenR, hwq.lenO, hlt, idx, List.getElem?_eq_getElem hlt, bind, Except.bind, pure, Except.pure]
  · simp only [Prover.assignment, Assignment.val]
    simp [List.getD_eq_getElem?_getD, List.getElem?_eq_getElem hlt, hx]
  · simp only [Prover.assignment, Assignment.val]
    rw [getD_set _ _ _ _ _ (by rw [hwq.lenR]; exact hlt)]; simp
  · simp only [Prover.assignment, Assignment.val]
    rw [getD_set _ _ _ _ _ (by rw [hwq.lenO]; exact hlt)]; simp [hx]

/-- C06 (verifier): the same pairing. -/
theorem c06_allocate_pairs_verifier (s : Verifier F G) (x y : Option F) (hp : s.pending = none) :
    (s.allocate x).1 = .ok (.left s.numVars) ∧
    ∀ s' : Verifier F G, s'.pending = (s.allocate x).2.pending →
      (s'.allocate y).1 = .ok (.right s.numVars) ∧ (s'.allocate y).2.pending = none ∧ (s'.allocate y).2.numVars = s'.numVars := by
  simp only [Verifier.allocate, hp]
  refine ⟨trivial, ?_⟩
  intro s' hs'
  simp [hs']

/-- C06: a missing assignment is reported as such and changes nothing, for all three allocation calls. -/
theorem c06_missing_assignment (p : Prover F G) :
    p.allocate none = .ok (.error .missingAssignment, p) ∧
    p.allocateMultiplier none = (.error .missingAssignment, p) ∧
    p.allocateSingle none = .ok (.error .missingAssignment, p) :=
  ⟨rfl, rfl, rfl⟩

/-- C06: `allocate_single` additionally hands out the output wire exactly when it completed a gate. -/
theorem c06_allocate_single (p p' : Prover F G) (x : F) (r) (h : p.allocateSingle (some x) = .ok (r, p')) :
    (p.pending = none → r = .ok (.left p.aL.length, none)) ∧
    (∀ i, p.pending = some i → r = .ok (.right i, some (.out i))) := by
  obtain ⟨r0, h0, hr⟩ := Prover.allocateSingle_eq h
  rcases Prover.allocate_eq h0 with ⟨hx, -⟩ | ⟨y, -, hp, rfl, -⟩ | ⟨y, i, -, hp, -, -, rfl, -⟩
  · cases hx
  · rcases hr with ⟨e, h1, h2⟩ | ⟨i, h1, h2⟩ | ⟨i, h1, h2⟩ <;> cases h1
    exact ⟨fun _ => h2, by simp [hp]⟩
  · rcases hr with ⟨e, h1, h2⟩ | ⟨j, h1, h2⟩ | ⟨j, h1, h2⟩ <;> cases h1
    refine ⟨by simp [hp], ?_⟩
    intro j hj; rw [hp] at hj; cases hj; exact h2

example : ∃ q : Prover ℚ ℚ, Prover.Quiet (Env.std (fun _ => 1))
    { (Prover.new (1:ℚ) (1:ℚ) [] 0 : Prover ℚ ℚ) with pending := some 0, aL := [5], aR := [0], aO := [0] } q ∧ q.aL.length = 2 :=
  ⟨_, .allocateMultiplier (some (2, 3)) (.refl _), by simp [Prover.allocateMultiplier, Prover.allocateVars]⟩

/-! ## C07 -/

/-- C07: an expression over variables handed out so far (and the constant) evaluates, and evaluates to the same value after any further
history, in either phase. -/
theorem c07_value_stable (env : Env F G) (g h : G) (t : Transcript F G) (k : ℕ) (vs ws : List Var) (p p' : Prover F G)
    (hist : Prover.Steps env (Prover.new g h t k) vs p) (later : Prover.Steps env p ws p')
    (l : LC F) (hl : ∀ tm ∈ l.terms, tm.1 ∈ vs ∨ tm.1 = .one) :
    p.eval l = .ok (l.value p.assignment) ∧ p'.eval l = p.eval l := by
  have hw := hist.ext.wf (Prover.wf_new g h t k)
  have hf := hist.fresh (vs := []) (Prover.wf_new g h t k) ⟨by simp, by simp⟩
  have hst : p.StableLC l := by
    intro tm htm
    rcases hl tm htm with h | h
    · exact (hf.stable _ (by simpa using h)).1
    · rw [h]; trivial
  have ext := later.ext
  have e1 := Prover.eval_stable hw hst
  have e2 := Prover.eval_stable (ext.wf hw) (ext.stableLC hw hst)
  exact ⟨e1, by rw [e1, e2, ext.valueLC hw hst]⟩

/-- C07: the verifier's `evaluate_lc` always answers `None`: a program that asks continues with `None` in the same state. -/
theorem c07_verifier_none (env : Env F G) {α : Type} (l : LC F) (k : Option F → Prog1 F α) (s : Verifier F G) :
    s.run1 env (.evaluateLc l k) = s.run1 env (k none) := rfl

/-- C07: on the prover a program that asks for an expression over issued variables continues with `Some` of its value. -/
theorem c07_prover_some (env : Env F G) {α : Type} (l : LC F) (k : Option F → Prog1 F α) (p : Prover F G) (hw : p.WF)
    (hl : p.StableLC l) : p.run1 env (.evaluateLc l k) = p.run1 env (k (some (l.value p.assignment))) := by
  simp only [Prover.run1, Prover.run, Prover.eval_stable hw hl]

/-! ## C08 -/

/-- C08: registering appends, so callbacks are kept in registration order. -/
theorem c08_registration_order (p : Prover F G) (s : Verifier F G) (cb : Callback F) :
    (p.specify cb).deferred = p.deferred ++ [cb] ∧ (s.specify cb).deferred = s.deferred ++ [cb] := ⟨rfl, rfl⟩

/-- C08: callbacks run one after the other in list order, each exactly once on the state the previous one left. -/
theorem c08_callbacks_in_order (env : Env F G) (pre post : List (Callback F)) (cb : Callback F) (p p' : Prover F G) :
    p.runCallbacks env (pre ++ cb :: post) = .ok p' ↔
      ∃ q1 q2, p.runCallbacks env pre = .ok q1 ∧ q1.run2 env cb = .ok ((), q2) ∧ q2.runCallbacks env post = .ok p' := by
  induction pre generalizing p with
  | nil =>
    simp only [List.nil_append, Prover.runCallbacks]
    constructor
    · intro h
      split at h
      · rename_i u q hq; exact ⟨p, q, rfl, hq, h⟩
      · cases h
    · rintro ⟨q1, q2, h1, h2, h3⟩
      cases h1; simp [h2, h3]
  | cons c pre ih =>
    simp only [List.cons_append, Prover.runCallbacks]
    constructor
    · intro h
      split at h
      · rename_i u q hq
        obtain ⟨q1, q2, h1, h2, h3⟩ := (ih q).mp h
        exact ⟨q1, q2, h1, h2, h3⟩
      · cases h
    · rintro ⟨q1, q2, h1, h2, h3⟩
      split at h1
      · rename_i u q hq
        exact (ih q).mpr ⟨q1, q2, h1, h2, h3⟩
      · cases h1

/-- C08: whatever the callbacks do, the second phase leaves every first-phase wire, every committed value and blinding, and every
earlier constraint as they were (and forgets the half-allocated gate, so no callback can complete it). -/
theorem c08_phase1_untouched (env : Env F G) (p p' : Prover F G) (hw : p.WF) (h : p.createRandomizedConstraints env = .ok p') :
    p'.aL.take p.aL.length = p.aL ∧ p'.aR.take p.aL.length = p.aR ∧ p'.aO.take p.aL.length = p.aO ∧
    p'.v = p.v ∧ p'.vBlinding = p.vBlinding ∧ p.constraints <+: p'.constraints := by
  have sc := Prover.sameCommits_crc h
  -- the state right after the start of the phase: nothing pending
  have key : ∃ q : Prover F G, q.aL = p.aL ∧ q.aR = p.aR ∧ q.aO = p.aO ∧ q.constraints = p.constraints ∧ q.pending = none ∧ q.WF ∧ q.Ext p' := by
    unfold Prover.createRandomizedConstraints at h
    simp only at h
    have wf0 : ∀ (t : Transcript F G) (d : List (Callback F)),
        ({ p with pending := none, transcript := t, deferred := d } : Prover F G).WF :=
      fun t d => ⟨hw.lenR, hw.lenO, hw.lenB, by simp, hw.gates⟩
    split at h
    · simp only [Except.ok.injEq] at h
      exact ⟨p', by subst h; rfl, by subst h; rfl, by subst h; rfl, by subst h; rfl, by subst h; rfl, by subst h; exact wf0 _ _, Prover.Ext.refl _⟩
    · obtain ⟨vs, hv⟩ := Prover.runCallbacks_steps _ h
      exact ⟨{ p with pending := none, transcript := p.transcript.r1cs2PhaseDomainSep, deferred := [] }, rfl, rfl, rfl, rfl, rfl, wf0 _ _, hv.ext⟩
  obtain ⟨q, hL, hR, hO, hc, hp, hwq, ext⟩ := key
  have hw' := ext.wf hwq
  have hlen : p.aL.length ≤ p'.aL.length := hL ▸ ext.lenL
  have take_eq : ∀ (xs ys : List F), xs.length = p.aL.length → xs.length ≤ ys.length →
      (∀ i, i < p.aL.length → ys.getD i 0 = xs.getD i 0) → ys.take p.aL.length = xs := by
    intro xs ys hx hy he
    apply List.ext_getElem
    · simp; omega
    · intro i h1 h2
      have := he i (by omega)
      simp only [List.getElem_take]
      simpa [List.getD_eq_getElem?_getD, List.getElem?_eq_getElem h2, List.getElem?_eq_getElem (show i < ys.length by omega)] using this
  refine ⟨?_, ?_, ?_, sc.v, sc.vB, hc ▸ ext.cons⟩
  · refine take_eq _ _ rfl hlen ?_
    intro i hi
    have := ext.val hwq (.left i) (by simpa [Prover.Stable, hL] using hi)
    simpa [Prover.assignment, Assignment.val, hL] using this
  · refine take_eq _ _ hw.lenR (by rw [hw'.lenR, hw.lenR]; exact hlen) ?_
    intro i hi
    have := ext.val hwq (.right i) (by simpa [Prover.Stable, hL, hp] using hi)
    simpa [Prover.assignment, Assignment.val, hR] using this
  · refine take_eq _ _ hw.lenO (by rw [hw'.lenO, hw.lenO]; exact hlen) ?_
    intro i hi
    have := ext.val hwq (.out i) (by simpa [Prover.Stable, hL, hp] using hi)
    simpa [Prover.assignment, Assignment.val, hO] using this

/-- C08: the verifier keeps its commitments, gate count and constraints too. -/
theorem c08_phase1_untouched_verifier (env : Env F G) (s s' : Verifier F G) (h : s.createRandomizedConstraints env = .ok s') :
    s.V <+: s'.V ∧ s.numVars ≤ s'.numVars ∧ s.constraints <+: s'.constraints := by
  obtain ⟨vs, hv⟩ := Verifier.createRandomizedConstraints_steps h
  exact ⟨hv.ext.V, hv.ext.num, hv.ext.cons⟩

/-- A state with a half-allocated gate whose callback allocates: the new allocation opens a new gate. -/
example : ∃ p' : Prover ℚ ℚ,
    ({ (Prover.new (1:ℚ) (1:ℚ) [] 0 : Prover ℚ ℚ) with
        pending := some 0, aL := [5], aR := [0], aO := [0], deferred := [Prog.allocate (some 7) (fun _ => .ret ())] } : Prover ℚ ℚ).createRandomizedConstraints (Env.std (fun _ => 1)) = .ok p' ∧
    p'.aL = [5, 7] ∧ p'.aR = [0, 0] := ⟨_, rfl, rfl, rfl⟩

/-! ## C23 -/

/-- C23: `Prover::commit` returns the Pedersen commitment, appends exactly it to the transcript, and numbers committed variables in
order; `Verifier::commit` numbers and records the same way. -/
theorem c23_commit (p : Prover F G) (s : Verifier F G) (v b : F) (V : G) :
    (p.commit v b).1.1 = v • p.g + b • p.h ∧ (p.commit v b).1.2 = .committed p.v.length ∧
    (p.commit v b).2.transcript = p.transcript ++ [.point "V" (v • p.g + b • p.h)] ∧
    (p.commit v b).2.v = p.v ++ [v] ∧ (p.commit v b).2.vBlinding = p.vBlinding ++ [b] ∧
    (s.commit V).1 = .committed s.V.length ∧ (s.commit V).2.transcript = s.transcript ++ [.point "V" V] ∧
    (s.commit V).2.V = s.V ++ [V] := ⟨rfl, rfl, rfl, rfl, rfl, rfl, rfl, rfl⟩

/-- C23 (homomorphic). -/
theorem c23_homomorphic (g h : G) (v w a b c : F) :
    commitScalar g h v a + commitScalar g h w b = commitScalar g h (v + w) (a + b) ∧
    c • commitScalar g h v a = commitScalar g h (c * v) (c * a) := by
  constructor
  · simp only [commitScalar, add_smul]; abel
  · simp only [commitScalar, smul_add, mul_smul]

/-- C23 (binding): two different openings of one commitment give a non-trivial relation between `g` and `h`; so with independent `g`, `h` the
opening is unique. -/
theorem c23_binding (g h : G) (v a w b : F) (he : commitScalar g h v a = commitScalar g h w b) :
    (v - w) • g + (a - b) • h = 0 ∧ ((∀ x y : F, x • g + y • h = 0 → x = 0 ∧ y = 0) → v = w ∧ a = b) := by
  have h0 : (v - w) • g + (a - b) • h = 0 := by
    simp only [commitScalar] at he
    have : (v - w) • g + (a - b) • h = (v • g + a • h) - (w • g + b • h) := by
      simp only [sub_smul]; abel
    rw [this, he, sub_self]
  refine ⟨h0, fun hind => ?_⟩
  obtain ⟨h1, h2⟩ := hind _ _ h0
  exact ⟨sub_eq_zero.mp h1, sub_eq_zero.mp h2⟩

/-- C23 (hiding): if `h` generates the group and is not zero, then for every value there is exactly one blinding that opens the commitment
to it. -/
theorem c23_hiding (g h : G) (hgen : ∀ x : G, ∃ c : F, x = c • h) (hne : h ≠ 0) (v a w : F) :
    ∃! b : F, commitScalar g h w b = commitScalar g h v a := by
  obtain ⟨c, hc⟩ := hgen g
  refine ⟨a + (v - w) * c, ?_, ?_⟩
  · simp only [commitScalar, hc, add_smul, sub_mul, sub_smul, mul_smul]; abel
  · intro b hb
    have h0 := (c23_binding g h w b v a hb).1
    rw [hc, ← mul_smul, ← add_smul] at h0
    have := (smul_eq_zero.mp h0).resolve_right hne
    linear_combination this

example : (∀ x : ℚ, ∃ c : ℚ, x = c • (2 : ℚ)) ∧ (2 : ℚ) ≠ 0 := ⟨fun x => ⟨x / 2, by simp⟩, by norm_num⟩
example : ∀ x y : ℚ, x • ((1, 0) : ℚ × ℚ) + y • ((0, 1) : ℚ × ℚ) = 0 → x = 0 ∧ y = 0 := by
  intro x y h; simpa using h

end Bp
