import Verif.Model.Driver
import Verif.Lemmas.Complete
import Verif.Spec.Gadgets

set_option linter.unusedSectionVars false
set_option linter.unusedSimpArgs false

/-! # Reasoning about gadget programs: soundness on the verifier, completeness on the prover, lock-step -/

namespace Bp
variable {F G : Type} [Field F] [AddCommGroup G] [SMul F G]
variable {C C' : Type} {rnd : Bool} {α β γ : Type}

theorem Prog.bind_eq (c : Prog F C rnd α) (f : α → Prog F C rnd β) : c >>= f = c.bind f := rfl
theorem Prog.pure_eq (a : α) : (pure a : Prog F C rnd α) = .ret a := rfl

theorem Verifier.run_bind (env : Env F G) (onSpec : C → Verifier F G → Verifier F G) (c : Prog F C rnd α) (f : α → Prog F C rnd β) :
    ∀ s, Verifier.run env onSpec (c.bind f) s =
      match Verifier.run env onSpec c s with
      | .ok (a, s') => Verifier.run env onSpec (f a) s'
      | .error e => .error e := by
  induction c with
  | ret a => intro s; rfl
  | err e => intro s; rfl
  | panic w => intro s; rfl
  | multiply l r k ih => intro s; exact ih _ _
  | allocate x k ih => intro s; exact ih _ _
  | allocateMultiplier x k ih => intro s; exact ih _ _
  | constrain lc k ih => intro s; exact ih _
  | specify cb k ih => intro s; exact ih _
  | evaluateLc lc k ih => intro s; exact ih _ _
  | allocateSingle x k ih => intro s; exact ih _ _
  | challenge h l k ih => intro s; exact ih _ _
  | simplify lc k ih => intro s; exact ih _ _

theorem Prover.run_bind (env : Env F G) (onSpec : C → Prover F G → Prover F G) (c : Prog F C rnd α) (f : α → Prog F C rnd β) :
    ∀ s, Prover.run env onSpec (c.bind f) s =
      match Prover.run env onSpec c s with
      | .ok (a, s') => Prover.run env onSpec (f a) s'
      | .error e => .error e := by
  induction c with
  | ret a => intro s; rfl
  | err e => intro s; rfl
  | panic w => intro s; rfl
  | multiply l r k ih =>
    intro s
    simp only [Prog.bind, Prover.run]
    cases s.multiply l r with
    | error e => rfl
    | ok q => exact ih _ _
  | allocate x k ih =>
    intro s
    simp only [Prog.bind, Prover.run]
    cases s.allocate x with
    | error e => rfl
    | ok q => exact ih _ _
  | allocateMultiplier x k ih => intro s; exact ih _ _
  | constrain lc k ih => intro s; exact ih _
  | specify cb k ih => intro s; exact ih _
  | evaluateLc lc k ih =>
    intro s
    simp only [Prog.bind, Prover.run]
    cases s.eval lc with
    | error e => rfl
    | ok q => exact ih _ _
  | allocateSingle x k ih =>
    intro s
    simp only [Prog.bind, Prover.run]
    cases s.allocateSingle x with
    | error e => rfl
    | ok q => exact ih _ _
  | challenge h l k ih => intro s; exact ih _ _
  | simplify lc k ih => intro s; exact ih _ _

/-! ## Soundness -/

/-- Every satisfying assignment `σ` of the verifier state reached by `c` makes `Q` true of the result. -/
def VS (env : Env F G) (σ : Assignment F) (c : Prog F C rnd α) (Q : α → Prop) : Prop :=
  ∀ (onSpec : C → Verifier F G → Verifier F G), (∀ cb s, (onSpec cb s).constraints = s.constraints) →
    ∀ s a s', Verifier.run env onSpec c s = .ok (a, s') → σ.Sat s'.constraints → Q a

theorem Verifier.run_cons {env : Env F G} {onSpec : C → Verifier F G → Verifier F G} (ho : ∀ cb s, (onSpec cb s).constraints = s.constraints)
    (c : Prog F C rnd α) : ∀ s a s', Verifier.run env onSpec c s = .ok (a, s') → s.constraints <+: s'.constraints := by
  induction c with
  | ret a => intro s a s' h; simp only [run, Except.ok.injEq, Prod.mk.injEq] at h; rw [h.2]
  | err e => intro s a s' h; simp [run, Res.err] at h
  | panic w => intro s a s' h; simp [run, Res.panic] at h
  | multiply l r k ih =>
    intro s a s' h
    have := ih _ _ _ _ h
    refine List.IsPrefix.trans ?_ this
    simp [multiply, constrain, allocateVars]
  | allocate x k ih =>
    intro s a s' h
    have := ih _ _ _ _ h
    exact (Verifier.ext_allocate s x).cons.trans this
  | allocateMultiplier x k ih => intro s a s' h; simp only [run] at h; have := ih _ _ _ _ h; exact this
  | constrain lc k ih =>
    intro s a s' h
    have := ih _ _ _ h
    refine List.IsPrefix.trans ?_ this
    simp [constrain]
  | specify cb k ih => intro s a s' h; have := ih _ _ _ h; rw [ho] at this; exact this
  | evaluateLc lc k ih => intro s a s' h; exact ih _ _ _ _ h
  | allocateSingle x k ih =>
    intro s a s' h
    have := ih _ _ _ _ h
    rw [(Verifier.allocateSingle_eq s x).1] at this
    exact (Verifier.ext_allocate s none).cons.trans this
  | challenge hh l k ih => intro s a s' h; simp only [run] at h; have := ih _ _ _ _ h; exact this
  | simplify lc k ih => intro s a s' h; simp only [run] at h; have := ih _ _ _ _ h; exact this

variable {env : Env F G} {σ : Assignment F}

theorem VS.bind {c : Prog F C rnd α} {f : α → Prog F C rnd β} {Q : α → Prop} {R : β → Prop} (h1 : VS env σ c Q)
    (h2 : ∀ a, Q a → VS env σ (f a) R) : VS env σ (c >>= f) R := by
  intro onSpec ho s a s' h hs
  rw [Prog.bind_eq, Verifier.run_bind] at h
  cases hc : Verifier.run env onSpec c s with
  | error e => rw [hc] at h; simp at h
  | ok q =>
    obtain ⟨x, s1⟩ := q
    rw [hc] at h
    simp only at h
    have hsub := (Verifier.run_cons ho (f x) _ _ _ h).subset
    exact h2 x (h1 onSpec ho s x s1 hc fun lc hlc => hs lc (hsub hlc)) onSpec ho _ _ _ h hs

theorem VS.bind' {c : Prog F C rnd α} {f : α → Prog F C rnd β} {Q : α → Prop} {R : β → Prop} (h1 : VS env σ c Q)
    (h2 : ∀ a, Q a → VS env σ (f a) R) : VS env σ (c.bind f) R := VS.bind h1 h2

theorem VS.mono {c : Prog F C rnd α} {Q R : α → Prop} (h : VS env σ c Q) (hQ : ∀ a, Q a → R a) : VS env σ c R :=
  fun onSpec ho s a s' hr hs => hQ a (h onSpec ho s a s' hr hs)

theorem VS.ret {a : α} {Q : α → Prop} (h : Q a) : VS env σ (.ret a : Prog F C rnd α) Q := by
  intro onSpec ho s a' s' hr hs
  simp only [Verifier.run, Except.ok.injEq, Prod.mk.injEq] at hr
  rw [← hr.1]; exact h

theorem VS.pure {a : α} {Q : α → Prop} (h : Q a) : VS env σ (pure a : Prog F C rnd α) Q := VS.ret h

theorem VS.err {e} {Q : α → Prop} : VS env σ (.err e : Prog F C rnd α) Q := by
  intro onSpec ho s a' s' hr hs; simp [Verifier.run, Res.err] at hr

theorem VS.panic {w} {Q : α → Prop} : VS env σ (.panic w : Prog F C rnd α) Q := by
  intro onSpec ho s a' s' hr hs; simp [Verifier.run, Res.panic] at hr

theorem VS.mul (hg : σ.Gates) (l r : LC F) : VS env σ (Prog.mul l r : Prog F C rnd _) (fun q =>
    σ.val q.1 = l.value σ ∧ σ.val q.2.1 = r.value σ ∧ σ.val q.2.2 = l.value σ * r.value σ) := by
  intro onSpec ho s a s' hr hs
  simp only [Prog.mul, Verifier.run, Except.ok.injEq, Prod.mk.injEq] at hr
  obtain ⟨rfl, rfl⟩ := hr
  have h1 : (⟨l.terms ++ [(.left s.numVars, -1)]⟩ : LC F).value σ = 0 :=
    hs _ (by simp [Verifier.multiply, Verifier.constrain, Verifier.allocateVars])
  have h2 : (⟨r.terms ++ [(.right s.numVars, -1)]⟩ : LC F).value σ = 0 :=
    hs _ (by simp [Verifier.multiply, Verifier.constrain, Verifier.allocateVars])
  simp only [LC.value_def, LC.termsVal_append, LC.termsVal_cons, LC.termsVal_nil] at h1 h2
  simp only [Verifier.multiply, Verifier.allocateVars, Assignment.val, LC.value_def] at *
  rw [hg]
  have e1 : LC.termsVal σ l.terms = σ.left s.numVars := by linear_combination h1
  have e2 : LC.termsVal σ r.terms = σ.right s.numVars := by linear_combination h2
  exact ⟨e1.symm, e2.symm, by rw [e1, e2]⟩

theorem VS.allocMul (hg : σ.Gates) (x : Option (F × F)) : VS env σ (Prog.allocMul x : Prog F C rnd _) (fun q =>
    σ.val q.2.2 = σ.val q.1 * σ.val q.2.1) := by
  intro onSpec ho s a s' hr hs
  simp only [Prog.allocMul, Verifier.run, Verifier.allocateMultiplier, Prog.ofExcept, Except.ok.injEq, Prod.mk.injEq] at hr
  rw [← hr.1]
  exact hg _

theorem VS.con (lc : LC F) : VS env σ (Prog.con lc : Prog F C rnd _) (fun _ => lc.value σ = 0) := by
  intro onSpec ho s a s' hr hs
  simp only [Prog.con, Verifier.run, Except.ok.injEq, Prod.mk.injEq] at hr
  exact hs lc (by rw [← hr.2]; simp [Verifier.constrain])

theorem VS.alloc (x : Option F) : VS env σ (Prog.alloc x : Prog F C rnd _) (fun _ => True) := fun _ _ _ _ _ _ _ => trivial
theorem VS.eval (lc : LC F) : VS env σ (Prog.eval lc : Prog F C rnd _) (fun r => r = none) := by
  intro onSpec ho s a s' hr hs
  simp only [Prog.eval, Verifier.run, Except.ok.injEq, Prod.mk.injEq] at hr
  exact hr.1.symm
theorem VS.allocSingle (x : Option F) : VS env σ (Prog.allocSingle x : Prog F C rnd _) (fun _ => True) := fun _ _ _ _ _ _ _ => trivial

theorem VS.simp (lc : LC F) : VS env σ (Prog.simp lc : Prog F C rnd _) (fun m => m.value σ = lc.value σ) := by
  intro onSpec ho s a s' hr hs
  simp only [Prog.simp, Verifier.run, Except.ok.injEq, Prod.mk.injEq] at hr
  rw [← hr.1]
  simp only [LC.simplify, LC.value_def]
  rw [LC.termsVal_perm (env.hashOrd_perm _ _), LC.collect_val]

theorem VS.index (xs : List α) (i : ℕ) : VS env σ (Prog.index xs i : Prog F C rnd α) (fun a => xs[i]? = some a) := by
  unfold Prog.index
  cases h : xs[i]? with
  | none => exact VS.panic
  | some a => exact VS.ret rfl

theorem VS.unwrap (x : Option α) : VS env σ (Prog.unwrap x : Prog F C rnd α) (fun a => x = some a) := by
  unfold Prog.unwrap
  cases x with
  | none => exact VS.panic
  | some a => exact VS.ret rfl

theorem VS.loop {body : ℕ → β → Prog F C rnd β} (I : ℕ → β → Prop) : ∀ n i a, I i a →
    (∀ j, i ≤ j → j < i + n → ∀ a, I j a → VS env σ (body j a) (I (j + 1))) → VS env σ (Prog.loop body i n a) (I (i + n)) := by
  intro n
  induction n with
  | zero => intro i a h _; exact VS.ret h
  | succ n ih =>
    intro i a h hb
    refine VS.bind' (hb i (le_refl _) (by omega) a h) fun a' ha' => ?_
    have := ih (i + 1) a' ha' fun j h1 h2 => hb j (by omega) (by omega)
    rwa [show i + (n + 1) = i + 1 + n by omega]

theorem VS.forN {body : ℕ → β → Prog F C rnd β} (I : ℕ → β → Prop) (n : ℕ) (a : β) (h : I 0 a)
    (hb : ∀ j, j < n → ∀ a, I j a → VS env σ (body j a) (I (j + 1))) : VS env σ (Prog.forN n a body) (I n) := by
  have := VS.loop (env := env) (σ := σ) I n 0 a h fun j _ h2 => hb j (by omega)
  rwa [Nat.zero_add] at this

/-- Two consecutive `allocate_single`s: the two inputs of one gate, or (with a half-allocated gate pending) the right input of that gate and the
left input of a fresh one. -/
theorem VS.allocPair (x y : Option F) {f : Var × Option Var → Var × Option Var → Prog F C rnd β} {Q : β → Prop}
    (h1 : ∀ i, VS env σ (f (.left i, none) (.right i, some (.out i))) Q)
    (h2 : ∀ i j, VS env σ (f (.right i, some (.out i)) (.left j, none)) Q) :
    VS env σ (Prog.allocSingle x >>= fun a => Prog.allocSingle y >>= fun b => f a b) Q := by
  intro onSpec ho s a s' hr hs
  rw [Prog.bind_eq] at hr
  simp only [Prog.allocSingle, Prog.bind, Verifier.run, Prog.bind_eq] at hr
  cases hp : s.pending with
  | none =>
    simp only [Verifier.allocateSingle, Verifier.allocate, hp, Prog.ofExcept, Prog.bind, Verifier.run] at hr
    exact h1 _ onSpec ho _ _ _ hr hs
  | some i =>
    simp only [Verifier.allocateSingle, Verifier.allocate, hp, Prog.ofExcept, Prog.bind, Verifier.run] at hr
    exact h2 _ _ onSpec ho _ _ _ hr hs

/-! ## Completeness -/

/-- From `p` to `p'` by gadget code that went well: settled values are kept, everything is satisfied, nothing is left half-allocated that was
not so before, nothing was committed or deferred. -/
structure Prover.Next (p p' : Prover F G) : Prop where
  ext : p.Ext p'
  good : p'.Good
  pending : p'.pending = p.pending
  deferred : p'.deferred = p.deferred
  v : p'.v = p.v
  vB : p'.vBlinding = p.vBlinding
  transcript : p'.transcript = p.transcript

theorem Prover.Next.refl {p : Prover F G} (h : p.Good) : p.Next p := ⟨.refl _, h, rfl, rfl, rfl, rfl, rfl⟩
theorem Prover.Next.trans {p q r : Prover F G} (a : p.Next q) (b : q.Next r) : p.Next r :=
  ⟨a.ext.trans b.ext, b.good, b.pending.trans a.pending, b.deferred.trans a.deferred, b.v.trans a.v, b.vB.trans a.vB, b.transcript.trans a.transcript⟩

/-- The linear combination has the settled value `x`. -/
def Prover.Has (p : Prover F G) (l : LC F) (x : F) : Prop := p.StableLC l ∧ l.value p.assignment = x
/-- The variable has the settled value `x`. -/
def Prover.HasV (p : Prover F G) (v : Var) (x : F) : Prop := p.Stable v ∧ p.assignment.val v = x

theorem Prover.Has.ext {p p' : Prover F G} {l : LC F} {x : F} (h : p.Has l x) (hw : p.WF) (e : p.Ext p') : p'.Has l x :=
  ⟨e.stableLC hw h.1, by rw [e.valueLC hw h.1, h.2]⟩
theorem Prover.HasV.ext {p p' : Prover F G} {v : Var} {x : F} (h : p.HasV v x) (hw : p.WF) (e : p.Ext p') : p'.HasV v x :=
  ⟨e.stable hw v h.1, by rw [e.val hw v h.1, h.2]⟩
theorem Prover.Has.next {p p' : Prover F G} {l : LC F} {x : F} (h : p.Has l x) (hw : p.Good) (e : p.Next p') : p'.Has l x := h.ext hw.wf e.ext
theorem Prover.HasV.next {p p' : Prover F G} {v : Var} {x : F} (h : p.HasV v x) (hw : p.Good) (e : p.Next p') : p'.HasV v x := h.ext hw.wf e.ext

namespace Prover.Has
variable {p : Prover F G} {a b : LC F} {x y : F}
theorem ofVar {v : Var} (h : p.HasV v x) : p.Has (LC.ofVar v) x :=
  ⟨fun t ht => by simp only [LC.ofVar, List.mem_singleton] at ht; rw [ht]; exact h.1, by simp [LC.ofVar, LC.value, h.2]⟩
theorem one : p.HasV .one 1 := ⟨trivial, rfl⟩
theorem ofScalar (x : F) : p.Has (LC.ofScalar x) x :=
  ⟨fun t ht => by simp only [LC.ofScalar, List.mem_singleton] at ht; rw [ht]; trivial, by simp [LC.ofScalar, LC.value, Assignment.val]⟩
theorem add (h : p.Has a x) (h' : p.Has b y) : p.Has (a.add b) (x + y) :=
  ⟨fun t ht => by simp only [LC.add, List.mem_append] at ht; exact ht.elim (h.1 t) (h'.1 t), by
    rw [LC.value_def, LC.add, LC.termsVal_append, ← LC.value_def, ← LC.value_def, h.2, h'.2]⟩
theorem neg (h : p.Has a x) : p.Has a.neg (-x) :=
  ⟨fun t ht => by simp only [LC.neg, List.mem_map] at ht; obtain ⟨t', h1, rfl⟩ := ht; exact h.1 t' h1, by
    rw [LC.value_def, LC.neg, LC.termsVal_map_neg, ← LC.value_def, h.2]⟩
theorem smul (s : F) (h : p.Has a x) : p.Has (LC.smul s a) (s * x) :=
  ⟨fun t ht => by simp only [LC.smul, List.mem_map] at ht; obtain ⟨t', h1, rfl⟩ := ht; exact h.1 t' h1, by
    rw [LC.value_def, LC.smul, LC.termsVal_map_mul, ← LC.value_def, h.2]⟩
theorem sub (h : p.Has a x) (h' : p.Has b y) : p.Has (a.sub b) (x - y) := by
  have := h.add h'.neg
  rw [← sub_eq_add_neg] at this
  exact this
theorem varAdd {v : Var} (h : p.HasV v x) (h' : p.Has b y) : p.Has (LC.varAdd v b) (x + y) := (ofVar h).add h'
theorem varSub {v : Var} (h : p.HasV v x) (h' : p.Has b y) : p.Has (LC.varSub v b) (x - y) := (ofVar h).sub h'
theorem nil : p.Has (LC.ofTerms []) 0 := ⟨fun t ht => by simp [LC.ofTerms] at ht, rfl⟩
theorem cons {v : Var} {c : F} {ts : List (Var × F)} (h : p.HasV v x) (h' : p.Has (LC.ofTerms ts) y) : p.Has (LC.ofTerms ((v, c) :: ts)) (c * x + y) :=
  ⟨fun t ht => by
    simp only [LC.ofTerms, List.mem_cons] at ht
    rcases ht with rfl | ht
    · exact h.1
    · exact h'.1 t ht, by
    have := h'.2
    simp only [LC.value_def, LC.ofTerms, LC.termsVal_cons] at this ⊢
    rw [this, h.2]⟩
theorem snoc {v : Var} {c : F} {ts : List (Var × F)} (h' : p.Has (LC.ofTerms ts) y) (h : p.HasV v x) : p.Has (LC.ofTerms (ts ++ [(v, c)])) (y + c * x) := by
  have := h'.add (cons (c := c) h nil)
  rw [add_zero] at this
  exact this
theorem congr (h : p.Has a x) (e : x = y) : p.Has a y := e ▸ h
end Prover.Has

theorem Prover.HasV.congr {p : Prover F G} {v : Var} {x y : F} (h : p.HasV v x) (e : x = y) : p.HasV v y := e ▸ h

/-- `c` run on `p` ends normally with `Q`. -/
def PS (env : Env F G) (onSpec : C → Prover F G → Prover F G) (p : Prover F G) (c : Prog F C rnd α) (Q : α → Prover F G → Prop) : Prop :=
  ∃ a p', Prover.run env onSpec c p = .ok (a, p') ∧ Q a p'

variable {onSpec : C → Prover F G → Prover F G}

theorem PS.bind {p : Prover F G} {c : Prog F C rnd α} {f : α → Prog F C rnd β} {Q : α → Prover F G → Prop} {R : β → Prover F G → Prop}
    (h1 : PS env onSpec p c Q) (h2 : ∀ a p', Q a p' → PS env onSpec p' (f a) R) : PS env onSpec p (c >>= f) R := by
  obtain ⟨a, p', hr, hq⟩ := h1
  obtain ⟨b, p'', hr', hq'⟩ := h2 a p' hq
  refine ⟨b, p'', ?_, hq'⟩
  rw [Prog.bind_eq, Prover.run_bind, hr]
  exact hr'

theorem PS.bind' {p : Prover F G} {c : Prog F C rnd α} {f : α → Prog F C rnd β} {Q : α → Prover F G → Prop} {R : β → Prover F G → Prop}
    (h1 : PS env onSpec p c Q) (h2 : ∀ a p', Q a p' → PS env onSpec p' (f a) R) : PS env onSpec p (c.bind f) R := PS.bind h1 h2

theorem PS.mono {p : Prover F G} {c : Prog F C rnd α} {Q R : α → Prover F G → Prop} (h : PS env onSpec p c Q) (hQ : ∀ a p', Q a p' → R a p') :
    PS env onSpec p c R := by
  obtain ⟨a, p', hr, hq⟩ := h
  exact ⟨a, p', hr, hQ a p' hq⟩

theorem PS.ret {p : Prover F G} {a : α} {Q : α → Prover F G → Prop} (h : Q a p) : PS env onSpec p (.ret a : Prog F C rnd α) Q := ⟨a, p, rfl, h⟩
theorem PS.pure {p : Prover F G} {a : α} {Q : α → Prover F G → Prop} (h : Q a p) : PS env onSpec p (pure a : Prog F C rnd α) Q := ⟨a, p, rfl, h⟩

theorem Prover.Good.con {p : Prover F G} (h : p.Good) {lc : LC F} (hl : p.Has lc 0) : p.Next (p.constrain lc) := by
  have e := Prover.ext_constrain p lc
  refine ⟨e, ⟨e.wf h.wf, fun lc' hlc' => ?_⟩, rfl, rfl, rfl, rfl, rfl⟩
  simp only [Prover.constrain, List.mem_append, List.mem_singleton] at hlc'
  rcases hlc' with hlc' | rfl
  · exact h.sat lc' hlc'
  · exact hl

theorem PS.con {p : Prover F G} (h : p.Good) {lc : LC F} (hl : p.Has lc 0) : PS env onSpec p (Prog.con lc : Prog F C rnd _) (fun _ p' => p.Next p') :=
  ⟨(), _, rfl, h.con hl⟩

theorem Prover.Good.allocateVars {p : Prover F G} (h : p.Good) (l r : F) :
    p.Next (p.allocateVars l r (l * r)).2 ∧ (p.allocateVars l r (l * r)).2.HasV (.left p.aL.length) l ∧
    (p.allocateVars l r (l * r)).2.HasV (.right p.aR.length) r ∧ (p.allocateVars l r (l * r)).2.HasV (.out p.aO.length) (l * r) := by
  have e := Prover.ext_allocateVars p l r (l * r) rfl
  have hR := h.wf.lenR
  have hO := h.wf.lenO
  have hp : p.pending ≠ some p.aL.length := fun hh => by have := h.wf.pend _ hh; omega
  refine ⟨⟨e, ⟨e.wf h.wf, fun lc hlc => ?_⟩, rfl, rfl, rfl, rfl, rfl⟩, ⟨?_, ?_⟩, ⟨?_, ?_⟩, ⟨?_, ?_⟩⟩
  · obtain ⟨h1, h2⟩ := h.sat lc hlc
    exact ⟨e.stableLC h.wf h1, by rw [e.valueLC h.wf h1, h2]⟩
  all_goals simp [Prover.Stable, Prover.allocateVars, Prover.assignment, Assignment.val, hR, hO, hp]

theorem PS.allocMul {p : Prover F G} (h : p.Good) (x y : F) : PS env onSpec p (Prog.allocMul (some (x, y)) : Prog F C rnd _) (fun q p' =>
    p.Next p' ∧ p'.HasV q.1 x ∧ p'.HasV q.2.1 y ∧ p'.HasV q.2.2 (x * y)) :=
  ⟨_, _, rfl, h.allocateVars x y⟩

theorem PS.mul {p : Prover F G} (h : p.Good) {l r : LC F} {x y : F} (hl : p.Has l x) (hr : p.Has r y) :
    PS env onSpec p (Prog.mul l r : Prog F C rnd _) (fun q p' => p.Next p' ∧ p'.HasV q.1 x ∧ p'.HasV q.2.1 y ∧ p'.HasV q.2.2 (x * y)) := by
  have e1 := Prover.eval_stable h.wf hl.1
  have e2 := Prover.eval_stable h.wf hr.1
  rw [hl.2] at e1
  rw [hr.2] at e2
  obtain ⟨n1, vl, vr, vo⟩ := h.allocateVars x y
  have hR := h.wf.lenR
  have c1 : (p.allocateVars x y (x * y)).2.Has ⟨l.terms ++ [(.left p.aL.length, -1)]⟩ 0 := by
    have := (hl.next h n1).add (Prover.Has.cons (c := -1) vl Prover.Has.nil)
    exact this.congr (by ring)
  have n2 := n1.good.con c1
  have c2 : ((p.allocateVars x y (x * y)).2.constrain ⟨l.terms ++ [(.left p.aL.length, -1)]⟩).Has ⟨r.terms ++ [(.right p.aR.length, -1)]⟩ 0 := by
    have := ((hr.next h n1).next n1.good n2).add (Prover.Has.cons (c := -1) (vr.next n1.good n2) Prover.Has.nil)
    exact this.congr (by ring)
  have n3 := n2.good.con c2
  refine ⟨(.left p.aL.length, .right p.aR.length, .out p.aO.length), _, ?_, (n1.trans n2).trans n3, (vl.next n1.good n2).next n2.good n3,
    (vr.next n1.good n2).next n2.good n3, (vo.next n1.good n2).next n2.good n3⟩
  simp only [Prog.mul, Prover.run, Prover.multiply, e1, e2, bind, Except.bind]
  rfl

theorem PS.eval {p : Prover F G} (h : p.Good) {l : LC F} {x : F} (hl : p.Has l x) :
    PS env onSpec p (Prog.eval l : Prog F C rnd _) (fun r p' => r = some x ∧ p' = p) := by
  have e1 := Prover.eval_stable h.wf hl.1
  rw [hl.2] at e1
  refine ⟨some x, p, ?_, rfl, rfl⟩
  simp [Prog.eval, Prover.run, e1]

theorem PS.simp {p : Prover F G} (h : p.Good) {l : LC F} {x : F} (hl : p.Has l x) :
    PS env onSpec p (Prog.simp l : Prog F C rnd _) (fun m p' => p.Next p' ∧ p'.Has m x) := by
  refine ⟨l.simplify (env.hashOrd p.seed), { p with seed := p.seed + 1 }, rfl, ?_, ?_, ?_⟩
  · have e := (Prover.Steps.single (env := env) (Prover.Step.simplify p)).ext
    exact ⟨e, ⟨e.wf h.wf, h.sat⟩, rfl, rfl, rfl, rfl, rfl⟩
  · intro t ht
    have : t.1 ∈ (LC.collect l.terms).map Prod.fst := List.mem_map_of_mem ((env.hashOrd_perm _ _).mem_iff.mp ht)
    rw [LC.collect_keys] at this
    obtain ⟨t', h1, h2⟩ := List.mem_map.mp this
    rw [← h2]
    exact hl.1 t' h1
  · simp only [LC.simplify, LC.value_def]
    rw [LC.termsVal_perm (env.hashOrd_perm _ _), LC.collect_val]
    exact hl.2

theorem PS.index {p : Prover F G} {xs : List α} {i : ℕ} {a : α} (h : xs[i]? = some a) :
    PS env onSpec p (Prog.index xs i : Prog F C rnd α) (fun b p' => b = a ∧ p' = p) := by
  unfold Prog.index
  rw [h]
  exact PS.ret ⟨rfl, rfl⟩

theorem PS.unwrap {p : Prover F G} (a : α) : PS env onSpec p (Prog.unwrap (some a) : Prog F C rnd α) (fun b p' => b = a ∧ p' = p) := PS.ret ⟨rfl, rfl⟩

theorem PS.loop {body : ℕ → β → Prog F C rnd β} (I : ℕ → β → Prover F G → Prop) : ∀ n i a p, I i a p →
    (∀ j, i ≤ j → j < i + n → ∀ a p, I j a p → PS env onSpec p (body j a) (I (j + 1))) → PS env onSpec p (Prog.loop body i n a) (I (i + n)) := by
  intro n
  induction n with
  | zero => intro i a p h _; exact PS.ret h
  | succ n ih =>
    intro i a p h hb
    refine PS.bind' (hb i (le_refl _) (by omega) a p h) fun a' p' ha' => ?_
    have := ih (i + 1) a' p' ha' fun j h1 h2 => hb j (by omega) (by omega)
    rwa [show i + (n + 1) = i + 1 + n by omega]

theorem PS.forN {body : ℕ → β → Prog F C rnd β} (I : ℕ → β → Prover F G → Prop) (n : ℕ) (a : β) (p : Prover F G) (h : I 0 a p)
    (hb : ∀ j, j < n → ∀ a p, I j a p → PS env onSpec p (body j a) (I (j + 1))) : PS env onSpec p (Prog.forN n a body) (I n) := by
  have := PS.loop (env := env) (onSpec := onSpec) I n 0 a p h fun j _ h2 => hb j (by omega)
  rwa [Nat.zero_add] at this

/-- Two consecutive `allocate_single`s on a prover without a pending gate fill one gate. -/
theorem PS.allocPair {p : Prover F G} (h : p.Good) (hp : p.pending = none) (x y : F) {f : Var × Option Var → Var × Option Var → Prog F C rnd β}
    {Q : β → Prover F G → Prop}
    (hk : ∀ i p', p.Next p' → p'.HasV (.left i) x → p'.HasV (.right i) y → p'.HasV (.out i) (x * y) →
      PS env onSpec p' (f (.left i, none) (.right i, some (.out i))) Q) :
    PS env onSpec p (Prog.allocSingle (some x) >>= fun a => Prog.allocSingle (some y) >>= fun b => f a b) Q := by
  have hR := h.wf.lenR
  have hO := h.wf.lenO
  obtain ⟨q, hq⟩ : ∃ q : Prover F G, q =
      { p with pending := none, aL := p.aL ++ [x], aR := (p.aR ++ [0]).set p.aL.length y, aO := (p.aO ++ [0]).set p.aL.length (x * y) } := ⟨_, rfl⟩
  have hqe : q = (p.allocateVars x y (x * y)).2 := by
    rw [hq]
    simp only [Prover.allocateVars, hp]
    congr 1
    · rw [List.set_append_right _ _ (by omega)]; simp [hR]
    · rw [List.set_append_right _ _ (by omega)]; simp [hO]
  obtain ⟨n1, vl, vr, vo⟩ := h.allocateVars x y
  rw [← hqe] at n1 vl vr vo
  rw [hR] at vr
  rw [hO] at vo
  obtain ⟨b, p'', hr, hQ⟩ := hk p.aL.length q n1 vl vr vo
  refine ⟨b, p'', ?_, hQ⟩
  rw [← hr]
  have e1 : p.allocateSingle (some x) = .ok (.ok (.left p.aL.length, none), { p with pending := some p.aL.length, aL := p.aL ++ [x], aR := p.aR ++ [0], aO := p.aO ++ [0] }) := by
    simp [Prover.allocateSingle, Prover.allocate, hp, Bind.bind, Except.bind, Pure.pure, Except.pure]
  have e2 : ({ p with pending := some p.aL.length, aL := p.aL ++ [x], aR := p.aR ++ [0], aO := p.aO ++ [0] } : Prover F G).allocateSingle (some y) =
      .ok (.ok (.right p.aL.length, some (.out p.aL.length)), q) := by
    simp [Prover.allocateSingle, Prover.allocate, Bind.bind, Except.bind, Pure.pure, Except.pure, hR, hO, idx, hq]
  simp only [Prog.bind_eq, Prog.allocSingle, Prog.bind, Prover.run, e1, e2, Prog.ofExcept]

/-! ## Counting gates -/

/-- Started with pending gate `pd`, `c` ends with the same pending gate and `k` more gates. -/
def PC (pd : Option ℕ) (c : Prog F C rnd α) (k : ℕ) : Prop :=
  ∀ (G : Type) [AddCommGroup G] [SMul F G] (env : Env F G) (onSpec : C → Prover F G → Prover F G),
    (∀ cb p, (onSpec cb p).pending = p.pending ∧ (onSpec cb p).aL = p.aL) →
    ∀ p a p', p.pending = pd → Prover.run env onSpec c p = .ok (a, p') → p'.pending = pd ∧ p'.aL.length = p.aL.length + k

section
variable {pd : Option ℕ}

theorem PC.bind {c : Prog F C rnd α} {f : α → Prog F C rnd β} {k l : ℕ} (h1 : PC pd c k) (h2 : ∀ a, PC pd (f a) l) : PC pd (c >>= f) (k + l) := by
  intro G _ _ env onSpec ho p b p' hp h
  rw [Prog.bind_eq, Prover.run_bind] at h
  cases hc : Prover.run env onSpec c p with
  | error e => rw [hc] at h; simp at h
  | ok q =>
    obtain ⟨a, p1⟩ := q
    rw [hc] at h
    obtain ⟨h3, h4⟩ := h1 G env onSpec ho p a p1 hp hc
    obtain ⟨h5, h6⟩ := h2 a G env onSpec ho p1 b p' h3 h
    exact ⟨h5, by omega⟩

theorem PC.ret (a : α) : PC pd (.ret a : Prog F C rnd α) 0 := by
  intro G _ _ env onSpec ho p b p' hp h
  simp only [Prover.run, Except.ok.injEq, Prod.mk.injEq] at h
  rw [← h.2]; exact ⟨hp, rfl⟩
theorem PC.pure (a : α) : PC pd (pure a : Prog F C rnd α) 0 := PC.ret a
theorem PC.err (e) (k : ℕ) : PC pd (.err e : Prog F C rnd α) k := by
  intro G _ _ env onSpec ho p b p' hp h; simp [Prover.run, Res.err] at h
theorem PC.panic (e) (k : ℕ) : PC pd (.panic e : Prog F C rnd α) k := by
  intro G _ _ env onSpec ho p b p' hp h; simp [Prover.run, Res.panic] at h
theorem PC.con (l : LC F) : PC pd (Prog.con l : Prog F C rnd _) 0 := by
  intro G _ _ env onSpec ho p b p' hp h
  simp only [Prog.con, Prover.run, Except.ok.injEq, Prod.mk.injEq] at h
  rw [← h.2]; exact ⟨hp, rfl⟩
theorem PC.simp (l : LC F) : PC pd (Prog.simp l : Prog F C rnd _) 0 := by
  intro G _ _ env onSpec ho p b p' hp h
  simp only [Prog.simp, Prover.run, Except.ok.injEq, Prod.mk.injEq] at h
  rw [← h.2]; exact ⟨hp, rfl⟩
theorem PC.eval (l : LC F) : PC pd (Prog.eval l : Prog F C rnd _) 0 := by
  intro G _ _ env onSpec ho p b p' hp h
  simp only [Prog.eval, Prover.run] at h
  cases he : p.eval l with
  | error e => rw [he] at h; simp at h
  | ok x =>
    rw [he] at h
    simp only [Except.ok.injEq, Prod.mk.injEq] at h
    rw [← h.2]; exact ⟨hp, rfl⟩
theorem PC.mul (l r : LC F) : PC pd (Prog.mul l r : Prog F C rnd _) 1 := by
  intro G _ _ env onSpec ho p b p' hp h
  simp only [Prog.mul, Prover.run, Prover.multiply, Bind.bind, Except.bind] at h
  cases he : p.eval l with
  | error e => rw [he] at h; simp at h
  | ok x =>
    cases hf : p.eval r with
    | error e => rw [he, hf] at h; simp at h
    | ok y =>
      rw [he, hf] at h
      simp only [Pure.pure, Except.pure, Except.ok.injEq, Prod.mk.injEq] at h
      rw [← h.2]
      exact ⟨hp, by simp [Prover.constrain, Prover.allocateVars]⟩
theorem PC.allocMul (x : Option (F × F)) : PC pd (Prog.allocMul x : Prog F C rnd _) 1 := by
  intro G _ _ env onSpec ho p b p' hp h
  cases x with
  | none => simp [Prog.allocMul, Prover.run, Prover.allocateMultiplier, Prog.ofExcept, Res.err] at h
  | some x =>
    simp only [Prog.allocMul, Prover.run, Prover.allocateMultiplier, Prog.ofExcept, Except.ok.injEq, Prod.mk.injEq] at h
    rw [← h.2]
    exact ⟨hp, by simp [Prover.allocateVars]⟩
theorem PC.index (xs : List α) (i : ℕ) : PC pd (Prog.index xs i : Prog F C rnd α) 0 := by
  unfold Prog.index
  cases xs[i]? with
  | none => exact PC.panic _ _
  | some a => exact PC.ret a
theorem PC.unwrap (x : Option α) : PC pd (Prog.unwrap x : Prog F C rnd α) 0 := by
  cases x with
  | none => exact PC.panic _ _
  | some a => exact PC.ret a
theorem PC.congr {c : Prog F C rnd α} {k l : ℕ} (h : PC pd c k) (e : k = l) : PC pd c l := e ▸ h

theorem PC.loop {body : ℕ → β → Prog F C rnd β} {k : ℕ} (h : ∀ i a, PC pd (body i a) k) : ∀ n i a, PC pd (Prog.loop body i n a) (n * k) := by
  intro n
  induction n with
  | zero => intro i a; exact (PC.ret a).congr (by simp)
  | succ n ih => intro i a; exact (PC.bind (h i a) fun a' => ih _ _).congr (by ring)

theorem PC.forN {body : ℕ → β → Prog F C rnd β} {k : ℕ} (h : ∀ i a, PC pd (body i a) k) (n : ℕ) (a : β) : PC pd (Prog.forN n a body) (n * k) := PC.loop h n 0 a

theorem PC.allocPair (x y : Option F) {f : Var × Option Var → Var × Option Var → Prog F C rnd β} {k : ℕ} (h : ∀ a b, PC none (f a b) k) :
    PC none (Prog.allocSingle x >>= fun a => Prog.allocSingle y >>= fun b => f a b) (1 + k) := by
  intro G _ _ env onSpec ho p b p' hp hr
  simp only [Prog.bind_eq, Prog.allocSingle, Prog.bind, Prover.run] at hr
  cases x with
  | none => simp [Prover.allocateSingle, Prover.allocate, Bind.bind, Except.bind, Pure.pure, Except.pure, Prog.ofExcept, Prog.bind, Prover.run, Res.err] at hr
  | some x =>
    have e1 : p.allocateSingle (some x) =
        .ok (.ok (.left p.aL.length, none), { p with pending := some p.aL.length, aL := p.aL ++ [x], aR := p.aR ++ [0], aO := p.aO ++ [0] }) := by
      simp [Prover.allocateSingle, Prover.allocate, hp, Bind.bind, Except.bind, Pure.pure, Except.pure]
    simp only [e1, Prog.ofExcept, Prog.bind, Prover.run] at hr
    cases y with
    | none => simp [Prover.allocateSingle, Prover.allocate, Bind.bind, Except.bind, Pure.pure, Except.pure, Prog.ofExcept, Prog.bind, Prover.run, Res.err] at hr
    | some y =>
      split at hr
      · rename_i r p1 h1
        simp only [Prover.allocateSingle, Prover.allocate, Bind.bind, Except.bind, Pure.pure, Except.pure] at h1
        split at h1
        · simp at h1
        · rename_i q hq
          split at hq
          · split at hq
            · simp at hq
            · simp only [Except.ok.injEq] at hq
              rw [← hq] at h1
              simp only [Except.ok.injEq, Prod.mk.injEq] at h1
              obtain ⟨rfl, rfl⟩ := h1
              simp only [Prog.ofExcept, Prog.bind] at hr
              obtain ⟨h3, h4⟩ := h _ _ G env onSpec ho _ b p' rfl hr
              exact ⟨h3, by simp at h4; omega⟩
          · simp [Res.panic] at hq
      · simp at hr
end

/-! ## Lock-step -/

theorem Prog.Same.bind {RC : C → C' → Prop} {α' β' : Type} {RA : α → α' → Prop} {RB : β → β' → Prop} {c : Prog F C rnd α} {c' : Prog F C' rnd α'}
    {k : α → Prog F C rnd β} {k' : α' → Prog F C' rnd β'} (h : Prog.Same RC RA c c') (hk : ∀ a b, RA a b → Prog.Same RC RB (k a) (k' b)) :
    Prog.Same RC RB (c >>= k) (c' >>= k') := by
  show Prog.Same RC RB (c.bind k) (c'.bind k')
  induction h with
  | ret h => exact hk _ _ h
  | err => exact .err
  | panic => exact .panic
  | multiply h1 h2 _ ih => exact .multiply h1 h2 ih
  | allocate _ ih => exact .allocate ih
  | allocateMultiplier _ ih => exact .allocateMultiplier ih
  | constrain h1 _ ih => exact .constrain h1 ih
  | specify h1 _ ih => exact .specify h1 ih
  | evaluateLc _ ih => exact .evaluateLc ih
  | allocateSingle _ ih => exact .allocateSingle ih
  | challenge _ ih => exact .challenge ih
  | simplify h1 _ ih => exact .simplify h1 ih

namespace Prog.Same
variable {RC : C → C' → Prop}
theorem mul {l r l' r' : LC F} (h : l.Equiv l') (h' : r.Equiv r') : Prog.Same RC Eq (Prog.mul l r : Prog F C rnd _) (Prog.mul l' r') :=
  .multiply h h' fun _ => .ret rfl
theorem allocMul {x y} : Prog.Same RC Eq (Prog.allocMul (some x) : Prog F C rnd _) (Prog.allocMul y) := .allocateMultiplier fun _ => .ret rfl
theorem con {l l' : LC F} (h : l.Equiv l') : Prog.Same RC (fun _ _ => True) (Prog.con l : Prog F C rnd _) (Prog.con l') := .constrain h (.ret trivial)
theorem eval {l l' : LC F} : Prog.Same RC (fun a b => (∃ x, a = some x) ∧ b = none) (Prog.eval l : Prog F C rnd _) (Prog.eval l') :=
  .evaluateLc fun x => .ret ⟨⟨x, rfl⟩, rfl⟩
theorem allocSingle {x y} : Prog.Same RC Eq (Prog.allocSingle (some x) : Prog F C rnd _) (Prog.allocSingle y) := .allocateSingle fun _ => .ret rfl
theorem simp {l l' : LC F} (h : l.Equiv l') : Prog.Same RC LC.Equiv (Prog.simp l : Prog F C rnd _) (Prog.simp l') := .simplify h fun _ _ hm => .ret hm
theorem pure {a : α} {b : β} {RA : α → β → Prop} (h : RA a b) : Prog.Same RC RA (Pure.pure a : Prog F C rnd α) (Pure.pure b) := .ret h
theorem mono {RA RB : α → β → Prop} {c : Prog F C rnd α} {c' : Prog F C' rnd β} (h : Prog.Same RC RA c c') (hR : ∀ a b, RA a b → RB a b) : Prog.Same RC RB c c' := by
  induction h with
  | ret h => exact .ret (hR _ _ h)
  | err => exact .err
  | panic => exact .panic
  | multiply h1 h2 _ ih => exact .multiply h1 h2 ih
  | allocate _ ih => exact .allocate ih
  | allocateMultiplier _ ih => exact .allocateMultiplier ih
  | constrain h1 _ ih => exact .constrain h1 ih
  | specify h1 _ ih => exact .specify h1 ih
  | evaluateLc _ ih => exact .evaluateLc ih
  | allocateSingle _ ih => exact .allocateSingle ih
  | challenge _ ih => exact .challenge ih
  | simplify h1 _ ih => exact .simplify h1 ih

theorem index {xs : List α} {ys : List β} {R : α → β → Prop} (h : List.Forall₂ R xs ys) (i : ℕ) :
    Prog.Same RC R (Prog.index xs i : Prog F C rnd α) (Prog.index ys i) := by
  unfold Prog.index
  have hl := h.length_eq
  by_cases hi : i < xs.length
  · rw [List.getElem?_eq_getElem hi, List.getElem?_eq_getElem (by omega)]
    exact .ret (by have := (List.forall₂_iff_get.mp h).2 i hi (by omega); simpa using this)
  · rw [List.getElem?_eq_none (by omega), List.getElem?_eq_none (by omega)]
    exact .panic

theorem index_self (xs : List α) (i : ℕ) : Prog.Same RC Eq (Prog.index xs i : Prog F C rnd α) (Prog.index xs i) := by
  unfold Prog.index
  cases xs[i]? with
  | none => exact .panic
  | some a => exact .ret rfl

theorem unwrap (x : Option α) : Prog.Same RC Eq (Prog.unwrap x : Prog F C rnd α) (Prog.unwrap x) := by
  cases x with
  | none => exact .panic
  | some a => exact .ret rfl

theorem loop {body : ℕ → α → Prog F C rnd α} {body' : ℕ → β → Prog F C' rnd β} (R : α → β → Prop)
    (hb : ∀ j a b, R a b → Prog.Same RC R (body j a) (body' j b)) : ∀ n i a b, R a b → Prog.Same RC R (Prog.loop body i n a) (Prog.loop body' i n b) := by
  intro n
  induction n with
  | zero => intro i a b h; exact .ret h
  | succ n ih => intro i a b h; exact Prog.Same.bind (hb i a b h) fun a' b' h' => ih _ _ _ h'

theorem forN {body : ℕ → α → Prog F C rnd α} {body' : ℕ → β → Prog F C' rnd β} (R : α → β → Prop) {n : ℕ} {a : α} {b : β} (h : R a b)
    (hb : ∀ j a b, R a b → Prog.Same RC R (body j a) (body' j b)) : Prog.Same RC R (Prog.forN n a body) (Prog.forN n b body') := loop R hb n 0 a b h

end Prog.Same

/-- Prover-side quantity (with assignment) and verifier-side quantity (without) for the same variable. -/
def Alloc.Pair (a b : Alloc F) : Prop := a.var = b.var ∧ ∃ x, a.assignment = some x

theorem Alloc.pair (v : Var) (x : F) : Alloc.Pair ⟨v, some x⟩ ⟨v, none⟩ := ⟨rfl, x, rfl⟩

end Bp
