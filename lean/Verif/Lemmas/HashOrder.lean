import Verif.Spec.HashOrder
import Verif.Lemmas.Lockstep
import Verif.Lemmas.Flatten

set_option linter.unusedSectionVars false
set_option linter.unusedSimpArgs false

namespace Bp
variable {F G : Type} [Field F] [AddCommGroup G] [Module F G]

/-! ## Results -/

namespace Res.Alike
variable {α β α' β' : Type} {R : α → β → Prop} {R' : α' → β' → Prop}

theorem bind {r : Res α} {r' : Res β} (h : Res.Alike R r r') {f : α → Res α'} {f' : β → Res β'} (hf : ∀ a b, R a b → Res.Alike R' (f a) (f' b)) : Res.Alike R' (r >>= f) (r' >>= f') := by
  cases r with
  | error e =>
    cases r' with
    | error e' => exact h
    | ok b => exact h.elim
  | ok a =>
    cases r' with
    | error e' => exact h.elim
    | ok b => exact hf a b h

theorem eq {r r' : Res α} (h : Res.Alike Eq r r') : r = r' := by
  cases r <;> cases r' <;> first | exact congrArg _ h | exact h.elim

theorem of_eq {r r' : Res α} (h : r = r') : Res.Alike Eq r r' := by
  subst h
  cases r <;> rfl

theorem mono {r : Res α} {r' : Res β} {S : α → β → Prop} (h : Res.Alike R r r') (hS : ∀ a b, R a b → S a b) : Res.Alike S r r' := by
  cases r <;> cases r' <;> first | exact h | exact hS _ _ h

end Res.Alike

/-! ## Folds over terms in any order -/

theorem foldlM_perm {α β : Type} {f : β → α → Res β} (hf : ∀ b x y, (f b x >>= fun c => f c y) = f b y >>= fun c => f c x) {l l' : List α} (h : l.Perm l') : ∀ b, l.foldlM f b = l'.foldlM f b := by
  induction h with
  | nil => intro b; rfl
  | cons x _ ih =>
    intro b
    simp only [List.foldlM_cons]
    cases f b x with
    | error e => rfl
    | ok c => exact ih c
  | swap x y l =>
    intro b
    simp only [List.foldlM_cons]
    have := hf b y x
    rw [← bind_assoc, ← bind_assoc, this]
  | trans _ _ ih1 ih2 => intro b; rw [ih1, ih2]

theorem idx_error {α : Type} {xs : List α} {i : ℕ} {e : Fault} (h : idx xs i = .error e) : e = .panic "index out of bounds" := by
  unfold idx at h
  split at h
  · cases h
  · cases h; rfl

theorem Prover.evalVar_error {p : Prover F G} {v : Var} {e : Fault} (h : p.evalVar v = .error e) : e = .panic "index out of bounds" := by
  cases v with
  | one => cases h
  | _ i => exact idx_error h

theorem Prover.eval_perm (p : Prover F G) {l l' : LC F} (h : l.Equiv l') : p.eval l = p.eval l' := by
  refine foldlM_perm ?_ h 0
  intro b x y
  cases hx : p.evalVar x.1 with
  | error e =>
    rw [Prover.evalVar_error hx]
    cases hy : p.evalVar y.1 with
    | error e' => rw [Prover.evalVar_error hy]; rfl
    | ok w => rfl
  | ok v =>
    cases hy : p.evalVar y.1 with
    | error e' => rfl
    | ok w => exact congrArg Except.ok (by ring)

theorem addAt_error {xs : List F} {i : ℕ} {d : F} {e : Fault} (h : addAt xs i d = .error e) : e = .panic "index out of bounds" := by
  unfold addAt at h
  split at h
  · cases h
  · cases h; rfl

theorem addAt_comm (xs : List F) (i j : ℕ) (c d : F) : (addAt xs i c >>= fun ys => addAt ys j d) = addAt xs j d >>= fun ys => addAt ys i c := by
  unfold addAt
  by_cases hi : i < xs.length
  · by_cases hj : j < xs.length
    · rw [List.getElem?_eq_getElem hi, List.getElem?_eq_getElem hj]
      simp only [bind, Except.bind]
      rw [List.getElem?_eq_getElem (by simpa using hj), List.getElem?_eq_getElem (by simpa using hi)]
      by_cases e : i = j
      · subst e
        simp only [List.getElem_set_self, List.set_set]
        congr 2
        ring
      · simp only [List.getElem_set_ne e, List.getElem_set_ne (Ne.symm e)]
        rw [List.set_comm _ _ e]
    · rw [List.getElem?_eq_getElem hi, List.getElem?_eq_none (by omega)]
      simp only [bind, Except.bind]
      rw [List.getElem?_eq_none (by simp; omega)]
      rfl
  · rw [List.getElem?_eq_none (by omega)]
    by_cases hj : j < xs.length
    · rw [List.getElem?_eq_getElem hj]
      simp only [bind, Except.bind]
      rw [List.getElem?_eq_none (by simp; omega)]
      rfl
    · rw [List.getElem?_eq_none (by omega)]
      rfl

/-- Two updates of different components of the weights. -/
theorem addAt_swap {xs ys : List F} (i j : ℕ) (c d : F) {β : Type} (k : List F → List F → Res β) :
    (addAt xs i c >>= fun x => addAt ys j d >>= fun y => k x y) = addAt ys j d >>= fun y => addAt xs i c >>= fun x => k x y := by
  cases hx : addAt xs i c with
  | error e =>
    rw [addAt_error hx]
    cases hy : addAt ys j d with
    | error e' => rw [addAt_error hy]; rfl
    | ok y => rfl
  | ok x =>
    cases hy : addAt ys j d with
    | error e' => rfl
    | ok y => rfl

/-- Two updates of the same component. -/
theorem addAt_twice {xs : List F} (i j : ℕ) (c d : F) {β : Type} (k : List F → Res β) :
    (addAt xs i c >>= fun x => addAt x j d >>= k) = addAt xs j d >>= fun x => addAt x i c >>= k := by
  have := congrArg (fun r : Res (List F) => r >>= k) (addAt_comm xs i j c d)
  simpa only [bind_assoc] using this

theorem Prover.flattenTerm_comm (e : F) (w : Weights F) (x y : Var × F) : (Prover.flattenTerm e w x >>= fun c => Prover.flattenTerm e c y) = Prover.flattenTerm e w y >>= fun c => Prover.flattenTerm e c x := by
  obtain ⟨v, a⟩ := x
  obtain ⟨v', b⟩ := y
  cases v <;> cases v' <;> simp only [Prover.flattenTerm, bind_assoc, pure_bind] <;>
    first
    | rfl
    | exact addAt_twice _ _ _ _ _
    | exact addAt_swap _ _ _ _ fun x y => .ok _
    | exact (addAt_swap _ _ _ _ fun x y => .ok _).symm
    | (simp only [bind_pure_comp, bind_pure]; rfl)
    | exact bind_pure _
    | exact (bind_pure _).symm

theorem Verifier.flattenTerm_comm (e : F) (w : Weights F) (x y : Var × F) : (Verifier.flattenTerm e w x >>= fun c => Verifier.flattenTerm e c y) = Verifier.flattenTerm e w y >>= fun c => Verifier.flattenTerm e c x := by
  obtain ⟨v, a⟩ := x
  obtain ⟨v', b⟩ := y
  cases v <;> cases v' <;> simp only [Verifier.flattenTerm, bind_assoc, pure_bind] <;>
    first
    | rfl
    | exact addAt_twice _ _ _ _ _
    | exact addAt_swap _ _ _ _ fun x y => .ok _
    | exact (addAt_swap _ _ _ _ fun x y => .ok _).symm
    | (refine congrArg Except.ok ?_; simp only [Weights.mk.injEq, true_and]; ring)

theorem Prover.flattenLoop_alike (z : F) {cs cs' : List (LC F)} (h : List.Forall₂ LC.Equiv cs cs') : ∀ e w, Prover.flattenLoop z e cs w = Prover.flattenLoop z e cs' w := by
  induction h with
  | nil => intro e w; rfl
  | cons h _ ih =>
    intro e w
    simp only [Prover.flattenLoop]
    rw [foldlM_perm (Prover.flattenTerm_comm e) h]
    exact congrArg _ (funext fun w => ih _ w)

theorem Verifier.flattenLoop_alike (z : F) {cs cs' : List (LC F)} (h : List.Forall₂ LC.Equiv cs cs') : ∀ e w, Verifier.flattenLoop z e cs w = Verifier.flattenLoop z e cs' w := by
  induction h with
  | nil => intro e w; rfl
  | cons h _ ih =>
    intro e w
    simp only [Verifier.flattenLoop]
    rw [foldlM_perm (Verifier.flattenTerm_comm e) h]
    exact congrArg _ (funext fun w => ih _ w)

/-! ## Provers -/

section prover

/-- `p` with the constraints, callbacks and seed of `q`. -/
def Prover.dress (p q : Prover F G) : Prover F G := { p with constraints := q.constraints, deferred := q.deferred, seed := q.seed }

theorem Prover.Alike.dress {p q : Prover F G} (h : p.Alike q) : q = p.dress q := by
  cases p; cases q
  obtain ⟨h1, h2, h3, h4, h5, h6, h7, h8, h9, -, -⟩ := h
  simp only at h1 h2 h3 h4 h5 h6 h7 h8 h9
  subst h1 h2 h3 h4 h5 h6 h7 h8 h9
  rfl

theorem Prover.alike_dress {p : Prover F G} {q : Prover F G} (hc : List.Forall₂ LC.Equiv p.constraints q.constraints) (hd : List.Forall₂ Callback.Alike p.deferred q.deferred) : p.Alike (p.dress q) :=
  ⟨rfl, rfl, rfl, rfl, rfl, rfl, rfl, rfl, rfl, hc, hd⟩

theorem Prover.Alike.eval {p q : Prover F G} (h : p.Alike q) {l l' : LC F} (hl : l.Equiv l') : p.eval l = q.eval l' := by
  rw [p.eval_perm hl, h.dress]
  have : ∀ v, (p.dress q).evalVar v = p.evalVar v := fun v => by cases v <;> rfl
  unfold Prover.eval
  simp only [this]

theorem Prover.Alike.constrain {p q : Prover F G} (h : p.Alike q) {l l' : LC F} (hl : l.Equiv l') : (p.constrain l).Alike (q.constrain l') :=
  ⟨h.g, h.h, h.transcript, h.aL, h.aR, h.aO, h.v, h.vBlinding, h.pending, forall2_append h.constraints (.cons hl .nil), h.deferred⟩

theorem Prover.Alike.specify {p q : Prover F G} (h : p.Alike q) {cb cb' : Callback F} (hcb : cb.Alike cb') : (p.specify cb).Alike (q.specify cb') :=
  ⟨h.g, h.h, h.transcript, h.aL, h.aR, h.aO, h.v, h.vBlinding, h.pending, h.constraints, forall2_append h.deferred (.cons hcb .nil)⟩

theorem Prover.Alike.multiply {p q : Prover F G} (h : p.Alike q) {l l' r r' : LC F} (hl : l.Equiv l') (hr : r.Equiv r') :
    Res.Alike (fun a b => a.1 = b.1 ∧ a.2.Alike b.2) (p.multiply l r) (q.multiply l' r') := by
  unfold Prover.multiply
  rw [← h.eval hl, ← h.eval hr]
  cases p.eval l with
  | error e => rfl
  | ok x =>
    cases p.eval r with
    | error e => rfl
    | ok y =>
      refine ⟨?_, ?_⟩
      · simp only [Prover.allocateVars, h.aL, h.aR, h.aO]
      · refine Prover.Alike.constrain (Prover.Alike.constrain ?_ ?_) ?_
        · exact ⟨h.g, h.h, h.transcript, by simp [Prover.allocateVars, h.aL], by simp [Prover.allocateVars, h.aR], by simp [Prover.allocateVars, h.aO], h.v, h.vBlinding, h.pending, h.constraints, h.deferred⟩
        · simp only [Prover.allocateVars, h.aL]; exact List.Perm.append_right _ hl
        · simp only [Prover.allocateVars, h.aR]; exact List.Perm.append_right _ hr

theorem Prover.Alike.allocate {p q : Prover F G} (h : p.Alike q) (x : Option F) : Res.Alike (fun a b => a.1 = b.1 ∧ a.2.Alike b.2) (p.allocate x) (q.allocate x) := by
  rw [h.dress]
  have hc := h.constraints
  have hd := h.deferred
  clear h
  unfold Prover.allocate
  cases x with
  | none => exact ⟨rfl, Prover.alike_dress hc hd⟩
  | some x =>
    cases hp : p.pending with
    | none =>
      simp only [Prover.dress, hp]
      exact ⟨rfl, rfl, rfl, rfl, rfl, rfl, rfl, rfl, rfl, rfl, hc, hd⟩
    | some i =>
      simp only [Prover.dress, hp]
      split
      · cases idx p.aL i with
        | error e => rfl
        | ok l => exact ⟨rfl, rfl, rfl, rfl, rfl, rfl, rfl, rfl, rfl, rfl, hc, hd⟩
      · rfl

theorem Prover.Alike.allocateSingle {p q : Prover F G} (h : p.Alike q) (x : Option F) : Res.Alike (fun a b => a.1 = b.1 ∧ a.2.Alike b.2) (p.allocateSingle x) (q.allocateSingle x) := by
  unfold Prover.allocateSingle
  refine (h.allocate x).bind ?_
  rintro ⟨r, p1⟩ ⟨r', q1⟩ ⟨hr, h1⟩
  simp only at hr h1
  subst hr
  rcases r with e | v
  · exact ⟨rfl, h1⟩
  · cases v <;> exact ⟨rfl, h1⟩

theorem Prover.Alike.allocateMultiplier {p q : Prover F G} (h : p.Alike q) (x : Option (F × F)) : (p.allocateMultiplier x).1 = (q.allocateMultiplier x).1 ∧ (p.allocateMultiplier x).2.Alike (q.allocateMultiplier x).2 := by
  rw [h.dress]
  have hc := h.constraints
  have hd := h.deferred
  clear h
  rcases x with _ | ⟨l, r⟩
  · exact ⟨rfl, Prover.alike_dress hc hd⟩
  · exact ⟨rfl, rfl, rfl, rfl, rfl, rfl, rfl, rfl, rfl, rfl, hc, hd⟩

theorem Prover.run_alike {env env' : Env F G} (hO : env.oracle = env'.oracle) {C : Type} {rnd : Bool} {α β : Type} {RC : C → C → Prop} {RA : α → β → Prop} {onP : C → Prover F G → Prover F G}
    (hon : ∀ cb cb', RC cb cb' → ∀ p q : Prover F G, p.Alike q → (onP cb p).Alike (onP cb' q)) {c : Prog F C rnd α} {c' : Prog F C rnd β} (hc : Prog.Alike RC RA c c') :
    ∀ {p q : Prover F G}, p.Alike q → Res.Alike (fun a b => RA a.1 b.1 ∧ a.2.Alike b.2) (p.run env onP c) (q.run env' onP c') := by
  induction hc with
  | ret hab => intro p q h; exact ⟨hab, h⟩
  | err => intro p q h; rfl
  | panic => intro p q h; rfl
  | multiply hl hr _ ih =>
    rename_i l r l' r' k k' _
    intro p q h
    have := h.multiply hl hr
    simp only [Prover.run]
    cases h1 : p.multiply l r <;> cases h2 : q.multiply l' r' <;> rw [h1, h2] at this
    · exact this
    · exact this.elim
    · exact this.elim
    · rename_i a b
      obtain ⟨vs, p1⟩ := a
      obtain ⟨vs', q1⟩ := b
      obtain ⟨e, h⟩ := this
      simp only at e h
      subst e
      exact ih _ h
  | allocate _ ih =>
    rename_i x k k' _
    intro p q h
    have := h.allocate x
    simp only [Prover.run]
    cases h1 : p.allocate x <;> cases h2 : q.allocate x <;> rw [h1, h2] at this
    · exact this
    · exact this.elim
    · exact this.elim
    · rename_i a b
      obtain ⟨vs, p1⟩ := a
      obtain ⟨vs', q1⟩ := b
      obtain ⟨e, h⟩ := this
      simp only at e h
      subst e
      exact ih _ h
  | allocateMultiplier _ ih =>
    rename_i x k k' _
    intro p q h
    obtain ⟨e, h⟩ := h.allocateMultiplier x
    simp only [Prover.run]
    rw [← e]
    exact ih _ h
  | constrain hl _ ih => intro p q h; exact ih (h.constrain hl)
  | specify hcb _ ih => intro p q h; exact ih (hon _ _ hcb _ _ h)
  | evaluateLc hl _ ih =>
    rename_i lc lc' k k' _
    intro p q h
    simp only [Prover.run]
    rw [← h.eval hl]
    cases p.eval lc with
    | error e => rfl
    | ok x => exact ih _ h
  | allocateSingle _ ih =>
    rename_i x k k' _
    intro p q h
    have := h.allocateSingle x
    simp only [Prover.run]
    cases h1 : p.allocateSingle x <;> cases h2 : q.allocateSingle x <;> rw [h1, h2] at this
    · exact this
    · exact this.elim
    · exact this.elim
    · rename_i a b
      obtain ⟨vs, p1⟩ := a
      obtain ⟨vs', q1⟩ := b
      obtain ⟨e, h⟩ := this
      simp only at e h
      subst e
      exact ih _ h
  | challenge _ ih =>
    intro p q h
    simp only [Prover.run]
    rw [h.transcript, hO]
    refine ih _ ⟨h.g, h.h, rfl, h.aL, h.aR, h.aO, h.v, h.vBlinding, h.pending, h.constraints, h.deferred⟩
  | simplify hl _ ih =>
    intro p q h
    simp only [Prover.run]
    refine ih _ _ (hl.simplify (env.hashOrd_perm _) (env'.hashOrd_perm _)) ⟨h.g, h.h, h.transcript, h.aL, h.aR, h.aO, h.v, h.vBlinding, h.pending, h.constraints, h.deferred⟩

theorem Prover.runCallbacks_alike {env env' : Env F G} (hO : env.oracle = env'.oracle) {cs cs' : List (Callback F)} (hc : List.Forall₂ Callback.Alike cs cs') :
    ∀ {p q : Prover F G}, p.Alike q → Res.Alike Prover.Alike (p.runCallbacks env cs) (q.runCallbacks env' cs') := by
  induction hc with
  | nil => intro p q h; exact h
  | cons hcb _ ih =>
    rename_i c c' cs cs' _
    intro p q h
    have : Res.Alike (fun a b => a.1 = b.1 ∧ a.2.Alike b.2) (p.run2 env c) (q.run2 env' c') := Prover.run_alike hO (fun cb => cb.elim) hcb h
    simp only [Prover.runCallbacks]
    cases h1 : p.run2 env c <;> cases h2 : q.run2 env' c' <;> rw [h1, h2] at this
    · exact this
    · exact this.elim
    · exact this.elim
    · exact ih this.2

theorem Prover.crc_alike {env env' : Env F G} (hO : env.oracle = env'.oracle) {p q : Prover F G} (h : p.Alike q) :
    Res.Alike Prover.Alike (p.createRandomizedConstraints env) (q.createRandomizedConstraints env') := by
  unfold Prover.createRandomizedConstraints
  simp only [h.deferred.length_eq, h.transcript]
  split
  · exact ⟨h.g, h.h, rfl, h.aL, h.aR, h.aO, h.v, h.vBlinding, rfl, h.constraints, h.deferred⟩
  · exact Prover.runCallbacks_alike hO h.deferred ⟨h.g, h.h, rfl, h.aL, h.aR, h.aO, h.v, h.vBlinding, rfl, h.constraints, .nil⟩

theorem Prover.Alike.flattened {p q : Prover F G} (h : p.Alike q) (z : F) : p.flattenedConstraints z = q.flattenedConstraints z := by
  unfold Prover.flattenedConstraints
  simp only [h.aL, h.v]
  exact Prover.flattenLoop_alike z h.constraints _ _

theorem Res.Alike.bind_eq {α β γ : Type} {R : α → β → Prop} {r : Res α} {r' : Res β} (h : Res.Alike R r r') {f : α → Res γ} {f' : β → Res γ} (hf : ∀ a b, R a b → f a = f' b) : (r >>= f) = (r' >>= f') := by
  cases r <;> cases r' <;> first | exact congrArg Except.error h | exact h.elim | exact hf _ _ h

theorem Prover.prove_alike {env env' : Env F G} (hO : env.oracle = env'.oracle) {p q : Prover F G} (h : p.Alike q) (coins : Coins F) (Gs Hs : List G) : p.prove env coins Gs Hs = q.prove env' coins Gs Hs := by
  unfold Prover.prove
  simp only [← h.aL, ← h.aR, ← h.aO, ← h.h, ← h.v, ← h.transcript, ← hO]
  refine ite_congr rfl (fun _ => rfl) fun _ => bind_congr fun Gn1 => bind_congr fun Hn1 => bind_congr fun A => ?_
  refine Res.Alike.bind_eq (Prover.crc_alike hO ?_) ?_
  · constructor <;> first | exact h.g | exact h.vBlinding | exact h.pending | exact h.constraints | exact h.deferred | exact h.v | rfl
  intro p' q' h'
  have e := h'.dress
  have hf := h'.flattened
  generalize q'.constraints = cs at *
  simp only [← hf]
  rw [e]
  rfl

end prover

/-! ## Verifiers -/

section verifier

theorem Verifier.Alike.constrain {s t : Verifier F G} (h : s.Alike t) {l l' : LC F} (hl : l.Equiv l') : (s.constrain l).Alike (t.constrain l') :=
  ⟨h.transcript, h.numVars, h.V, h.pending, forall2_append h.constraints (.cons hl .nil), h.deferred⟩

theorem Verifier.Alike.specify {s t : Verifier F G} (h : s.Alike t) {cb cb' : Callback F} (hcb : cb.Alike cb') : (s.specify cb).Alike (t.specify cb') :=
  ⟨h.transcript, h.numVars, h.V, h.pending, h.constraints, forall2_append h.deferred (.cons hcb .nil)⟩

theorem Verifier.Alike.multiply {s t : Verifier F G} (h : s.Alike t) {l l' r r' : LC F} (hl : l.Equiv l') (hr : r.Equiv r') :
    (s.multiply l r).1 = (t.multiply l' r').1 ∧ (s.multiply l r).2.Alike (t.multiply l' r').2 := by
  unfold Verifier.multiply
  refine ⟨?_, ?_⟩
  · simp only [Verifier.allocateVars, h.numVars]
  · refine Verifier.Alike.constrain (Verifier.Alike.constrain ?_ ?_) ?_
    · exact ⟨h.transcript, congrArg (· + 1) h.numVars, h.V, h.pending, h.constraints, h.deferred⟩
    · simp only [Verifier.allocateVars, h.numVars]; exact List.Perm.append_right _ hl
    · simp only [Verifier.allocateVars, h.numVars]; exact List.Perm.append_right _ hr

theorem Verifier.Alike.allocate {s t : Verifier F G} (h : s.Alike t) (x : Option F) : (s.allocate x).1 = (t.allocate x).1 ∧ (s.allocate x).2.Alike (t.allocate x).2 := by
  unfold Verifier.allocate
  rw [← h.pending]
  cases s.pending with
  | none => exact ⟨by rw [h.numVars], h.transcript, congrArg (· + 1) h.numVars, h.V, congrArg some h.numVars, h.constraints, h.deferred⟩
  | some i => exact ⟨rfl, h.transcript, h.numVars, h.V, rfl, h.constraints, h.deferred⟩

theorem Verifier.Alike.allocateSingle {s t : Verifier F G} (h : s.Alike t) (x : Option F) : (s.allocateSingle x).1 = (t.allocateSingle x).1 ∧ (s.allocateSingle x).2.Alike (t.allocateSingle x).2 := by
  have := h.allocate none
  unfold Verifier.allocateSingle
  revert this
  generalize s.allocate none = a
  generalize t.allocate none = b
  obtain ⟨r, s1⟩ := a
  obtain ⟨r', t1⟩ := b
  rintro ⟨hr, h1⟩
  simp only at hr h1
  subst hr
  rcases r with e | v
  · exact ⟨rfl, h1⟩
  · cases v <;> exact ⟨rfl, h1⟩

theorem Verifier.Alike.allocateMultiplier {s t : Verifier F G} (h : s.Alike t) (x : Option (F × F)) : (s.allocateMultiplier x).1 = (t.allocateMultiplier x).1 ∧ (s.allocateMultiplier x).2.Alike (t.allocateMultiplier x).2 :=
  ⟨by simp only [Verifier.allocateMultiplier, Verifier.allocateVars, h.numVars], h.transcript, congrArg (· + 1) h.numVars, h.V, h.pending, h.constraints, h.deferred⟩

theorem Verifier.run_alike {env env' : Env F G} (hO : env.oracle = env'.oracle) {C : Type} {rnd : Bool} {α β : Type} {RC : C → C → Prop} {RA : α → β → Prop} {onV : C → Verifier F G → Verifier F G}
    (hon : ∀ cb cb', RC cb cb' → ∀ s t : Verifier F G, s.Alike t → (onV cb s).Alike (onV cb' t)) {c : Prog F C rnd α} {c' : Prog F C rnd β} (hc : Prog.Alike RC RA c c') :
    ∀ {s t : Verifier F G}, s.Alike t → Res.Alike (fun a b => RA a.1 b.1 ∧ a.2.Alike b.2) (s.run env onV c) (t.run env' onV c') := by
  induction hc with
  | ret hab => intro s t h; exact ⟨hab, h⟩
  | err => intro s t h; rfl
  | panic => intro s t h; rfl
  | multiply hl hr _ ih =>
    intro s t h
    obtain ⟨e, h⟩ := h.multiply hl hr
    simp only [Verifier.run]
    rw [← e]
    exact ih _ h
  | allocate _ ih =>
    rename_i x k k' _
    intro s t h
    obtain ⟨e, h⟩ := h.allocate x
    simp only [Verifier.run]
    rw [← e]
    exact ih _ h
  | allocateMultiplier _ ih =>
    rename_i x k k' _
    intro s t h
    obtain ⟨e, h⟩ := h.allocateMultiplier x
    simp only [Verifier.run]
    rw [← e]
    exact ih _ h
  | constrain hl _ ih => intro s t h; exact ih (h.constrain hl)
  | specify hcb _ ih => intro s t h; exact ih (hon _ _ hcb _ _ h)
  | evaluateLc hl _ ih => intro s t h; exact ih _ h
  | allocateSingle _ ih =>
    rename_i x k k' _
    intro s t h
    obtain ⟨e, h⟩ := h.allocateSingle x
    simp only [Verifier.run]
    rw [← e]
    exact ih _ h
  | challenge _ ih =>
    intro s t h
    simp only [Verifier.run]
    rw [h.transcript, hO]
    exact ih _ ⟨rfl, h.numVars, h.V, h.pending, h.constraints, h.deferred⟩
  | simplify hl _ ih =>
    intro s t h
    simp only [Verifier.run]
    exact ih _ _ (hl.simplify (env.hashOrd_perm _) (env'.hashOrd_perm _)) ⟨h.transcript, h.numVars, h.V, h.pending, h.constraints, h.deferred⟩

theorem Verifier.runCallbacks_alike {env env' : Env F G} (hO : env.oracle = env'.oracle) {cs cs' : List (Callback F)} (hc : List.Forall₂ Callback.Alike cs cs') :
    ∀ {s t : Verifier F G}, s.Alike t → Res.Alike Verifier.Alike (s.runCallbacks env cs) (t.runCallbacks env' cs') := by
  induction hc with
  | nil => intro s t h; exact h
  | cons hcb _ ih =>
    rename_i c c' cs cs' _
    intro s t h
    have : Res.Alike (fun a b => a.1 = b.1 ∧ a.2.Alike b.2) (s.run2 env c) (t.run2 env' c') := Verifier.run_alike hO (fun cb => cb.elim) hcb h
    simp only [Verifier.runCallbacks]
    cases h1 : s.run2 env c <;> cases h2 : t.run2 env' c' <;> rw [h1, h2] at this
    · exact this
    · exact this.elim
    · exact this.elim
    · exact ih this.2

theorem Verifier.crc_alike {env env' : Env F G} (hO : env.oracle = env'.oracle) {s t : Verifier F G} (h : s.Alike t) :
    Res.Alike Verifier.Alike (s.createRandomizedConstraints env) (t.createRandomizedConstraints env') := by
  unfold Verifier.createRandomizedConstraints
  simp only [h.deferred.length_eq, h.transcript]
  split
  · exact ⟨rfl, h.numVars, h.V, rfl, h.constraints, h.deferred⟩
  · exact Verifier.runCallbacks_alike hO h.deferred ⟨rfl, h.numVars, h.V, rfl, h.constraints, .nil⟩

theorem Verifier.Alike.flattened {s t : Verifier F G} (h : s.Alike t) (z : F) : s.flattenedConstraints z = t.flattenedConstraints z := by
  unfold Verifier.flattenedConstraints
  simp only [h.numVars, h.V]
  exact Verifier.flattenLoop_alike z h.constraints _ _

theorem SameButOrder.verificationScalars {env env' : Env F G} (he : SameButOrder env env') (L R : List G) (n : ℕ) (t : Transcript F G) : verificationScalars env L R n t = Bp.verificationScalars env' L R n t := by
  unfold Bp.verificationScalars ippScalars
  rw [he.oracle, he.batchInvert]

theorem Verifier.verify_alike [DecidableEq G] {env env' : Env F G} (he : SameButOrder env env') {s t : Verifier F G} (h : s.Alike t) (pr : R1CSProof F G) (g h' : G) (Gs Hs : List G) (r : F) :
    s.verify env pr g h' Gs Hs r = t.verify env' pr g h' Gs Hs r := by
  unfold Verifier.verify
  simp only [← h.transcript, ← h.numVars, ← h.V, ← he.oracle, ← he.verificationScalars]
  refine Res.Alike.bind_eq (Verifier.crc_alike he.oracle ?_) ?_
  · constructor <;> first | exact h.pending | exact h.constraints | exact h.deferred | exact h.V | exact h.numVars | rfl
  intro s' t' h''
  simp only [h''.flattened, h''.transcript, h''.numVars, h''.V]

end verifier

/-! ## Drivers -/

/-- From alike states, two pieces of driver code return related values and leave alike states, or fail in the same way. -/
def Drv.Alike {S α β : Type} (RS : S → S → Prop) (R : α → β → Prop) (d : Drv S α) (d' : Drv S β) : Prop :=
  ∀ s s', RS s s' →
    match d s, d' s' with
    | (.ok a, s1), (.ok b, s1') => R a b ∧ RS s1 s1'
    | (.error e, _), (.error e', _) => e = e'
    | _, _ => False

namespace Drv.Alike
variable {S α β γ δ : Type} {RS : S → S → Prop} {R : α → β → Prop} {R' : γ → δ → Prop}

theorem bind {d : Drv S α} {d' : Drv S β} (h : Drv.Alike RS R d d') {f : α → Drv S γ} {f' : β → Drv S δ} (hf : ∀ a b, R a b → Drv.Alike RS R' (f a) (f' b)) : Drv.Alike RS R' (d >>= f) (d' >>= f') := by
  intro s s' hs
  have := h s s' hs
  show match Drv.bind d f s, Drv.bind d' f' s' with
    | (.ok a, s1), (.ok b, s1') => R' a b ∧ RS s1 s1'
    | (.error e, _), (.error e', _) => e = e'
    | _, _ => False
  unfold Drv.bind
  revert this
  rcases d s with ⟨e | a, s1⟩ <;> rcases d' s' with ⟨e' | b, s1'⟩ <;> intro this
  · exact this
  · exact this.elim
  · exact this.elim
  · exact hf a b this.1 s1 s1' this.2

theorem bind' {d : Drv S α} {d' : Drv S α} (h : Drv.Alike RS Eq d d') {f f' : α → Drv S γ} (hf : ∀ a, Drv.Alike RS Eq (f a) (f' a)) : Drv.Alike RS Eq (d >>= f) (d' >>= f') :=
  h.bind fun a b e => by subst e; exact hf a

theorem lift (r : Res α) : Drv.Alike RS Eq (Drv.lift r) (Drv.lift r) := by
  intro s s' hs
  cases r with
  | error e => rfl
  | ok a => exact ⟨rfl, hs⟩

theorem ret (a : α) : Drv.Alike RS Eq (Drv.ret a : Drv S α) (Drv.ret a) := fun _ _ hs => ⟨rfl, hs⟩

theorem pure (a : α) : Drv.Alike RS Eq (Pure.pure a : Drv S α) (Pure.pure a) := fun _ _ hs => ⟨rfl, hs⟩

end Drv.Alike

theorem Prover.commitAll_alike (vs : List (F × F)) : ∀ {p q : Prover F G}, p.Alike q → (p.commitAll vs).1 = (q.commitAll vs).1 ∧ (p.commitAll vs).2.Alike (q.commitAll vs).2 := by
  induction vs with
  | nil => intro p q h; exact ⟨rfl, h⟩
  | cons v vs ih =>
    intro p q h
    obtain ⟨x, b⟩ := v
    have e : (p.commit x b).1 = (q.commit x b).1 := by simp only [Prover.commit, h.g, h.h, h.v]
    have h1 : (p.commit x b).2.Alike (q.commit x b).2 :=
      ⟨h.g, h.h, by simp only [Prover.commit, h.g, h.h, h.transcript], h.aL, h.aR, h.aO, by simp only [Prover.commit, h.v], by simp only [Prover.commit, h.vBlinding], h.pending, h.constraints, h.deferred⟩
    obtain ⟨e2, h2⟩ := ih h1
    exact ⟨by simp only [Prover.commitAll]; rw [e, e2], h2⟩

theorem Prover.commits_alike (vs : List (F × F)) : Drv.Alike Prover.Alike Eq (Prover.commits (G := G) vs) (Prover.commits vs) :=
  fun _ _ h => Prover.commitAll_alike vs h

theorem Verifier.commitAll_alike (Vs : List G) : ∀ {s t : Verifier F G}, s.Alike t → (s.commitAll Vs).1 = (t.commitAll Vs).1 ∧ (s.commitAll Vs).2.Alike (t.commitAll Vs).2 := by
  induction Vs with
  | nil => intro s t h; exact ⟨rfl, h⟩
  | cons V Vs ih =>
    intro s t h
    have e : (s.commit V).1 = (t.commit V).1 := by simp only [Verifier.commit, h.V]
    have h1 : (s.commit V).2.Alike (t.commit V).2 :=
      ⟨by simp only [Verifier.commit, h.transcript], h.numVars, by simp only [Verifier.commit, h.V], h.pending, h.constraints, h.deferred⟩
    obtain ⟨e2, h2⟩ := ih h1
    exact ⟨by simp only [Verifier.commitAll]; rw [e, e2], h2⟩

theorem Verifier.commits_alike (Vs : List G) : Drv.Alike Verifier.Alike Eq (Verifier.commits (F := F) Vs) (Verifier.commits Vs) :=
  fun _ _ h => Verifier.commitAll_alike Vs h

theorem Prover.gadget_alike {env env' : Env F G} (hO : env.oracle = env'.oracle) {α β : Type} {R : α → β → Prop} {c : Prog1 F α} {c' : Prog1 F β} (hc : Prog.Alike Callback.Alike R c c') :
    Drv.Alike Prover.Alike R (Prover.gadget (G := G) env c) (Prover.gadget env' c') := by
  intro p q h
  have : Res.Alike (fun a b => R a.1 b.1 ∧ a.2.Alike b.2) (p.run1 env c) (q.run1 env' c') :=
    Prover.run_alike (onP := fun cb p => p.specify cb) hO (fun _ _ hcb _ _ h => h.specify hcb) hc h
  unfold Prover.gadget
  cases h1 : p.run1 env c <;> cases h2 : q.run1 env' c' <;> rw [h1, h2] at this
  · exact this
  · exact this.elim
  · exact this.elim
  · exact this

theorem Verifier.gadget_alike {env env' : Env F G} (hO : env.oracle = env'.oracle) {α β : Type} {R : α → β → Prop} {c : Prog1 F α} {c' : Prog1 F β} (hc : Prog.Alike Callback.Alike R c c') :
    Drv.Alike Verifier.Alike R (Verifier.gadget (G := G) env c) (Verifier.gadget env' c') := by
  intro s t h
  have : Res.Alike (fun a b => R a.1 b.1 ∧ a.2.Alike b.2) (s.run1 env c) (t.run1 env' c') :=
    Verifier.run_alike (onV := fun cb s => s.specify cb) hO (fun _ _ hcb _ _ h => h.specify hcb) hc h
  unfold Verifier.gadget
  cases h1 : s.run1 env c <;> cases h2 : t.run1 env' c' <;> rw [h1, h2] at this
  · exact this
  · exact this.elim
  · exact this.elim
  · exact this

theorem Prover.new_alike (g h : G) (t : Transcript F G) (k k' : ℕ) : (Prover.new g h t k).Alike (Prover.new g h t k') :=
  ⟨rfl, rfl, rfl, rfl, rfl, rfl, rfl, rfl, rfl, .nil, .nil⟩

theorem Verifier.new_alike (t : Transcript F G) (k k' : ℕ) : (Verifier.new t k).Alike (Verifier.new t k') :=
  ⟨rfl, rfl, rfl, rfl, .nil, .nil⟩

theorem genProof_alike {env env' : Env F G} (hO : env.oracle = env'.oracle) {α : Type} {d d' : Drv (Prover F G) α} (hd : Drv.Alike Prover.Alike Eq d d') (label : String) (g h : G) (c : Coins F) (Gs Hs : List G) :
    genProof env label g h c Gs Hs d = genProof env' label g h c Gs Hs d' := by
  have := hd _ _ (Prover.new_alike g h [.init label] 0 0)
  unfold genProof
  revert this
  rcases d (Prover.new g h [.init label]) with ⟨e | a, p⟩ <;> rcases d' (Prover.new g h [.init label]) with ⟨e' | b, q⟩ <;> intro this
  · exact congrArg Except.error this
  · exact this.elim
  · exact this.elim
  · obtain ⟨e, h⟩ := this
    subst e
    simp only [Prover.prove_alike hO h]

theorem genProofUnwrap_alike {env env' : Env F G} (hO : env.oracle = env'.oracle) {α : Type} {d d' : Drv (Prover F G) α} (hd : Drv.Alike Prover.Alike Eq d d') (label : String) (g h : G) (c : Coins F) (Gs Hs : List G) :
    genProofUnwrap env label g h c Gs Hs d = genProofUnwrap env' label g h c Gs Hs d' := by
  have := hd _ _ (Prover.new_alike g h [.init label] 0 0)
  unfold genProofUnwrap
  revert this
  rcases d (Prover.new g h [.init label]) with ⟨e | a, p⟩ <;> rcases d' (Prover.new g h [.init label]) with ⟨e' | b, q⟩ <;> intro this
  · exact congrArg Except.error this
  · exact this.elim
  · exact this.elim
  · obtain ⟨e, h⟩ := this
    subst e
    simp only [Prover.prove_alike hO h]

theorem verifyProof_alike [DecidableEq G] {env env' : Env F G} (he : SameButOrder env env') {d d' : Drv (Verifier F G) Unit} (hd : Drv.Alike Verifier.Alike Eq d d') (label : String) (pr : R1CSProof F G) (g h : G) (Gs Hs : List G) (r : F) :
    verifyProof env label d pr g h Gs Hs r = verifyProof env' label d' pr g h Gs Hs r := by
  have := hd _ _ (Verifier.new_alike [.init label] 0 0)
  unfold verifyProof
  revert this
  rcases d (Verifier.new [.init label]) with ⟨e | a, s⟩ <;> rcases d' (Verifier.new [.init label]) with ⟨e' | b, t⟩ <;> intro this
  · exact congrArg Except.error this
  · exact this.elim
  · exact this.elim
  · simp only [Verifier.verify_alike he this.2]

end Bp
