import Verif.Lemmas.Gadgets.Total
import Verif.Spec.Flatten
import Verif.Lemmas.LC
import Verif.Model.Gadgets.Randomizer
import Verif.Model.Gadgets.Factors

set_option linter.unusedSectionVars false
set_option linter.unusedSimpArgs false

/-! # Gadgets use only variables that exist -/

namespace Bp
variable {F G : Type} [Field F] [AddCommGroup G] [Module F G]
variable {C : Type} {rnd : Bool} {α β : Type}

/-- All variables of the linear combination are among the first `N` gates and `M` commitments. -/
def LC.Within (N M : ℕ) (l : LC F) : Prop := ∀ t ∈ l.terms, t.1.InRange N M

section within
variable {N M : ℕ}

@[simp] theorem inRange_one : Var.InRange N M .one ↔ True := Iff.rfl
@[simp] theorem within_empty : (LC.empty : LC F).Within N M := by simp [LC.Within, LC.empty]
@[simp] theorem within_ofVar {v : Var} : (LC.ofVar v : LC F).Within N M ↔ v.InRange N M := by simp [LC.Within, LC.ofVar]
@[simp] theorem within_ofScalar {x : F} : (LC.ofScalar x : LC F).Within N M := by simp [LC.Within, LC.ofScalar]
@[simp] theorem within_ofTerms {ts : List (Var × F)} : (LC.ofTerms ts : LC F).Within N M ↔ ∀ t ∈ ts, t.1.InRange N M := Iff.rfl
@[simp] theorem within_add {l r : LC F} : (l.add r).Within N M ↔ l.Within N M ∧ r.Within N M := by
  unfold LC.Within LC.add
  simp only [List.mem_append]
  exact ⟨fun h => ⟨fun t ht => h t (.inl ht), fun t ht => h t (.inr ht)⟩, fun h t ht => ht.elim (h.1 t) (h.2 t)⟩
@[simp] theorem within_smul {x : F} {l : LC F} : (LC.smul x l).Within N M ↔ l.Within N M := by
  unfold LC.Within LC.smul
  simp only [List.mem_map]
  exact ⟨fun h t ht => h (t.1, t.2 * x) ⟨t, ht, rfl⟩, fun h t ⟨u, hu, e⟩ => by rw [← e]; exact h u hu⟩
@[simp] theorem within_neg {l : LC F} : l.neg.Within N M ↔ l.Within N M := by
  unfold LC.Within LC.neg
  simp only [List.mem_map]
  exact ⟨fun h t ht => h (t.1, -t.2) ⟨t, ht, rfl⟩, fun h t ⟨u, hu, e⟩ => by rw [← e]; exact h u hu⟩
@[simp] theorem within_sub {l r : LC F} : (l.sub r).Within N M ↔ l.Within N M ∧ r.Within N M := by
  rw [show l.sub r = l.add r.neg from rfl, within_add, within_neg]
@[simp] theorem within_varAdd {v : Var} {l : LC F} : (LC.varAdd v l).Within N M ↔ v.InRange N M ∧ l.Within N M := by unfold LC.varAdd; simp
@[simp] theorem within_varSub {v : Var} {l : LC F} : (LC.varSub v l).Within N M ↔ v.InRange N M ∧ l.Within N M := by unfold LC.varSub; simp
@[simp] theorem within_oneMinus {v : Var} : (oneMinus v : LC F).Within N M ↔ v.InRange N M := by unfold oneMinus; simp
theorem within_simplify {l : LC F} (h : l.Within N M) {ord : List (Var × F) → List (Var × F)} (ho : ∀ ts, (ord ts).Perm ts) : (l.simplify ord).Within N M := fun t ht => by
  have h1 : t.1 ∈ (LC.collect l.terms).map Prod.fst := List.mem_map_of_mem ((ho _).mem_iff.mp ht)
  rw [LC.collect_keys] at h1
  obtain ⟨u, hu, e⟩ := List.mem_map.mp h1
  rw [← e]
  exact h u hu

end within

/-- All constraints use variables in range, and so does the half-allocated gate. -/
structure Verifier.Within (N M : ℕ) (s : Verifier F G) : Prop where
  constraints : ∀ lc ∈ s.constraints, lc.Within N M
  pending : ∀ i, s.pending = some i → i < N

theorem run_numVars_le (env : Env F G) {onSpec : C → Verifier F G → Verifier F G} (ho : ∀ cb s, (onSpec cb s).numVars = s.numVars) (c : Prog F C rnd α) : ∀ (s s' : Verifier F G) (x : α), Verifier.run env onSpec c s = .ok (x, s') →
    s.numVars ≤ s'.numVars := by
  induction c with
  | ret a => intro s s' x h; cases h; exact le_refl _
  | err e => intro s s' x h; cases h
  | panic w => intro s s' x h; cases h
  | multiply l r k ih => intro s s' x h; exact (Nat.le_succ _).trans (ih _ _ _ _ h)
  | allocate a k ih =>
    intro s s' x h
    refine le_trans ?_ (ih _ _ _ _ h)
    unfold Verifier.allocate
    split <;> simp
  | allocateMultiplier a k ih => intro s s' x h; exact (Nat.le_succ _).trans (ih _ _ _ _ h)
  | constrain l k ih => intro s s' x h; exact ih (s.constrain l) s' x h
  | specify cb k ih => intro s s' x h; exact (ho cb s).ge.trans (ih _ _ _ h)
  | evaluateLc l k ih => intro s s' x h; exact (ih _ _ _ _ h)
  | allocateSingle a k ih =>
    intro s s' x h
    refine le_trans ?_ (ih _ _ _ _ h)
    cases hp : s.pending <;> simp [Verifier.allocateSingle, Verifier.allocate, hp]
  | challenge _ l k ih => intro s s' x h; exact ih _ { s with transcript := (s.transcript.challengeScalar env.oracle l).2 } s' x h
  | simplify l k ih => intro s s' x h; exact ih _ { s with seed := s.seed + 1 } s' x h

/-- If `c` ends with no more than `N` gates, then all that it constrains is in range, and its result satisfies `Q`. -/
def VR (env : Env F G) (N M : ℕ) (c : Prog F C rnd α) (Q : α → Prop) : Prop :=
  ∀ (onSpec : C → Verifier F G → Verifier F G), (∀ cb s, (onSpec cb s).numVars = s.numVars ∧ (onSpec cb s).constraints = s.constraints ∧ (onSpec cb s).pending = s.pending) → ∀ s x s',
    Verifier.run env onSpec c s = .ok (x, s') → s'.numVars ≤ N → s.Within N M → s'.Within N M ∧ Q x

variable {env : Env F G} {N M : ℕ}

theorem VR.bind {c : Prog F C rnd α} {f : α → Prog F C rnd β} {Q : α → Prop} {R : β → Prop} (h1 : VR env N M c Q) (h2 : ∀ x, Q x → VR env N M (f x) R) : VR env N M (c >>= f) R := by
  intro onSpec ho s x s' h hN hs
  rw [Prog.bind_eq, Verifier.run_bind] at h
  cases h3 : Verifier.run env onSpec c s with
  | error e => rw [h3] at h; cases h
  | ok y =>
    rw [h3] at h
    have hle := run_numVars_le env (fun cb s => (ho cb s).1) _ _ _ _ h
    obtain ⟨a, b⟩ := h1 onSpec ho s y.1 y.2 h3 (hle.trans hN) hs
    exact h2 y.1 b onSpec ho _ _ _ h hN a

theorem VR.mono {c : Prog F C rnd α} {Q R : α → Prop} (h : VR env N M c Q) (hQ : ∀ x, Q x → R x) : VR env N M c R := fun o ho s x s' e hN hs => (h o ho s x s' e hN hs).imp_right (hQ x)
theorem VR.ret {x : α} {Q : α → Prop} (h : Q x) : VR env N M (.ret x : Prog F C rnd α) Q := fun _ _ s _ _ e _ hs => by cases e; exact ⟨hs, h⟩
theorem VR.pure {x : α} {Q : α → Prop} (h : Q x) : VR env N M (pure x : Prog F C rnd α) Q := VR.ret h
theorem VR.err {e : R1CSError} {Q : α → Prop} : VR env N M (.err e : Prog F C rnd α) Q := fun _ _ s _ _ e _ hs => by cases e
theorem VR.panic {w : String} {Q : α → Prop} : VR env N M (.panic w : Prog F C rnd α) Q := fun _ _ s _ _ e _ hs => by cases e
theorem VR.con {l : LC F} (h : l.Within N M) : VR env N M (Prog.con l : Prog F C rnd _) fun _ => True := fun _ _ s _ _ e _ hs => by
  cases e
  exact ⟨⟨fun lc hl => (List.mem_append.mp hl).elim (hs.constraints lc) fun hl => by rw [List.mem_singleton.mp hl]; exact h, hs.pending⟩, trivial⟩
theorem VR.conScalar {l : LC F} {x : F} (h : l.Within N M) : VR env N M (constrainLcWithScalar l x : Prog F C rnd _) fun _ => True := VR.con (by simpa using h)
theorem VR.mul {l r : LC F} (hl : l.Within N M) (hr : r.Within N M) : VR env N M (Prog.mul l r : Prog F C rnd _) fun q => q.1.InRange N M ∧ q.2.1.InRange N M ∧ q.2.2.InRange N M := fun _ _ s _ _ e hN hs => by
  cases e
  have hlt : s.numVars < N := hN
  refine ⟨⟨fun lc hm => ?_, hs.pending⟩, hlt, hlt, hlt⟩
  rcases List.mem_append.mp hm with hm | hm
  · rcases List.mem_append.mp hm with hm | hm
    · exact hs.constraints lc hm
    · rw [List.mem_singleton.mp hm]
      intro t ht
      rcases List.mem_append.mp ht with ht | ht
      · exact hl t ht
      · rw [List.mem_singleton.mp ht]; exact hlt
  · rw [List.mem_singleton.mp hm]
    intro t ht
    rcases List.mem_append.mp ht with ht | ht
    · exact hr t ht
    · rw [List.mem_singleton.mp ht]; exact hlt
theorem VR.allocMul {x : Option (F × F)} : VR env N M (Prog.allocMul x : Prog F C rnd _) fun q => q.1.InRange N M ∧ q.2.1.InRange N M ∧ q.2.2.InRange N M := fun _ _ s _ _ e hN hs => by
  cases e
  have hlt : s.numVars < N := hN
  exact ⟨⟨hs.constraints, hs.pending⟩, hlt, hlt, hlt⟩
theorem VR.eval {l : LC F} : VR env N M (Prog.eval l : Prog F C rnd _) fun _ => True := fun _ _ s _ _ e _ hs => by cases e; exact ⟨hs, trivial⟩
theorem VR.simp {l : LC F} (h : l.Within N M) : VR env N M (Prog.simp l : Prog F C rnd _) fun l' => l'.Within N M := fun _ _ s _ _ e _ hs => by
  cases e; exact ⟨⟨hs.constraints, hs.pending⟩, within_simplify h (env.hashOrd_perm _)⟩
theorem VR.unwrap {x : Option α} {Q : α → Prop} (h : ∀ y, x = some y → Q y) : VR env N M (Prog.unwrap x : Prog F C rnd _) Q := by
  cases x with
  | none => exact VR.panic
  | some x => exact VR.ret (h x rfl)
theorem VR.index {xs : List α} {i : ℕ} : VR env N M (Prog.index xs i : Prog F C rnd _) fun x => x ∈ xs := by
  unfold Prog.index
  cases h : xs[i]? with
  | none => exact VR.panic
  | some x => exact VR.ret (List.mem_of_getElem? h)
theorem VR.ofRes {x : Res α} : VR env N M (Prog.ofRes x : Prog F C rnd _) fun y => x = .ok y := by
  cases x with
  | ok y => exact VR.ret rfl
  | error e => cases e with
    | err e => exact VR.err
    | panic w => exact VR.panic

theorem VR.allocSingle {x : Option F} : VR env N M (Prog.allocSingle x : Prog F C rnd _) fun y => y.1.InRange N M ∧ ∀ o, y.2 = some o → o.InRange N M := by
  intro o ho s y s' e hN hs
  cases hp : s.pending with
  | none =>
    simp only [Prog.allocSingle, Verifier.run, Verifier.allocateSingle, Verifier.allocate, hp, Prog.ofExcept] at e
    cases e
    have hlt : s.numVars < N := hN
    exact ⟨⟨hs.constraints, fun i hi => by cases hi; exact hlt⟩, hlt, fun o h => by cases h⟩
  | some i =>
    simp only [Prog.allocSingle, Verifier.run, Verifier.allocateSingle, Verifier.allocate, hp, Prog.ofExcept] at e
    cases e
    have hlt : i < N := hs.pending i hp
    exact ⟨⟨hs.constraints, fun i hi => by cases hi⟩, hlt, fun o h => by cases h; exact hlt⟩

theorem VR.loop {body : ℕ → β → Prog F C rnd β} {Q : β → Prop} : ∀ (n i : ℕ) (x : β), Q x → (∀ j x, Q x → VR env N M (body j x) Q) → VR env N M (Prog.loop body i n x) Q
  | 0, _, _, h, _ => VR.ret h
  | n + 1, i, x, h, hb => VR.bind (hb i x h) fun y hy => VR.loop n (i + 1) y hy hb

theorem VR.forN {body : ℕ → β → Prog F C rnd β} {n : ℕ} {x : β} (Q : β → Prop) (h : Q x) (hb : ∀ j x, Q x → VR env N M (body j x) Q) : VR env N M (Prog.forN n x body) Q := VR.loop n 0 x h hb

/-- A step with a result that says nothing. -/
macro "vrb " t:term : tactic => `(tactic| (apply VR.bind $t; rintro _ -))
/-- A multiplication. -/
macro "vrm" : tactic => `(tactic| (apply VR.bind (VR.mul (by simp [*]) (by simp [*])); rintro ⟨_, _, _⟩ ⟨_, _, _⟩; dsimp only at *))
/-- An allocated gate. -/
macro "vra" : tactic => `(tactic| (apply VR.bind VR.allocMul; rintro ⟨_, _, _⟩ ⟨_, _, _⟩; dsimp only at *))
/-- A constraint. -/
macro "vrc" : tactic => `(tactic| (apply VR.bind (VR.con (by simp [*])); rintro _ -))

/-! ## Simple gadgets -/

theorem VR.bitGadget {v : Alloc F} (h : v.var.InRange N M) : VR env N M (bitGadget v : Prog F C rnd _) fun _ => True := by
  unfold Bp.bitGadget
  vra
  vrc
  vrc
  exact VR.con (by simp [*])

theorem VR.positiveNo [IntRep F] {v : Alloc F} (h : v.var.InRange N M) (n : ℕ) : VR env N M (positiveNoGadget v n : Prog F C rnd _) fun _ => True := by
  unfold positiveNoGadget
  apply VR.bind (VR.forN (fun st => ∀ t ∈ st.1, t.1.InRange N M) (by simpa using h) fun i x hx => by
      unfold positiveNoBody
      vra
      vrc
      vrc
      refine VR.pure fun t ht => ?_
      rcases List.mem_append.mp ht with ht | ht
      · exact hx t ht
      · rw [List.mem_singleton.mp ht]; assumption)
  intro st hst
  exact VR.con hst

theorem VR.isNonzero {x y : Var} (hx : x.InRange N M) (hy : y.InRange N M) : VR env N M (isNonzeroGadget x y : Prog F C rnd _) fun _ => True := by
  unfold isNonzeroGadget
  dsimp only
  vrm
  vrc
  vrm
  exact VR.con (by simp [*])

theorem VR.boundCheck [IntRep F] {debug : Bool} {v a b : Alloc F} {max min : ℕ} (n : ℕ) (hv : v.var.InRange N M) (ha : a.var.InRange N M) (hb : b.var.InRange N M) :
    VR env N M (boundCheckGadget debug v a b max min n : Prog F C rnd _) fun _ => True := by
  unfold boundCheckGadget
  vrc
  vrc
  vrb VR.ofRes
  vrb (VR.conScalar (by simp [*]))
  vrb (VR.positiveNo ha n)
  exact VR.positiveNo hb n

theorem VR.setMembership {v : Alloc F} {ds : List (Alloc F)} {set : List F} (hv : v.var.InRange N M) (hd : ∀ d ∈ ds, d.var.InRange N M) : VR env N M (setMembershipGadget v ds set : Prog F C rnd _) fun _ => True := by
  unfold setMembershipGadget
  apply VR.bind (VR.forN (fun l => l.Within N M) (by simp) fun i x hx => by
      unfold setMembershipBody
      apply VR.bind VR.index
      intro d hmem
      have := hd d hmem
      vrb VR.index
      vrb (VR.conScalar (by simp [*]))
      vrm
      exact VR.pure (by simp [*]))
  intro l hl
  exact VR.con hl

theorem VR.setNonMembership {v : Alloc F} {ds is : List (Alloc F)} {set : List F} (hv : v.var.InRange N M) (hd : ∀ d ∈ ds, d.var.InRange N M) (hi : ∀ d ∈ is, d.var.InRange N M) :
    VR env N M (setNonMembershipGadget v ds is set : Prog F C rnd _) fun _ => True := by
  unfold setNonMembershipGadget
  refine VR.forN (fun _ => True) trivial fun i x _ => ?_
  unfold setNonMembershipBody
  apply VR.bind VR.index
  intro d hmem
  have := hd d hmem
  vrb VR.index
  vrb (VR.conScalar (by simp [*]))
  apply VR.bind VR.index
  intro e hmem'
  exact VR.isNonzero this (hi e hmem')

theorem VR.vectorProduct {items : List ℕ} {vs : List (Alloc F)} {v : Alloc F} (hv : v.var.InRange N M) : VR env N M (vectorProductGadget items vs v : Prog F C rnd _) fun _ => True := by
  unfold vectorProductGadget
  apply VR.bind (VR.forN (fun ts => ∀ t ∈ ts, t.1.InRange N M) (by simpa using hv) fun i x hx => by
      unfold vectorProductBody
      vrb VR.index
      vrb VR.index
      vra
      vrb (VR.conScalar (by simp [*]))
      vrm
      vrc
      refine VR.pure fun t ht => ?_
      rcases List.mem_append.mp ht with ht | ht
      · exact hx t ht
      · rw [List.mem_singleton.mp ht]; assumption)
  intro ts hts
  exact VR.con hts

theorem VR.vectorSum {vs : List Var} (h : ∀ v ∈ vs, v.InRange N M) (n : ℕ) : VR env N M (vectorSumConstraints vs n : Prog F C rnd _) fun _ => True := by
  refine VR.con ?_
  rw [within_ofTerms]
  intro t ht
  rcases List.mem_cons.mp ht with rfl | ht
  · trivial
  · obtain ⟨v, hv, rfl⟩ := List.mem_map.mp ht
    exact h v hv

theorem VR.hamming {os : List (Alloc F)} {new : List F} {count : ℕ} : VR env N M (hammingDistanceGadget os new count : Prog F C rnd _) fun _ => True := by
  unfold hammingDistanceGadget
  split
  · exact VR.err
  apply VR.bind (VR.forN (fun vs => ∀ v ∈ vs, v.InRange N M) (by simp) fun i x hx => by
      unfold hammingBody
      vrb VR.index
      vrb VR.index
      vrb VR.eval
      apply VR.bind VR.allocSingle
      rintro ⟨w, _⟩ ⟨hw, -⟩
      apply VR.bind VR.allocSingle
      rintro ⟨_, o⟩ ⟨-, ho⟩
      dsimp only at *
      apply VR.bind (VR.unwrap ho)
      intro y hy
      vrm
      vrc
      refine VR.pure fun v hv => ?_
      rcases List.mem_append.mp hv with hv | hv
      · exact hx v hv
      · rw [List.mem_singleton.mp hv]; assumption)
  intro vs hvs
  exact VR.vectorSum hvs _

theorem VR.mimc {l r : Alloc F} {rounds : ℕ} {cs : List F} {image : F} (hl : l.var.InRange N M) (hr : r.var.InRange N M) : VR env N M (mimcGadget l r rounds cs image : Prog F C rnd _) fun _ => True := by
  unfold mimcGadget
  apply VR.bind (show VR env N M (enforceMimc2Inputs (LC.ofVar l.var) (LC.ofVar r.var) rounds cs : Prog F C rnd _) fun x => x.Within N M by
      unfold enforceMimc2Inputs
      apply VR.bind (VR.forN (fun st => st.1.Within N M ∧ st.2.Within N M) (by simp [*]) fun i x hx => by
          obtain ⟨h1, h2⟩ := hx
          unfold mimcBody
          vrb VR.index
          dsimp only
          vrm
          vrm
          exact VR.pure (by simp [*]))
      intro st hst
      exact VR.pure hst.1)
  intro x hx
  exact VR.conScalar hx

theorem VR.multiplyOn : ∀ (vs : List Var) (o : Var), (∀ v ∈ vs, v.InRange N M) → o.InRange N M → VR env N M (multiplyOn o vs : Prog F C rnd _) fun o => o.InRange N M
  | [], _, _, h => VR.pure h
  | v :: vs, o, hv, h => by
    have := hv v List.mem_cons_self
    unfold Bp.multiplyOn
    vrm
    exact VR.multiplyOn vs _ (fun v hm => hv v (List.mem_cons_of_mem _ hm)) (by assumption)

theorem VR.factors {v w : Var} {vs : List Var} {r : F} (hv : v.InRange N M) (hw : w.InRange N M) (hs : ∀ v ∈ vs, v.InRange N M) : VR env N M (factorsGadget v w vs r : Prog F C rnd _) fun _ => True := by
  unfold factorsGadget
  vrm
  apply VR.bind (VR.multiplyOn vs _ hs (by assumption))
  intro o ho
  exact VR.con (by simp [*])

/-! ## Poseidon -/

theorem VR.synthesize (sbox : SboxType) (l : LC F) (k : F) (hl : l.Within N M) : VR env N M (sbox.synthesize l k : Prog F C rnd _) fun v => v.InRange N M := by
  cases sbox with
  | cube =>
    unfold SboxType.synthesize synthesizeCube
    dsimp only
    vrm
    vrm
    exact VR.pure (by assumption)
  | quint =>
    unfold SboxType.synthesize synthesizeQuint
    dsimp only
    vrm
    vrm
    vrm
    exact VR.pure (by assumption)
  | inverse =>
    unfold SboxType.synthesize synthesizeInverse
    vrb VR.eval
    apply VR.bind VR.allocSingle
    rintro ⟨w, _⟩ ⟨hw, -⟩
    apply VR.bind VR.allocSingle
    rintro ⟨w', o⟩ ⟨hw', ho⟩
    dsimp only at *
    vrb (VR.isNonzero hw hw')
    apply VR.bind (VR.unwrap ho)
    intro y hy
    vrb (VR.conScalar (by simp [*]))
    exact VR.pure hw'

section poseidon
variable {synth : LC F → F → Prog F C rnd Var}

theorem VR.sboxLayer (hs : ∀ l k, l.Within N M → VR env N M (synth l k) fun v => v.InRange N M) (keys : List F) : ∀ (xs : List (LC F)) (off : ℕ), (∀ x ∈ xs, x.Within N M) → VR env N M (sboxLayerC synth keys xs off) fun ys => ∀ y ∈ ys, y.Within N M
  | [], _, _ => VR.pure (by simp)
  | x :: xs, off, h => by
    unfold sboxLayerC
    vrb VR.index
    apply VR.bind (hs x _ (h x List.mem_cons_self))
    intro v hv
    apply VR.bind (VR.sboxLayer hs keys xs (off + 1) fun x hm => h x (List.mem_cons_of_mem _ hm))
    intro ys hy
    exact VR.pure (by simpa [hv] using hy)

theorem VR.partialLayer (hs : ∀ l k, l.Within N M → VR env N M (synth l k) fun v => v.InRange N M) (keys : List F) : ∀ (xs : List (LC F)) (off : ℕ), (∀ x ∈ xs, x.Within N M) → VR env N M (partialLayerC synth keys xs off) fun ys => ∀ y ∈ ys, y.Within N M
  | [], _, _ => VR.pure (by simp)
  | [x], off, h => by
    unfold partialLayerC
    vrb VR.index
    apply VR.bind (hs x _ (h x List.mem_cons_self))
    intro v hv
    exact VR.pure (by simpa using hv)
  | x :: x' :: xs, off, h => by
    unfold partialLayerC
    vrb VR.index
    apply VR.bind (VR.partialLayer hs keys (x' :: xs) (off + 1) fun x hm => h x (List.mem_cons_of_mem _ hm))
    intro ys hy
    exact VR.pure (by simpa [h x List.mem_cons_self] using hy)

theorem VR.mdsColumn {mds : List (List F)} {i : ℕ} : ∀ (xs : List (LC F)) (j : ℕ) (acc : LC F), (∀ x ∈ xs, x.Within N M) → acc.Within N M → VR env N M (mdsColumnC mds i j xs acc : Prog F C rnd _) fun l => l.Within N M
  | [], _, _, _, h => VR.pure h
  | x :: xs, _, _, h, ha => VR.bind VR.index fun _ _ => VR.bind VR.index fun _ _ => VR.mdsColumn xs _ _ (fun x hm => h x (List.mem_cons_of_mem _ hm)) (within_add.mpr ⟨ha, within_smul.mpr (h x List.mem_cons_self)⟩)

theorem VR.linearColumns {mds : List (List F)} {st : List (LC F)} (h : ∀ x ∈ st, x.Within N M) : ∀ (n i : ℕ), VR env N M (linearColumnsC mds st i n : Prog F C rnd _) fun ys => ∀ y ∈ ys, y.Within N M
  | 0, _ => VR.pure (by simp)
  | n + 1, i => VR.bind (VR.mdsColumn st 0 _ h within_empty) fun y hy => VR.bind (VR.linearColumns h n (i + 1)) fun _ hys => VR.pure (by simpa [hy] using hys)

theorem VR.simplifyAll : ∀ xs : List (LC F), (∀ x ∈ xs, x.Within N M) → VR env N M (simplifyAll xs : Prog F C rnd _) fun ys => ∀ y ∈ ys, y.Within N M
  | [], _ => VR.pure (by simp)
  | x :: xs, h => VR.bind (VR.simp (h x List.mem_cons_self)) fun y hy => VR.bind (VR.simplifyAll xs fun x hm => h x (List.mem_cons_of_mem _ hm)) fun _ hys => VR.pure (by simpa [hy] using hys)

theorem VR.permRounds {layer : List (LC F) → ℕ → Prog F C rnd (List (LC F))} {post : List (LC F) → Prog F C rnd (List (LC F))} {w : ℕ} {mds : List (List F)}
    (hl : ∀ st off, (∀ x ∈ st, x.Within N M) → VR env N M (layer st off) fun ys => ∀ y ∈ ys, y.Within N M) (hp : ∀ st, (∀ x ∈ st, x.Within N M) → VR env N M (post st) fun ys => ∀ y ∈ ys, y.Within N M) :
    ∀ (n : ℕ) (st : List (LC F)) (off : ℕ), (∀ x ∈ st, x.Within N M) → VR env N M (permRoundsC layer post mds w n st off) fun y => ∀ x ∈ y.1, x.Within N M
  | 0, _, _, h => VR.pure h
  | n + 1, st, off, h => VR.bind (hl st off h) fun _ hx => VR.bind (VR.linearColumns hx _ 0) fun y hy => VR.bind (hp y hy) fun z hz => VR.permRounds hl hp n z _ hz

theorem VR.hash (hs : ∀ l k, l.Within N M → VR env N M (synth l k) fun v => v.InRange N M) {p : PoseidonParams F} {input : List (LC F)} (hi : ∀ x ∈ input, x.Within N M) : VR env N M (hashConstraints synth p input) fun l => l.Within N M := by
  have key : VR env N M (permConstraintsWith synth p input) fun ys => ∀ y ∈ ys, y.Within N M := by
    unfold permConstraintsWith
    split
    · exact VR.panic
    have hpost : ∀ st : List (LC F), (∀ x ∈ st, x.Within N M) → VR env N M (Pure.pure st : Prog F C rnd _) fun ys => ∀ y ∈ ys, y.Within N M := fun st h => VR.pure h
    exact VR.bind (VR.permRounds (fun st off => VR.sboxLayer hs _ st off) hpost _ _ _ hi) fun ⟨st1, o1⟩ h1 => VR.bind (VR.permRounds (fun st off => VR.partialLayer hs _ st off) VR.simplifyAll _ st1 o1 h1) fun ⟨st2, o2⟩ h2 =>
      VR.bind (VR.permRounds (fun st off => VR.sboxLayer hs _ st off) hpost _ st2 o2 h2) fun ⟨st3, o3⟩ h3 => VR.pure h3
  exact VR.bind key fun ys hy => VR.index.mono hy

theorem VR.hash2 (hs : ∀ l k, l.Within N M → VR env N M (synth l k) fun v => v.InRange N M) {p : PoseidonParams F} {xl xr : LC F} {statics : List (LC F)} (hl : xl.Within N M) (hr : xr.Within N M) (hz : ∀ x ∈ statics, x.Within N M) :
    VR env N M (poseidonHash2Constraints xl xr statics p synth) fun l => l.Within N M := by
  unfold poseidonHash2Constraints
  split
  · exact VR.panic
  cases statics with
  | nil => exact VR.panic
  | cons z zs =>
    refine VR.hash hs fun x hx => ?_
    simp only [List.mem_append, List.mem_cons, List.not_mem_nil, or_false] at hx
    rcases hx with (rfl | rfl | rfl) | hx
    · exact hz _ List.mem_cons_self
    · exact hl
    · exact hr
    · exact hz x (List.mem_cons_of_mem _ hx)

theorem VR.hash4 (hs : ∀ l k, l.Within N M → VR env N M (synth l k) fun v => v.InRange N M) {p : PoseidonParams F} {inputs statics : List (LC F)} (hi : ∀ x ∈ inputs, x.Within N M) (hz : ∀ x ∈ statics, x.Within N M) :
    VR env N M (poseidonHash4Constraints inputs statics p synth) fun l => l.Within N M := by
  unfold poseidonHash4Constraints
  split
  · exact VR.panic
  split
  · exact VR.panic
  cases statics with
  | nil => exact VR.panic
  | cons z zs =>
    refine VR.hash hs fun x hx => ?_
    simp only [List.mem_append, List.cons_append, List.mem_cons] at hx
    rcases hx with rfl | hx | hx
    · exact hz _ List.mem_cons_self
    · exact hi x hx
    · exact hz x (List.mem_cons_of_mem _ hx)

theorem VR.hash8 (hs : ∀ l k, l.Within N M → VR env N M (synth l k) fun v => v.InRange N M) {p : PoseidonParams F} {inputs : List (LC F)} {z : LC F} (hi : ∀ x ∈ inputs, x.Within N M) (hz : z.Within N M) :
    VR env N M (poseidonHash8Constraints inputs z p synth) fun l => l.Within N M := by
  unfold poseidonHash8Constraints
  split
  · exact VR.panic
  refine VR.hash hs fun x hx => ?_
  rcases List.mem_cons.mp hx with rfl | hx
  · exact hz
  · exact hi x hx

theorem within_map {vs : List Var} (h : ∀ v ∈ vs, v.InRange N M) : ∀ x ∈ vs.map (LC.ofVar : Var → LC F), x.Within N M := fun x hx => by
  obtain ⟨v, hv, rfl⟩ := List.mem_map.mp hx
  exact within_ofVar.mpr (h v hv)

theorem VR.hash2Call (hs : ∀ l k, l.Within N M → VR env N M (synth l k) fun v => v.InRange N M) {p : PoseidonParams F} {output : F} {vars statics : List Var} (hv : ∀ v ∈ vars, v.InRange N M) (hz : ∀ v ∈ statics, v.InRange N M) :
    VR env N M (hash2Call p synth output vars statics) fun _ => True := by
  unfold Bp.hash2Call
  split
  · rename_i a b
    exact VR.bind (VR.hash2 hs (within_ofVar.mpr (hv a (by simp))) (within_ofVar.mpr (hv b (by simp))) (within_map hz)) fun _ h => VR.conScalar h
  · exact VR.panic

theorem VR.hash4Call (hs : ∀ l k, l.Within N M → VR env N M (synth l k) fun v => v.InRange N M) {p : PoseidonParams F} {output : F} {vars statics : List Var} (hv : ∀ v ∈ vars, v.InRange N M) (hz : ∀ v ∈ statics, v.InRange N M) :
    VR env N M (hash4Call p synth output vars statics) fun _ => True := by
  unfold Bp.hash4Call poseidonHash4Gadget
  split
  · exact VR.panic
  exact VR.bind (VR.hash4 hs (within_map hv) (within_map hz)) fun _ h => VR.conScalar h

theorem VR.hash8Call (hs : ∀ l k, l.Within N M → VR env N M (synth l k) fun v => v.InRange N M) {p : PoseidonParams F} {output : F} {vars statics : List Var} (hv : ∀ v ∈ vars, v.InRange N M) (hz : ∀ v ∈ statics, v.InRange N M) :
    VR env N M (hash8Call p synth output vars statics) fun _ => True := by
  unfold Bp.hash8Call
  split
  · rename_i z
    unfold poseidonHash8Gadget
    split
    · exact VR.panic
    exact VR.bind (VR.hash8 hs (within_map hv) (within_ofVar.mpr (hz z (by simp)))) fun _ h => VR.conScalar h
  · exact VR.panic

end poseidon

/-! ## Merkle paths -/

theorem VR.popNodes {n : ℕ} {nodes : List Var} (h : ∀ v ∈ nodes, v.InRange N M) : VR env N M (popNodes n nodes : Prog F C rnd _) fun q => (∀ v ∈ q.1, v.InRange N M) ∧ ∀ v ∈ q.2, v.InRange N M := by
  unfold Bp.popNodes
  split
  · exact VR.panic
  · exact VR.pure ⟨fun v hv => h v (List.mem_of_mem_take hv), fun v hv => h v (List.mem_of_mem_drop hv)⟩

theorem VR.allocBit {bit : Option ℕ} : VR env N M (allocBit bit : Prog F C rnd _) fun q => q.1.InRange N M ∧ q.2.InRange N M := by
  unfold Bp.allocBit
  vra
  vrc
  vrc
  exact VR.pure (by simp [*])

theorem VR.select4 {b0 b0_1 b1 b1_1 : Var} {a a1 a2 a3 : LC F} (h0 : b0.InRange N M) (h1 : b0_1.InRange N M) (h2 : b1.InRange N M) (h3 : b1_1.InRange N M) (k0 : a.Within N M) (k1 : a1.Within N M) (k2 : a2.Within N M)
    (k3 : a3.Within N M) : VR env N M (select4 b0 b0_1 b1 b1_1 a a1 a2 a3 : Prog F C rnd _) fun l => ∀ x ∈ l, x.Within N M := by
  unfold Bp.select4
  dsimp only
  iterate 11 vrm
  exact VR.pure (by simp [*])

theorem VR.select8 {b0 b0_1 b1 b1_1 b2 b2_1 : Var} {a a1 a2 a3 a4 a5 a6 a7 : LC F} (h0 : b0.InRange N M) (h1 : b0_1.InRange N M) (h2 : b1.InRange N M) (h3 : b1_1.InRange N M) (h4 : b2.InRange N M) (h5 : b2_1.InRange N M)
    (k0 : a.Within N M) (k1 : a1.Within N M) (k2 : a2.Within N M) (k3 : a3.Within N M) (k4 : a4.Within N M) (k5 : a5.Within N M) (k6 : a6.Within N M) (k7 : a7.Within N M) :
    VR env N M (select8 b0 b0_1 b1 b1_1 b2 b2_1 a a1 a2 a3 a4 a5 a6 a7 : Prog F C rnd _) fun l => ∀ x ∈ l, x.Within N M := by
  unfold Bp.select8
  dsimp only
  iterate 31 vrm
  exact VR.pure (by simp [*])

/-- The variables of the loop are in range. -/
structure MerkleState.Within (N M : ℕ) (st : MerkleState F) : Prop where
  nodes : ∀ v ∈ st.nodes, v.InRange N M
  prev : st.prev.Within N M
  terms : ∀ t ∈ st.terms, t.1.InRange N M

section merkle
variable {synth : LC F → F → Prog F C rnd Var}

theorem VR.level4 (hs : ∀ l k, l.Within N M → VR env N M (synth l k) fun v => v.InRange N M) {bits : Option (ℕ × ℕ)} {statics : List (LC F)} (hz : ∀ x ∈ statics, x.Within N M) {p : PoseidonParams F} {st : MerkleState F}
    (h : st.Within N M) : VR env N M (merkleLevel4 bits statics p synth st) fun st' => st'.Within N M := by
  unfold merkleLevel4
  apply VR.bind VR.allocBit
  rintro ⟨b0, b0_1⟩ ⟨h0, h0'⟩
  apply VR.bind VR.allocBit
  rintro ⟨b1, b1_1⟩ ⟨h1, h1'⟩
  dsimp only at *
  apply VR.bind (VR.popNodes h.nodes)
  rintro ⟨rest, popped⟩ ⟨k1, k2⟩
  dsimp only at *
  split
  · simp only [List.mem_cons, List.not_mem_nil, or_false, forall_eq_or_imp, forall_eq] at k2
    apply VR.bind (VR.select4 h0 h0' h1 h1' h.prev (within_ofVar.mpr k2.1) (within_ofVar.mpr k2.2.1) (within_ofVar.mpr k2.2.2))
    intro l hl
    apply VR.bind (VR.hash4 hs hl hz)
    intro x hx
    apply VR.bind (VR.simp hx)
    intro y hy
    refine VR.pure ⟨k1, hy, fun t ht => ?_⟩
    simp only [List.mem_append, List.mem_singleton] at ht
    rcases ht with (ht | rfl) | rfl
    · exact h.terms t ht
    · exact h1
    · exact h0
  · exact VR.panic

theorem VR.level8 (hs : ∀ l k, l.Within N M → VR env N M (synth l k) fun v => v.InRange N M) {bits : Option (ℕ × ℕ × ℕ)} {z : LC F} (hz : z.Within N M) {p : PoseidonParams F} {st : MerkleState F}
    (h : st.Within N M) : VR env N M (merkleLevel8 bits z p synth st) fun st' => st'.Within N M := by
  unfold merkleLevel8
  apply VR.bind VR.allocBit
  rintro ⟨b0, b0_1⟩ ⟨h0, h0'⟩
  apply VR.bind VR.allocBit
  rintro ⟨b1, b1_1⟩ ⟨h1, h1'⟩
  apply VR.bind VR.allocBit
  rintro ⟨b2, b2_1⟩ ⟨h2, h2'⟩
  dsimp only at *
  apply VR.bind (VR.popNodes h.nodes)
  rintro ⟨rest, popped⟩ ⟨k1, k2⟩
  dsimp only at *
  split
  · simp only [List.mem_cons, List.not_mem_nil, or_false, forall_eq_or_imp, forall_eq] at k2
    obtain ⟨e1, e2, e3, e4, e5, e6, e7⟩ := k2
    apply VR.bind (VR.select8 h0 h0' h1 h1' h2 h2' h.prev (within_ofVar.mpr e1) (within_ofVar.mpr e2) (within_ofVar.mpr e3) (within_ofVar.mpr e4) (within_ofVar.mpr e5) (within_ofVar.mpr e6) (within_ofVar.mpr e7))
    intro l hl
    apply VR.bind (VR.hash8 hs hl hz)
    intro x hx
    apply VR.bind (VR.simp hx)
    intro y hy
    refine VR.pure ⟨k1, hy, fun t ht => ?_⟩
    simp only [List.mem_append, List.mem_singleton] at ht
    rcases ht with ((ht | rfl) | rfl) | rfl
    · exact h.terms t ht
    · exact h0
    · exact h1
    · exact h2
  · exact VR.panic

theorem VR.merkle4 [ByteRep F] (hs : ∀ l k, l.Within N M → VR env N M (synth l k) fun v => v.InRange N M) {depth : ℕ} {root : F} {leaf : Var} {index : Alloc F} {nodes statics : List Var} {p : PoseidonParams F} (hl : leaf.InRange N M)
    (hi : index.var.InRange N M) (hn : ∀ v ∈ nodes, v.InRange N M) (hz : ∀ v ∈ statics, v.InRange N M) : VR env N M (merkleGadget4 depth root leaf index nodes statics p synth) fun _ => True := by
  unfold merkleGadget4
  apply VR.bind (VR.forN (fun st : MerkleState F => st.Within N M) ⟨hn, within_ofVar.mpr hl, by simpa using hi⟩ fun i st hst => VR.forN (fun st : MerkleState F => st.Within N M) hst fun j st hst => by
      split
      · exact VR.pure hst
      · apply VR.bind (show VR env N M (indexBits4 index.assignment i j : Prog F C rnd _) fun _ => True by
          unfold indexBits4
          split
          · exact VR.pure trivial
          · split
            · exact VR.pure trivial
            · exact VR.panic)
        rintro _ -
        exact VR.level4 hs (within_map hz) hst)
  intro st hst
  apply VR.bind (VR.con (within_ofTerms.mpr hst.terms))
  rintro _ -
  exact VR.conScalar hst.prev

theorem VR.merkle8 [ByteRep F] (hs : ∀ l k, l.Within N M → VR env N M (synth l k) fun v => v.InRange N M) {depth : ℕ} {root : F} {leaf : Var} {index : Alloc F} {nodes : List Var} {z : Var} {p : PoseidonParams F} (hl : leaf.InRange N M)
    (hi : index.var.InRange N M) (hn : ∀ v ∈ nodes, v.InRange N M) (hz : z.InRange N M) : VR env N M (merkleGadget8 depth root leaf index nodes z p synth) fun _ => True := by
  unfold merkleGadget8
  apply VR.bind (show VR env N M (indexOctets index.assignment depth : Prog F C rnd _) fun _ => True by
    unfold indexOctets
    split
    · exact VR.pure trivial
    · split
      · exact VR.pure trivial
      · exact VR.panic
      · exact VR.err)
  rintro oc -
  apply VR.bind (VR.forN (fun st : MerkleState F => st.Within N M) ⟨hn, within_ofVar.mpr hl, by simpa using hi⟩ fun j st hst => by
      split
      · exact VR.pure hst
      · apply VR.bind (show VR env N M (octetBits oc j : Prog F C rnd _) fun _ => True by
          unfold octetBits
          split
          · exact VR.pure trivial
          · exact VR.bind VR.index fun _ _ => VR.pure trivial)
        rintro _ -
        exact VR.level8 hs (within_ofVar.mpr hz) hst)
  intro st hst
  apply VR.bind (VR.con (within_ofTerms.mpr hst.terms))
  rintro _ -
  exact VR.conScalar hst.prev

/-! ## Randomizer -/

/-- All nodes in the map are in range. -/
def NodeMap.Within (N M : ℕ) (m : NodeMap F) : Prop := ∀ e ∈ m.map, e.2.Within N M

theorem NodeMap.Within.insert {m : NodeMap F} (h : m.Within N M) (k : List ℕ) {l : LC F} (hl : l.Within N M) : (m.insert k l).Within N M := fun e he => by
  rcases List.mem_cons.mp he with rfl | he
  · exact hl
  · exact h e (List.mem_of_mem_filter he)

theorem NodeMap.Within.index {m : NodeMap F} (h : m.Within N M) {k : List ℕ} {l : LC F} (hk : m.index k = .ok l) : l.Within N M := by
  unfold NodeMap.index NodeMap.get? at hk
  cases hf : m.map.find? fun e => e.1 = k with
  | none => rw [hf] at hk; cases hk
  | some e =>
    rw [hf] at hk
    cases hk
    exact h e (List.mem_of_find?_eq_some hf)

theorem VR.origPath (hs : ∀ l k, l.Within N M → VR env N M (synth l k) fun v => v.InRange N M) {statics : List (LC F)} (hz : ∀ x ∈ statics, x.Within N M) {p : PoseidonParams F} : ∀ (path : List ℕ) (nodes : List Var) (cur : LC F),
    (∀ v ∈ nodes, v.InRange N M) → cur.Within N M → VR env N M (origPath statics p synth path nodes cur) fun l => l.Within N M
  | [], _, _, _, h => VR.pure h
  | pos :: path, nodes, cur, hn, h => by
    unfold Bp.origPath
    apply VR.bind (VR.popNodes hn)
    rintro ⟨rest, popped⟩ ⟨k1, k2⟩
    dsimp only at *
    apply VR.bind VR.ofRes
    intro proof hp
    have hpr : ∀ x ∈ proof, x.Within N M := by
      unfold vecInsert at hp
      split at hp
      · cases hp
        intro x hx
        rcases List.eq_or_mem_of_mem_insertIdx hx with rfl | hx
        · exact h
        · exact within_map k2 x hx
      · cases hp
    apply VR.bind (VR.hash4 hs hpr hz)
    intro l hl
    exact VR.origPath hs hz path rest l k1 hl

theorem within_addChildren (pre : List ℕ) : ∀ (cs : List (F × ℕ)) (m : NodeMap F), m.Within N M → (addChildren pre cs m).Within N M
  | [], _, h => h
  | (c, k) :: cs, m, h => by
    unfold addChildren
    refine within_addChildren pre cs _ ?_
    split
    · exact h
    · exact h.insert _ within_ofScalar

theorem within_addNodes [ByteRep F] (db : HashDb (List F)) : ∀ (path : List ℕ) (cur : F) (pre : List ℕ) (m m' : NodeMap F), m.Within N M → addNodes db path cur pre m = .ok m' → m'.Within N M
  | [], _, _, _, _, h, e => by cases e; exact h
  | pos :: path, cur, pre, m, m', h, e => by
    unfold addNodes at e
    split at e
    · cases e
    · rename_i children _
      cases hi : idx children pos with
      | error _ => rw [hi] at e; cases e
      | ok next =>
        rw [hi] at e
        exact within_addNodes db path next _ _ m' (within_addChildren pre _ m h) e

theorem within_levelSiblings {m : NodeMap F} (h : m.Within N M) (path : List ℕ) (j pj : ℕ) : ∀ (ks : List ℕ) (l : List (LC F)), levelSiblings m path j pj ks = .ok l → ∀ x ∈ l, x.Within N M
  | [], l, e => by cases e; simp
  | k :: ks, l, e => by
    unfold levelSiblings at e
    split at e
    · cases h1 : m.index (path.set j k) with
      | error _ => rw [h1] at e; cases e
      | ok y =>
        rw [h1] at e
        cases h2 : levelSiblings m path j pj ks with
        | error _ => rw [h2] at e; cases e
        | ok ys =>
          rw [h2] at e
          cases e
          intro x hx
          rcases List.mem_cons.mp hx with rfl | hx
          · exact h.index h1
          · exact within_levelSiblings h path j pj ks ys h2 x hx
    · exact within_levelSiblings h path j pj ks l e

theorem VR.updatePath (hs : ∀ l k, l.Within N M → VR env N M (synth l k) fun v => v.InRange N M) {statics : List (LC F)} (hz : ∀ x ∈ statics, x.Within N M) {p : PoseidonParams F} {depth : ℕ} : ∀ (j : ℕ) (path : List ℕ) (lc : LC F)
    (m : NodeMap F), lc.Within N M → m.Within N M → VR env N M (updatePath depth statics p synth j path lc m) fun m => m.Within N M
  | 0, _, _, _, _, h => VR.pure h
  | j + 1, path, lc, m, hl, h => by
    unfold Bp.updatePath
    vrb VR.index
    apply VR.bind VR.ofRes
    intro sib hsib
    have h1 := within_levelSiblings h _ _ _ _ _ hsib
    apply VR.bind VR.ofRes
    intro nodes hn
    have h2 : ∀ x ∈ nodes, x.Within N M := by
      unfold vecInsert at hn
      split at hn
      · cases hn
        intro x hx
        rcases List.eq_or_mem_of_mem_insertIdx hx with rfl | hx
        · exact hl
        · exact h1 x hx
      · cases hn
    apply VR.bind (VR.hash4 hs h2 hz)
    intro y hy
    refine VR.updatePath hs hz j _ y _ hy (NodeMap.Within.insert ?_ _ hy)
    split
    · exact h.insert _ hl
    · exact h

theorem VR.origLoop [ByteRep F] (hs : ∀ l k, l.Within N M → VR env N M (synth l k) fun v => v.InRange N M) {statics : List (LC F)} (hz : ∀ x ∈ statics, x.Within N M) {p : PoseidonParams F} {depth : ℕ} {origRoot : Var} {newRoot : F}
    {db : HashDb (List F)} (hr : origRoot.InRange N M) : ∀ (is : List F) (vs : List Var) (proofs : List (List Var)) (m : NodeMap F), (∀ v ∈ vs, v.InRange N M) → (∀ l ∈ proofs, ∀ v ∈ l, v.InRange N M) → m.Within N M →
    VR env N M (origLoop depth origRoot newRoot db statics p synth is vs proofs m) fun m => m.Within N M
  | i :: is, v :: vs, nodes :: proofs, m, hv, hp, h => by
    unfold Bp.origLoop
    apply VR.bind VR.ofRes
    rintro path -
    apply VR.bind (VR.origPath hs hz _ nodes _ (hp nodes List.mem_cons_self) (within_ofVar.mpr (hv v List.mem_cons_self)))
    intro l hl
    vrc
    apply VR.bind VR.ofRes
    intro m' hm'
    exact VR.origLoop hs hz hr is vs proofs m' (fun v hm => hv v (List.mem_cons_of_mem _ hm)) (fun v hm => hp v (List.mem_cons_of_mem _ hm)) (within_addNodes _ _ _ _ _ _ h hm')
  | [], _, _, m, _, _, h => by
    unfold Bp.origLoop
    exact VR.pure h
  | _ :: _, [], _, m, _, _, h => by
    unfold Bp.origLoop
    exact VR.panic
  | _ :: _, _ :: _, [], m, _, _, h => by
    unfold Bp.origLoop
    exact VR.panic

theorem VR.updateLoop [ByteRep F] (hs : ∀ l k, l.Within N M → VR env N M (synth l k) fun v => v.InRange N M) {statics : List (LC F)} (hz : ∀ x ∈ statics, x.Within N M) {p : PoseidonParams F} {depth : ℕ} : ∀ (is : List F) (vs : List Var)
    (m : NodeMap F), (∀ v ∈ vs, v.InRange N M) → m.Within N M → VR env N M (updateLoop4 depth statics p synth is vs m) fun m => m.Within N M
  | i :: is, v :: vs, m, hv, h => by
    unfold updateLoop4
    apply VR.bind VR.ofRes
    rintro path -
    apply VR.bind (VR.updatePath hs hz depth path _ m (within_ofVar.mpr (hv v List.mem_cons_self)) h)
    intro m' hm'
    exact VR.updateLoop hs hz is vs m' (fun v hm => hv v (List.mem_cons_of_mem _ hm)) hm'
  | [], _, m, _, h => by
    unfold updateLoop4
    exact VR.pure h
  | _ :: _, [], m, _, h => by
    unfold updateLoop4
    exact VR.panic

theorem VR.randomizer [ByteRep F] (hs : ∀ l k, l.Within N M → VR env N M (synth l k) fun v => v.InRange N M) {p : PoseidonParams F} {depth : ℕ} {origRoot : Var} {t : SparseTree F} {db : HashDb (List F)} {indices : List F}
    {vs : List Var} {proofs : List (List Var)} {statics : List Var} (hr : origRoot.InRange N M) (hv : ∀ v ∈ vs, v.InRange N M) (hp : ∀ l ∈ proofs, ∀ v ∈ l, v.InRange N M) (hz : ∀ v ∈ statics, v.InRange N M) :
    VR env N M (randomizerGadget depth origRoot t db indices vs proofs statics p synth) fun _ => True := by
  unfold randomizerGadget
  split
  · exact VR.panic
  split
  · exact VR.panic
  have h0 : (NodeMap.mk [] : NodeMap F).Within N M := fun e he => by simp at he
  apply VR.bind (VR.origLoop hs (within_map hz) hr indices vs proofs _ hv hp (h0.insert _ within_ofScalar))
  intro m hm
  apply VR.bind (VR.updateLoop hs (within_map hz) indices vs m hv hm)
  intro m' hm'
  apply VR.bind VR.ofRes
  intro r hr'
  have := hm'.index hr'
  exact VR.con (by simp [*])

end merkle
end Bp
