import Verif.Lemmas.Gadgets.Range
import Verif.Lemmas.Lockstep
import Verif.Lemmas.CS

set_option linter.unusedSectionVars false
set_option linter.unusedSimpArgs false

/-! # Gadgets use only variables that have been handed out before -/

namespace Bp
variable {F G : Type} [Field F] [AddCommGroup G] [Module F G]
variable {C : Type} {rnd : Bool} {α β : Type}

/-- From a state with `n` gates and the half-allocated gate `q` on: as long as there are no more than `N` gates, all linear combinations handed to the constraint system have variables below `N` and `M` only, and the result satisfies `Q`. -/
def Prog.Scoped (N M : ℕ) (Q : α → Prop) : Prog F C rnd α → ℕ → Option ℕ → Prop
  | .ret a, _, _ => Q a
  | .err _, _, _ => True
  | .panic _, _, _ => True
  | .multiply l r k, n, q => l.Within N M ∧ r.Within N M ∧ (n < N → Scoped N M Q (k (.left n, .right n, .out n)) (n + 1) q)
  | .allocate _ k, n, none => n < N → Scoped N M Q (k (.ok (.left n))) (n + 1) (some n)
  | .allocate _ k, n, some i => Scoped N M Q (k (.ok (.right i))) n none
  | .allocateMultiplier _ k, n, q => n < N → Scoped N M Q (k (.ok (.left n, .right n, .out n))) (n + 1) q
  | .constrain l k, n, q => l.Within N M ∧ Scoped N M Q k n q
  | .specify _ k, n, q => Scoped N M Q k n q
  | .evaluateLc l k, n, q => l.Within N M ∧ ∀ x, Scoped N M Q (k x) n q
  | .allocateSingle _ k, n, none => n < N → Scoped N M Q (k (.ok (.left n, none))) (n + 1) (some n)
  | .allocateSingle _ k, n, some i => Scoped N M Q (k (.ok (.right i, some (.out i)))) n none
  | .challenge _ _ k, n, q => ∀ c, Scoped N M Q (k c) n q
  | .simplify l k, n, q => l.Within N M ∧ ∀ m, m.Within N M → Scoped N M Q (k m) n q

/-- `c` can be started at any time. -/
def SC (N M : ℕ) (c : Prog F C rnd α) (Q : α → Prop) : Prop := ∀ n q, (∀ i, q = some i → i < N) → c.Scoped N M Q n q

variable {N M : ℕ}

theorem Prog.Scoped.bind {c : Prog F C rnd α} {f : α → Prog F C rnd β} {Q : α → Prop} {R : β → Prop} (h2 : ∀ x, Q x → SC N M (f x) R) : ∀ n q, (∀ i, q = some i → i < N) → c.Scoped N M Q n q → (c.bind f).Scoped N M R n q := by
  induction c with
  | ret a => intro n q hq h; exact h2 a h n q hq
  | err e => intro n q hq h; trivial
  | panic w => intro n q hq h; trivial
  | multiply l r k ih => intro n q hq h; exact ⟨h.1, h.2.1, fun hn => ih _ _ _ hq (h.2.2 hn)⟩
  | allocate a k ih =>
    intro n q hq h
    cases q with
    | none => exact fun hn => ih _ _ _ (fun i e => by cases e; exact hn) (h hn)
    | some i => exact ih _ _ _ (fun i e => by cases e) h
  | allocateMultiplier a k ih => intro n q hq h; exact fun hn => ih _ _ _ hq (h hn)
  | constrain l k ih => intro n q hq h; exact ⟨h.1, ih _ _ hq h.2⟩
  | specify cb k ih => intro n q hq h; exact ih _ _ hq h
  | evaluateLc l k ih => intro n q hq h; exact ⟨h.1, fun x => ih _ _ _ hq (h.2 x)⟩
  | allocateSingle a k ih =>
    intro n q hq h
    cases q with
    | none => exact fun hn => ih _ _ _ (fun i e => by cases e; exact hn) (h hn)
    | some i => exact ih _ _ _ (fun i e => by cases e) h
  | challenge _ l k ih => intro n q hq h; exact fun c => ih _ _ _ hq (h c)
  | simplify l k ih => intro n q hq h; exact ⟨h.1, fun m hm => ih _ _ _ hq (h.2 m hm)⟩

theorem SC.bind {c : Prog F C rnd α} {f : α → Prog F C rnd β} {Q : α → Prop} {R : β → Prop} (h1 : SC N M c Q) (h2 : ∀ x, Q x → SC N M (f x) R) : SC N M (c >>= f) R := fun n q hq => Prog.Scoped.bind h2 n q hq (h1 n q hq)
theorem Prog.bind_ret (c : Prog F C rnd α) : c.bind .ret = c := by
  induction c with
  | ret a => rfl
  | err e => rfl
  | panic w => rfl
  | multiply l r k ih => exact congrArg _ (funext ih)
  | allocate a k ih => exact congrArg _ (funext ih)
  | allocateMultiplier a k ih => exact congrArg _ (funext ih)
  | constrain l k ih => exact congrArg _ ih
  | specify cb k ih => exact congrArg _ ih
  | evaluateLc l k ih => exact congrArg _ (funext ih)
  | allocateSingle a k ih => exact congrArg _ (funext ih)
  | challenge _ l k ih => exact congrArg _ (funext ih)
  | simplify l k ih => exact congrArg _ (funext ih)
theorem SC.mono {c : Prog F C rnd α} {Q R : α → Prop} (h : SC N M c Q) (hQ : ∀ x, Q x → R x) : SC N M c R := by
  have := SC.bind h fun x hx => (show SC N M (.ret x : Prog F C rnd α) R from fun _ _ _ => hQ x hx)
  rwa [Prog.bind_eq, Prog.bind_ret] at this
theorem SC.ret {x : α} {Q : α → Prop} (h : Q x) : SC N M (.ret x : Prog F C rnd α) Q := fun _ _ _ => h
theorem SC.pure {x : α} {Q : α → Prop} (h : Q x) : SC N M (pure x : Prog F C rnd α) Q := SC.ret h
theorem SC.err {e : R1CSError} {Q : α → Prop} : SC N M (.err e : Prog F C rnd α) Q := fun _ _ _ => trivial
theorem SC.panic {w : String} {Q : α → Prop} : SC N M (.panic w : Prog F C rnd α) Q := fun _ _ _ => trivial
theorem SC.con {l : LC F} (h : l.Within N M) : SC N M (Prog.con l : Prog F C rnd _) fun _ => True := fun _ _ _ => ⟨h, trivial⟩
theorem SC.conScalar {l : LC F} {x : F} (h : l.Within N M) : SC N M (constrainLcWithScalar l x : Prog F C rnd _) fun _ => True := SC.con (by simpa using h)
theorem SC.mul {l r : LC F} (hl : l.Within N M) (hr : r.Within N M) : SC N M (Prog.mul l r : Prog F C rnd _) fun q => q.1.InRange N M ∧ q.2.1.InRange N M ∧ q.2.2.InRange N M := fun _ _ _ => ⟨hl, hr, fun hn => ⟨hn, hn, hn⟩⟩
theorem SC.allocMul {x : Option (F × F)} : SC N M (Prog.allocMul x : Prog F C rnd _) fun q => q.1.InRange N M ∧ q.2.1.InRange N M ∧ q.2.2.InRange N M := fun _ _ _ hn => ⟨hn, hn, hn⟩
theorem SC.eval {l : LC F} (h : l.Within N M) : SC N M (Prog.eval l : Prog F C rnd _) fun _ => True := fun _ _ _ => ⟨h, fun _ => trivial⟩
theorem SC.simp {l : LC F} (h : l.Within N M) : SC N M (Prog.simp l : Prog F C rnd _) fun l' => l'.Within N M := fun _ _ _ => ⟨h, fun _ hm => hm⟩
theorem SC.unwrap {x : Option α} {Q : α → Prop} (h : ∀ y, x = some y → Q y) : SC N M (Prog.unwrap x : Prog F C rnd _) Q := by
  cases x with
  | none => exact SC.panic
  | some x => exact SC.ret (h x rfl)
theorem SC.index {xs : List α} {i : ℕ} : SC N M (Prog.index xs i : Prog F C rnd _) fun x => x ∈ xs := by
  unfold Prog.index
  cases h : xs[i]? with
  | none => exact SC.panic
  | some x => exact SC.ret (List.mem_of_getElem? h)
theorem SC.ofRes {x : Res α} : SC N M (Prog.ofRes x : Prog F C rnd _) fun y => x = .ok y := by
  cases x with
  | ok y => exact SC.ret rfl
  | error e => cases e with
    | err e => exact SC.err
    | panic w => exact SC.panic
theorem SC.allocSingle {x : Option F} : SC N M (Prog.allocSingle x : Prog F C rnd _) fun y => y.1.InRange N M ∧ ∀ o, y.2 = some o → o.InRange N M := by
  intro n q hq
  cases q with
  | none => exact fun hn => ⟨hn, fun o h => by cases h⟩
  | some i =>
    have hlt : i < N := hq i rfl
    exact ⟨hlt, fun o h => by cases h; exact hlt⟩

theorem SC.loop {body : ℕ → β → Prog F C rnd β} {Q : β → Prop} : ∀ (n i : ℕ) (x : β), Q x → (∀ j x, Q x → SC N M (body j x) Q) → SC N M (Prog.loop body i n x) Q
  | 0, _, _, h, _ => SC.ret h
  | n + 1, i, x, h, hb => SC.bind (hb i x h) fun y hy => SC.loop n (i + 1) y hy hb

theorem SC.forN {body : ℕ → β → Prog F C rnd β} {n : ℕ} {x : β} (Q : β → Prop) (h : Q x) (hb : ∀ j x, Q x → SC N M (body j x) Q) : SC N M (Prog.forN n x body) Q := SC.loop n 0 x h hb

/-- A step with a result that says nothing. -/
macro "scb " t:term : tactic => `(tactic| (apply SC.bind $t; rintro _ -))
/-- A multiplication. -/
macro "scm" : tactic => `(tactic| (apply SC.bind (SC.mul (by simp [*]) (by simp [*])); rintro ⟨_, _, _⟩ ⟨_, _, _⟩; dsimp only at *))
/-- An allocated gate. -/
macro "sca" : tactic => `(tactic| (apply SC.bind SC.allocMul; rintro ⟨_, _, _⟩ ⟨_, _, _⟩; dsimp only at *))
/-- A constraint. -/
macro "scc" : tactic => `(tactic| (apply SC.bind (SC.con (by simp [*])); rintro _ -))

/-! ## Simple gadgets -/

theorem SC.bitGadget {v : Alloc F} (h : v.var.InRange N M) : SC N M (bitGadget v : Prog F C rnd _) fun _ => True := by
  unfold Bp.bitGadget
  sca
  scc
  scc
  exact SC.con (by simp [*])

theorem SC.positiveNo [IntRep F] {v : Alloc F} (h : v.var.InRange N M) (n : ℕ) : SC N M (positiveNoGadget v n : Prog F C rnd _) fun _ => True := by
  unfold positiveNoGadget
  apply SC.bind (SC.forN (fun st => ∀ t ∈ st.1, t.1.InRange N M) (by simpa using h) fun i x hx => by
      unfold positiveNoBody
      sca
      scc
      scc
      refine SC.pure fun t ht => ?_
      rcases List.mem_append.mp ht with ht | ht
      · exact hx t ht
      · rw [List.mem_singleton.mp ht]; assumption)
  intro st hst
  exact SC.con hst

theorem SC.isNonzero {x y : Var} (hx : x.InRange N M) (hy : y.InRange N M) : SC N M (isNonzeroGadget x y : Prog F C rnd _) fun _ => True := by
  unfold isNonzeroGadget
  dsimp only
  scm
  scc
  scm
  exact SC.con (by simp [*])

theorem SC.boundCheck [IntRep F] {debug : Bool} {v a b : Alloc F} {max min : ℕ} (n : ℕ) (hv : v.var.InRange N M) (ha : a.var.InRange N M) (hb : b.var.InRange N M) :
    SC N M (boundCheckGadget debug v a b max min n : Prog F C rnd _) fun _ => True := by
  unfold boundCheckGadget
  scc
  scc
  scb SC.ofRes
  scb (SC.conScalar (by simp [*]))
  scb (SC.positiveNo ha n)
  exact SC.positiveNo hb n

theorem SC.setMembership {v : Alloc F} {ds : List (Alloc F)} {set : List F} (hv : v.var.InRange N M) (hd : ∀ d ∈ ds, d.var.InRange N M) : SC N M (setMembershipGadget v ds set : Prog F C rnd _) fun _ => True := by
  unfold setMembershipGadget
  apply SC.bind (SC.forN (fun l => l.Within N M) (by simp) fun i x hx => by
      unfold setMembershipBody
      apply SC.bind SC.index
      intro d hmem
      have := hd d hmem
      scb SC.index
      scb (SC.conScalar (by simp [*]))
      scm
      exact SC.pure (by simp [*]))
  intro l hl
  exact SC.con hl

theorem SC.setNonMembership {v : Alloc F} {ds is : List (Alloc F)} {set : List F} (hv : v.var.InRange N M) (hd : ∀ d ∈ ds, d.var.InRange N M) (hi : ∀ d ∈ is, d.var.InRange N M) :
    SC N M (setNonMembershipGadget v ds is set : Prog F C rnd _) fun _ => True := by
  unfold setNonMembershipGadget
  refine SC.forN (fun _ => True) trivial fun i x _ => ?_
  unfold setNonMembershipBody
  apply SC.bind SC.index
  intro d hmem
  have := hd d hmem
  scb SC.index
  scb (SC.conScalar (by simp [*]))
  apply SC.bind SC.index
  intro e hmem'
  exact SC.isNonzero this (hi e hmem')

theorem SC.vectorProduct {items : List ℕ} {vs : List (Alloc F)} {v : Alloc F} (hv : v.var.InRange N M) : SC N M (vectorProductGadget items vs v : Prog F C rnd _) fun _ => True := by
  unfold vectorProductGadget
  apply SC.bind (SC.forN (fun ts => ∀ t ∈ ts, t.1.InRange N M) (by simpa using hv) fun i x hx => by
      unfold vectorProductBody
      scb SC.index
      scb SC.index
      sca
      scb (SC.conScalar (by simp [*]))
      scm
      scc
      refine SC.pure fun t ht => ?_
      rcases List.mem_append.mp ht with ht | ht
      · exact hx t ht
      · rw [List.mem_singleton.mp ht]; assumption)
  intro ts hts
  exact SC.con hts

theorem SC.vectorSum {vs : List Var} (h : ∀ v ∈ vs, v.InRange N M) (n : ℕ) : SC N M (vectorSumConstraints vs n : Prog F C rnd _) fun _ => True := by
  refine SC.con ?_
  rw [within_ofTerms]
  intro t ht
  rcases List.mem_cons.mp ht with rfl | ht
  · trivial
  · obtain ⟨v, hv, rfl⟩ := List.mem_map.mp ht
    exact h v hv

theorem SC.hamming {os : List (Alloc F)} {new : List F} {count : ℕ} (h : ∀ a ∈ os, a.var.InRange N M) : SC N M (hammingDistanceGadget os new count : Prog F C rnd _) fun _ => True := by
  unfold hammingDistanceGadget
  split
  · exact SC.err
  apply SC.bind (SC.forN (fun vs => ∀ v ∈ vs, v.InRange N M) (by simp) fun i x hx => by
      unfold hammingBody
      apply SC.bind SC.index
      intro o ho
      have := h o ho
      scb SC.index
      scb (SC.eval (by simp [*]))
      apply SC.bind SC.allocSingle
      rintro ⟨w, _⟩ ⟨hw, -⟩
      apply SC.bind SC.allocSingle
      rintro ⟨_, o⟩ ⟨-, ho⟩
      dsimp only at *
      apply SC.bind (SC.unwrap ho)
      intro y hy
      scm
      scc
      refine SC.pure fun v hv => ?_
      rcases List.mem_append.mp hv with hv | hv
      · exact hx v hv
      · rw [List.mem_singleton.mp hv]; assumption)
  intro vs hvs
  exact SC.vectorSum hvs _

theorem SC.mimc {l r : Alloc F} {rounds : ℕ} {cs : List F} {image : F} (hl : l.var.InRange N M) (hr : r.var.InRange N M) : SC N M (mimcGadget l r rounds cs image : Prog F C rnd _) fun _ => True := by
  unfold mimcGadget
  apply SC.bind (show SC N M (enforceMimc2Inputs (LC.ofVar l.var) (LC.ofVar r.var) rounds cs : Prog F C rnd _) fun x => x.Within N M by
      unfold enforceMimc2Inputs
      apply SC.bind (SC.forN (fun st => st.1.Within N M ∧ st.2.Within N M) (by simp [*]) fun i x hx => by
          obtain ⟨h1, h2⟩ := hx
          unfold mimcBody
          scb SC.index
          dsimp only
          scm
          scm
          exact SC.pure (by simp [*]))
      intro st hst
      exact SC.pure hst.1)
  intro x hx
  exact SC.conScalar hx

theorem SC.multiplyOn : ∀ (vs : List Var) (o : Var), (∀ v ∈ vs, v.InRange N M) → o.InRange N M → SC N M (multiplyOn o vs : Prog F C rnd _) fun o => o.InRange N M
  | [], _, _, h => SC.pure h
  | v :: vs, o, hv, h => by
    have := hv v List.mem_cons_self
    unfold Bp.multiplyOn
    scm
    exact SC.multiplyOn vs _ (fun v hm => hv v (List.mem_cons_of_mem _ hm)) (by assumption)

theorem SC.factors {v w : Var} {vs : List Var} {r : F} (hv : v.InRange N M) (hw : w.InRange N M) (hs : ∀ v ∈ vs, v.InRange N M) : SC N M (factorsGadget v w vs r : Prog F C rnd _) fun _ => True := by
  unfold factorsGadget
  scm
  apply SC.bind (SC.multiplyOn vs _ hs (by assumption))
  intro o ho
  exact SC.con (by simp [*])

/-! ## Poseidon -/

theorem SC.synthesize (sbox : SboxType) (l : LC F) (k : F) (hl : l.Within N M) : SC N M (sbox.synthesize l k : Prog F C rnd _) fun v => v.InRange N M := by
  cases sbox with
  | cube =>
    unfold SboxType.synthesize synthesizeCube
    dsimp only
    scm
    scm
    exact SC.pure (by assumption)
  | quint =>
    unfold SboxType.synthesize synthesizeQuint
    dsimp only
    scm
    scm
    scm
    exact SC.pure (by assumption)
  | inverse =>
    unfold SboxType.synthesize synthesizeInverse
    scb (SC.eval (by simp [*]))
    apply SC.bind SC.allocSingle
    rintro ⟨w, _⟩ ⟨hw, -⟩
    apply SC.bind SC.allocSingle
    rintro ⟨w', o⟩ ⟨hw', ho⟩
    dsimp only at *
    scb (SC.isNonzero hw hw')
    apply SC.bind (SC.unwrap ho)
    intro y hy
    scb (SC.conScalar (by simp [*]))
    exact SC.pure hw'

section poseidon
variable {synth : LC F → F → Prog F C rnd Var}

theorem SC.sboxLayer (hs : ∀ l k, l.Within N M → SC N M (synth l k) fun v => v.InRange N M) (keys : List F) : ∀ (xs : List (LC F)) (off : ℕ), (∀ x ∈ xs, x.Within N M) → SC N M (sboxLayerC synth keys xs off) fun ys => ∀ y ∈ ys, y.Within N M
  | [], _, _ => SC.pure (by simp)
  | x :: xs, off, h => by
    unfold sboxLayerC
    scb SC.index
    apply SC.bind (hs x _ (h x List.mem_cons_self))
    intro v hv
    apply SC.bind (SC.sboxLayer hs keys xs (off + 1) fun x hm => h x (List.mem_cons_of_mem _ hm))
    intro ys hy
    exact SC.pure (by simpa [hv] using hy)

theorem SC.partialLayer (hs : ∀ l k, l.Within N M → SC N M (synth l k) fun v => v.InRange N M) (keys : List F) : ∀ (xs : List (LC F)) (off : ℕ), (∀ x ∈ xs, x.Within N M) → SC N M (partialLayerC synth keys xs off) fun ys => ∀ y ∈ ys, y.Within N M
  | [], _, _ => SC.pure (by simp)
  | [x], off, h => by
    unfold partialLayerC
    scb SC.index
    apply SC.bind (hs x _ (h x List.mem_cons_self))
    intro v hv
    exact SC.pure (by simpa using hv)
  | x :: x' :: xs, off, h => by
    unfold partialLayerC
    scb SC.index
    apply SC.bind (SC.partialLayer hs keys (x' :: xs) (off + 1) fun x hm => h x (List.mem_cons_of_mem _ hm))
    intro ys hy
    exact SC.pure (by simpa [h x List.mem_cons_self] using hy)

theorem SC.mdsColumn {mds : List (List F)} {i : ℕ} : ∀ (xs : List (LC F)) (j : ℕ) (acc : LC F), (∀ x ∈ xs, x.Within N M) → acc.Within N M → SC N M (mdsColumnC mds i j xs acc : Prog F C rnd _) fun l => l.Within N M
  | [], _, _, _, h => SC.pure h
  | x :: xs, _, _, h, ha => SC.bind SC.index fun _ _ => SC.bind SC.index fun _ _ => SC.mdsColumn xs _ _ (fun x hm => h x (List.mem_cons_of_mem _ hm)) (within_add.mpr ⟨ha, within_smul.mpr (h x List.mem_cons_self)⟩)

theorem SC.linearColumns {mds : List (List F)} {st : List (LC F)} (h : ∀ x ∈ st, x.Within N M) : ∀ (n i : ℕ), SC N M (linearColumnsC mds st i n : Prog F C rnd _) fun ys => ∀ y ∈ ys, y.Within N M
  | 0, _ => SC.pure (by simp)
  | n + 1, i => SC.bind (SC.mdsColumn st 0 _ h within_empty) fun y hy => SC.bind (SC.linearColumns h n (i + 1)) fun _ hys => SC.pure (by simpa [hy] using hys)

theorem SC.simplifyAll : ∀ xs : List (LC F), (∀ x ∈ xs, x.Within N M) → SC N M (simplifyAll xs : Prog F C rnd _) fun ys => ∀ y ∈ ys, y.Within N M
  | [], _ => SC.pure (by simp)
  | x :: xs, h => SC.bind (SC.simp (h x List.mem_cons_self)) fun y hy => SC.bind (SC.simplifyAll xs fun x hm => h x (List.mem_cons_of_mem _ hm)) fun _ hys => SC.pure (by simpa [hy] using hys)

theorem SC.permRounds {layer : List (LC F) → ℕ → Prog F C rnd (List (LC F))} {post : List (LC F) → Prog F C rnd (List (LC F))} {w : ℕ} {mds : List (List F)}
    (hl : ∀ st off, (∀ x ∈ st, x.Within N M) → SC N M (layer st off) fun ys => ∀ y ∈ ys, y.Within N M) (hp : ∀ st, (∀ x ∈ st, x.Within N M) → SC N M (post st) fun ys => ∀ y ∈ ys, y.Within N M) :
    ∀ (n : ℕ) (st : List (LC F)) (off : ℕ), (∀ x ∈ st, x.Within N M) → SC N M (permRoundsC layer post mds w n st off) fun y => ∀ x ∈ y.1, x.Within N M
  | 0, _, _, h => SC.pure h
  | n + 1, st, off, h => SC.bind (hl st off h) fun _ hx => SC.bind (SC.linearColumns hx _ 0) fun y hy => SC.bind (hp y hy) fun z hz => SC.permRounds hl hp n z _ hz

theorem SC.hash (hs : ∀ l k, l.Within N M → SC N M (synth l k) fun v => v.InRange N M) {p : PoseidonParams F} {input : List (LC F)} (hi : ∀ x ∈ input, x.Within N M) : SC N M (hashConstraints synth p input) fun l => l.Within N M := by
  have key : SC N M (permConstraintsWith synth p input) fun ys => ∀ y ∈ ys, y.Within N M := by
    unfold permConstraintsWith
    split
    · exact SC.panic
    have hpost : ∀ st : List (LC F), (∀ x ∈ st, x.Within N M) → SC N M (Pure.pure st : Prog F C rnd _) fun ys => ∀ y ∈ ys, y.Within N M := fun st h => SC.pure h
    exact SC.bind (SC.permRounds (fun st off => SC.sboxLayer hs _ st off) hpost _ _ _ hi) fun ⟨st1, o1⟩ h1 => SC.bind (SC.permRounds (fun st off => SC.partialLayer hs _ st off) SC.simplifyAll _ st1 o1 h1) fun ⟨st2, o2⟩ h2 =>
      SC.bind (SC.permRounds (fun st off => SC.sboxLayer hs _ st off) hpost _ st2 o2 h2) fun ⟨st3, o3⟩ h3 => SC.pure h3
  exact SC.bind key fun ys hy => SC.index.mono hy

theorem SC.hash2 (hs : ∀ l k, l.Within N M → SC N M (synth l k) fun v => v.InRange N M) {p : PoseidonParams F} {xl xr : LC F} {statics : List (LC F)} (hl : xl.Within N M) (hr : xr.Within N M) (hz : ∀ x ∈ statics, x.Within N M) :
    SC N M (poseidonHash2Constraints xl xr statics p synth) fun l => l.Within N M := by
  unfold poseidonHash2Constraints
  split
  · exact SC.panic
  cases statics with
  | nil => exact SC.panic
  | cons z zs =>
    refine SC.hash hs fun x hx => ?_
    simp only [List.mem_append, List.mem_cons, List.not_mem_nil, or_false] at hx
    rcases hx with (rfl | rfl | rfl) | hx
    · exact hz _ List.mem_cons_self
    · exact hl
    · exact hr
    · exact hz x (List.mem_cons_of_mem _ hx)

theorem SC.hash4 (hs : ∀ l k, l.Within N M → SC N M (synth l k) fun v => v.InRange N M) {p : PoseidonParams F} {inputs statics : List (LC F)} (hi : ∀ x ∈ inputs, x.Within N M) (hz : ∀ x ∈ statics, x.Within N M) :
    SC N M (poseidonHash4Constraints inputs statics p synth) fun l => l.Within N M := by
  unfold poseidonHash4Constraints
  split
  · exact SC.panic
  split
  · exact SC.panic
  cases statics with
  | nil => exact SC.panic
  | cons z zs =>
    refine SC.hash hs fun x hx => ?_
    simp only [List.mem_append, List.cons_append, List.mem_cons] at hx
    rcases hx with rfl | hx | hx
    · exact hz _ List.mem_cons_self
    · exact hi x hx
    · exact hz x (List.mem_cons_of_mem _ hx)

theorem SC.hash8 (hs : ∀ l k, l.Within N M → SC N M (synth l k) fun v => v.InRange N M) {p : PoseidonParams F} {inputs : List (LC F)} {z : LC F} (hi : ∀ x ∈ inputs, x.Within N M) (hz : z.Within N M) :
    SC N M (poseidonHash8Constraints inputs z p synth) fun l => l.Within N M := by
  unfold poseidonHash8Constraints
  split
  · exact SC.panic
  refine SC.hash hs fun x hx => ?_
  rcases List.mem_cons.mp hx with rfl | hx
  · exact hz
  · exact hi x hx

theorem SC.hash2Call (hs : ∀ l k, l.Within N M → SC N M (synth l k) fun v => v.InRange N M) {p : PoseidonParams F} {output : F} {vars statics : List Var} (hv : ∀ v ∈ vars, v.InRange N M) (hz : ∀ v ∈ statics, v.InRange N M) :
    SC N M (hash2Call p synth output vars statics) fun _ => True := by
  unfold Bp.hash2Call
  split
  · rename_i a b
    exact SC.bind (SC.hash2 hs (within_ofVar.mpr (hv a (by simp))) (within_ofVar.mpr (hv b (by simp))) (within_map hz)) fun _ h => SC.conScalar h
  · exact SC.panic

theorem SC.hash4Call (hs : ∀ l k, l.Within N M → SC N M (synth l k) fun v => v.InRange N M) {p : PoseidonParams F} {output : F} {vars statics : List Var} (hv : ∀ v ∈ vars, v.InRange N M) (hz : ∀ v ∈ statics, v.InRange N M) :
    SC N M (hash4Call p synth output vars statics) fun _ => True := by
  unfold Bp.hash4Call poseidonHash4Gadget
  split
  · exact SC.panic
  exact SC.bind (SC.hash4 hs (within_map hv) (within_map hz)) fun _ h => SC.conScalar h

theorem SC.hash8Call (hs : ∀ l k, l.Within N M → SC N M (synth l k) fun v => v.InRange N M) {p : PoseidonParams F} {output : F} {vars statics : List Var} (hv : ∀ v ∈ vars, v.InRange N M) (hz : ∀ v ∈ statics, v.InRange N M) :
    SC N M (hash8Call p synth output vars statics) fun _ => True := by
  unfold Bp.hash8Call
  split
  · rename_i z
    unfold poseidonHash8Gadget
    split
    · exact SC.panic
    exact SC.bind (SC.hash8 hs (within_map hv) (within_ofVar.mpr (hz z (by simp)))) fun _ h => SC.conScalar h
  · exact SC.panic

end poseidon

/-! ## Merkle paths -/

theorem SC.popNodes {n : ℕ} {nodes : List Var} (h : ∀ v ∈ nodes, v.InRange N M) : SC N M (popNodes n nodes : Prog F C rnd _) fun q => (∀ v ∈ q.1, v.InRange N M) ∧ ∀ v ∈ q.2, v.InRange N M := by
  unfold Bp.popNodes
  split
  · exact SC.panic
  · exact SC.pure ⟨fun v hv => h v (List.mem_of_mem_take hv), fun v hv => h v (List.mem_of_mem_drop hv)⟩

theorem SC.allocBit {bit : Option ℕ} : SC N M (allocBit bit : Prog F C rnd _) fun q => q.1.InRange N M ∧ q.2.InRange N M := by
  unfold Bp.allocBit
  sca
  scc
  scc
  exact SC.pure (by simp [*])

theorem SC.select4 {b0 b0_1 b1 b1_1 : Var} {a a1 a2 a3 : LC F} (h0 : b0.InRange N M) (h1 : b0_1.InRange N M) (h2 : b1.InRange N M) (h3 : b1_1.InRange N M) (k0 : a.Within N M) (k1 : a1.Within N M) (k2 : a2.Within N M)
    (k3 : a3.Within N M) : SC N M (select4 b0 b0_1 b1 b1_1 a a1 a2 a3 : Prog F C rnd _) fun l => ∀ x ∈ l, x.Within N M := by
  unfold Bp.select4
  dsimp only
  iterate 11 scm
  exact SC.pure (by simp [*])

theorem SC.select8 {b0 b0_1 b1 b1_1 b2 b2_1 : Var} {a a1 a2 a3 a4 a5 a6 a7 : LC F} (h0 : b0.InRange N M) (h1 : b0_1.InRange N M) (h2 : b1.InRange N M) (h3 : b1_1.InRange N M) (h4 : b2.InRange N M) (h5 : b2_1.InRange N M)
    (k0 : a.Within N M) (k1 : a1.Within N M) (k2 : a2.Within N M) (k3 : a3.Within N M) (k4 : a4.Within N M) (k5 : a5.Within N M) (k6 : a6.Within N M) (k7 : a7.Within N M) :
    SC N M (select8 b0 b0_1 b1 b1_1 b2 b2_1 a a1 a2 a3 a4 a5 a6 a7 : Prog F C rnd _) fun l => ∀ x ∈ l, x.Within N M := by
  unfold Bp.select8
  dsimp only
  iterate 31 scm
  exact SC.pure (by simp [*])

section merkle
variable {synth : LC F → F → Prog F C rnd Var}

theorem SC.level4 (hs : ∀ l k, l.Within N M → SC N M (synth l k) fun v => v.InRange N M) {bits : Option (ℕ × ℕ)} {statics : List (LC F)} (hz : ∀ x ∈ statics, x.Within N M) {p : PoseidonParams F} {st : MerkleState F}
    (h : st.Within N M) : SC N M (merkleLevel4 bits statics p synth st) fun st' => st'.Within N M := by
  unfold merkleLevel4
  apply SC.bind SC.allocBit
  rintro ⟨b0, b0_1⟩ ⟨h0, h0'⟩
  apply SC.bind SC.allocBit
  rintro ⟨b1, b1_1⟩ ⟨h1, h1'⟩
  dsimp only at *
  apply SC.bind (SC.popNodes h.nodes)
  rintro ⟨rest, popped⟩ ⟨k1, k2⟩
  dsimp only at *
  split
  · simp only [List.mem_cons, List.not_mem_nil, or_false, forall_eq_or_imp, forall_eq] at k2
    apply SC.bind (SC.select4 h0 h0' h1 h1' h.prev (within_ofVar.mpr k2.1) (within_ofVar.mpr k2.2.1) (within_ofVar.mpr k2.2.2))
    intro l hl
    apply SC.bind (SC.hash4 hs hl hz)
    intro x hx
    apply SC.bind (SC.simp hx)
    intro y hy
    refine SC.pure ⟨k1, hy, fun t ht => ?_⟩
    simp only [List.mem_append, List.mem_singleton] at ht
    rcases ht with (ht | rfl) | rfl
    · exact h.terms t ht
    · exact h1
    · exact h0
  · exact SC.panic

theorem SC.level8 (hs : ∀ l k, l.Within N M → SC N M (synth l k) fun v => v.InRange N M) {bits : Option (ℕ × ℕ × ℕ)} {z : LC F} (hz : z.Within N M) {p : PoseidonParams F} {st : MerkleState F}
    (h : st.Within N M) : SC N M (merkleLevel8 bits z p synth st) fun st' => st'.Within N M := by
  unfold merkleLevel8
  apply SC.bind SC.allocBit
  rintro ⟨b0, b0_1⟩ ⟨h0, h0'⟩
  apply SC.bind SC.allocBit
  rintro ⟨b1, b1_1⟩ ⟨h1, h1'⟩
  apply SC.bind SC.allocBit
  rintro ⟨b2, b2_1⟩ ⟨h2, h2'⟩
  dsimp only at *
  apply SC.bind (SC.popNodes h.nodes)
  rintro ⟨rest, popped⟩ ⟨k1, k2⟩
  dsimp only at *
  split
  · simp only [List.mem_cons, List.not_mem_nil, or_false, forall_eq_or_imp, forall_eq] at k2
    obtain ⟨e1, e2, e3, e4, e5, e6, e7⟩ := k2
    apply SC.bind (SC.select8 h0 h0' h1 h1' h2 h2' h.prev (within_ofVar.mpr e1) (within_ofVar.mpr e2) (within_ofVar.mpr e3) (within_ofVar.mpr e4) (within_ofVar.mpr e5) (within_ofVar.mpr e6) (within_ofVar.mpr e7))
    intro l hl
    apply SC.bind (SC.hash8 hs hl hz)
    intro x hx
    apply SC.bind (SC.simp hx)
    intro y hy
    refine SC.pure ⟨k1, hy, fun t ht => ?_⟩
    simp only [List.mem_append, List.mem_singleton] at ht
    rcases ht with ((ht | rfl) | rfl) | rfl
    · exact h.terms t ht
    · exact h0
    · exact h1
    · exact h2
  · exact SC.panic

theorem SC.merkle4 [ByteRep F] (hs : ∀ l k, l.Within N M → SC N M (synth l k) fun v => v.InRange N M) {depth : ℕ} {root : F} {leaf : Var} {index : Alloc F} {nodes statics : List Var} {p : PoseidonParams F} (hl : leaf.InRange N M)
    (hi : index.var.InRange N M) (hn : ∀ v ∈ nodes, v.InRange N M) (hz : ∀ v ∈ statics, v.InRange N M) : SC N M (merkleGadget4 depth root leaf index nodes statics p synth) fun _ => True := by
  unfold merkleGadget4
  apply SC.bind (SC.forN (fun st : MerkleState F => st.Within N M) ⟨hn, within_ofVar.mpr hl, by simpa using hi⟩ fun i st hst => SC.forN (fun st : MerkleState F => st.Within N M) hst fun j st hst => by
      split
      · exact SC.pure hst
      · apply SC.bind (show SC N M (indexBits4 index.assignment i j : Prog F C rnd _) fun _ => True by
          unfold indexBits4
          split
          · exact SC.pure trivial
          · split
            · exact SC.pure trivial
            · exact SC.panic)
        rintro _ -
        exact SC.level4 hs (within_map hz) hst)
  intro st hst
  apply SC.bind (SC.con (within_ofTerms.mpr hst.terms))
  rintro _ -
  exact SC.conScalar hst.prev

theorem SC.merkle8 [ByteRep F] (hs : ∀ l k, l.Within N M → SC N M (synth l k) fun v => v.InRange N M) {depth : ℕ} {root : F} {leaf : Var} {index : Alloc F} {nodes : List Var} {z : Var} {p : PoseidonParams F} (hl : leaf.InRange N M)
    (hi : index.var.InRange N M) (hn : ∀ v ∈ nodes, v.InRange N M) (hz : z.InRange N M) : SC N M (merkleGadget8 depth root leaf index nodes z p synth) fun _ => True := by
  unfold merkleGadget8
  apply SC.bind (show SC N M (indexOctets index.assignment depth : Prog F C rnd _) fun _ => True by
    unfold indexOctets
    split
    · exact SC.pure trivial
    · split
      · exact SC.pure trivial
      · exact SC.panic
      · exact SC.err)
  rintro oc -
  apply SC.bind (SC.forN (fun st : MerkleState F => st.Within N M) ⟨hn, within_ofVar.mpr hl, by simpa using hi⟩ fun j st hst => by
      split
      · exact SC.pure hst
      · apply SC.bind (show SC N M (octetBits oc j : Prog F C rnd _) fun _ => True by
          unfold octetBits
          split
          · exact SC.pure trivial
          · exact SC.bind SC.index fun _ _ => SC.pure trivial)
        rintro _ -
        exact SC.level8 hs (within_ofVar.mpr hz) hst)
  intro st hst
  apply SC.bind (SC.con (within_ofTerms.mpr hst.terms))
  rintro _ -
  exact SC.conScalar hst.prev

/-! ## Randomizer -/

theorem SC.origPath (hs : ∀ l k, l.Within N M → SC N M (synth l k) fun v => v.InRange N M) {statics : List (LC F)} (hz : ∀ x ∈ statics, x.Within N M) {p : PoseidonParams F} : ∀ (path : List ℕ) (nodes : List Var) (cur : LC F),
    (∀ v ∈ nodes, v.InRange N M) → cur.Within N M → SC N M (origPath statics p synth path nodes cur) fun l => l.Within N M
  | [], _, _, _, h => SC.pure h
  | pos :: path, nodes, cur, hn, h => by
    unfold Bp.origPath
    apply SC.bind (SC.popNodes hn)
    rintro ⟨rest, popped⟩ ⟨k1, k2⟩
    dsimp only at *
    apply SC.bind SC.ofRes
    intro proof hp
    have hpr : ∀ x ∈ proof, x.Within N M := by
      unfold vecInsert at hp
      split at hp
      · cases hp
        intro x hx
        rcases List.eq_or_mem_of_mem_insertIdx hx with rfl | hx
        · exact h
        · exact within_map k2 x hx
      · cases hp
    apply SC.bind (SC.hash4 hs hpr hz)
    intro l hl
    exact SC.origPath hs hz path rest l k1 hl

theorem SC.updatePath (hs : ∀ l k, l.Within N M → SC N M (synth l k) fun v => v.InRange N M) {statics : List (LC F)} (hz : ∀ x ∈ statics, x.Within N M) {p : PoseidonParams F} {depth : ℕ} : ∀ (j : ℕ) (path : List ℕ) (lc : LC F)
    (m : NodeMap F), lc.Within N M → m.Within N M → SC N M (updatePath depth statics p synth j path lc m) fun m => m.Within N M
  | 0, _, _, _, _, h => SC.pure h
  | j + 1, path, lc, m, hl, h => by
    unfold Bp.updatePath
    scb SC.index
    apply SC.bind SC.ofRes
    intro sib hsib
    have h1 := within_levelSiblings h _ _ _ _ _ hsib
    apply SC.bind SC.ofRes
    intro nodes hn
    have h2 : ∀ x ∈ nodes, x.Within N M := by
      unfold vecInsert at hn
      split at hn
      · cases hn
        intro x hx
        rcases List.eq_or_mem_of_mem_insertIdx hx with rfl | hx
        · exact hl
        · exact h1 x hx
      · cases hn
    apply SC.bind (SC.hash4 hs h2 hz)
    intro y hy
    refine SC.updatePath hs hz j _ y _ hy (NodeMap.Within.insert ?_ _ hy)
    split
    · exact h.insert _ hl
    · exact h

theorem SC.origLoop [ByteRep F] (hs : ∀ l k, l.Within N M → SC N M (synth l k) fun v => v.InRange N M) {statics : List (LC F)} (hz : ∀ x ∈ statics, x.Within N M) {p : PoseidonParams F} {depth : ℕ} {origRoot : Var} {newRoot : F}
    {db : HashDb (List F)} (hr : origRoot.InRange N M) : ∀ (is : List F) (vs : List Var) (proofs : List (List Var)) (m : NodeMap F), (∀ v ∈ vs, v.InRange N M) → (∀ l ∈ proofs, ∀ v ∈ l, v.InRange N M) → m.Within N M →
    SC N M (origLoop depth origRoot newRoot db statics p synth is vs proofs m) fun m => m.Within N M
  | i :: is, v :: vs, nodes :: proofs, m, hv, hp, h => by
    unfold Bp.origLoop
    apply SC.bind SC.ofRes
    rintro path -
    apply SC.bind (SC.origPath hs hz _ nodes _ (hp nodes List.mem_cons_self) (within_ofVar.mpr (hv v List.mem_cons_self)))
    intro l hl
    scc
    apply SC.bind SC.ofRes
    intro m' hm'
    exact SC.origLoop hs hz hr is vs proofs m' (fun v hm => hv v (List.mem_cons_of_mem _ hm)) (fun v hm => hp v (List.mem_cons_of_mem _ hm)) (within_addNodes _ _ _ _ _ _ h hm')
  | [], _, _, m, _, _, h => by
    unfold Bp.origLoop
    exact SC.pure h
  | _ :: _, [], _, m, _, _, h => by
    unfold Bp.origLoop
    exact SC.panic
  | _ :: _, _ :: _, [], m, _, _, h => by
    unfold Bp.origLoop
    exact SC.panic

theorem SC.updateLoop [ByteRep F] (hs : ∀ l k, l.Within N M → SC N M (synth l k) fun v => v.InRange N M) {statics : List (LC F)} (hz : ∀ x ∈ statics, x.Within N M) {p : PoseidonParams F} {depth : ℕ} : ∀ (is : List F) (vs : List Var)
    (m : NodeMap F), (∀ v ∈ vs, v.InRange N M) → m.Within N M → SC N M (updateLoop4 depth statics p synth is vs m) fun m => m.Within N M
  | i :: is, v :: vs, m, hv, h => by
    unfold updateLoop4
    apply SC.bind SC.ofRes
    rintro path -
    apply SC.bind (SC.updatePath hs hz depth path _ m (within_ofVar.mpr (hv v List.mem_cons_self)) h)
    intro m' hm'
    exact SC.updateLoop hs hz is vs m' (fun v hm => hv v (List.mem_cons_of_mem _ hm)) hm'
  | [], _, m, _, h => by
    unfold updateLoop4
    exact SC.pure h
  | _ :: _, [], m, _, h => by
    unfold updateLoop4
    exact SC.panic

theorem SC.randomizer [ByteRep F] (hs : ∀ l k, l.Within N M → SC N M (synth l k) fun v => v.InRange N M) {p : PoseidonParams F} {depth : ℕ} {origRoot : Var} {t : SparseTree F} {db : HashDb (List F)} {indices : List F}
    {vs : List Var} {proofs : List (List Var)} {statics : List Var} (hr : origRoot.InRange N M) (hv : ∀ v ∈ vs, v.InRange N M) (hp : ∀ l ∈ proofs, ∀ v ∈ l, v.InRange N M) (hz : ∀ v ∈ statics, v.InRange N M) :
    SC N M (randomizerGadget depth origRoot t db indices vs proofs statics p synth) fun _ => True := by
  unfold randomizerGadget
  split
  · exact SC.panic
  split
  · exact SC.panic
  have h0 : (NodeMap.mk [] : NodeMap F).Within N M := fun e he => by simp at he
  apply SC.bind (SC.origLoop hs (within_map hz) hr indices vs proofs _ hv hp (h0.insert _ within_ofScalar))
  intro m hm
  apply SC.bind (SC.updateLoop hs (within_map hz) indices vs m hv hm)
  intro m' hm'
  apply SC.bind SC.ofRes
  intro r hr'
  have := hm'.index hr'
  exact SC.con (by simp [*])

end merkle

/-! ## The prover runs the code -/

theorem Prover.eval_total {p : Prover F G} {l : LC F} (hR : p.aR.length = p.aL.length) (hO : p.aO.length = p.aL.length) (h : l.Within p.aL.length p.v.length) : ∃ x, p.eval l = .ok x := by
  have hv : ∀ v : Var, v.InRange p.aL.length p.v.length → ∃ x, p.evalVar v = .ok x := fun v h => by
    cases v with
    | one => exact ⟨1, rfl⟩
    | committed i =>
      have h : i < p.v.length := h
      exact ⟨p.v[i], by simp [Prover.evalVar, idx, List.getElem?_eq_getElem h]⟩
    | left i =>
      have h : i < p.aL.length := h
      exact ⟨p.aL[i], by simp [Prover.evalVar, idx, List.getElem?_eq_getElem h]⟩
    | right i =>
      have h : i < p.aR.length := hR.symm ▸ h
      exact ⟨p.aR[i], by simp [Prover.evalVar, idx, List.getElem?_eq_getElem h]⟩
    | out i =>
      have h : i < p.aO.length := hO.symm ▸ h
      exact ⟨p.aO[i], by simp [Prover.evalVar, idx, List.getElem?_eq_getElem h]⟩
  have key : ∀ (ts : List (Var × F)) (a : F), (∀ t ∈ ts, t.1.InRange p.aL.length p.v.length) → ∃ x, ts.foldlM (fun sum t => (do
      let val ← p.evalVar t.1
      return sum + t.2 * val : Res F)) a = .ok x := by
    intro ts
    induction ts with
    | nil => exact fun a _ => ⟨a, rfl⟩
    | cons t ts ih =>
      intro a h
      obtain ⟨x, hx⟩ := hv t.1 (h t List.mem_cons_self)
      obtain ⟨y, hy⟩ := ih (a + t.2 * x) fun u hu => h u (List.mem_cons_of_mem _ hu)
      refine ⟨y, ?_⟩
      rw [List.foldlM_cons, hx]
      exact hy
  exact key l.terms 0 h

/-- If the verifier gets through the same code, and no variable is used before it is handed out, the prover gets through as well: with whatever values. -/
theorem run_total {env env' : Env F G} (hO : env.oracle = env'.oracle) {C C' : Type} {rnd : Bool} {α β : Type} {RC : C → C' → Prop} {RA : α → β → Prop} {onP : C → Prover F G → Prover F G} {onV : C' → Verifier F G → Verifier F G}
    (hon : ∀ cb cb', RC cb cb' → ∀ p s, InStep p s → InStep (onP cb p) (onV cb' s)) (hoP : ∀ cb p, (onP cb p).aL = p.aL ∧ (onP cb p).v = p.v ∧ (onP cb p).pending = p.pending) {c : Prog F C rnd α} {c' : Prog F C' rnd β} (hc : Prog.Same RC RA c c') :
    ∀ {p : Prover F G} {s s' : Verifier F G} {b : β} {Q : ℕ → α → Prop}, InStep p s → (∀ i, p.pending = some i → i < p.aL.length) → Verifier.run env' onV c' s = .ok (b, s') → (∀ N, p.aL.length ≤ N → c.Scoped N p.v.length (Q N) p.aL.length p.pending) →
      ∃ a p', Prover.run env onP c p = .ok (a, p') := by
  induction hc with
  | ret hab => intro p s s' b Q h hp hr hs; exact ⟨_, _, rfl⟩
  | err => intro p s s' b Q h hp hr hs; cases hr
  | panic => intro p s s' b Q h hp hr hs; cases hr
  | multiply hl hr' _ ih =>
    rename_i l r l' r' k k' _
    intro p s s' b Q h hp hr hs
    obtain ⟨x, hx⟩ := Prover.eval_total h.lenR h.lenO (hs _ le_rfl).1
    obtain ⟨y, hy⟩ := Prover.eval_total h.lenR h.lenO (hs _ le_rfl).2.1
    have hm : p.multiply l r = .ok ((.left p.aL.length, .right p.aR.length, .out p.aO.length),
        (((p.allocateVars x y (x * y)).2.constrain ⟨l.terms ++ [(.left p.aL.length, -1)]⟩).constrain ⟨r.terms ++ [(.right p.aR.length, -1)]⟩)) := by
      simp only [Prover.multiply, hx, hy]; rfl
    obtain ⟨e, hi⟩ := h.multiply hl hr' hm
    simp only [Verifier.run, e] at hr
    simp only [Prover.run, hm]
    refine ih _ hi ?_ hr (Q := Q) fun N hN => ?_
    · intro i hi'
      have := hp i hi'
      simp [Prover.constrain, Prover.allocateVars]; omega
    · have hN : p.aL.length + 1 ≤ N := by simpa [Prover.constrain, Prover.allocateVars] using hN
      have := (hs N (by omega)).2.2 hN
      simpa [Prover.constrain, Prover.allocateVars, h.lenR, h.lenO] using this
  | allocate _ ih =>
    rename_i x y k k' _
    intro p s s' b Q h hp hr hs
    cases hpe : p.pending with
    | none =>
      have hm : p.allocate (some x) = .ok (.ok (.left p.aL.length), { p with pending := some p.aL.length, aL := p.aL ++ [x], aR := p.aR ++ [0], aO := p.aO ++ [0] }) := by
        simp only [Prover.allocate, hpe]
      obtain ⟨⟨v, hv⟩, e, hi⟩ := h.allocate (y := y) hm
      simp only [Verifier.run, e] at hr
      simp only [Prover.run, hm]
      refine ih _ hi ?_ hr (Q := Q) fun N hN => ?_
      · intro i hi'; cases hi'; simp
      · have hN : p.aL.length + 1 ≤ N := by simpa using hN
        have := hs N (by omega)
        rw [hpe] at this
        simpa using this hN
    | some i =>
      have hi' := hp i hpe
      have hm : p.allocate (some x) = .ok (.ok (.right i), { p with pending := none, aR := p.aR.set i x, aO := p.aO.set i (p.aL[i] * x) }) := by
        simp only [Prover.allocate, hpe]
        rw [if_pos ⟨h.lenR.symm ▸ hi', h.lenO.symm ▸ hi'⟩]
        simp [idx, List.getElem?_eq_getElem hi']
      obtain ⟨⟨v, hv⟩, e, hi⟩ := h.allocate (y := y) hm
      simp only [Verifier.run, e] at hr
      simp only [Prover.run, hm]
      refine ih _ hi ?_ hr (Q := Q) fun N hN => ?_
      · intro i hi'; cases hi'
      · have := hs N hN
        rw [hpe] at this
        exact this
  | allocateMultiplier _ ih =>
    rename_i x y k k' _
    intro p s s' b Q h hp hr hs
    obtain ⟨e, ⟨vs, e2⟩, hi⟩ := h.allocateMultiplier x y
    simp only [Prover.run]
    simp only [Verifier.run] at hr
    have hvs : s.allocateMultiplier y = (.ok (.left p.aL.length, .right p.aL.length, .out p.aL.length), { s with numVars := s.numVars + 1 }) := by
      simp [Verifier.allocateMultiplier, Verifier.allocateVars, h.num]
    have hvp : (p.allocateMultiplier (some x)).1 = .ok (.left p.aL.length, .right p.aL.length, .out p.aL.length) := by
      rw [e, hvs]
    rw [hvp]
    rw [hvs] at hr
    rw [hvs] at hi
    refine ih _ hi ?_ hr (Q := Q) fun N hN => ?_
    · intro i hi'
      have := hp i hi'
      simp [Prover.allocateMultiplier, Prover.allocateVars]; omega
    · have hN : p.aL.length + 1 ≤ N := by simpa [Prover.allocateMultiplier, Prover.allocateVars] using hN
      have := hs N (by omega) hN
      simpa [Prover.allocateMultiplier, Prover.allocateVars] using this
  | constrain hl _ ih =>
    intro p s s' b Q h hp hr hs
    simp only [Prover.run]
    simp only [Verifier.run] at hr
    exact ih (h.constrain hl) hp hr fun N hN => (hs N hN).2
  | specify hcb _ ih =>
    rename_i cb cb' k k' _
    intro p s s' b Q h hp hr hs
    simp only [Prover.run]
    simp only [Verifier.run] at hr
    obtain ⟨e1, e2, e3⟩ := hoP cb p
    refine ih (hon _ _ hcb _ _ h) (by rw [e1, e3]; exact hp) hr (Q := Q) fun N hN => ?_
    rw [e1] at hN
    rw [e1, e2, e3]
    exact hs N hN
  | evaluateLc _ ih =>
    intro p s s' b Q h hp hr hs
    obtain ⟨x, hx⟩ := Prover.eval_total h.lenR h.lenO (hs _ le_rfl).1
    simp only [Prover.run, hx]
    simp only [Verifier.run] at hr
    exact ih _ h hp hr fun N hN => (hs N hN).2 _
  | allocateSingle _ ih =>
    rename_i x y k k' _
    intro p s s' b Q h hp hr hs
    cases hpe : p.pending with
    | none =>
      have hm : p.allocateSingle (some x) = .ok (.ok (.left p.aL.length, none), { p with pending := some p.aL.length, aL := p.aL ++ [x], aR := p.aR ++ [0], aO := p.aO ++ [0] }) := by
        simp only [Prover.allocateSingle, Prover.allocate, hpe]; rfl
      obtain ⟨⟨v, hv⟩, e, hi⟩ := h.allocateSingle (y := y) hm
      simp only [Verifier.run, e] at hr
      simp only [Prover.run, hm]
      refine ih _ hi ?_ hr (Q := Q) fun N hN => ?_
      · intro i hi'; cases hi'; simp
      · have hN : p.aL.length + 1 ≤ N := by simpa using hN
        have := hs N (by omega)
        rw [hpe] at this
        simpa using this hN
    | some i =>
      have hi' := hp i hpe
      have hm : p.allocateSingle (some x) = .ok (.ok (.right i, some (.out i)), { p with pending := none, aR := p.aR.set i x, aO := p.aO.set i (p.aL[i] * x) }) := by
        simp only [Prover.allocateSingle, Prover.allocate, hpe]
        rw [if_pos ⟨h.lenR.symm ▸ hi', h.lenO.symm ▸ hi'⟩]
        simp [idx, List.getElem?_eq_getElem hi']
        rfl
      obtain ⟨⟨v, hv⟩, e, hi⟩ := h.allocateSingle (y := y) hm
      simp only [Verifier.run, e] at hr
      simp only [Prover.run, hm]
      refine ih _ hi ?_ hr (Q := Q) fun N hN => ?_
      · intro i hi'; cases hi'
      · have := hs N hN
        rw [hpe] at this
        exact this
  | challenge _ ih =>
    intro p s s' b Q h hp hr hs
    simp only [Prover.run, Transcript.challengeScalar]
    simp only [Verifier.run, Transcript.challengeScalar] at hr
    rw [h.transcript, ← hO] at hr
    refine ih _ (p := { p with transcript := _ }) ?_ hp hr fun N hN => hs N hN _
    exact ⟨h.lenR, h.lenO, h.lenB, rfl, h.num, h.pending, h.V, h.cons, h.deferred⟩
  | simplify hl _ ih =>
    intro p s s' b Q h hp hr hs
    simp only [Prover.run]
    simp only [Verifier.run] at hr
    refine ih _ _ (hl.simplify (env.hashOrd_perm _) (env'.hashOrd_perm _)) (p := { p with seed := _ }) ?_ hp hr fun N hN => (hs N hN).2 _ (within_simplify (hs N hN).1 (env.hashOrd_perm _))
    exact ⟨h.lenR, h.lenO, h.lenB, h.transcript, h.num, h.pending, h.V, h.cons, h.deferred⟩

end Bp
