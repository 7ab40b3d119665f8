import Verif.Lemmas.Gadgets.Factors
import Verif.Lemmas.Gadgets.MerkleGadget

set_option linter.unusedSectionVars false
set_option linter.unusedSimpArgs false

/-! # The committed values are determined by the wires

Two satisfying assignments with the same gate values (`Wires`) give the same values to the committed variables: `VA` says so for gadget code. -/

namespace Bp
variable {F G : Type} [Field F] [AddCommGroup G] [Module F G]
variable {C : Type} {rnd : Bool} {α β : Type}

/-- The same values at the gates. -/
structure Wires (σ σ' : Assignment F) : Prop where
  left : σ.left = σ'.left
  right : σ.right = σ'.right
  out : σ.out = σ'.out

/-- The variable has the same value. -/
def AgreeV (σ σ' : Assignment F) (v : Var) : Prop := σ.val v = σ'.val v
/-- The linear combination has the same value. -/
def Agree (σ σ' : Assignment F) (l : LC F) : Prop := l.value σ = l.value σ'

/-- Whenever both assignments satisfy the constraints of the state reached by `c`, `Q` is true of the result. -/
def VA (env : Env F G) (σ σ' : Assignment F) (c : Prog F C rnd α) (Q : α → Prop) : Prop :=
  ∀ (onSpec : C → Verifier F G → Verifier F G), (∀ cb s, (onSpec cb s).constraints = s.constraints) →
    ∀ s a s', Verifier.run env onSpec c s = .ok (a, s') → σ.Sat s'.constraints → σ'.Sat s'.constraints → Q a

variable {env : Env F G} {σ σ' : Assignment F}

theorem VA.bind {c : Prog F C rnd α} {f : α → Prog F C rnd β} {Q : α → Prop} {R : β → Prop} (h1 : VA env σ σ' c Q)
    (h2 : ∀ a, Q a → VA env σ σ' (f a) R) : VA env σ σ' (c >>= f) R := by
  intro onSpec ho s a s' h hs hs'
  rw [Prog.bind_eq, Verifier.run_bind] at h
  cases hc : Verifier.run env onSpec c s with
  | error e => rw [hc] at h; simp at h
  | ok q =>
    obtain ⟨x, s1⟩ := q
    rw [hc] at h
    simp only at h
    have hsub := (Verifier.run_cons ho (f x) _ _ _ h).subset
    exact h2 x (h1 onSpec ho s x s1 hc (fun lc hlc => hs lc (hsub hlc)) fun lc hlc => hs' lc (hsub hlc)) onSpec ho _ _ _ h hs hs'

theorem VA.bind' {c : Prog F C rnd α} {f : α → Prog F C rnd β} {Q : α → Prop} {R : β → Prop} (h1 : VA env σ σ' c Q)
    (h2 : ∀ a, Q a → VA env σ σ' (f a) R) : VA env σ σ' (c.bind f) R := VA.bind h1 h2

/-- What follows from one of the assignments. -/
theorem VA.left {c : Prog F C rnd α} {Q : α → Prop} (h : VS env σ c Q) : VA env σ σ' c Q := fun o ho s a s' hr hs _ => h o ho s a s' hr hs
theorem VA.right {c : Prog F C rnd α} {Q : α → Prop} (h : VS env σ' c Q) : VA env σ σ' c Q := fun o ho s a s' hr _ hs => h o ho s a s' hr hs
theorem VA.and {c : Prog F C rnd α} {Q R : α → Prop} (h : VA env σ σ' c Q) (h' : VA env σ σ' c R) : VA env σ σ' c fun a => Q a ∧ R a :=
  fun o ho s a s' hr hs hs' => ⟨h o ho s a s' hr hs hs', h' o ho s a s' hr hs hs'⟩
theorem VA.mono {c : Prog F C rnd α} {Q R : α → Prop} (h : VA env σ σ' c Q) (hQ : ∀ a, Q a → R a) : VA env σ σ' c R :=
  fun o ho s a s' hr hs hs' => hQ a (h o ho s a s' hr hs hs')
theorem VA.any {c : Prog F C rnd α} : VA env σ σ' c fun _ => True := fun _ _ _ _ _ _ _ _ => trivial
/-- Known beforehand. -/
theorem VA.know {c : Prog F C rnd α} {P : Prop} (h : P) : VA env σ σ' c fun _ => P := VA.any.mono fun _ _ => h
theorem VA.ret {a : α} {Q : α → Prop} (h : Q a) : VA env σ σ' (.ret a : Prog F C rnd α) Q := VA.left (VS.ret h)
theorem VA.pure {a : α} {Q : α → Prop} (h : Q a) : VA env σ σ' (pure a : Prog F C rnd α) Q := VA.ret h
theorem VA.panic {w} {Q : α → Prop} : VA env σ σ' (.panic w : Prog F C rnd α) Q := VA.left VS.panic
theorem VA.err {e} {Q : α → Prop} : VA env σ σ' (.err e : Prog F C rnd α) Q := VA.left VS.err
theorem VA.index (xs : List α) (i : ℕ) : VA env σ σ' (Prog.index xs i : Prog F C rnd α) (fun a => xs[i]? = some a) := VA.left (VS.index xs i)

theorem VA.loop {body : ℕ → β → Prog F C rnd β} (I : ℕ → β → Prop) : ∀ n i a, I i a →
    (∀ j, i ≤ j → j < i + n → ∀ a, I j a → VA env σ σ' (body j a) (I (j + 1))) → VA env σ σ' (Prog.loop body i n a) (I (i + n)) := by
  intro n
  induction n with
  | zero => intro i a h _; exact VA.ret h
  | succ n ih =>
    intro i a h hb
    refine VA.bind' (hb i (le_refl _) (by omega) a h) fun a' ha' => ?_
    have := ih (i + 1) a' ha' fun j h1 h2 => hb j (by omega) (by omega)
    rwa [show i + (n + 1) = i + 1 + n by omega]

theorem VA.forN {body : ℕ → β → Prog F C rnd β} (I : ℕ → β → Prop) (n : ℕ) (a : β) (h : I 0 a)
    (hb : ∀ j, j < n → ∀ a, I j a → VA env σ σ' (body j a) (I (j + 1))) : VA env σ σ' (Prog.forN n a body) (I n) := by
  have := VA.loop (env := env) (σ := σ) (σ' := σ') I n 0 a h fun j _ h2 => hb j (by omega)
  rwa [Nat.zero_add] at this

/-- Both inputs of a gate are determined by the gate. -/
theorem VA.mul (hw : Wires σ σ') (l r : LC F) : VA env σ σ' (Prog.mul l r : Prog F C rnd _) (fun q =>
    Agree σ σ' l ∧ Agree σ σ' r ∧ AgreeV σ σ' q.1 ∧ AgreeV σ σ' q.2.1 ∧ AgreeV σ σ' q.2.2) := by
  intro onSpec ho s a s' hr hs hs'
  simp only [Prog.mul, Verifier.run, Except.ok.injEq, Prod.mk.injEq] at hr
  obtain ⟨rfl, rfl⟩ := hr
  have e : ∀ τ : Assignment F, τ.Sat (s.multiply l r).2.constraints → l.value τ = τ.left s.numVars ∧ r.value τ = τ.right s.numVars := by
    intro τ hs
    have h1 : (⟨l.terms ++ [(.left s.numVars, -1)]⟩ : LC F).value τ = 0 := hs _ (by simp [Verifier.multiply, Verifier.constrain, Verifier.allocateVars])
    have h2 : (⟨r.terms ++ [(.right s.numVars, -1)]⟩ : LC F).value τ = 0 := hs _ (by simp [Verifier.multiply, Verifier.constrain, Verifier.allocateVars])
    simp only [LC.value_def, LC.termsVal_append, LC.termsVal_cons, LC.termsVal_nil, Assignment.val] at h1 h2
    simp only [LC.value_def]
    exact ⟨by linear_combination h1, by linear_combination h2⟩
  obtain ⟨a1, a2⟩ := e σ hs
  obtain ⟨b1, b2⟩ := e σ' hs'
  refine ⟨by rw [Agree, a1, b1, hw.left], by rw [Agree, a2, b2, hw.right], ?_, ?_, ?_⟩
  · exact congrFun hw.left _
  · exact congrFun hw.right _
  · exact congrFun hw.out _

theorem VA.allocMul (hw : Wires σ σ') (x : Option (F × F)) : VA env σ σ' (Prog.allocMul x : Prog F C rnd _) (fun q => AgreeV σ σ' q.1 ∧ AgreeV σ σ' q.2.1 ∧ AgreeV σ σ' q.2.2) := by
  intro onSpec ho s a s' hr hs hs'
  simp only [Prog.allocMul, Verifier.run, Verifier.allocateMultiplier, Prog.ofExcept, Except.ok.injEq, Prod.mk.injEq] at hr
  rw [← hr.1]
  exact ⟨congrFun hw.left _, congrFun hw.right _, congrFun hw.out _⟩

/-- A constraint has the value 0 under both. -/
theorem VA.con (lc : LC F) : VA env σ σ' (Prog.con lc : Prog F C rnd _) (fun _ => lc.value σ = 0 ∧ lc.value σ' = 0) := (VA.left (VS.con lc)).and (VA.right (VS.con lc))
theorem VA.conScalar (lc : LC F) (x : F) : VA env σ σ' (constrainLcWithScalar lc x : Prog F C rnd _) (fun _ => lc.value σ = x ∧ lc.value σ' = x) :=
  (VA.left (VS.conScalar lc x)).and (VA.right (VS.conScalar lc x))

theorem Agree.ofVar {v : Var} (h : Agree σ σ' (LC.ofVar v)) : AgreeV σ σ' v := by rw [Agree, LC.value_ofVar, LC.value_ofVar] at h; exact h

/-! ## Helpers -/

theorem VA.bit (hw : Wires σ σ') (v : Alloc F) : VA env σ σ' (bitGadget v : Prog F C rnd _) (fun _ => AgreeV σ σ' v.var) := by
  refine VA.bind (VA.allocMul hw _) ?_
  rintro ⟨a, b, o⟩ ⟨-, hb, -⟩
  refine VA.bind (VA.con _) fun _ h1 => VA.bind (VA.con _) fun _ _ => (VA.con _).mono fun _ _ => ?_
  simp only [LC.value_varAdd, LC.value_cons, LC.value_nil] at h1
  have hb : σ.val b = σ'.val b := hb
  show σ.val v.var = σ'.val v.var
  linear_combination hb - h1.1 + h1.2

theorem VA.positiveNo [IntRep F] (hw : Wires σ σ') (v : Alloc F) (n : ℕ) : VA env σ σ' (positiveNoGadget v n : Prog F C rnd _) (fun _ => AgreeV σ σ' v.var) := by
  refine VA.bind (VA.forN (fun _ st => ∃ ts, st.1 = (v.var, (-1 : F)) :: ts ∧ Agree σ σ' (LC.ofTerms ts)) n _ ⟨[], rfl, rfl⟩ fun j _ st ⟨ts, e, ht⟩ => ?_) ?_
  · unfold positiveNoBody
    refine VA.bind (VA.allocMul hw _) ?_
    rintro ⟨a, b, o⟩ ⟨-, hb, -⟩
    refine VA.bind (VA.con _) fun _ _ => VA.bind (VA.con _) fun _ _ => VA.pure ⟨ts ++ [(b, st.2)], by rw [e]; rfl, ?_⟩
    have hb : σ.val b = σ'.val b := hb
    rw [Agree, LC.value_snoc, LC.value_snoc, ht]
    simp only [hb]
  · rintro ⟨l, e⟩ ⟨ts, rfl, ht⟩
    refine (VA.con _).mono fun _ h => ?_
    simp only [LC.value_cons] at h
    rw [Agree] at ht
    show σ.val v.var = σ'.val v.var
    linear_combination ht - h.1 + h.2

theorem VA.isNonzero (hw : Wires σ σ') (x xInv : Var) : VA env σ σ' (isNonzeroGadget x xInv : Prog F C rnd _) (fun _ => AgreeV σ σ' x ∧ AgreeV σ σ' xInv) := by
  unfold isNonzeroGadget
  refine VA.bind (VA.mul hw _ _) ?_
  rintro ⟨_, _, o1⟩ ⟨h1, -⟩
  refine VA.bind (VA.con _) fun _ _ => VA.bind (VA.mul hw _ _) ?_
  rintro ⟨_, _, o2⟩ ⟨-, h2, -⟩
  refine (VA.con _).mono fun _ _ => ⟨h1.ofVar, ?_⟩
  rw [Agree, LC.value_cons, LC.value_cons, LC.value_nil, LC.value_nil] at h2
  show σ.val xInv = σ'.val xInv
  linear_combination h2

/-! ## The gadgets -/

theorem VA.boundCheck [IntRep F] (hw : Wires σ σ') (debug : Bool) (v a b : Alloc F) (max min n : ℕ) :
    VA env σ σ' (boundCheckGadget debug v a b max min n : Prog F C rnd _) (fun _ => AgreeV σ σ' v.var ∧ AgreeV σ σ' a.var ∧ AgreeV σ σ' b.var) := by
  unfold boundCheckGadget
  refine VA.bind (VA.con _) fun _ h1 => VA.bind (VA.con _) fun _ _ => VA.bind VA.any fun d _ => VA.bind (VA.conScalar _ _) fun _ _ => VA.bind (VA.positiveNo hw a n) fun _ ha => ?_
  refine (VA.positiveNo hw b n).mono fun _ hb => ⟨?_, ha, hb⟩
  simp only [LC.value_sub, LC.value_varSub, LC.value_ofVar, LC.value_ofScalar] at h1
  have ha : σ.val a.var = σ'.val a.var := ha
  show σ.val v.var = σ'.val v.var
  linear_combination ha + h1.1 - h1.2

theorem VA.setMembership (hw : Wires σ σ') (v : Alloc F) (diffVars : List (Alloc F)) (set : List F) :
    VA env σ σ' (setMembershipGadget v diffVars set : Prog F C rnd _) (fun _ => (set ≠ [] → AgreeV σ σ' v.var) ∧ ∀ i < set.length, ∀ d, diffVars[i]? = some d → AgreeV σ σ' d.var) := by
  unfold setMembershipGadget
  refine VA.bind (VA.forN (fun k _ => (0 < k → AgreeV σ σ' v.var) ∧ ∀ i < k, ∀ d, diffVars[i]? = some d → AgreeV σ σ' d.var) set.length _ ⟨fun h => absurd h (by omega), fun i h => absurd h (by omega)⟩
    fun j _ p ⟨_, hI⟩ => ?_) fun p hp => (VA.con _).mono fun _ _ => ⟨fun h => hp.1 (List.length_pos_iff.mpr h), hp.2⟩
  unfold setMembershipBody
  refine VA.bind (VA.index _ _) fun d hd => VA.bind (VA.index _ _) fun x _ => VA.bind (VA.conScalar _ _) fun _ hc => VA.bind (VA.mul hw _ _) ?_
  rintro ⟨_, _, o⟩ ⟨-, h2, -⟩
  have h2 : σ.val d.var = σ'.val d.var := h2.ofVar
  refine VA.pure ⟨fun _ => ?_, fun i hi d' hd' => ?_⟩
  · simp only [LC.value_varAdd, LC.value_ofVar] at hc
    show σ.val v.var = σ'.val v.var
    linear_combination hc.1 - hc.2 - h2
  · rcases Nat.lt_succ_iff_lt_or_eq.mp hi with h | rfl
    · exact hI i h d' hd'
    · rw [hd] at hd'; cases hd'; exact h2

theorem VA.setNonMembership (hw : Wires σ σ') (v : Alloc F) (dv di : List (Alloc F)) (set : List F) :
    VA env σ σ' (setNonMembershipGadget v dv di set : Prog F C rnd _) (fun _ => (set ≠ [] → AgreeV σ σ' v.var) ∧
      (∀ i < set.length, ∀ d, dv[i]? = some d → AgreeV σ σ' d.var) ∧ ∀ i < set.length, ∀ d, di[i]? = some d → AgreeV σ σ' d.var) := by
  unfold setNonMembershipGadget
  refine (VA.forN (fun k _ => (0 < k → AgreeV σ σ' v.var) ∧ (∀ i < k, ∀ d, dv[i]? = some d → AgreeV σ σ' d.var) ∧ ∀ i < k, ∀ d, di[i]? = some d → AgreeV σ σ' d.var) set.length _
    ⟨fun h => absurd h (by omega), fun i h => absurd h (by omega), fun i h => absurd h (by omega)⟩ fun j _ p ⟨_, hI, hJ⟩ => ?_).mono fun p hp => ⟨fun h => hp.1 (List.length_pos_iff.mpr h), hp.2⟩
  unfold setNonMembershipBody
  refine VA.bind (VA.index _ _) fun d hd => VA.bind (VA.index _ _) fun x _ => VA.bind (VA.conScalar _ _) fun _ hc => VA.bind (VA.index _ _) fun e he => (VA.isNonzero hw _ _).mono ?_
  rintro - ⟨h2, h3⟩
  have h2 : σ.val d.var = σ'.val d.var := h2
  refine ⟨fun _ => ?_, fun i hi d' hd' => ?_, fun i hi d' hd' => ?_⟩
  · simp only [LC.value_varAdd, LC.value_ofVar] at hc
    show σ.val v.var = σ'.val v.var
    linear_combination hc.1 - hc.2 - h2
  · rcases Nat.lt_succ_iff_lt_or_eq.mp hi with h | rfl
    · exact hI i h d' hd'
    · rw [hd] at hd'; cases hd'; exact h2
  · rcases Nat.lt_succ_iff_lt_or_eq.mp hi with h | rfl
    · exact hJ i h d' hd'
    · rw [he] at hd'; cases hd'; exact h3

theorem VA.vectorProduct (hw : Wires σ σ') (items : List ℕ) (vector : List (Alloc F)) (value : Alloc F) :
    VA env σ σ' (vectorProductGadget items vector value : Prog F C rnd _) (fun _ => AgreeV σ σ' value.var) := by
  unfold vectorProductGadget
  refine VA.bind (VA.forN (fun _ st => ∃ ts, st = (value.var, (-1 : F)) :: ts ∧ Agree σ σ' (LC.ofTerms ts)) items.length _ ⟨[], rfl, rfl⟩ fun j _ st ⟨ts, e, ht⟩ => ?_) ?_
  · unfold vectorProductBody
    refine VA.bind (VA.index _ _) fun d hd => VA.bind (VA.index _ _) fun x _ => VA.bind (VA.allocMul hw _) ?_
    rintro ⟨a, b, o⟩ ⟨-, -, ho⟩
    refine VA.bind (VA.conScalar _ _) fun _ _ => VA.bind (VA.mul hw _ _) ?_
    rintro ⟨_, _, o2⟩ -
    refine VA.bind (VA.con _) fun _ _ => VA.pure ⟨ts ++ [(o, 1)], by rw [e]; rfl, ?_⟩
    have ho : σ.val o = σ'.val o := ho
    rw [Agree, LC.value_snoc, LC.value_snoc, ht]
    simp only [ho]
  · rintro st ⟨ts, rfl, ht⟩
    refine (VA.con _).mono fun _ h => ?_
    simp only [LC.value_cons] at h
    rw [Agree] at ht
    show σ.val value.var = σ'.val value.var
    linear_combination ht - h.1 + h.2

theorem VA.mimc (hw : Wires σ σ') (left right : Alloc F) (rounds : ℕ) (constants : List F) (image : F) (hr : rounds ≠ 0) :
    VA env σ σ' (mimcGadget left right rounds constants image : Prog F C rnd _) (fun _ => AgreeV σ σ' left.var ∧ AgreeV σ σ' right.var) := by
  unfold mimcGadget enforceMimc2Inputs
  refine VA.bind (Q := fun l => AgreeV σ σ' left.var ∧ (Agree σ σ' l → AgreeV σ σ' right.var)) ?_ fun l hl => ?_
  · refine VA.bind (VA.forN (fun k st => (k = 0 ∧ st = (LC.ofVar left.var, LC.ofVar right.var)) ∨ (k ≠ 0 ∧ AgreeV σ σ' left.var ∧ (Agree σ σ' st.1 → AgreeV σ σ' right.var))) rounds _ (.inl ⟨rfl, rfl⟩)
      fun j _ st hst => ?_) fun st hst => VA.pure ?_
    · unfold mimcBody
      refine VA.bind (VA.index _ _) fun c _ => VA.bind (VA.mul hw _ _) ?_
      rintro ⟨i, _, sqr⟩ ⟨h1, -, -⟩
      refine VA.bind (VA.mul hw _ _) ?_
      rintro ⟨_, _, o⟩ ⟨-, -, -, -, h2⟩
      have h1 : Agree σ σ' st.1 := by
        rw [Agree, LC.value_add, LC.value_add] at h1
        have : (LC.ofTerms [(Var.one, c)] : LC F).value σ = (LC.ofTerms [(Var.one, c)] : LC F).value σ' := by simp [LC.value, LC.ofTerms, Assignment.val]
        rw [this] at h1
        exact add_right_cancel h1
      refine VA.pure (.inr ⟨by omega, ?_, fun h => ?_⟩)
      · rcases hst with ⟨-, rfl⟩ | ⟨-, h, -⟩
        · exact h1.ofVar
        · exact h
      · rcases hst with ⟨-, rfl⟩ | ⟨-, -, h'⟩
        · rw [Agree, LC.value_varAdd, LC.value_varAdd, LC.value_ofVar, LC.value_ofVar] at h
          have h2 : σ.val o = σ'.val o := h2
          show σ.val right.var = σ'.val right.var
          linear_combination h - h2
        · exact h' h1
    · rcases hst with ⟨h, -⟩ | ⟨-, h⟩
      · exact absurd h hr
      · exact h
  · exact (VA.conScalar _ _).mono fun _ h => ⟨hl.1, hl.2 (h.1.trans h.2.symm)⟩

theorem VA.multiplyOn (hw : Wires σ σ') : ∀ (vs : List Var) (o : Var), VA env σ σ' (Bp.multiplyOn o vs : Prog F C rnd _) (fun _ => ∀ v ∈ vs, AgreeV σ σ' v)
  | [], o => VA.pure (by simp)
  | v :: vs, o => by
    unfold Bp.multiplyOn
    refine VA.bind (VA.mul hw _ _) ?_
    rintro ⟨_, _, o'⟩ ⟨-, h, -⟩
    exact (VA.multiplyOn hw vs o').mono fun _ h' => List.forall_mem_cons.mpr ⟨h.ofVar, h'⟩

theorem VA.factors (hw : Wires σ σ') (v w : Var) (vs : List Var) (r : F) : VA env σ σ' (factorsGadget v w vs r : Prog F C rnd _) (fun _ => ∀ x ∈ v :: w :: vs, AgreeV σ σ' x) := by
  unfold factorsGadget
  refine VA.bind (VA.mul hw _ _) ?_
  rintro ⟨_, _, o⟩ ⟨h1, h2, -⟩
  refine VA.bind (VA.multiplyOn hw vs o) fun o' h => VA.any.mono fun _ _ => ?_
  exact List.forall_mem_cons.mpr ⟨h1.ofVar, List.forall_mem_cons.mpr ⟨h2.ofVar, h⟩⟩

/-! ## Poseidon -/

theorem VA.sbox (hw : Wires σ σ') {sbox : SboxType} (hs : sbox ≠ .inverse) (input : LC F) (key : F) : VA env σ σ' (sbox.synthesize input key : Prog F C rnd _) (fun _ => Agree σ σ' input) := by
  have hk : Agree σ σ' (input.add (LC.ofScalar key)) → Agree σ σ' input := fun h => by
    rw [Agree, LC.value_add, LC.value_add, LC.value_ofScalar, LC.value_ofScalar] at h
    exact add_right_cancel h
  cases sbox with
  | inverse => exact absurd rfl hs
  | cube =>
    show VA env σ σ' (synthesizeCube input key) _
    unfold synthesizeCube
    refine VA.bind (VA.mul hw _ _) ?_
    rintro ⟨_, _, o⟩ ⟨h, -⟩
    exact VA.know (hk h)
  | quint =>
    show VA env σ σ' (synthesizeQuint input key) _
    unfold synthesizeQuint
    refine VA.bind (VA.mul hw _ _) ?_
    rintro ⟨_, _, o⟩ ⟨h, -⟩
    exact VA.know (hk h)

theorem VA.sboxLayer (hw : Wires σ σ') {sbox : SboxType} (hs : sbox ≠ .inverse) (keys : List F) : ∀ (ls : List (LC F)) (off : ℕ),
    VA env σ σ' (sboxLayerC sbox.synthesize keys ls off : Prog F C rnd _) (fun _ => ∀ l ∈ ls, Agree σ σ' l)
  | [], _ => VA.know (by simp)
  | x :: xs, off => by
    unfold sboxLayerC
    refine VA.bind VA.any fun k _ => VA.bind (VA.sbox hw hs x k) fun y hx => VA.bind (VA.sboxLayer hw hs keys xs (off + 1)) fun ys h => ?_
    exact VA.know (List.forall_mem_cons.mpr ⟨hx, h⟩)

theorem VA.perm (hw : Wires σ σ') {sbox : SboxType} (hs : sbox ≠ .inverse) (p : PoseidonParams F) (hp : p.fullRoundsBeginning ≠ 0) (ls : List (LC F)) :
    VA env σ σ' (permConstraintsWith sbox.synthesize p ls : Prog F C rnd _) (fun _ => ∀ l ∈ ls, Agree σ σ' l) := by
  unfold permConstraintsWith
  split
  · exact VA.panic
  · obtain ⟨n, hn⟩ := Nat.exists_eq_succ_of_ne_zero hp
    rw [hn]
    refine VA.bind (Q := fun _ => ∀ l ∈ ls, Agree σ σ' l) ?_ fun _ h => VA.know h
    unfold permRoundsC
    exact VA.bind (VA.sboxLayer hw hs _ _ _) fun _ h => VA.know h

theorem VA.hashC (hw : Wires σ σ') {sbox : SboxType} (hs : sbox ≠ .inverse) (p : PoseidonParams F) (hp : p.fullRoundsBeginning ≠ 0) (ls : List (LC F)) :
    VA env σ σ' (hashConstraints sbox.synthesize p ls : Prog F C rnd _) (fun _ => ∀ l ∈ ls, Agree σ σ' l) :=
  VA.bind (VA.perm hw hs p hp ls) fun _ h => VA.know h

/-! ## Selection -/

theorem VA.select4 (hw : Wires σ σ') (b0 b0_1 b1 b1_1 : Var) (N N1 N2 N3 : LC F) :
    VA env σ σ' (select4 b0 b0_1 b1 b1_1 N N1 N2 N3 : Prog F C rnd _) fun _ => ∀ l ∈ [N, N1, N2, N3], Agree σ σ' l := by
  unfold Bp.select4
  iterate 11
    refine VA.bind (VA.mul hw _ _) ?_
    rintro ⟨_, _, _⟩ ⟨-, _, -⟩
  refine VA.pure ?_
  simp only [List.forall_mem_cons, List.not_mem_nil, false_imp_iff, implies_true, and_true]
  refine ⟨?_, ?_, ?_, ?_⟩ <;> assumption

theorem VA.select8 (hw : Wires σ σ') (b0 b0_1 b1 b1_1 b2 b2_1 : Var) (N N1 N2 N3 N4 N5 N6 N7 : LC F) :
    VA env σ σ' (select8 b0 b0_1 b1 b1_1 b2 b2_1 N N1 N2 N3 N4 N5 N6 N7 : Prog F C rnd _) fun _ => ∀ l ∈ [N, N1, N2, N3, N4, N5, N6, N7], Agree σ σ' l := by
  unfold Bp.select8
  iterate 31
    refine VA.bind (VA.mul hw _ _) ?_
    rintro ⟨_, _, _⟩ ⟨-, _, -⟩
  refine VA.pure ?_
  simp only [List.forall_mem_cons, List.not_mem_nil, false_imp_iff, implies_true, and_true]
  refine ⟨?_, ?_, ?_, ?_, ?_, ?_, ?_, ?_⟩ <;> assumption

end Bp
