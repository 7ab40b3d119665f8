import Verif.Lemmas.Gadgets.Sizes

set_option linter.unusedSectionVars false
set_option linter.unusedSimpArgs false

/-! # Gadgets that do not fail on the verifier's side -/

namespace Bp
variable {F G : Type} [Field F] [AddCommGroup G] [Module F G]
variable {C : Type} {rnd : Bool} {α β : Type}

/-- Started with (`d`) or without a half-allocated gate, `c` succeeds, leaves (`d'`) or does not leave a half-allocated gate, and its result satisfies `Q`. -/
def VT (env : Env F G) (d : Bool) (c : Prog F C rnd α) (d' : Bool) (Q : α → Prop) : Prop :=
  ∀ (onSpec : C → Verifier F G → Verifier F G), (∀ cb s, (onSpec cb s).pending = s.pending) → ∀ s, s.pending.isSome = d → ∃ x s', Verifier.run env onSpec c s = .ok (x, s') ∧ s'.pending.isSome = d' ∧ Q x

variable {env : Env F G} {d d' d'' : Bool}

theorem VT.bind {c : Prog F C rnd α} {f : α → Prog F C rnd β} {Q : α → Prop} {R : β → Prop} (h1 : VT env d c d' Q) (h2 : ∀ x, Q x → VT env d' (f x) d'' R) : VT env d (c >>= f) d'' R := by
  intro onSpec ho s hp
  obtain ⟨x, s1, e1, e2, e3⟩ := h1 onSpec ho s hp
  obtain ⟨y, s2, f1, f2, f3⟩ := h2 x e3 onSpec ho s1 e2
  refine ⟨y, s2, ?_, f2, f3⟩
  rw [Prog.bind_eq, Verifier.run_bind, e1]
  exact f1

theorem VT.mono {c : Prog F C rnd α} {Q R : α → Prop} (h : VT env d c d' Q) (hQ : ∀ x, Q x → R x) : VT env d c d' R := fun o ho s hp => by
  obtain ⟨x, s', a, b, q⟩ := h o ho s hp
  exact ⟨x, s', a, b, hQ x q⟩
theorem VT.ret {x : α} {Q : α → Prop} (h : Q x) : VT env d (.ret x : Prog F C rnd α) d Q := fun _ _ s hp => ⟨x, s, rfl, hp, h⟩
theorem VT.pure {x : α} {Q : α → Prop} (h : Q x) : VT env d (pure x : Prog F C rnd α) d Q := VT.ret h
theorem VT.mul {l r : LC F} : VT env d (Prog.mul l r : Prog F C rnd _) d fun _ => True := fun _ _ s hp => ⟨_, _, rfl, hp, trivial⟩
theorem VT.con {l : LC F} : VT env d (Prog.con l : Prog F C rnd _) d fun _ => True := fun _ _ s hp => ⟨_, _, rfl, hp, trivial⟩
theorem VT.conScalar {l : LC F} {x : F} : VT env d (constrainLcWithScalar l x : Prog F C rnd _) d fun _ => True := VT.con
theorem VT.allocMul {x : Option (F × F)} : VT env d (Prog.allocMul x : Prog F C rnd _) d fun _ => True := fun _ _ s hp => ⟨_, _, rfl, hp, trivial⟩
theorem VT.eval {l : LC F} : VT env d (Prog.eval l : Prog F C rnd _) d fun _ => True := fun _ _ s hp => ⟨_, _, rfl, hp, trivial⟩
theorem VT.simp {l : LC F} : VT env d (Prog.simp l : Prog F C rnd _) d fun _ => True := fun _ _ s hp => ⟨_, _, rfl, hp, trivial⟩
theorem VT.unwrap {x : Option α} (h : x.isSome) : VT env d (Prog.unwrap x : Prog F C rnd _) d fun _ => True := by
  obtain ⟨x, rfl⟩ := Option.isSome_iff_exists.mp h
  exact VT.ret trivial
theorem VT.index {xs : List α} {i : ℕ} (h : i < xs.length) : VT env d (Prog.index xs i : Prog F C rnd _) d fun x => x ∈ xs := by
  unfold Prog.index
  rw [List.getElem?_eq_getElem h]
  exact VT.ret (List.getElem_mem h)
theorem VT.ofRes {x : Res α} {y : α} (h : x = .ok y) : VT env d (Prog.ofRes x : Prog F C rnd _) d fun z => z = y := by
  subst h
  exact VT.ret rfl

theorem VT.allocFirst {x : Option F} : VT env false (Prog.allocSingle x : Prog F C rnd _) true fun _ => True := by
  intro o ho s hp
  have hp' : s.pending = none := by simpa using hp
  refine ⟨(.left s.numVars, none), { s with pending := some s.numVars, numVars := s.numVars + 1 }, ?_, rfl, trivial⟩
  simp only [Prog.allocSingle, Verifier.run, Verifier.allocateSingle, Verifier.allocate, hp', Prog.ofExcept]
theorem VT.allocSecond {x : Option F} : VT env true (Prog.allocSingle x : Prog F C rnd _) false fun y => y.2.isSome := by
  intro o ho s hp
  obtain ⟨i, hp'⟩ := Option.isSome_iff_exists.mp hp
  refine ⟨(.right i, some (.out i)), { s with pending := none }, ?_, rfl, rfl⟩
  simp only [Prog.allocSingle, Verifier.run, Verifier.allocateSingle, Verifier.allocate, hp', Prog.ofExcept]

theorem VT.loop {body : ℕ → β → Prog F C rnd β} (Q : ℕ → β → Prop) : ∀ (n i : ℕ) (x : β), Q i x → (∀ j, i ≤ j → j < i + n → ∀ x, Q j x → VT env d (body j x) d (Q (j + 1))) → VT env d (Prog.loop body i n x) d (Q (i + n))
  | 0, i, x, h, _ => VT.ret h
  | n + 1, i, x, h, hb => by
    have := VT.bind (hb i (le_refl _) (by omega) x h) fun y hy => VT.loop Q n (i + 1) y hy fun j h1 h2 => hb j (by omega) (by omega)
    rw [show i + 1 + n = i + (n + 1) by omega] at this
    exact this

theorem VT.forN' {body : ℕ → β → Prog F C rnd β} (Q : ℕ → β → Prop) (n : ℕ) (x : β) (h : Q 0 x) (hb : ∀ j, j < n → ∀ x, Q j x → VT env d (body j x) d (Q (j + 1))) : VT env d (Prog.forN n x body) d (Q n) := by
  have := VT.loop (env := env) (d := d) Q n 0 x h fun j _ h2 => hb j (by omega)
  rwa [Nat.zero_add] at this

theorem VT.forN {body : ℕ → β → Prog F C rnd β} (n : ℕ) (x : β) (hb : ∀ j, j < n → ∀ x, VT env d (body j x) d fun _ => True) : VT env d (Prog.forN n x body) d fun _ => True :=
  VT.forN' (fun _ _ => True) n x trivial fun j hj x _ => hb j hj x

/-- One step that succeeds. -/
macro "vtb " t:term : tactic => `(tactic| (apply VT.bind $t; rintro _ -))

/-! ## Simple gadgets -/

theorem VT.bitGadget (v : Alloc F) : VT env d (bitGadget v : Prog F C rnd _) d fun _ => True := by
  unfold Bp.bitGadget
  vtb VT.allocMul
  vtb VT.con
  vtb VT.con
  exact VT.con

theorem VT.positiveNo [IntRep F] (v : Alloc F) (n : ℕ) : VT env d (positiveNoGadget v n : Prog F C rnd _) d fun _ => True := by
  unfold positiveNoGadget
  vtb (VT.forN n _ fun i _ x => by
      unfold positiveNoBody
      vtb VT.allocMul
      vtb VT.con
      vtb VT.con
      exact VT.pure trivial)
  exact VT.con

theorem VT.isNonzero (x y : Var) : VT env d (isNonzeroGadget x y : Prog F C rnd _) d fun _ => True := by
  unfold isNonzeroGadget
  vtb VT.mul
  vtb VT.con
  vtb VT.mul
  exact VT.con

theorem VT.boundCheck [IntRep F] {debug : Bool} (v a b : Alloc F) {max min : ℕ} (n : ℕ) (h : debug = false ∨ min ≤ max) : VT env d (boundCheckGadget debug v a b max min n : Prog F C rnd _) d fun _ => True := by
  have hs : ∃ k, subU64 debug max min = .ok k := by
    unfold subU64
    rcases h with rfl | h
    · split <;> simp
    · simp [h]
  obtain ⟨k, hk⟩ := hs
  unfold boundCheckGadget
  vtb VT.con
  vtb VT.con
  apply VT.bind (VT.ofRes hk)
  rintro _ rfl
  vtb VT.conScalar
  vtb (VT.positiveNo a n)
  exact VT.positiveNo b n

theorem VT.setMembership (v : Alloc F) (ds : List (Alloc F)) (set : List F) (h : set.length ≤ ds.length) : VT env d (setMembershipGadget v ds set : Prog F C rnd _) d fun _ => True := by
  unfold setMembershipGadget
  vtb (VT.forN _ _ fun i hi x => by
      unfold setMembershipBody
      vtb (VT.index (by omega))
      vtb (VT.index hi)
      vtb VT.conScalar
      vtb VT.mul
      exact VT.pure trivial)
  exact VT.con

theorem VT.setNonMembership (v : Alloc F) (ds is : List (Alloc F)) (set : List F) (h1 : set.length ≤ ds.length) (h2 : set.length ≤ is.length) : VT env d (setNonMembershipGadget v ds is set : Prog F C rnd _) d fun _ => True := by
  unfold setNonMembershipGadget
  refine VT.forN _ _ fun i hi x => ?_
  unfold setNonMembershipBody
  vtb (VT.index (by omega))
  vtb (VT.index hi)
  vtb VT.conScalar
  vtb (VT.index (by omega))
  exact VT.isNonzero _ _

theorem VT.vectorProduct (items : List ℕ) (vs : List (Alloc F)) (v : Alloc F) (h : items.length ≤ vs.length) : VT env d (vectorProductGadget items vs v : Prog F C rnd _) d fun _ => True := by
  unfold vectorProductGadget
  vtb (VT.forN _ _ fun i hi x => by
      unfold vectorProductBody
      vtb (VT.index (by omega))
      vtb (VT.index hi)
      vtb VT.allocMul
      vtb VT.conScalar
      vtb VT.mul
      vtb VT.con
      exact VT.pure trivial)
  exact VT.con

theorem VT.hamming (os : List (Alloc F)) (new : List F) (count : ℕ) (h : os.length = new.length) : VT env false (hammingDistanceGadget os new count : Prog F C rnd _) false fun _ => True := by
  unfold hammingDistanceGadget
  rw [if_neg (by simpa using h)]
  vtb (VT.forN _ _ fun i hi x => by
        unfold hammingBody
        vtb (VT.index (by omega))
        vtb (VT.index hi)
        vtb VT.eval
        vtb VT.allocFirst
        apply VT.bind VT.allocSecond
        rintro ⟨w, o⟩ ho
        vtb (VT.unwrap ho)
        vtb VT.mul
        vtb VT.con
        exact VT.pure trivial)
  exact VT.con

theorem VT.mimcHash (l r : LC F) (rounds : ℕ) (cs : List F) (h : rounds ≤ cs.length) : VT env d (enforceMimc2Inputs l r rounds cs : Prog F C rnd _) d fun _ => True := by
  unfold enforceMimc2Inputs
  vtb (VT.forN _ _ fun i hi x => by
      unfold mimcBody
      vtb (VT.index (by omega))
      vtb VT.mul
      vtb VT.mul
      exact VT.pure trivial)
  exact VT.pure trivial

theorem VT.mimc (l r : Alloc F) (rounds : ℕ) (cs : List F) (image : F) (h : rounds ≤ cs.length) : VT env d (mimcGadget l r rounds cs image : Prog F C rnd _) d fun _ => True := by
  unfold mimcGadget
  vtb (VT.mimcHash _ _ _ _ h)
  exact VT.conScalar

theorem VT.multiplyOn : ∀ (vs : List Var) (o : Var), VT env d (multiplyOn o vs : Prog F C rnd _) d fun _ => True
  | [], _ => VT.pure trivial
  | v :: vs, o => by
    unfold Bp.multiplyOn
    vtb VT.mul
    exact VT.multiplyOn vs _

theorem VT.factors (v w : Var) (vs : List Var) (r : F) : VT env d (factorsGadget v w vs r : Prog F C rnd _) d fun _ => True := by
  unfold factorsGadget
  vtb VT.mul
  vtb (VT.multiplyOn vs _)
  exact VT.con

/-! ## Poseidon -/

theorem VT.synthesize (sbox : SboxType) (l : LC F) (k : F) : VT env false (sbox.synthesize l k : Prog F C rnd _) false fun _ => True := by
  cases sbox with
  | cube =>
    unfold SboxType.synthesize synthesizeCube
    vtb VT.mul
    vtb VT.mul
    exact VT.pure trivial
  | quint =>
    unfold SboxType.synthesize synthesizeQuint
    vtb VT.mul
    vtb VT.mul
    vtb VT.mul
    exact VT.pure trivial
  | inverse =>
    unfold SboxType.synthesize synthesizeInverse
    vtb VT.eval
    vtb VT.allocFirst
    apply VT.bind VT.allocSecond
    rintro ⟨w, o⟩ ho
    vtb (VT.isNonzero _ _)
    vtb (VT.unwrap ho)
    vtb VT.conScalar
    exact VT.pure trivial

section poseidon
variable {synth : LC F → F → Prog F C rnd Var}

theorem VT.sboxLayer (hs : ∀ l k, VT env d (synth l k) d fun _ => True) (keys : List F) : ∀ (xs : List (LC F)) (off : ℕ), off + xs.length ≤ keys.length → VT env d (sboxLayerC synth keys xs off) d fun ys => ys.length = xs.length
  | [], _, _ => VT.pure rfl
  | x :: xs, off, h => by
    rw [List.length_cons] at h
    unfold sboxLayerC
    vtb (VT.index (by omega))
    vtb (hs x _)
    apply VT.bind (VT.sboxLayer hs keys xs (off + 1) (by omega))
    intro ys hy
    exact VT.pure (by simp [hy])

theorem VT.partialLayer (hs : ∀ l k, VT env d (synth l k) d fun _ => True) (keys : List F) : ∀ (xs : List (LC F)) (off : ℕ), off + xs.length ≤ keys.length → VT env d (partialLayerC synth keys xs off) d fun ys => ys.length = xs.length
  | [], _, _ => VT.pure rfl
  | [x], off, h => by
    rw [List.length_singleton] at h
    unfold partialLayerC
    vtb (VT.index (by omega))
    vtb (hs x _)
    exact VT.pure rfl
  | x :: x' :: xs, off, h => by
    rw [List.length_cons] at h
    unfold partialLayerC
    vtb (VT.index (by omega))
    apply VT.bind (VT.partialLayer hs keys (x' :: xs) (off + 1) (by omega))
    intro ys hy
    exact VT.pure (by simpa using hy)

theorem VT.mdsColumn {mds : List (List F)} {w : ℕ} (h1 : mds.length = w) (h2 : ∀ row ∈ mds, row.length = w) {i : ℕ} (hi : i < w) : ∀ (xs : List (LC F)) (j : ℕ) (acc : LC F), j + xs.length ≤ w →
    VT env d (mdsColumnC mds i j xs acc : Prog F C rnd _) d fun _ => True
  | [], _, _, _ => VT.pure trivial
  | x :: xs, j, acc, h => by
    rw [List.length_cons] at h
    exact VT.bind (VT.index (by omega)) fun row hr => VT.bind (VT.index (by rw [h2 row hr]; exact hi)) fun _ _ => VT.mdsColumn h1 h2 hi xs _ _ (by omega)

theorem VT.linearColumns {mds : List (List F)} {w : ℕ} (h1 : mds.length = w) (h2 : ∀ row ∈ mds, row.length = w) (st : List (LC F)) (hst : st.length ≤ w) : ∀ (n i : ℕ), i + n ≤ w →
    VT env d (linearColumnsC mds st i n : Prog F C rnd _) d fun ys => ys.length = n
  | 0, _, _ => VT.pure rfl
  | n + 1, i, h => VT.bind (VT.mdsColumn h1 h2 (by omega) st 0 _ (by omega)) fun _ _ => VT.bind (VT.linearColumns h1 h2 st hst n (i + 1) (by omega)) fun _ hy => VT.pure (by simp [hy])

theorem VT.simplifyAll : ∀ xs : List (LC F), VT env d (simplifyAll xs : Prog F C rnd _) d fun ys => ys.length = xs.length
  | [] => VT.pure rfl
  | x :: xs => VT.bind VT.simp fun _ _ => VT.bind (VT.simplifyAll xs) fun _ hy => VT.pure (by simp [hy])

theorem VT.permRounds {layer : List (LC F) → ℕ → Prog F C rnd (List (LC F))} {post : List (LC F) → Prog F C rnd (List (LC F))} {w K : ℕ} {mds : List (List F)} (h1 : mds.length = w) (h2 : ∀ row ∈ mds, row.length = w)
    (hl : ∀ st off, st.length = w → off + w ≤ K → VT env d (layer st off) d fun ys => ys.length = w) (hp : ∀ st, VT env d (post st) d fun ys => ys.length = st.length) :
    ∀ (n : ℕ) (st : List (LC F)) (off : ℕ), st.length = w → off + n * w ≤ K → VT env d (permRoundsC layer post mds w n st off) d fun y => y.1.length = w ∧ y.2 = off + n * w
  | 0, st, off, h, _ => VT.pure ⟨h, by simp⟩
  | n + 1, st, off, h, hK => by
    rw [Nat.succ_mul] at hK
    refine VT.bind (hl st off h (by omega)) fun x hx => VT.bind (VT.linearColumns h1 h2 x hx.le x.length 0 (by omega)) fun y hy => VT.bind (hp y) fun z hz => ?_
    exact (VT.permRounds h1 h2 hl hp n z (off + w) (hz.trans (hy.trans hx)) (by omega)).mono fun q hq => ⟨hq.1, by rw [hq.2, Nat.succ_mul]; omega⟩

theorem VT.permutation (hs : ∀ l k, VT env d (synth l k) d fun _ => True) {p : PoseidonParams F} (hv : p.Valid) (input : List (LC F)) (hi : input.length = p.width) :
    VT env d (permConstraintsWith synth p input) d fun ys => ys.length = p.width := by
  unfold permConstraintsWith
  rw [if_neg (by simpa using hi)]
  have hk := hv.keys
  rw [Nat.add_mul, Nat.add_mul] at hk
  have hf : ∀ st off, st.length = p.width → off + p.width ≤ p.roundKeys.length → VT env d (sboxLayerC synth p.roundKeys st off) d fun ys => ys.length = p.width := fun st off h hK => by
    have := VT.sboxLayer hs p.roundKeys st off (by omega)
    rwa [h] at this
  have hpa : ∀ st off, st.length = p.width → off + p.width ≤ p.roundKeys.length → VT env d (partialLayerC synth p.roundKeys st off) d fun ys => ys.length = p.width := fun st off h hK => by
    have := VT.partialLayer hs p.roundKeys st off (by omega)
    rwa [h] at this
  have hpost : ∀ st : List (LC F), VT env d (Pure.pure st : Prog F C rnd _) d fun ys => ys.length = st.length := fun st => VT.pure rfl
  refine VT.bind (VT.permRounds hv.rows hv.cols hf hpost p.fullRoundsBeginning input 0 hi (by omega)) fun ⟨st1, o1⟩ h1 => ?_
  obtain ⟨h1, rfl⟩ := h1
  refine VT.bind (VT.permRounds hv.rows hv.cols hpa VT.simplifyAll p.partialRounds st1 _ h1 (by omega)) fun ⟨st2, o2⟩ h2 => ?_
  obtain ⟨h2, rfl⟩ := h2
  exact VT.bind (VT.permRounds hv.rows hv.cols hf hpost p.fullRoundsEnd st2 _ h2 (by omega)) fun ⟨st3, o3⟩ h3 => VT.pure h3.1

theorem VT.hash (hs : ∀ l k, VT env d (synth l k) d fun _ => True) {p : PoseidonParams F} (hv : p.Valid) (hw : 2 ≤ p.width) (input : List (LC F)) (hi : input.length = p.width) :
    VT env d (hashConstraints synth p input) d fun _ => True := VT.bind (VT.permutation hs hv input hi) fun _ h => (VT.index (by omega)).mono fun _ _ => trivial

theorem VT.hash2 (hs : ∀ l k, VT env d (synth l k) d fun _ => True) {p : PoseidonParams F} (hv : p.Valid) (hw : p.width = 3) (xl xr z : LC F) : VT env d (poseidonHash2Constraints xl xr [z] p synth) d fun _ => True := by
  unfold poseidonHash2Constraints
  rw [if_neg (by simp [hw])]
  exact VT.hash hs hv (by omega) _ (by simp [hw])

theorem VT.hash4 (hs : ∀ l k, VT env d (synth l k) d fun _ => True) {p : PoseidonParams F} (hv : p.Valid) (hw : p.width = 5) (inputs : List (LC F)) (hi : inputs.length = 4) (z : LC F) :
    VT env d (poseidonHash4Constraints inputs [z] p synth) d fun _ => True := by
  unfold poseidonHash4Constraints
  rw [if_neg (by simpa using hi), if_neg (by simp [hw])]
  exact VT.hash hs hv (by omega) _ (by simp [hw, hi])

theorem VT.hash8 (hs : ∀ l k, VT env d (synth l k) d fun _ => True) {p : PoseidonParams F} (hv : p.Valid) (hw : p.width = 9) (inputs : List (LC F)) (hi : inputs.length = 8) (z : LC F) :
    VT env d (poseidonHash8Constraints inputs z p synth) d fun _ => True := by
  unfold poseidonHash8Constraints
  rw [if_neg (by simpa using hi)]
  exact VT.hash hs hv (by omega) _ (by simp [hw, hi])

theorem VT.hash2Call (hs : ∀ l k, VT env d (synth l k) d fun _ => True) {p : PoseidonParams F} (hv : p.Valid) (hw : p.width = 3) (output : F) {vars : List Var} (hl : vars.length = 2) (z : Var) :
    VT env d (hash2Call p synth output vars [z]) d fun _ => True := by
  obtain ⟨a, b, rfl⟩ := List.length_eq_two.mp hl
  exact VT.bind (VT.hash2 hs hv hw _ _ _) fun _ _ => VT.conScalar

theorem VT.hash4Call (hs : ∀ l k, VT env d (synth l k) d fun _ => True) {p : PoseidonParams F} (hv : p.Valid) (hw : p.width = 5) (output : F) {vars : List Var} (hl : vars.length = 4) (z : Var) :
    VT env d (hash4Call p synth output vars [z]) d fun _ => True := by
  unfold Bp.hash4Call poseidonHash4Gadget
  rw [if_neg (by simpa using hl)]
  exact VT.bind (VT.hash4 hs hv hw _ (by simpa using hl) _) fun _ _ => VT.conScalar

theorem VT.hash8Call (hs : ∀ l k, VT env d (synth l k) d fun _ => True) {p : PoseidonParams F} (hv : p.Valid) (hw : p.width = 9) (output : F) {vars : List Var} (hl : vars.length = 8) (z : Var) :
    VT env d (hash8Call p synth output vars [z]) d fun _ => True := by
  show VT env d (poseidonHash8Gadget vars z p synth output) d fun _ => True
  unfold poseidonHash8Gadget
  rw [if_neg (by simpa using hl)]
  exact VT.bind (VT.hash8 hs hv hw _ (by simpa using hl) _) fun _ _ => VT.conScalar

end poseidon

/-! ## Merkle paths -/

theorem VT.popNodes (n : ℕ) (nodes : List Var) (h : n ≤ nodes.length) : VT env d (popNodes n nodes : Prog F C rnd _) d fun q => q.1.length = nodes.length - n ∧ q.2.length = n := by
  unfold Bp.popNodes
  rw [if_neg (by omega)]
  exact VT.pure ⟨by simp, by simp; omega⟩

theorem VT.allocBit (bit : Option ℕ) : VT env d (allocBit bit : Prog F C rnd _) d fun _ => True := by
  unfold Bp.allocBit
  vtb VT.allocMul
  vtb VT.con
  vtb VT.con
  exact VT.pure trivial

theorem VT.select4 (b0 b0_1 b1 b1_1 : Var) (N N1 N2 N3 : LC F) : VT env d (select4 b0 b0_1 b1 b1_1 N N1 N2 N3 : Prog F C rnd _) d fun l => l.length = 4 := by
  unfold Bp.select4
  iterate 11 vtb VT.mul
  exact VT.pure rfl

theorem VT.select8 (b0 b0_1 b1 b1_1 b2 b2_1 : Var) (N N1 N2 N3 N4 N5 N6 N7 : LC F) : VT env d (select8 b0 b0_1 b1 b1_1 b2 b2_1 N N1 N2 N3 N4 N5 N6 N7 : Prog F C rnd _) d fun l => l.length = 8 := by
  unfold Bp.select8
  iterate 31 vtb VT.mul
  exact VT.pure rfl

section merkle
variable {synth : LC F → F → Prog F C rnd Var}

theorem VT.level4 (hs : ∀ l k, VT env d (synth l k) d fun _ => True) (bits : Option (ℕ × ℕ)) (z : LC F) {p : PoseidonParams F} (hv : p.Valid) (hw : p.width = 5) (st : MerkleState F) (h : 3 ≤ st.nodes.length) :
    VT env d (merkleLevel4 bits [z] p synth st) d fun st' => st'.nodes.length = st.nodes.length - 3 := by
  unfold merkleLevel4
  vtb (VT.allocBit _)
  vtb (VT.allocBit _)
  apply VT.bind (VT.popNodes 3 st.nodes h)
  rintro ⟨rest, popped⟩ ⟨h1, h2⟩
  obtain ⟨a, b, c, rfl⟩ := List.length_eq_three.mp h2
  simp only
  apply VT.bind (VT.select4 _ _ _ _ _ _ _ _)
  intro l hl
  vtb (VT.hash4 hs hv hw _ hl _)
  vtb VT.simp
  exact VT.pure h1

theorem VT.level8 (hs : ∀ l k, VT env d (synth l k) d fun _ => True) (bits : Option (ℕ × ℕ × ℕ)) (z : LC F) {p : PoseidonParams F} (hv : p.Valid) (hw : p.width = 9) (st : MerkleState F) (h : 7 ≤ st.nodes.length) :
    VT env d (merkleLevel8 bits z p synth st) d fun st' => st'.nodes.length = st.nodes.length - 7 := by
  unfold merkleLevel8
  vtb (VT.allocBit _)
  vtb (VT.allocBit _)
  vtb (VT.allocBit _)
  apply VT.bind (VT.popNodes 7 st.nodes h)
  rintro ⟨rest, popped⟩ ⟨h1, h2⟩
  match popped, h2 with
  | [_, _, _, _, _, _, _], _ =>
    simp only
    apply VT.bind (VT.select8 _ _ _ _ _ _ _ _ _ _ _ _ _ _)
    intro l hl
    vtb (VT.hash8 hs hv hw _ hl _)
    vtb VT.simp
    exact VT.pure h1

theorem VT.merkle4 [ByteRep F] (hs : ∀ l k, VT env d (synth l k) d fun _ => True) (depth : ℕ) (root : F) (leaf index : Var) (nodes : List Var) (z : Var) {p : PoseidonParams F} (hv : p.Valid) (hw : p.width = 5)
    (hn : 3 ∣ nodes.length) : VT env d (merkleGadget4 depth root leaf ⟨index, none⟩ nodes [z] p synth) d fun _ => True := by
  unfold merkleGadget4
  apply VT.bind (VT.forN' (fun _ (st : MerkleState F) => 3 ∣ st.nodes.length) _ _ hn fun i _ st hst => VT.forN' (fun _ (st : MerkleState F) => 3 ∣ st.nodes.length) _ _ hst fun j _ st hst => by
      split
      · exact VT.pure hst
      · rename_i hne
        have h3 : 3 ≤ st.nodes.length := by
          refine Nat.le_of_dvd (Nat.pos_of_ne_zero fun h0 => hne ?_) hst
          rw [List.isEmpty_iff_length_eq_zero, h0]
        apply VT.bind (show VT env d (indexBits4 (none : Option F) i j : Prog F C rnd _) d fun _ => True from VT.pure trivial)
        rintro _ -
        exact (VT.level4 hs _ _ hv hw st h3).mono fun st' h' => by rw [h']; omega)
  rintro st -
  vtb VT.con
  exact VT.conScalar

theorem VT.merkle8 [ByteRep F] (hs : ∀ l k, VT env d (synth l k) d fun _ => True) (depth : ℕ) (root : F) (leaf index : Var) (nodes : List Var) (z : Var) {p : PoseidonParams F} (hv : p.Valid) (hw : p.width = 9)
    (hn : 7 ∣ nodes.length) : VT env d (merkleGadget8 depth root leaf ⟨index, none⟩ nodes z p synth) d fun _ => True := by
  unfold merkleGadget8
  apply VT.bind (show VT env d (indexOctets (none : Option F) depth : Prog F C rnd _) d fun o => o = none from VT.pure rfl)
  rintro _ rfl
  apply VT.bind (VT.forN' (fun _ (st : MerkleState F) => 7 ∣ st.nodes.length) _ _ hn fun i _ st hst => by
      split
      · exact VT.pure hst
      · rename_i hne
        have h3 : 7 ≤ st.nodes.length := by
          refine Nat.le_of_dvd (Nat.pos_of_ne_zero fun h0 => hne ?_) hst
          rw [List.isEmpty_iff_length_eq_zero, h0]
        apply VT.bind (show VT env d (octetBits (none : Option (List ℕ)) i : Prog F C rnd _) d fun _ => True from VT.pure trivial)
        rintro _ -
        exact (VT.level8 hs _ _ hv hw st h3).mono fun st' h' => by rw [h']; omega)
  rintro st -
  vtb VT.con
  exact VT.conScalar

end merkle

end Bp
