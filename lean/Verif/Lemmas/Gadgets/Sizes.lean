import Verif.Lemmas.Gadgets.Pinned3
import Verif.Spec.Sizes

set_option linter.unusedSectionVars false
set_option linter.unusedSimpArgs false

/-! # Counting gates and constraints on the verifier's side -/

namespace Bp
variable {F G : Type} [Field F] [AddCommGroup G] [Module F G]
variable {C : Type} {rnd : Bool} {α β : Type}

/-- Started with (`d`) or without a half-allocated gate, `c` adds `a` gates and `b` constraints, leaves (`d'`) or does not leave a half-allocated gate, and its result satisfies `Q`. -/
def VC (env : Env F G) (d : Bool) (c : Prog F C rnd α) (a b : ℕ) (d' : Bool) (Q : α → Prop) : Prop :=
  ∀ (onSpec : C → Verifier F G → Verifier F G), (∀ cb s, (onSpec cb s).constraints = s.constraints ∧ (onSpec cb s).numVars = s.numVars ∧ (onSpec cb s).pending = s.pending) →
    ∀ s x s', Verifier.run env onSpec c s = .ok (x, s') → s.pending.isSome = d →
      s'.numVars = s.numVars + a ∧ s'.constraints.length = s.constraints.length + b ∧ s'.pending.isSome = d' ∧ Q x

variable {env : Env F G} {d d' d'' : Bool}

theorem VC.bind {c : Prog F C rnd α} {f : α → Prog F C rnd β} {a b a' b' : ℕ} {Q : α → Prop} {R : β → Prop} (h1 : VC env d c a b d' Q) (h2 : ∀ x, Q x → VC env d' (f x) a' b' d'' R) :
    VC env d (c >>= f) (a + a') (b + b') d'' R := by
  intro onSpec ho s x s' h hp
  rw [Prog.bind_eq, Verifier.run_bind] at h
  cases hc : Verifier.run env onSpec c s with
  | error e => rw [hc] at h; simp at h
  | ok q =>
    obtain ⟨y, s1⟩ := q
    rw [hc] at h
    simp only at h
    obtain ⟨e1, e2, e3, e4⟩ := h1 onSpec ho s y s1 hc hp
    obtain ⟨f1, f2, f3, f4⟩ := h2 y e4 onSpec ho s1 x s' h e3
    exact ⟨by omega, by omega, f3, f4⟩

theorem VC.congr {c : Prog F C rnd α} {a b a' b' : ℕ} {Q : α → Prop} (h : VC env d c a b d' Q) (e1 : a = a') (e2 : b = b') : VC env d c a' b' d' Q := e1 ▸ e2 ▸ h
theorem VC.mono {c : Prog F C rnd α} {a b : ℕ} {Q R : α → Prop} (h : VC env d c a b d' Q) (hQ : ∀ x, Q x → R x) : VC env d c a b d' R := fun o ho s x s' hr hp =>
  have := h o ho s x s' hr hp
  ⟨this.1, this.2.1, this.2.2.1, hQ _ this.2.2.2⟩
theorem VC.ret {x : α} {Q : α → Prop} (h : Q x) : VC env d (.ret x : Prog F C rnd α) 0 0 d Q := by
  intro o ho s y s' hr hp
  simp only [Verifier.run, Except.ok.injEq, Prod.mk.injEq] at hr
  obtain ⟨rfl, rfl⟩ := hr
  exact ⟨rfl, rfl, hp, h⟩
theorem VC.pure {x : α} {Q : α → Prop} (h : Q x) : VC env d (pure x : Prog F C rnd α) 0 0 d Q := VC.ret h
theorem VC.err (e) (a b : ℕ) (Q : α → Prop) : VC env d (.err e : Prog F C rnd α) a b d' Q := by
  intro o ho s y s' hr; simp [Verifier.run, Res.err] at hr
theorem VC.panic (e) (a b : ℕ) (Q : α → Prop) : VC env d (.panic e : Prog F C rnd α) a b d' Q := by
  intro o ho s y s' hr; simp [Verifier.run, Res.panic] at hr
theorem VC.mul {l r : LC F} : VC env d (Prog.mul l r : Prog F C rnd _) 1 2 d fun _ => True := by
  intro o ho s y s' hr hp
  simp only [Prog.mul, Verifier.run, Except.ok.injEq, Prod.mk.injEq] at hr
  obtain ⟨-, rfl⟩ := hr
  exact ⟨rfl, by simp [Verifier.multiply, Verifier.allocateVars, Verifier.constrain], hp, trivial⟩
theorem VC.con {l : LC F} : VC env d (Prog.con l : Prog F C rnd _) 0 1 d fun _ => True := by
  intro o ho s y s' hr hp
  simp only [Prog.con, Verifier.run, Except.ok.injEq, Prod.mk.injEq] at hr
  obtain ⟨-, rfl⟩ := hr
  exact ⟨rfl, by simp [Verifier.constrain], hp, trivial⟩
theorem VC.conScalar {l : LC F} {x : F} : VC env d (constrainLcWithScalar l x : Prog F C rnd _) 0 1 d fun _ => True := VC.con
theorem VC.allocMul {x : Option (F × F)} : VC env d (Prog.allocMul x : Prog F C rnd _) 1 0 d fun _ => True := by
  intro o ho s y s' hr hp
  simp only [Prog.allocMul, Verifier.allocateMultiplier, Verifier.run, Prog.ofExcept, Except.ok.injEq, Prod.mk.injEq] at hr
  obtain ⟨-, rfl⟩ := hr
  exact ⟨rfl, rfl, hp, trivial⟩
theorem VC.eval {l : LC F} : VC env d (Prog.eval l : Prog F C rnd _) 0 0 d fun _ => True := by
  intro o ho s y s' hr hp
  simp only [Prog.eval, Verifier.run, Except.ok.injEq, Prod.mk.injEq] at hr
  obtain ⟨-, rfl⟩ := hr
  exact ⟨rfl, rfl, hp, trivial⟩
theorem VC.simp {l : LC F} : VC env d (Prog.simp l : Prog F C rnd _) 0 0 d fun _ => True := by
  intro o ho s y s' hr hp
  simp only [Prog.simp, Verifier.run, Except.ok.injEq, Prod.mk.injEq] at hr
  obtain ⟨-, rfl⟩ := hr
  exact ⟨rfl, rfl, hp, trivial⟩
theorem VC.unwrap {x : Option α} : VC env d (Prog.unwrap x : Prog F C rnd _) 0 0 d fun _ => True := by
  cases x with
  | none => exact VC.panic _ _ _ _
  | some x => exact VC.ret trivial
theorem VC.index {xs : List α} {i : ℕ} : VC env d (Prog.index xs i : Prog F C rnd _) 0 0 d fun _ => True := by
  unfold Prog.index
  split
  · exact VC.ret trivial
  · exact VC.panic _ _ _ _
theorem VC.ofRes {x : Res α} : VC env d (Prog.ofRes x : Prog F C rnd _) 0 0 d fun y => x = .ok y := by
  rcases x with (_ | _) | x
  · exact VC.err _ _ _ _
  · exact VC.panic _ _ _ _
  · exact VC.ret rfl

/-- The first half of a gate. -/
theorem VC.allocFirst {x : Option F} : VC env false (Prog.allocSingle x : Prog F C rnd _) 1 0 true fun _ => True := by
  intro o ho s y s' hr hp
  have hp' : s.pending = none := by simpa using hp
  simp only [Prog.allocSingle, Verifier.run, Verifier.allocateSingle, Verifier.allocate, hp', Prog.ofExcept, Except.ok.injEq, Prod.mk.injEq] at hr
  obtain ⟨-, rfl⟩ := hr
  exact ⟨rfl, rfl, rfl, trivial⟩
/-- The second half of a gate. -/
theorem VC.allocSecond {x : Option F} : VC env true (Prog.allocSingle x : Prog F C rnd _) 0 0 false fun _ => True := by
  intro o ho s y s' hr hp
  obtain ⟨i, hp'⟩ := Option.isSome_iff_exists.mp hp
  simp only [Prog.allocSingle, Verifier.run, Verifier.allocateSingle, Verifier.allocate, hp', Prog.ofExcept, Except.ok.injEq, Prod.mk.injEq] at hr
  obtain ⟨-, rfl⟩ := hr
  exact ⟨rfl, rfl, rfl, trivial⟩

theorem VC.loop {body : ℕ → β → Prog F C rnd β} (Q : ℕ → β → Prop) (L M : ℕ) (μ δ : ℕ → ℕ) : ∀ (n i : ℕ) (x : β), Q i x → (∀ j, i ≤ j → j < i + n → μ (j + 1) = μ j + δ j) →
    (∀ j, i ≤ j → j < i + n → ∀ x, Q j x → VC env d (body j x) (L * δ j) (M * δ j) d (Q (j + 1))) →
    VC env d (Prog.loop body i n x) (L * (μ (i + n) - μ i)) (M * (μ (i + n) - μ i)) d (Q (i + n))
  | 0, i, x, h, _, _ => by
    unfold Prog.loop
    simpa using VC.ret h
  | n + 1, i, x, h, hm, hb => by
    have ih := fun y (hy : Q (i + 1) y) => VC.loop Q L M μ δ n (i + 1) y hy (fun j h1 h2 => hm j (by omega) (by omega)) fun j h1 h2 => hb j (by omega) (by omega)
    have := VC.bind (hb i (le_refl _) (by omega) x h) ih
    rw [show i + 1 + n = i + (n + 1) by omega] at this
    have hle : μ (i + 1) ≤ μ (i + (n + 1)) := by
      have hmono : ∀ k, k ≤ n → μ (i + 1) ≤ μ (i + 1 + k) := by
        intro k hk
        induction k with
        | zero => simp
        | succ k ih =>
          have := hm (i + 1 + k) (by omega) (by omega)
          have := ih (by omega)
          rw [show i + 1 + (k + 1) = i + 1 + k + 1 by omega]
          omega
      have := hmono n (le_refl _)
      rwa [show i + 1 + n = i + (n + 1) by omega] at this
    have hi := hm i (le_refl _) (by omega)
    have e : δ i + (μ (i + (n + 1)) - μ (i + 1)) = μ (i + (n + 1)) - μ i := by omega
    refine VC.congr this ?_ ?_ <;> rw [← Nat.mul_add, e]

/-- A loop in which round `j` has `δ j` times `L` gates and `M` constraints. -/
theorem VC.forN' {body : ℕ → β → Prog F C rnd β} (Q : ℕ → β → Prop) (L M : ℕ) (μ δ : ℕ → ℕ) (n : ℕ) (x : β) (h : Q 0 x) (h0 : μ 0 = 0) (hm : ∀ j, j < n → μ (j + 1) = μ j + δ j)
    (hb : ∀ j, j < n → ∀ x, Q j x → VC env d (body j x) (L * δ j) (M * δ j) d (Q (j + 1))) : VC env d (Prog.forN n x body) (L * μ n) (M * μ n) d (Q n) := by
  have := VC.loop (env := env) (d := d) Q L M μ δ n 0 x h (fun j _ h2 => hm j (by omega)) fun j _ h2 => hb j (by omega)
  rw [Nat.zero_add, h0, Nat.sub_zero] at this
  exact this

/-- A loop with the same number in every round. -/
theorem VC.forN {body : ℕ → β → Prog F C rnd β} (L M n : ℕ) (x : β) (hb : ∀ j x, VC env d (body j x) L M d fun _ => True) : VC env d (Prog.forN n x body) (L * n) (M * n) d fun _ => True :=
  VC.forN' (fun _ _ => True) L M id (fun _ => 1) n x trivial rfl (fun _ _ => rfl) fun j _ x _ => by simpa using hb j x

/-- One step of a count. -/
macro "vcb " t:term : tactic => `(tactic| (apply VC.bind $t; rintro _ -))
/-- Count, then compare with the numbers claimed. -/
macro "vc_count" : tactic => `(tactic| apply VC.congr)

/-! ## Helpers -/

theorem VC.bitGadget (v : Alloc F) : VC env d (bitGadget v : Prog F C rnd _) 1 3 d fun _ => True := by
  unfold Bp.bitGadget
  vc_count
  · vcb VC.allocMul
    vcb VC.con
    vcb VC.con
    exact VC.con
  · rfl
  · rfl

theorem VC.positiveNo [IntRep F] (v : Alloc F) (n : ℕ) : VC env d (positiveNoGadget v n : Prog F C rnd _) n (2 * n + 1) d fun _ => True := by
  unfold positiveNoGadget
  vc_count
  · vcb (VC.forN 1 2 n _ fun i x => by
      unfold positiveNoBody
      vc_count
      · vcb VC.allocMul
        vcb VC.con
        vcb VC.con
        exact VC.pure trivial
      · rfl
      · rfl)
    exact VC.con
  · omega
  · rfl

theorem VC.isNonzero (x y : Var) : VC env d (isNonzeroGadget x y : Prog F C rnd _) 2 6 d fun _ => True := by
  unfold isNonzeroGadget
  vc_count
  · vcb VC.mul
    vcb VC.con
    vcb VC.mul
    exact VC.con
  · rfl
  · rfl

theorem VC.vectorSum (vs : List Var) (n : ℕ) : VC env d (vectorSumConstraints vs n : Prog F C rnd _) 0 1 d fun _ => True := VC.con

/-! ## Gadgets -/

theorem VC.boundCheck [IntRep F] (debug : Bool) (v a b : Alloc F) (max min n : ℕ) : VC env d (boundCheckGadget debug v a b max min n : Prog F C rnd _) (2 * n) (4 * n + 5) d fun _ => True := by
  unfold boundCheckGadget
  vc_count
  · vcb VC.con
    vcb VC.con
    vcb VC.ofRes
    vcb VC.conScalar
    vcb (VC.positiveNo a n)
    exact VC.positiveNo b n
  · omega
  · omega

theorem VC.setMembership (v : Alloc F) (ds : List (Alloc F)) (set : List F) : VC env d (setMembershipGadget v ds set : Prog F C rnd _) set.length (3 * set.length + 1) d fun _ => True := by
  unfold setMembershipGadget
  vc_count
  · vcb (VC.forN 1 3 _ _ fun i x => by
      unfold setMembershipBody
      vc_count
      · vcb VC.index
        vcb VC.index
        vcb VC.conScalar
        vcb VC.mul
        exact VC.pure trivial
      · rfl
      · rfl)
    exact VC.con
  · omega
  · rfl

theorem VC.setNonMembership (v : Alloc F) (ds is : List (Alloc F)) (set : List F) : VC env d (setNonMembershipGadget v ds is set : Prog F C rnd _) (2 * set.length) (7 * set.length) d fun _ => True := by
  unfold setNonMembershipGadget
  refine VC.forN 2 7 _ _ fun i x => ?_
  unfold setNonMembershipBody
  vc_count
  · vcb VC.index
    vcb VC.index
    vcb VC.conScalar
    vcb VC.index
    exact VC.isNonzero _ _
  · rfl
  · rfl

theorem VC.vectorProduct (items : List ℕ) (vs : List (Alloc F)) (v : Alloc F) : VC env d (vectorProductGadget items vs v : Prog F C rnd _) (2 * items.length) (4 * items.length + 1) d fun _ => True := by
  unfold vectorProductGadget
  vc_count
  · vcb (VC.forN 2 4 _ _ fun i x => by
      unfold vectorProductBody
      vc_count
      · vcb VC.index
        vcb VC.index
        vcb VC.allocMul
        vcb VC.conScalar
        vcb VC.mul
        vcb VC.con
        exact VC.pure trivial
      · rfl
      · rfl)
    exact VC.con
  · rfl
  · rfl

theorem VC.hamming (os : List (Alloc F)) (new : List F) (count : ℕ) : VC env false (hammingDistanceGadget os new count : Prog F C rnd _) (2 * new.length) (3 * new.length + 1) false fun _ => True := by
  unfold hammingDistanceGadget
  split
  · exact VC.err _ _ _ _
  · vc_count
    · vcb (VC.forN 2 3 _ _ fun i x => by
        unfold hammingBody
        vc_count
        · vcb VC.index
          vcb VC.index
          vcb VC.eval
          vcb VC.allocFirst
          vcb VC.allocSecond
          vcb VC.unwrap
          vcb VC.mul
          vcb VC.con
          exact VC.pure trivial
        · rfl
        · rfl)
      exact VC.vectorSum _ _
    · rfl
    · rfl

theorem VC.mimcHash (l r : LC F) (rounds : ℕ) (cs : List F) : VC env d (enforceMimc2Inputs l r rounds cs : Prog F C rnd _) (2 * rounds) (4 * rounds) d fun _ => True := by
  unfold enforceMimc2Inputs
  vc_count
  · vcb (VC.forN 2 4 _ _ fun i x => by
      unfold mimcBody
      vc_count
      · vcb VC.index
        vcb VC.mul
        vcb VC.mul
        exact VC.pure trivial
      · rfl
      · rfl)
    exact VC.pure trivial
  · rfl
  · rfl

theorem VC.mimc (l r : Alloc F) (rounds : ℕ) (cs : List F) (image : F) : VC env d (mimcGadget l r rounds cs image : Prog F C rnd _) (2 * rounds) (4 * rounds + 1) d fun _ => True := by
  unfold mimcGadget
  vc_count
  · vcb (VC.mimcHash _ _ _ _)
    exact VC.conScalar
  · rfl
  · rfl

theorem VC.multiplyOn : ∀ (vs : List Var) (o : Var), VC env d (multiplyOn o vs : Prog F C rnd _) vs.length (2 * vs.length) d fun _ => True
  | [], _ => VC.pure trivial
  | v :: vs, o => by
    unfold Bp.multiplyOn
    vc_count
    · vcb VC.mul
      exact VC.multiplyOn vs _
    · simp; omega
    · simp; omega

theorem VC.factors (v w : Var) (vs : List Var) (r : F) : VC env d (factorsGadget v w vs r : Prog F C rnd _) (vs.length + 1) (2 * vs.length + 3) d fun _ => True := by
  unfold factorsGadget
  vc_count
  · vcb VC.mul
    vcb (VC.multiplyOn vs _)
    exact VC.con
  · omega
  · omega

/-! ## Poseidon -/

theorem VC.synthesize (sbox : SboxType) (l : LC F) (k : F) : VC env false (sbox.synthesize l k : Prog F C rnd _) sbox.gateCount sbox.constraintCount false fun _ => True := by
  cases sbox with
  | cube =>
    vc_count
    · unfold SboxType.synthesize synthesizeCube
      vcb VC.mul
      vcb VC.mul
      exact VC.pure trivial
    · rfl
    · rfl
  | quint =>
    vc_count
    · unfold SboxType.synthesize synthesizeQuint
      vcb VC.mul
      vcb VC.mul
      vcb VC.mul
      exact VC.pure trivial
    · rfl
    · rfl
  | inverse =>
    vc_count
    · unfold SboxType.synthesize synthesizeInverse
      vcb VC.eval
      vcb VC.allocFirst
      vcb VC.allocSecond
      vcb (VC.isNonzero _ _)
      vcb VC.unwrap
      vcb VC.conScalar
      exact VC.pure trivial
    · rfl
    · rfl

section poseidon
variable {synth : LC F → F → Prog F C rnd Var} {a b : ℕ}

theorem VC.sboxLayer (hs : ∀ l k, VC env d (synth l k) a b d fun _ => True) (keys : List F) : ∀ (xs : List (LC F)) (off : ℕ),
    VC env d (sboxLayerC synth keys xs off) (xs.length * a) (xs.length * b) d fun ys => ys.length = xs.length
  | [], _ => by
    unfold sboxLayerC
    vc_count
    · exact VC.pure rfl
    · simp
    · simp
  | x :: xs, off => by
    unfold sboxLayerC
    vc_count
    · vcb VC.index
      vcb (hs x _)
      apply VC.bind (VC.sboxLayer hs keys xs (off + 1))
      intro ys hy
      exact VC.pure (by simp [hy])
    · simp [Nat.succ_mul]; omega
    · simp [Nat.succ_mul]; omega

theorem VC.partialLayer (hs : ∀ l k, VC env d (synth l k) a b d fun _ => True) (keys : List F) : ∀ (xs : List (LC F)) (off : ℕ), xs ≠ [] →
    VC env d (partialLayerC synth keys xs off) a b d fun ys => ys.length = xs.length
  | [], _, h => absurd rfl h
  | [x], off, _ => by
    unfold partialLayerC
    vc_count
    · vcb VC.index
      vcb (hs x _)
      exact VC.pure rfl
    · omega
    · omega
  | x :: x' :: xs, off, _ => by
    unfold partialLayerC
    vc_count
    · vcb VC.index
      apply VC.bind (VC.partialLayer hs keys (x' :: xs) (off + 1) (by simp))
      intro ys hy
      exact VC.pure (by simpa using hy)
    · omega
    · omega

theorem VC.mdsColumn (mds : List (List F)) (i : ℕ) : ∀ (xs : List (LC F)) (j : ℕ) (acc : LC F), VC env d (mdsColumnC mds i j xs acc : Prog F C rnd _) 0 0 d fun _ => True
  | [], _, _ => VC.pure trivial
  | x :: xs, j, acc => VC.bind VC.index fun _ _ => VC.bind VC.index fun _ _ => VC.mdsColumn mds i xs _ _

theorem VC.linearColumns (mds : List (List F)) (st : List (LC F)) : ∀ (n i : ℕ), VC env d (linearColumnsC mds st i n : Prog F C rnd _) 0 0 d fun ys => ys.length = n
  | 0, _ => VC.pure rfl
  | n + 1, i => VC.bind (VC.mdsColumn mds i st 0 _) fun _ _ => VC.bind (VC.linearColumns mds st n (i + 1)) fun _ hy => VC.pure (by simp [hy])

theorem VC.simplifyAll : ∀ xs : List (LC F), VC env d (simplifyAll xs : Prog F C rnd _) 0 0 d fun ys => ys.length = xs.length
  | [] => VC.pure rfl
  | x :: xs => VC.bind VC.simp fun _ _ => VC.bind (VC.simplifyAll xs) fun _ hy => VC.pure (by simp [hy])

theorem VC.permRounds {layer : List (LC F) → ℕ → Prog F C rnd (List (LC F))} {post : List (LC F) → Prog F C rnd (List (LC F))} {w : ℕ}
    (hl : ∀ st off, st.length = w → VC env d (layer st off) a b d fun ys => ys.length = w) (hp : ∀ st, VC env d (post st) 0 0 d fun ys => ys.length = st.length) (mds : List (List F)) (width : ℕ) :
    ∀ (n : ℕ) (st : List (LC F)) (off : ℕ), st.length = w → VC env d (permRoundsC layer post mds width n st off) (n * a) (n * b) d fun y => y.1.length = w
  | 0, st, off, h => by
    unfold permRoundsC
    simpa using VC.pure (x := (st, off)) (Q := fun y => y.1.length = w) h
  | n + 1, st, off, h => (VC.bind (hl st off h) fun x hx => VC.bind (VC.linearColumns mds x x.length 0) fun y hy => VC.bind (hp y) fun z hz => VC.permRounds hl hp mds width n z _ (hz.trans (hy.trans hx))).congr
      (by rw [Nat.succ_mul]; omega) (by rw [Nat.succ_mul]; omega)

theorem VC.permutation (hs : ∀ l k, VC env d (synth l k) a b d fun _ => True) (p : PoseidonParams F) (hw : p.width ≠ 0) (input : List (LC F)) :
    VC env d (permConstraintsWith synth p input) (p.sboxes * a) (p.sboxes * b) d fun _ => True := by
  unfold permConstraintsWith
  split
  · exact VC.panic _ _ _ _
  · rename_i hl
    have hl : input.length = p.width := not_not.mp hl
    have hf : ∀ st off, st.length = p.width → VC env d (sboxLayerC synth p.roundKeys st off) (p.width * a) (p.width * b) d fun ys => ys.length = p.width := by
      intro st off h
      have := VC.sboxLayer hs p.roundKeys st off
      rwa [h] at this
    have hpa : ∀ st off, st.length = p.width → VC env d (partialLayerC synth p.roundKeys st off) a b d fun ys => ys.length = p.width := by
      intro st off h
      have := VC.partialLayer hs p.roundKeys st off (fun e => hw (by rw [← h, e]; rfl))
      rwa [h] at this
    have hpost : ∀ st : List (LC F), VC env d (Pure.pure st : Prog F C rnd _) 0 0 d fun ys => ys.length = st.length := fun st => VC.pure rfl
    refine (VC.bind (VC.permRounds hf hpost p.mds p.width p.fullRoundsBeginning input 0 hl) fun ⟨st1, o1⟩ h1 => ?_).congr (a := p.fullRoundsBeginning * (p.width * a) + (p.partialRounds * a + (p.fullRoundsEnd * (p.width * a) + 0)))
      (b := p.fullRoundsBeginning * (p.width * b) + (p.partialRounds * b + (p.fullRoundsEnd * (p.width * b) + 0))) (by unfold PoseidonParams.sboxes; ring) (by unfold PoseidonParams.sboxes; ring)
    refine VC.bind (VC.permRounds hpa VC.simplifyAll p.mds p.width p.partialRounds st1 o1 h1) fun ⟨st2, o2⟩ h2 => ?_
    exact VC.bind (VC.permRounds hf hpost p.mds p.width p.fullRoundsEnd st2 o2 h2) fun ⟨st3, o3⟩ h3 => VC.pure trivial

/-- Hashes that succeed have a width. -/
theorem VC.hash (hs : ∀ l k, VC env d (synth l k) a b d fun _ => True) (p : PoseidonParams F) (input : List (LC F)) (hi : input ≠ []) :
    VC env d (hashConstraints synth p input) (p.sboxes * a) (p.sboxes * b) d fun _ => True := by
  by_cases hw : p.width = 0
  · unfold hashConstraints permConstraintsWith
    rw [if_pos (by rw [hw]; simpa using hi)]
    exact VC.panic _ _ _ _
  · exact VC.bind (VC.permutation hs p hw input) fun _ _ => VC.index

theorem VC.hash2 (hs : ∀ l k, VC env d (synth l k) a b d fun _ => True) (p : PoseidonParams F) (xl xr : LC F) (statics : List (LC F)) :
    VC env d (poseidonHash2Constraints xl xr statics p synth) (p.sboxes * a) (p.sboxes * b) d fun _ => True := by
  unfold poseidonHash2Constraints
  split
  · exact VC.panic _ _ _ _
  · split
    · exact VC.panic _ _ _ _
    · exact VC.hash hs p _ (by simp)

theorem VC.hash4 (hs : ∀ l k, VC env d (synth l k) a b d fun _ => True) (p : PoseidonParams F) (inputs statics : List (LC F)) :
    VC env d (poseidonHash4Constraints inputs statics p synth) (p.sboxes * a) (p.sboxes * b) d fun _ => True := by
  unfold poseidonHash4Constraints
  split
  · exact VC.panic _ _ _ _
  · split
    · exact VC.panic _ _ _ _
    · split
      · exact VC.panic _ _ _ _
      · exact VC.hash hs p _ (by simp)

theorem VC.hash8 (hs : ∀ l k, VC env d (synth l k) a b d fun _ => True) (p : PoseidonParams F) (inputs : List (LC F)) (zero : LC F) :
    VC env d (poseidonHash8Constraints inputs zero p synth) (p.sboxes * a) (p.sboxes * b) d fun _ => True := by
  unfold poseidonHash8Constraints
  split
  · exact VC.panic _ _ _ _
  · exact VC.hash hs p _ (by simp)

theorem VC.hash2Call (hs : ∀ l k, VC env d (synth l k) a b d fun _ => True) (p : PoseidonParams F) (output : F) (vars statics : List Var) :
    VC env d (hash2Call p synth output vars statics) (p.sboxes * a) (p.sboxes * b + 1) d fun _ => True := by
  unfold Bp.hash2Call
  split
  · exact VC.bind (VC.hash2 hs p _ _ _) fun _ _ => VC.conScalar
  · exact VC.panic _ _ _ _

theorem VC.hash4Call (hs : ∀ l k, VC env d (synth l k) a b d fun _ => True) (p : PoseidonParams F) (output : F) (vars statics : List Var) :
    VC env d (hash4Call p synth output vars statics) (p.sboxes * a) (p.sboxes * b + 1) d fun _ => True := by
  unfold Bp.hash4Call poseidonHash4Gadget
  split
  · exact VC.panic _ _ _ _
  · exact VC.bind (VC.hash4 hs p _ _) fun _ _ => VC.conScalar

theorem VC.hash8Call (hs : ∀ l k, VC env d (synth l k) a b d fun _ => True) (p : PoseidonParams F) (output : F) (vars statics : List Var) :
    VC env d (hash8Call p synth output vars statics) (p.sboxes * a) (p.sboxes * b + 1) d fun _ => True := by
  unfold Bp.hash8Call
  split
  · unfold poseidonHash8Gadget
    split
    · exact VC.panic _ _ _ _
    · exact VC.bind (VC.hash8 hs p _ _) fun _ _ => VC.conScalar
  · exact VC.panic _ _ _ _

end poseidon

/-! ## Merkle paths -/

theorem VC.popNodes (n : ℕ) (nodes : List Var) : VC env d (popNodes n nodes : Prog F C rnd _) 0 0 d fun q => q.1.length = nodes.length - n ∧ n ≤ nodes.length := by
  unfold Bp.popNodes
  split
  · exact VC.panic _ _ _ _
  · exact VC.pure ⟨by simp, by omega⟩

theorem VC.allocBit (bit : Option ℕ) : VC env d (allocBit bit : Prog F C rnd _) 1 2 d fun _ => True := by
  unfold Bp.allocBit
  vc_count
  · vcb VC.allocMul
    vcb VC.con
    vcb VC.con
    exact VC.pure trivial
  · rfl
  · rfl

theorem VC.select4 (b0 b0_1 b1 b1_1 : Var) (N N1 N2 N3 : LC F) : VC env d (select4 b0 b0_1 b1 b1_1 N N1 N2 N3 : Prog F C rnd _) 11 22 d fun _ => True := by
  unfold Bp.select4
  vc_count
  · iterate 11 vcb VC.mul
    exact VC.pure trivial
  · rfl
  · rfl

theorem VC.select8 (b0 b0_1 b1 b1_1 b2 b2_1 : Var) (N N1 N2 N3 N4 N5 N6 N7 : LC F) : VC env d (select8 b0 b0_1 b1 b1_1 b2 b2_1 N N1 N2 N3 N4 N5 N6 N7 : Prog F C rnd _) 31 62 d fun _ => True := by
  unfold Bp.select8
  vc_count
  · iterate 31 vcb VC.mul
    exact VC.pure trivial
  · rfl
  · rfl

section merkle
variable {synth : LC F → F → Prog F C rnd Var} {a b : ℕ}

theorem VC.level4 (hs : ∀ l k, VC env d (synth l k) a b d fun _ => True) (bits : Option (ℕ × ℕ)) (statics : List (LC F)) (p : PoseidonParams F) (st : MerkleState F) :
    VC env d (merkleLevel4 bits statics p synth st) (13 + p.sboxes * a) (26 + p.sboxes * b) d fun st' => st'.nodes.length = st.nodes.length - 3 ∧ 3 ≤ st.nodes.length := by
  unfold merkleLevel4
  vc_count
  · vcb (VC.allocBit _)
    vcb (VC.allocBit _)
    apply VC.bind (VC.popNodes 3 st.nodes)
    · rintro ⟨rest, popped⟩ ⟨h, h3⟩
      refine VC.congr (a := 11 + p.sboxes * a) (b := 22 + p.sboxes * b) ?_ rfl rfl
      simp only
      split
      · vc_count
        · vcb (VC.select4 _ _ _ _ _ _ _ _)
          vcb (VC.hash4 hs p _ _)
          vcb VC.simp
          exact VC.pure ⟨h, h3⟩
        · omega
        · omega
      · exact VC.panic _ _ _ _
  · omega
  · omega

theorem VC.level8 (hs : ∀ l k, VC env d (synth l k) a b d fun _ => True) (bits : Option (ℕ × ℕ × ℕ)) (zero : LC F) (p : PoseidonParams F) (st : MerkleState F) :
    VC env d (merkleLevel8 bits zero p synth st) (34 + p.sboxes * a) (68 + p.sboxes * b) d fun st' => st'.nodes.length = st.nodes.length - 7 ∧ 7 ≤ st.nodes.length := by
  unfold merkleLevel8
  vc_count
  · vcb (VC.allocBit _)
    vcb (VC.allocBit _)
    vcb (VC.allocBit _)
    apply VC.bind (VC.popNodes 7 st.nodes)
    · rintro ⟨rest, popped⟩ ⟨h, h3⟩
      refine VC.congr (a := 31 + p.sboxes * a) (b := 62 + p.sboxes * b) ?_ rfl rfl
      simp only
      split
      · vc_count
        · vcb (VC.select8 _ _ _ _ _ _ _ _ _ _ _ _ _ _)
          vcb (VC.hash8 hs p _ _)
          vcb VC.simp
          exact VC.pure ⟨h, h3⟩
        · omega
        · omega
      · exact VC.panic _ _ _ _
  · omega
  · omega

theorem VC.indexBits4 [ByteRep F] (x : Option F) (i j : ℕ) : VC env d (indexBits4 x i j : Prog F C rnd _) 0 0 d fun _ => True := by
  unfold Bp.indexBits4
  split
  · exact VC.pure trivial
  · split
    · exact VC.pure trivial
    · exact VC.panic _ _ _ _

theorem VC.indexOctets [ByteRep F] (x : Option F) (depth : ℕ) : VC env d (indexOctets x depth : Prog F C rnd _) 0 0 d fun _ => True := by
  unfold Bp.indexOctets
  split
  · exact VC.pure trivial
  · split
    · exact VC.pure trivial
    · exact VC.panic _ _ _ _
    · exact VC.err _ _ _ _

theorem VC.octetBits (x : Option (List ℕ)) (k : ℕ) : VC env d (octetBits x k : Prog F C rnd _) 0 0 d fun _ => True := by
  unfold Bp.octetBits
  split
  · exact VC.pure trivial
  · vc_count
    · vcb VC.index
      exact VC.pure trivial
    · rfl
    · rfl

theorem le_getByteSize4 (depth : ℕ) : depth ≤ 4 * getByteSize depth 4 := by
  have e : getBitCount depth 4 = 2 * depth := by rw [getBitCount, show Nat.log 2 4 = 2 by decide +kernel, Nat.mul_comm]
  unfold getByteSize
  simp only [e]
  split <;> omega

theorem VC.merkle4 [ByteRep F] (hs : ∀ l k, VC env d (synth l k) a b d fun _ => True) (depth : ℕ) (root : F) (leaf : Var) (index : Alloc F) (nodes statics : List Var) (p : PoseidonParams F)
    (hn : nodes.length = 3 * depth) : VC env d (merkleGadget4 depth root leaf index nodes statics p synth) (depth * (13 + p.sboxes * a)) (depth * (26 + p.sboxes * b) + 2) d fun _ => True := by
  unfold merkleGadget4
  vc_count
  · vcb (VC.forN' (fun i st => st.nodes.length = 3 * (depth - 4 * i)) (13 + p.sboxes * a) (26 + p.sboxes * b) (fun i => min depth (4 * i)) (fun i => min depth (4 * (i + 1)) - min depth (4 * i)) _ _
      (by simpa using hn) (by simp) (fun j _ => by omega) fun i _ st hst => by
        have := VC.forN' (env := env) (d := d) (body := fun j (st : MerkleState F) => if st.nodes.isEmpty then Pure.pure st else do
            let bits ← Bp.indexBits4 index.assignment i j
            merkleLevel4 bits (statics.map LC.ofVar) p synth st) (fun j st => st.nodes.length = 3 * (depth - (4 * i + j))) (13 + p.sboxes * a) (26 + p.sboxes * b)
          (fun j => min depth (4 * i + j) - min depth (4 * i)) (fun j => if 4 * i + j < depth then 1 else 0) 4 st (by simpa using hst) (by simp) (fun j _ => by split <;> omega) fun j _ st hst => by
            by_cases h : 4 * i + j < depth
            · rw [if_neg (by rw [List.isEmpty_iff_length_eq_zero]; omega), if_pos h]
              vc_count
              · vcb (VC.indexBits4 _ _ _)
                exact (VC.level4 hs _ _ p st).mono fun st' h' => by omega
              · omega
              · omega
            · rw [if_pos (by rw [List.isEmpty_iff_length_eq_zero]; omega), if_neg h]
              exact VC.pure (by omega)
        exact (this.mono fun st' h' => by rw [h']; omega).congr (by rw [Nat.mul_add]) (by rw [Nat.mul_add]))
    vcb VC.con
    exact VC.conScalar
  · have : min depth (4 * getByteSize depth 4) = depth := by have := le_getByteSize4 depth; omega
    rw [this]
    ring
  · have : min depth (4 * getByteSize depth 4) = depth := by have := le_getByteSize4 depth; omega
    rw [this]
    ring

theorem VC.merkle8 [ByteRep F] (hs : ∀ l k, VC env d (synth l k) a b d fun _ => True) (depth : ℕ) (root : F) (leaf : Var) (index : Alloc F) (nodes : List Var) (zero : Var) (p : PoseidonParams F)
    (hn : nodes.length = 7 * depth) : VC env d (merkleGadget8 depth root leaf index nodes zero p synth) (depth * (34 + p.sboxes * a)) (depth * (68 + p.sboxes * b) + 2) d fun _ => True := by
  unfold merkleGadget8
  vc_count
  · vcb (VC.indexOctets _ _)
    vcb (VC.forN' (fun i st => st.nodes.length = 7 * (depth - i)) (34 + p.sboxes * a) (68 + p.sboxes * b) id (fun _ => 1) _ _ (by simpa using hn) rfl (fun j _ => rfl) fun i hi st hst => by
      rw [if_neg (by rw [List.isEmpty_iff_length_eq_zero]; omega)]
      vc_count
      · vcb (VC.octetBits _ _)
        exact (VC.level8 hs _ _ p st).mono fun st' h' => by omega
      · omega
      · omega)
    vcb VC.con
    exact VC.conScalar
  · simp only [id]
    ring
  · simp only [id]
    ring

/-! ## Randomizer -/

theorem VC.origPath (hs : ∀ l k, VC env d (synth l k) a b d fun _ => True) (statics : List (LC F)) (p : PoseidonParams F) : ∀ (path : List ℕ) (nodes : List Var) (cur : LC F),
    VC env d (origPath statics p synth path nodes cur) (path.length * (p.sboxes * a)) (path.length * (p.sboxes * b)) d fun _ => True
  | [], nodes, cur => by
    unfold Bp.origPath
    simpa using VC.pure trivial
  | pos :: path, nodes, cur => by
    unfold Bp.origPath
    vc_count
    · vcb (VC.popNodes 3 nodes)
      vcb VC.ofRes
      vcb (VC.hash4 hs p _ _)
      exact VC.origPath hs statics p path _ _
    · simp [Nat.succ_mul]; omega
    · simp [Nat.succ_mul]; omega

theorem VC.updatePath (hs : ∀ l k, VC env d (synth l k) a b d fun _ => True) (depth : ℕ) (statics : List (LC F)) (p : PoseidonParams F) : ∀ (j : ℕ) (path : List ℕ) (lc : LC F) (m : NodeMap F),
    VC env d (updatePath depth statics p synth j path lc m) (j * (p.sboxes * a)) (j * (p.sboxes * b)) d fun _ => True
  | 0, _, _, _ => by
    unfold Bp.updatePath
    simpa using VC.pure trivial
  | j + 1, path, lc, m => by
    unfold Bp.updatePath
    vc_count
    · vcb VC.index
      vcb VC.ofRes
      vcb VC.ofRes
      vcb (VC.hash4 hs p _ _)
      exact VC.updatePath hs depth statics p j _ _ _
    · simp [Nat.succ_mul]; omega
    · simp [Nat.succ_mul]; omega

theorem VC.origLoop [ByteRep F] (hs : ∀ l k, VC env d (synth l k) a b d fun _ => True) (depth : ℕ) (origRoot : Var) (newRoot : F) (db : HashDb (List F)) (statics : List (LC F)) (p : PoseidonParams F) :
    ∀ (is : List F) (vs : List Var) (ps : List (List Var)) (m : NodeMap F),
    VC env d (origLoop depth origRoot newRoot db statics p synth is vs ps m) (is.length * (depth * (p.sboxes * a))) (is.length * (depth * (p.sboxes * b) + 1)) d fun _ => True
  | [], vs, ps, m => by
    unfold Bp.origLoop
    simpa using VC.pure trivial
  | i :: is, [], ps, m => by
    unfold Bp.origLoop
    exact VC.panic _ _ _ _
  | i :: is, v :: vs, [], m => by
    unfold Bp.origLoop
    exact VC.panic _ _ _ _
  | i :: is, v :: vs, nodes :: ps, m => by
    unfold Bp.origLoop
    vc_count
    · apply VC.bind VC.ofRes
      · intro path hp
        refine VC.congr (a := depth * (p.sboxes * a) + is.length * (depth * (p.sboxes * a))) (b := depth * (p.sboxes * b) + 1 + is.length * (depth * (p.sboxes * b) + 1)) ?_ rfl rfl
        have hl : path.reverse.length = depth := by rw [List.length_reverse]; rw [getBase4Repr_eq hp]; exact digitsOf_length ..
        vc_count
        · vcb (VC.origPath hs statics p path.reverse nodes _)
          vcb VC.con
          vcb VC.ofRes
          exact VC.origLoop hs depth origRoot newRoot db statics p is vs ps _
        · rw [hl]; omega
        · rw [hl]; omega
    · simp [Nat.succ_mul]; omega
    · simp [Nat.succ_mul]; omega

theorem VC.updateLoop [ByteRep F] (hs : ∀ l k, VC env d (synth l k) a b d fun _ => True) (depth : ℕ) (statics : List (LC F)) (p : PoseidonParams F) : ∀ (is : List F) (vs : List Var) (m : NodeMap F),
    VC env d (updateLoop4 depth statics p synth is vs m) (is.length * (depth * (p.sboxes * a))) (is.length * (depth * (p.sboxes * b))) d fun _ => True
  | [], vs, m => by
    unfold updateLoop4
    simpa using VC.pure trivial
  | i :: is, [], m => by
    unfold updateLoop4
    exact VC.panic _ _ _ _
  | i :: is, v :: vs, m => by
    unfold updateLoop4
    vc_count
    · vcb VC.ofRes
      vcb (VC.updatePath hs depth statics p depth _ _ _)
      exact VC.updateLoop hs depth statics p is vs _
    · simp [Nat.succ_mul]; omega
    · simp [Nat.succ_mul]; omega

theorem VC.randomizer [ByteRep F] (hs : ∀ l k, VC env d (synth l k) a b d fun _ => True) (depth : ℕ) (origRoot : Var) (t : SparseTree F) (db : HashDb (List F)) (is : List F) (vs : List Var)
    (ps : List (List Var)) (statics : List Var) (p : PoseidonParams F) : VC env d (randomizerGadget depth origRoot t db is vs ps statics p synth) (2 * is.length * depth * (p.sboxes * a))
      (2 * is.length * depth * (p.sboxes * b) + is.length + 1) d fun _ => True := by
  unfold randomizerGadget
  split
  · exact VC.panic _ _ _ _
  split
  · exact VC.panic _ _ _ _
  vc_count
  · vcb (VC.origLoop hs depth origRoot t.root db _ p is vs ps _)
    vcb (VC.updateLoop hs depth _ p is vs _)
    vcb VC.ofRes
    exact VC.con
  · ring
  · ring

end merkle

end Bp
