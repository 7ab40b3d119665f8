import Verif.Lemmas.HashOrder
import Verif.Lemmas.Gadgets.RandomizerHonest
import Verif.Model.Gadgets.Shuffle
import Verif.Model.Gadgets.Factors

set_option linter.unusedSectionVars false
set_option linter.unusedSimpArgs false

namespace Bp
variable {F G : Type} [Field F] [AddCommGroup G] [Module F G]
variable {C : Type} {rnd : Bool} {α β : Type}

theorem LC.Equiv.rfl'' {a : LC F} : a.Equiv a := List.Perm.refl _

namespace Prog.Alike
variable {RC : C → C → Prop}

theorem bind {α' β' : Type} {RA : α → α' → Prop} {RB : β → β' → Prop} {c : Prog F C rnd α} {c' : Prog F C rnd α'} {k : α → Prog F C rnd β} {k' : α' → Prog F C rnd β'}
    (h : Prog.Alike RC RA c c') (hk : ∀ a b, RA a b → Prog.Alike RC RB (k a) (k' b)) : Prog.Alike RC RB (c >>= k) (c' >>= k') := by
  show Prog.Alike RC RB (c.bind k) (c'.bind k')
  induction h with
  | ret h => exact hk _ _ h
  | err => exact .err
  | panic => exact .panic
  | multiply h1 h2 _ ih => exact .multiply h1 h2 ih
  | allocate _ ih => exact .allocate ih
  | allocateMultiplier _ ih => exact .allocateMultiplier ih
  | constrain h1 _ ih => exact .constrain h1 ih
  | specify h1 _ ih => exact .specify h1 ih
  | evaluateLc h1 _ ih => exact .evaluateLc h1 ih
  | allocateSingle _ ih => exact .allocateSingle ih
  | challenge _ ih => exact .challenge ih
  | simplify h1 _ ih => exact .simplify h1 ih

theorem bindE {c c' : Prog F C rnd α} {k k' : α → Prog F C rnd β} {RB : β → β → Prop} (h : Prog.Alike RC Eq c c') (hk : ∀ a, Prog.Alike RC RB (k a) (k' a)) : Prog.Alike RC RB (c >>= k) (c' >>= k') :=
  h.bind fun a b e => by subst e; exact hk a

theorem mul {l r l' r' : LC F} (h : l.Equiv l') (h' : r.Equiv r') : Prog.Alike RC Eq (Prog.mul l r : Prog F C rnd _) (Prog.mul l' r') :=
  .multiply h h' fun _ => .ret rfl
theorem con {l l' : LC F} (h : l.Equiv l') : Prog.Alike RC Eq (Prog.con l : Prog F C rnd _) (Prog.con l') := .constrain h (.ret rfl)
theorem eval {l l' : LC F} (h : l.Equiv l') : Prog.Alike RC Eq (Prog.eval l : Prog F C rnd _) (Prog.eval l') := .evaluateLc h fun _ => .ret rfl
theorem simp {l l' : LC F} (h : l.Equiv l') : Prog.Alike RC LC.Equiv (Prog.simp l : Prog F C rnd _) (Prog.simp l') := .simplify h fun _ _ hm => .ret hm
theorem pure {a : α} {b : β} {RA : α → β → Prop} (h : RA a b) : Prog.Alike RC RA (Pure.pure a : Prog F C rnd α) (Pure.pure b) := .ret h

theorem allocMul {x} : Prog.Alike RC Eq (Prog.allocMul x : Prog F C rnd _) (Prog.allocMul x) := by
  refine .allocateMultiplier fun r => ?_
  cases r with
  | error e => exact .err
  | ok v => exact .ret rfl

theorem allocSingle {x} : Prog.Alike RC Eq (Prog.allocSingle x : Prog F C rnd _) (Prog.allocSingle x) := by
  refine .allocateSingle fun r => ?_
  cases r with
  | error e => exact .err
  | ok v => exact .ret rfl

theorem index {xs : List α} {ys : List β} {R : α → β → Prop} (h : List.Forall₂ R xs ys) (i : ℕ) : Prog.Alike RC R (Prog.index xs i : Prog F C rnd α) (Prog.index ys i) := by
  unfold Prog.index
  have hl := h.length_eq
  by_cases hi : i < xs.length
  · rw [List.getElem?_eq_getElem hi, List.getElem?_eq_getElem (by omega)]
    exact .ret (by have := (List.forall₂_iff_get.mp h).2 i hi (by omega); simpa using this)
  · rw [List.getElem?_eq_none (by omega), List.getElem?_eq_none (by omega)]
    exact .panic

theorem index_self (xs : List α) (i : ℕ) : Prog.Alike RC Eq (Prog.index xs i : Prog F C rnd α) (Prog.index xs i) := by
  unfold Prog.index
  cases xs[i]? with
  | none => exact .panic
  | some a => exact .ret rfl

theorem unwrap (x : Option α) : Prog.Alike RC Eq (Prog.unwrap x : Prog F C rnd α) (Prog.unwrap x) := by
  cases x with
  | none => exact .panic
  | some a => exact .ret rfl

theorem ofRes (r : Res α) : Prog.Alike RC Eq (Prog.ofRes r : Prog F C rnd α) (Prog.ofRes r) := by
  rcases r with e | a
  · cases e with
    | err e => exact .err
    | panic w => exact .panic
  · exact .ret rfl

theorem ofResSame {R : α → β → Prop} {r : Res α} {r' : Res β} (h : ResSame R r r') : Prog.Alike RC R (Prog.ofRes r : Prog F C rnd α) (Prog.ofRes r') := by
  cases h with
  | ok h => exact .ret h
  | panic => exact .panic

theorem loop {body : ℕ → α → Prog F C rnd α} {body' : ℕ → β → Prog F C rnd β} (R : α → β → Prop)
    (hb : ∀ j a b, R a b → Prog.Alike RC R (body j a) (body' j b)) : ∀ n i a b, R a b → Prog.Alike RC R (Prog.loop body i n a) (Prog.loop body' i n b) := by
  intro n
  induction n with
  | zero => intro i a b h; exact .ret h
  | succ n ih => intro i a b h; exact Prog.Alike.bind (hb i a b h) fun a' b' h' => ih _ _ _ h'

theorem forN {body : ℕ → α → Prog F C rnd α} {body' : ℕ → β → Prog F C rnd β} (R : α → β → Prop) {n : ℕ} {a : α} {b : β} (h : R a b)
    (hb : ∀ j a b, R a b → Prog.Alike RC R (body j a) (body' j b)) : Prog.Alike RC R (Prog.forN n a body) (Prog.forN n b body') :=
  loop R hb n 0 a b h

theorem forNE {body : ℕ → α → Prog F C rnd α} {n : ℕ} {a : α} (hb : ∀ j a, Prog.Alike RC Eq (body j a) (body j a)) : Prog.Alike RC Eq (Prog.forN n a body) (Prog.forN n a body) :=
  forN Eq rfl fun j a b e => by subst e; exact hb j a

theorem conScalar {l l' : LC F} (h : l.Equiv l') (x : F) : Prog.Alike RC Eq (constrainLcWithScalar l x : Prog F C rnd _) (constrainLcWithScalar l' x) := .con (h.sub .rfl'')

/-- Gadget code without `simplify`. -/
macro "plain" : tactic => `(tactic|
  repeat' (first
    | exact Prog.Alike.mul .rfl'' .rfl''
    | exact Prog.Alike.con .rfl''
    | exact Prog.Alike.conScalar .rfl'' _
    | exact Prog.Alike.eval .rfl''
    | exact Prog.Alike.allocMul
    | exact Prog.Alike.allocSingle
    | exact Prog.Alike.index_self _ _
    | exact Prog.Alike.unwrap _
    | exact Prog.Alike.ofRes _
    | exact Prog.Alike.pure rfl
    | exact Prog.Alike.err
    | exact Prog.Alike.panic
    | refine Prog.Alike.bindE ?_ (fun _ => ?_)
    | refine Prog.Alike.forNE (fun _ _ => ?_)
    | split))

theorem bit (v : Alloc F) : Prog.Alike RC Eq (bitGadget v : Prog F C rnd _) (bitGadget v) := by
  unfold bitGadget
  plain

theorem positiveNo [IntRep F] (v : Alloc F) (n : ℕ) : Prog.Alike RC Eq (positiveNoGadget v n : Prog F C rnd _) (positiveNoGadget v n) := by
  unfold positiveNoGadget positiveNoBody
  plain

theorem isNonzero (x i : Var) : Prog.Alike RC Eq (isNonzeroGadget x i : Prog F C rnd _) (isNonzeroGadget x i) := by
  unfold isNonzeroGadget
  plain

theorem vectorSum (vs : List Var) (n : ℕ) : Prog.Alike RC Eq (vectorSumConstraints vs n : Prog F C rnd _) (vectorSumConstraints vs n) := .con .rfl''

theorem boundCheck [IntRep F] (debug : Bool) (v a b : Alloc F) (max min n : ℕ) : Prog.Alike RC Eq (boundCheckGadget debug v a b max min n : Prog F C rnd _) (boundCheckGadget debug v a b max min n) := by
  unfold boundCheckGadget
  refine .bindE (.con .rfl'') fun _ => .bindE (.con .rfl'') fun _ => .bindE (.ofRes _) fun _ => .bindE (.conScalar .rfl'' _) fun _ => .bindE (.positiveNo _ _) fun _ => .positiveNo _ _

theorem setMembership (v : Alloc F) (ds : List (Alloc F)) (set : List F) : Prog.Alike RC Eq (setMembershipGadget v ds set : Prog F C rnd _) (setMembershipGadget v ds set) := by
  unfold setMembershipGadget setMembershipBody
  plain

theorem setNonMembership (v : Alloc F) (ds is : List (Alloc F)) (set : List F) : Prog.Alike RC Eq (setNonMembershipGadget v ds is set : Prog F C rnd _) (setNonMembershipGadget v ds is set) := by
  unfold setNonMembershipGadget setNonMembershipBody isNonzeroGadget
  plain

theorem vectorProduct (items : List ℕ) (vec : List (Alloc F)) (v : Alloc F) : Prog.Alike RC Eq (vectorProductGadget items vec v : Prog F C rnd _) (vectorProductGadget items vec v) := by
  unfold vectorProductGadget vectorProductBody
  plain

theorem hamming (os : List (Alloc F)) (new : List F) (count : ℕ) : Prog.Alike RC Eq (hammingDistanceGadget os new count : Prog F C rnd _) (hammingDistanceGadget os new count) := by
  unfold hammingDistanceGadget hammingBody vectorSumConstraints
  plain

theorem mimc (l r : Alloc F) (rounds : ℕ) (constants : List F) (image : F) : Prog.Alike RC Eq (mimcGadget l r rounds constants image : Prog F C rnd _) (mimcGadget l r rounds constants image) := by
  unfold mimcGadget enforceMimc2Inputs mimcBody
  plain

end Prog.Alike

/-! ## Poseidon -/

section poseidon
variable {RC : C → C → Prop} {synth : LC F → F → Prog F C rnd Var}

/-- The S-box makes the same calls on equivalent inputs. -/
def SynthAlike (RC : C → C → Prop) (synth : LC F → F → Prog F C rnd Var) : Prop := ∀ l l' k, LC.Equiv l l' → Prog.Alike RC Eq (synth l k) (synth l' k)

theorem synthAlike_sbox (sbox : SboxType) : SynthAlike RC (sbox.synthesize : LC F → F → Prog F C rnd Var) := by
  intro l l' k h
  cases sbox with
  | cube => exact .bindE (.mul (h.add .rfl'') (h.add .rfl'')) fun ⟨_, _, _⟩ => .bindE (.mul .rfl'' .rfl'') fun ⟨_, _, _⟩ => .pure rfl
  | quint =>
    exact .bindE (.mul (h.add .rfl'') (h.add .rfl'')) fun ⟨_, _, _⟩ => .bindE (.mul .rfl'' .rfl'') fun ⟨_, _, _⟩ => .bindE (.mul .rfl'' .rfl'') fun ⟨_, _, _⟩ => .pure rfl
  | inverse =>
    exact .bindE (.eval (h.add .rfl'')) fun _ => .bindE .allocSingle fun ⟨_, _⟩ => .bindE .allocSingle fun ⟨_, _⟩ => .bindE (.isNonzero _ _) fun _ => .bindE (.unwrap _) fun _ =>
      .bindE (.conScalar .rfl'' _) fun _ => .pure rfl

theorem Prog.Alike.sboxLayer (hs : SynthAlike RC synth) (keys : List F) : ∀ {ls ls' : List (LC F)} {off : ℕ}, List.Forall₂ LC.Equiv ls ls' →
    Prog.Alike RC (List.Forall₂ LC.Equiv) (sboxLayerC synth keys ls off) (sboxLayerC synth keys ls' off)
  | _, _, off, .nil => .pure .nil
  | _, _, off, .cons h1 h2 => .bindE (.index_self _ _) fun k => .bindE (hs _ _ k h1) fun _ => .bind (Prog.Alike.sboxLayer hs keys h2) fun _ _ hab => .pure (.cons .rfl'' hab)

theorem Prog.Alike.partialLayer (hs : SynthAlike RC synth) (keys : List F) : ∀ {ls ls' : List (LC F)} {off : ℕ}, List.Forall₂ LC.Equiv ls ls' →
    Prog.Alike RC (List.Forall₂ LC.Equiv) (partialLayerC synth keys ls off) (partialLayerC synth keys ls' off)
  | _, _, off, .nil => .pure .nil
  | _, _, off, .cons h1 .nil => .bindE (.index_self _ _) fun k => .bindE (hs _ _ k h1) fun _ => .pure (.cons .rfl'' .nil)
  | _, _, off, .cons h1 (.cons h2 h3) => .bindE (.index_self _ _) fun _ => .bind (Prog.Alike.partialLayer hs keys (.cons h2 h3)) fun _ _ hab => .pure (.cons (h1.add .rfl'') hab)

theorem Prog.Alike.mdsColumn (mds : List (List F)) (i : ℕ) : ∀ {ls ls' : List (LC F)} {j : ℕ} {a a' : LC F}, List.Forall₂ LC.Equiv ls ls' → a.Equiv a' →
    Prog.Alike RC LC.Equiv (mdsColumnC mds i j ls a : Prog F C rnd _) (mdsColumnC mds i j ls' a')
  | _, _, j, a, a', .nil, ha => .pure ha
  | _, _, j, a, a', .cons h1 h2, ha => .bindE (.index_self _ _) fun _ => .bindE (.index_self _ _) fun m => Prog.Alike.mdsColumn mds i h2 (ha.add (h1.smul m))

theorem Prog.Alike.linearColumns (mds : List (List F)) {ls ls' : List (LC F)} (hf : List.Forall₂ LC.Equiv ls ls') : ∀ {n i : ℕ},
    Prog.Alike RC (List.Forall₂ LC.Equiv) (linearColumnsC mds ls i n : Prog F C rnd _) (linearColumnsC mds ls' i n)
  | 0, i => .pure .nil
  | n + 1, i => .bind (.mdsColumn mds i hf .rfl'') fun _ _ hab => .bind (Prog.Alike.linearColumns mds hf) fun _ _ h => .pure (.cons hab h)

theorem Prog.Alike.simplifyAll : ∀ {ls ls' : List (LC F)}, List.Forall₂ LC.Equiv ls ls' →
    Prog.Alike RC (List.Forall₂ LC.Equiv) (simplifyAll ls : Prog F C rnd _) (simplifyAll ls')
  | _, _, .nil => .pure .nil
  | _, _, .cons h1 h2 => .bind (.simp h1) fun _ _ hab => .bind (Prog.Alike.simplifyAll h2) fun _ _ h => .pure (.cons hab h)

theorem Prog.Alike.permRounds {layer : List (LC F) → ℕ → Prog F C rnd (List (LC F))} {post : List (LC F) → Prog F C rnd (List (LC F))} {mds : List (List F)} {w : ℕ}
    (hl : ∀ (ls ls' : List (LC F)) (off : ℕ), List.Forall₂ LC.Equiv ls ls' → Prog.Alike RC (List.Forall₂ LC.Equiv) (layer ls off) (layer ls' off))
    (hp : ∀ (ls ls' : List (LC F)), List.Forall₂ LC.Equiv ls ls' → Prog.Alike RC (List.Forall₂ LC.Equiv) (post ls) (post ls')) :
    ∀ {n : ℕ} {ls ls' : List (LC F)} {off : ℕ}, List.Forall₂ LC.Equiv ls ls' →
      Prog.Alike RC (fun a b => List.Forall₂ LC.Equiv a.1 b.1 ∧ a.2 = b.2) (permRoundsC layer post mds w n ls off) (permRoundsC layer post mds w n ls' off)
  | 0, ls, ls', off, h => .pure ⟨h, rfl⟩
  | n + 1, ls, ls', off, h => .bind (hl _ _ _ h) fun a b hab => .bind (by unfold linearLayerC; rw [hab.length_eq]; exact .linearColumns mds hab) fun c d hcd =>
      .bind (hp _ _ hcd) fun e g heg => Prog.Alike.permRounds hl hp heg

theorem Prog.Alike.perm (hs : SynthAlike RC synth) (p : PoseidonParams F) {ls ls' : List (LC F)} (hf : List.Forall₂ LC.Equiv ls ls') :
    Prog.Alike RC (List.Forall₂ LC.Equiv) (permConstraintsWith synth p ls) (permConstraintsWith synth p ls') := by
  unfold permConstraintsWith
  rw [hf.length_eq]
  split
  · exact .panic
  · refine .bind (.permRounds (fun _ _ o => .sboxLayer hs _ (off := o)) (fun _ _ => .pure) hf) ?_
    rintro ⟨a, _⟩ ⟨b, o⟩ ⟨h1, rfl⟩
    refine .bind (.permRounds (fun _ _ o => .partialLayer hs _ (off := o)) (fun _ _ => .simplifyAll) h1) ?_
    rintro ⟨a, _⟩ ⟨b, o⟩ ⟨h2, rfl⟩
    refine .bind (.permRounds (fun _ _ o => .sboxLayer hs _ (off := o)) (fun _ _ => .pure) h2) ?_
    rintro ⟨a, _⟩ ⟨b, o⟩ ⟨h3, rfl⟩
    exact .pure h3

theorem Prog.Alike.hash (hs : SynthAlike RC synth) (p : PoseidonParams F) {ls ls' : List (LC F)} (hf : List.Forall₂ LC.Equiv ls ls') :
    Prog.Alike RC LC.Equiv (hashConstraints synth p ls) (hashConstraints synth p ls') :=
  .bind (.perm hs p hf) fun _ _ h => .index h 1

theorem forall2_refl (ls : List (LC F)) : List.Forall₂ LC.Equiv ls ls := List.forall₂_same.mpr fun _ _ => .rfl''

theorem Prog.Alike.hash4 (hs : SynthAlike RC synth) (p : PoseidonParams F) (zs : List (LC F)) {ls ls' : List (LC F)} (hf : List.Forall₂ LC.Equiv ls ls') :
    Prog.Alike RC LC.Equiv (poseidonHash4Constraints ls zs p synth) (poseidonHash4Constraints ls' zs p synth) := by
  unfold poseidonHash4Constraints
  rw [hf.length_eq]
  split
  · exact .panic
  split
  · exact .panic
  cases zs with
  | nil => exact .panic
  | cons z zs => exact .hash hs p (.cons .rfl'' (List.rel_append hf (forall2_refl _)))

theorem Prog.Alike.hash8 (hs : SynthAlike RC synth) (p : PoseidonParams F) (z : LC F) {ls ls' : List (LC F)} (hf : List.Forall₂ LC.Equiv ls ls') :
    Prog.Alike RC LC.Equiv (poseidonHash8Constraints ls z p synth) (poseidonHash8Constraints ls' z p synth) := by
  unfold poseidonHash8Constraints
  rw [hf.length_eq]
  split
  · exact .panic
  · exact .hash hs p (.cons .rfl'' hf)

theorem Prog.Alike.hash2Call (hs : SynthAlike RC synth) (p : PoseidonParams F) (output : F) (vars statics : List Var) : Prog.Alike RC Eq (hash2Call p synth output vars statics) (hash2Call p synth output vars statics) := by
  unfold Bp.hash2Call poseidonHash2Gadget poseidonHash2Constraints
  split
  · refine .bind (RA := LC.Equiv) ?_ fun _ _ h => .conScalar h _
    split
    · exact .panic
    split
    · exact .panic
    · exact .hash hs p (forall2_refl _)
  · exact .panic

theorem Prog.Alike.hash4Call (hs : SynthAlike RC synth) (p : PoseidonParams F) (output : F) (vars statics : List Var) : Prog.Alike RC Eq (hash4Call p synth output vars statics) (hash4Call p synth output vars statics) := by
  unfold Bp.hash4Call poseidonHash4Gadget
  split
  · exact .panic
  · exact .bind (.hash4 hs p _ (forall2_refl _)) fun _ _ h => .conScalar h _

theorem Prog.Alike.hash8Call (hs : SynthAlike RC synth) (p : PoseidonParams F) (output : F) (vars statics : List Var) : Prog.Alike RC Eq (hash8Call p synth output vars statics) (hash8Call p synth output vars statics) := by
  unfold Bp.hash8Call poseidonHash8Gadget
  split
  · split
    · exact .panic
    · exact .bind (.hash8 hs p _ (forall2_refl _)) fun _ _ h => .conScalar h _
  · exact .panic

theorem Prog.Alike.constrainOutputs : ∀ (os : List F) (i : ℕ) {ls ls' : List (LC F)}, List.Forall₂ LC.Equiv ls ls' → Prog.Alike RC Eq (constrainOutputs ls i os : Prog F C rnd _) (constrainOutputs ls' i os)
  | [], _, _, _, _ => .pure rfl
  | o :: os, i, _, _, h => .bind (.index h i) fun _ _ hl => .bindE (.conScalar hl o) fun _ => Prog.Alike.constrainOutputs os (i + 1) h

theorem Prog.Alike.permutationGadget (input : List (Alloc F)) (p : PoseidonParams F) (sbox : SboxType) (output : List F) :
    Prog.Alike RC Eq (poseidonPermutationGadget input p sbox output : Prog F C rnd _) (poseidonPermutationGadget input p sbox output) := by
  unfold poseidonPermutationGadget poseidonPermutationConstraints
  split
  · exact .panic
  · exact .bind (.perm (synthAlike_sbox sbox) p (forall2_refl _)) fun _ _ h => .constrainOutputs output 0 h

end poseidon

/-! ## Merkle trees -/

section merkle
variable {RC : C → C → Prop} {synth : LC F → F → Prog F C rnd Var}

theorem Prog.Alike.allocBit (x : Option ℕ) : Prog.Alike RC Eq (allocBit x : Prog F C rnd _) (allocBit x) := by
  unfold Bp.allocBit
  plain

theorem Prog.Alike.select4 (b0 b0_1 b1 b1_1 : Var) {N N' : LC F} (h : N.Equiv N') (N1 N2 N3 : LC F) :
    Prog.Alike RC (List.Forall₂ LC.Equiv) (select4 b0 b0_1 b1 b1_1 N N1 N2 N3 : Prog F C rnd _) (select4 b0 b0_1 b1 b1_1 N' N1 N2 N3) := by
  unfold Bp.select4
  iterate 11
    refine .bind (.mul (by first | exact h | exact .rfl'') (by first | exact h | exact .rfl'')) ?_
    rintro ⟨_, _, _⟩ _ rfl
  refine .pure ?_
  repeat' (first | exact .nil | refine .cons .rfl'' ?_)

theorem Prog.Alike.select8 (b0 b0_1 b1 b1_1 b2 b2_1 : Var) {N N' : LC F} (h : N.Equiv N') (N1 N2 N3 N4 N5 N6 N7 : LC F) :
    Prog.Alike RC (List.Forall₂ LC.Equiv) (select8 b0 b0_1 b1 b1_1 b2 b2_1 N N1 N2 N3 N4 N5 N6 N7 : Prog F C rnd _) (select8 b0 b0_1 b1 b1_1 b2 b2_1 N' N1 N2 N3 N4 N5 N6 N7) := by
  unfold Bp.select8
  iterate 31
    refine .bind (.mul (by first | exact h | exact .rfl'') (by first | exact h | exact .rfl'')) ?_
    rintro ⟨_, _, _⟩ _ rfl
  refine .pure ?_
  repeat' (first | exact .nil | refine .cons .rfl'' ?_)

theorem Prog.Alike.popNodes (n : ℕ) (nodes : List Var) : Prog.Alike RC Eq (popNodes n nodes : Prog F C rnd _) (popNodes n nodes) := by
  unfold Bp.popNodes
  plain

theorem levelAlike4 (hs : SynthAlike RC synth) (bits : Option (ℕ × ℕ)) (zs : List (LC F)) (p : PoseidonParams F) (a b : MerkleState F) (h : a.Same b) :
    Prog.Alike RC MerkleState.Same (merkleLevel4 bits zs p synth a) (merkleLevel4 bits zs p synth b) := by
  unfold merkleLevel4
  rw [h.nodes, h.terms, h.exp]
  refine .bindE (.allocBit _) fun ⟨b0, b0_1⟩ => .bindE (.allocBit _) fun ⟨b1, b1_1⟩ => .bindE (.popNodes 3 _) fun ⟨rest, popped⟩ => ?_
  simp only
  split
  · exact .bind (.select4 _ _ _ _ h.prev _ _ _) fun _ _ hl => .bind (.hash4 hs p _ hl) fun _ _ hl => .bind (.simp hl) fun _ _ hl => .pure ⟨rfl, hl, rfl, rfl⟩
  · exact .panic

theorem levelAlike8 (hs : SynthAlike RC synth) (bits : Option (ℕ × ℕ × ℕ)) (z : LC F) (p : PoseidonParams F) (a b : MerkleState F) (h : a.Same b) :
    Prog.Alike RC MerkleState.Same (merkleLevel8 bits z p synth a) (merkleLevel8 bits z p synth b) := by
  unfold merkleLevel8
  rw [h.nodes, h.terms, h.exp]
  refine .bindE (.allocBit _) fun ⟨b0, b0_1⟩ => .bindE (.allocBit _) fun ⟨b1, b1_1⟩ => .bindE (.allocBit _) fun ⟨b2, b2_1⟩ => .bindE (.popNodes 7 _) fun ⟨rest, popped⟩ => ?_
  simp only
  split
  · exact .bind (.select8 _ _ _ _ _ _ h.prev _ _ _ _ _ _ _) fun _ _ hl => .bind (.hash8 hs p _ hl) fun _ _ hl => .bind (.simp hl) fun _ _ hl => .pure ⟨rfl, hl, rfl, rfl⟩
  · exact .panic

theorem Prog.Alike.merkleGadget4 [ByteRep F] (hs : SynthAlike RC synth) (depth : ℕ) (root : F) (leaf : Var) (index : Alloc F) (nodes statics : List Var) (p : PoseidonParams F) :
    Prog.Alike RC Eq (merkleGadget4 depth root leaf index nodes statics p synth) (merkleGadget4 depth root leaf index nodes statics p synth) := by
  unfold Bp.merkleGadget4
  refine .bind (.forN MerkleState.Same ⟨rfl, .rfl'', rfl, rfl⟩ fun i a b h => .forN MerkleState.Same h fun j a b h => ?_) fun a b h => ?_
  · rw [h.nodes]
    split
    · exact .pure h
    · refine .bindE ?_ fun bits => levelAlike4 hs bits _ p a b h
      unfold indexBits4
      plain
  · rw [h.terms]
    exact .bindE (.con .rfl'') fun _ => .conScalar h.prev _

theorem Prog.Alike.merkleGadget8 [ByteRep F] (hs : SynthAlike RC synth) (depth : ℕ) (root : F) (leaf : Var) (index : Alloc F) (nodes : List Var) (z : Var) (p : PoseidonParams F) :
    Prog.Alike RC Eq (merkleGadget8 depth root leaf index nodes z p synth) (merkleGadget8 depth root leaf index nodes z p synth) := by
  unfold Bp.merkleGadget8
  refine .bindE (by unfold indexOctets; plain) fun octets => .bind (.forN MerkleState.Same ⟨rfl, .rfl'', rfl, rfl⟩ fun i a b h => ?_) fun a b h => ?_
  · rw [h.nodes]
    split
    · exact .pure h
    · refine .bindE ?_ fun bits => levelAlike8 hs bits _ p a b h
      unfold octetBits
      plain
  · rw [h.terms]
    exact .bindE (.con .rfl'') fun _ => .conScalar h.prev _

/-! ## Randomizer -/

theorem Prog.Alike.origPath (hs : SynthAlike RC synth) (p : PoseidonParams F) (zs : List (LC F)) : ∀ (path : List ℕ) (nodes : List Var) {cur cur' : LC F}, cur.Equiv cur' →
    Prog.Alike RC LC.Equiv (origPath zs p synth path nodes cur) (origPath zs p synth path nodes cur')
  | [], _, _, _, h => .pure h
  | pos :: path, nodes, cur, cur', h => by
    unfold Bp.origPath
    exact .bindE (.popNodes 3 nodes) fun ⟨rest, popped⟩ => .bind (.ofResSame (vecInsert_same (forall2_refl _) pos h)) fun _ _ hab => .bind (.hash4 hs p zs hab) fun _ _ hl => Prog.Alike.origPath hs p zs path rest hl

theorem Prog.Alike.updatePath (hs : SynthAlike RC synth) (p : PoseidonParams F) (depth : ℕ) (zs : List (LC F)) : ∀ (n : ℕ) (path : List ℕ) {lc lc' : LC F} {m m' : NodeMap F}, lc.Equiv lc' → m.Same m' →
    Prog.Alike RC NodeMap.Same (updatePath depth zs p synth n path lc m) (updatePath depth zs p synth n path lc' m')
  | 0, _, _, _, _, _, _, h => .pure h
  | j + 1, path, lc, lc', m, m', hl, h => by
    unfold Bp.updatePath
    refine .bindE (.index_self path j) fun pj => .bind (.ofResSame (levelSiblings_same h path j pj _)) fun a b hab => .bind (.ofResSame (vecInsert_same hab pj hl)) fun c d hcd => .bind (.hash4 hs p zs hcd) fun h1 h2 hh =>
      Prog.Alike.updatePath hs p depth zs j _ hh (NodeMap.Same.insert ?_ _ hh)
    split
    · exact h.insert _ hl
    · exact h

variable [ByteRep F]

theorem Prog.Alike.origLoop (hs : SynthAlike RC synth) (p : PoseidonParams F) (depth : ℕ) (rv : Var) (newRoot : F) (db : HashDb (List F)) (zs : List (LC F)) : ∀ (is : List F) (vs : List Var)
    (proofs : List (List Var)) {m m' : NodeMap F}, m.Same m' → Prog.Alike RC NodeMap.Same (origLoop depth rv newRoot db zs p synth is vs proofs m) (origLoop depth rv newRoot db zs p synth is vs proofs m')
  | [], _, _, m, m', h => by unfold Bp.origLoop; exact .pure h
  | _ :: _, [], _, _, _, _ => by unfold Bp.origLoop; exact .panic
  | _ :: _, _ :: _, [], _, _, _ => by unfold Bp.origLoop; exact .panic
  | x :: is, v :: vs, ns :: proofs, m, m', h => by
    unfold Bp.origLoop
    exact .bindE (.ofRes _) fun path => .bind (Prog.Alike.origPath hs p zs _ ns .rfl'') fun l l' hl => .bindE (.con (hl.sub .rfl'')) fun _ => .bind (.ofResSame (addNodes_same db path newRoot [] h)) fun m1 m2 h1 =>
      Prog.Alike.origLoop hs p depth rv newRoot db zs is vs proofs h1

theorem Prog.Alike.updateLoop4 (hs : SynthAlike RC synth) (p : PoseidonParams F) (depth : ℕ) (zs : List (LC F)) : ∀ (is : List F) (vs : List Var) {m m' : NodeMap F}, m.Same m' →
    Prog.Alike RC NodeMap.Same (updateLoop4 depth zs p synth is vs m) (updateLoop4 depth zs p synth is vs m')
  | [], _, m, m', h => by unfold Bp.updateLoop4; exact .pure h
  | _ :: _, [], _, _, _ => by unfold Bp.updateLoop4; exact .panic
  | x :: is, v :: vs, m, m', h => by
    unfold Bp.updateLoop4
    exact .bindE (.ofRes _) fun path => .bind (Prog.Alike.updatePath hs p depth zs depth path .rfl'' h) fun m1 m2 h1 => Prog.Alike.updateLoop4 hs p depth zs is vs h1

theorem Prog.Alike.randomizerGadget (hs : SynthAlike RC synth) (p : PoseidonParams F) (depth : ℕ) (rv : Var) (t : SparseTree F) (db : HashDb (List F)) (is : List F) (vs : List Var) (proofs : List (List Var)) (zs : List Var) :
    Prog.Alike RC Eq (randomizerGadget depth rv t db is vs proofs zs p synth) (randomizerGadget depth rv t db is vs proofs zs p synth) := by
  unfold Bp.randomizerGadget
  split
  · exact .panic
  split
  · exact .panic
  exact .bind (Prog.Alike.origLoop hs p depth rv _ db _ is vs proofs (.refl _)) fun m1 m2 h1 => .bind (Prog.Alike.updateLoop4 hs p depth _ is vs h1) fun m3 m4 h2 =>
    .bind (.ofResSame (h2.index [])) fun l l' hl => .con (hl.sub .rfl'')

end merkle

/-! ## The clients -/

section clients

theorem Prog.Alike.productWith {RC : C → C → Prop} (z : F) : ∀ (vs : List Var) (l : LC F), Prog.Alike RC Eq (productWith z l vs : Prog F C rnd _) (productWith z l vs)
  | [], _ => .pure rfl
  | _ :: vs, _ => .bindE (.mul .rfl'' .rfl'') fun ⟨_, _, _⟩ => Prog.Alike.productWith z vs _

theorem Callback.Alike.shuffle (xs ys : List Var) : Callback.Alike (shuffleCallback xs ys : Callback F) (shuffleCallback xs ys) :=
  .bindE (c := Prog.chal _) (.challenge fun _ => .ret rfl) fun z => .bindE (.productWith z xs _) fun _ => .bindE (.productWith z ys _) fun _ => .con .rfl''

theorem steady_shuffle (xs ys : List Var) : Prog1.Steady (shuffleGadget xs ys : Prog1 F Unit) := .specify (.shuffle xs ys) (.ret rfl)

end clients

/-! ## The functions -/

section functions
variable {env env' : Env F G}

/-- Driver code up to its gadget calls. -/
macro "drive" : tactic => `(tactic|
  repeat' (first
    | exact Drv.Alike.lift _
    | exact Prover.commits_alike _
    | exact Verifier.commits_alike _
    | exact Drv.Alike.pure _
    | refine Drv.Alike.bind' ?_ (fun _ => ?_)
    | split))

theorem alike_statics (n : ℕ) : Drv.Alike Prover.Alike Eq (allocateStaticsForProver n : Drv (Prover F G) _) (allocateStaticsForProver n) := by
  unfold allocateStaticsForProver
  drive

theorem alike_vstatics (n : ℕ) (g h : G) : Drv.Alike Verifier.Alike Eq (allocateStaticsForVerifier n g h : Drv (Verifier F G) _) (allocateStaticsForVerifier n g h) := Verifier.commits_alike _

variable (hO : env.oracle = env'.oracle)
include hO

theorem alike_proveBoundedNum [IntRep F] (debug val randomness lower upper n rng sys) : Drv.Alike Prover.Alike Eq (proveBoundedNum env debug val randomness lower upper n rng sys) (proveBoundedNum env' debug val randomness lower upper n rng sys) := by
  unfold proveBoundedNum
  drive
  exact Prover.gadget_alike hO (.boundCheck ..)

theorem alike_verifyBoundedNum [IntRep F] (debug lower upper n coms) : Drv.Alike Verifier.Alike Eq (verifyBoundedNum env debug lower upper n coms) (verifyBoundedNum env' debug lower upper n coms) := by
  unfold verifyBoundedNum
  drive
  exact Verifier.gadget_alike hO (.boundCheck ..)

theorem alike_proveNonZeroVal (value randomness rng sys) : Drv.Alike Prover.Alike Eq (proveNonZeroVal env value randomness rng sys) (proveNonZeroVal env' value randomness rng sys) := by
  unfold proveNonZeroVal
  drive
  exact Prover.gadget_alike hO (.isNonzero ..)

theorem alike_verifyNonZeroVal (coms) : Drv.Alike Verifier.Alike Eq (verifyNonZeroVal env coms) (verifyNonZeroVal env' coms) := by
  unfold verifyNonZeroVal
  drive
  exact Verifier.gadget_alike hO (.isNonzero ..)

theorem alike_proveSetMembership (value randomness set rng sys) : Drv.Alike Prover.Alike Eq (proveSetMembership env value randomness set rng sys) (proveSetMembership env' value randomness set rng sys) := by
  unfold proveSetMembership
  drive
  exact Prover.gadget_alike hO (.setMembership ..)

theorem alike_verifySetMembership (set coms) : Drv.Alike Verifier.Alike Eq (verifySetMembership env set coms) (verifySetMembership env' set coms) := by
  unfold verifySetMembership
  drive
  exact Verifier.gadget_alike hO (.setMembership ..)

theorem alike_proveSetNonMembership (value randomness set rng sys) : Drv.Alike Prover.Alike Eq (proveSetNonMembership env value randomness set rng sys) (proveSetNonMembership env' value randomness set rng sys) := by
  unfold proveSetNonMembership
  drive
  exact Prover.gadget_alike hO (.setNonMembership ..)

theorem alike_verifySetNonMembership (set coms) : Drv.Alike Verifier.Alike Eq (verifySetNonMembership env set coms) (verifySetNonMembership env' set coms) := by
  unfold verifySetNonMembership
  drive
  exact Verifier.gadget_alike hO (.setNonMembership ..)

theorem alike_proveBits : ∀ bs, Drv.Alike Prover.Alike Eq (proveBits env bs) (proveBits env' bs)
  | [] => Drv.Alike.pure _
  | (b, r) :: bs => by
    unfold proveBits
    drive
    · exact Prover.gadget_alike hO (.bit ..)
    · exact alike_proveBits bs

theorem alike_verifyBits : ∀ Vs, Drv.Alike Verifier.Alike Eq (verifyBits env Vs) (verifyBits env' Vs)
  | [] => Drv.Alike.pure _
  | V :: Vs => by
    unfold verifyBits
    drive
    · exact Verifier.gadget_alike hO (.bit ..)
    · exact alike_verifyBits Vs

theorem alike_proveSetMembershipAlt (value randomness set rng sys) : Drv.Alike Prover.Alike Eq (proveSetMembershipAlt env value randomness set rng sys) (proveSetMembershipAlt env' value randomness set rng sys) := by
  unfold proveSetMembershipAlt
  drive
  · exact alike_proveBits hO _
  · exact Prover.gadget_alike hO (.vectorSum ..)
  · exact Prover.gadget_alike hO (.vectorProduct ..)

theorem alike_verifySetMembershipAlt (set coms) : Drv.Alike Verifier.Alike Eq (verifySetMembershipAlt env set coms) (verifySetMembershipAlt env' set coms) := by
  unfold verifySetMembershipAlt
  drive
  · exact alike_verifyBits hO _
  · exact Verifier.gadget_alike hO (.vectorSum ..)
  · exact Verifier.gadget_alike hO (.vectorProduct ..)

theorem alike_proveHammingDistance (original new count sys) : Drv.Alike Prover.Alike Eq (proveHammingDistance env original new count sys) (proveHammingDistance env' original new count sys) := by
  unfold proveHammingDistance
  drive
  exact Prover.gadget_alike hO (.hamming ..)

theorem alike_verifyHammingDistance (new count coms) : Drv.Alike Verifier.Alike Eq (verifyHammingDistance env new count coms) (verifyHammingDistance env' new count coms) := by
  unfold verifyHammingDistance
  drive
  exact Verifier.gadget_alike hO (.hamming ..)

theorem alike_proveMimcPreimage (inputs randomness expected constants rounds rng) : Drv.Alike Prover.Alike Eq (proveMimcPreimage env inputs randomness expected constants rounds rng) (proveMimcPreimage env' inputs randomness expected constants rounds rng) := by
  unfold proveMimcPreimage
  drive
  exact Prover.gadget_alike hO (.mimc ..)

theorem alike_verifyMimcPreimage (expected constants rounds coms) : Drv.Alike Verifier.Alike Eq (verifyMimcPreimage env expected constants rounds coms) (verifyMimcPreimage env' expected constants rounds coms) := by
  unfold verifyMimcPreimage
  drive
  exact Verifier.gadget_alike hO (.mimc ..)

theorem alike_provePreimage (k inputs randomness rng) {gadget : List Var → List Var → Prog1 F Unit} (hg : ∀ vs zs, Prog1.Steady (gadget vs zs)) :
    Drv.Alike Prover.Alike Eq (provePreimage env k inputs randomness rng gadget) (provePreimage env' k inputs randomness rng gadget) := by
  unfold provePreimage
  drive
  exact Prover.gadget_alike hO (hg _ _)

theorem alike_verifyPreimage (k) (g h : G) {gadget : List Var → List Var → Prog1 F Unit} (hg : ∀ vs zs, Prog1.Steady (gadget vs zs)) (coms) :
    Drv.Alike Verifier.Alike Eq (verifyPreimage env k g h gadget coms) (verifyPreimage env' k g h gadget coms) := by
  unfold verifyPreimage
  drive
  exact Verifier.gadget_alike hO (hg _ _)

theorem alike_proveInclusion (leaf leafIndex randomness merkleProof rng coins) {call : Var → Alloc F → List Var → List Var → Prog1 F Unit} (hc : ∀ l i ns zs, Prog1.Steady (call l i ns zs)) :
    Drv.Alike Prover.Alike Eq (proveInclusion env leaf leafIndex randomness merkleProof rng coins call) (proveInclusion env' leaf leafIndex randomness merkleProof rng coins call) := by
  unfold proveInclusion
  drive
  exact Prover.gadget_alike hO (hc _ _ _ _)

theorem alike_verifyInclusion (g h : G) {call : Var → Alloc F → List Var → List Var → Prog1 F Unit} (hc : ∀ l i ns zs, Prog1.Steady (call l i ns zs)) (coms) :
    Drv.Alike Verifier.Alike Eq (verifyInclusion env g h call coms) (verifyInclusion env' g h call coms) := by
  unfold verifyInclusion
  drive
  exact Verifier.gadget_alike hO (hc _ _ _ _)

omit hO in
theorem steady_merkleCall4 [ByteRep F] (root : F) (depth) (p : PoseidonParams F) (sbox : SboxType) (l i ns zs) : Prog1.Steady (merkleCall4 root depth p sbox.synthesize l i ns zs) :=
  .merkleGadget4 (synthAlike_sbox sbox) depth root l i ns zs p

omit hO in
theorem steady_merkleCall8 [ByteRep F] (root : F) (depth) (p : PoseidonParams F) (sbox : SboxType) (l i ns zs) : Prog1.Steady (merkleCall8 root depth p sbox.synthesize l i ns zs) := by
  cases zs with
  | nil => exact .panic
  | cons z zs => exact .merkleGadget8 (synthAlike_sbox sbox) depth root l i ns z p

omit hO in
theorem alike_commitOrig [ByteRep F] [DecidableEq F] (T : TreeOps F) (origTree : SparseTree F) (origDb : HashDb (List F)) (coins : ℕ → F) : ∀ (is : List F) (k : ℕ) (os : List F),
    Drv.Alike Prover.Alike Eq (commitOrig (G := G) T origTree origDb coins k is os) (commitOrig T origTree origDb coins k is os)
  | [], _, _ => by unfold commitOrig; exact Drv.Alike.pure _
  | i :: is, k, os => by
    unfold commitOrig
    refine Drv.Alike.bind' (Drv.Alike.lift _) fun ⟨v, proof⟩ => ?_
    rcases proof with _ | proof <;> rcases os with _ | ⟨o, os⟩
    · exact Drv.Alike.lift _
    · exact Drv.Alike.lift _
    · exact Drv.Alike.lift _
    · simp only
      split
      · exact Drv.Alike.lift _
      · exact Drv.Alike.bind' (Prover.commits_alike _) fun _ => Drv.Alike.bind' (Prover.commits_alike _) fun _ => Drv.Alike.bind' (alike_commitOrig T origTree origDb coins is _ os) fun ⟨_, _, _⟩ => Drv.Alike.pure _

theorem alike_proveRandomizer [ByteRep F] [DecidableEq F] (origTree origDb newTree newDb modifiedIndices origVals depth p sbox coins) :
    Drv.Alike Prover.Alike Eq (proveRandomizer env origTree origDb newTree newDb modifiedIndices origVals depth p sbox coins) (proveRandomizer env' origTree origDb newTree newDb modifiedIndices origVals depth p sbox coins) := by
  unfold proveRandomizer
  refine Drv.Alike.bind' (Prover.commits_alike _) fun c0 => Drv.Alike.bind' (alike_commitOrig _ _ _ _ _ _ _) fun ⟨cs, vs, ps⟩ => Drv.Alike.bind' (alike_statics 1) fun statics => ?_
  drive
  exact Prover.gadget_alike hO (.randomizerGadget (synthAlike_sbox sbox) ..)

omit hO in
theorem alike_commitVals (depth : ℕ) : ∀ (n : ℕ) (coms : List G), Drv.Alike Verifier.Alike Eq (commitVals (F := F) depth n coms) (commitVals depth n coms)
  | 0, _ => Drv.Alike.pure _
  | n + 1, coms => by
    unfold commitVals
    exact Drv.Alike.bind' (Drv.Alike.lift _) fun _ => Drv.Alike.bind' (Verifier.commits_alike _) fun _ => Drv.Alike.bind' (Drv.Alike.lift _) fun _ => Drv.Alike.bind' (Verifier.commits_alike _) fun _ =>
      Drv.Alike.bind' (alike_commitVals depth n _) fun ⟨_, _⟩ => Drv.Alike.pure _

theorem alike_verifyRandomizer [ByteRep F] (newTree newDb modifiedIndices depth p sbox) (g h : G) (coms) :
    Drv.Alike Verifier.Alike Eq (verifyRandomizer (F := F) env newTree newDb modifiedIndices depth p sbox g h coms) (verifyRandomizer env' newTree newDb modifiedIndices depth p sbox g h coms) := by
  unfold verifyRandomizer
  refine Drv.Alike.bind' (Drv.Alike.lift _) fun c => Drv.Alike.bind' (Verifier.commits_alike _) fun v => Drv.Alike.bind' (alike_commitVals _ _ _) fun ⟨vs, ps⟩ => Drv.Alike.bind' (alike_vstatics 1 g h) fun statics => ?_
  drive
  exact Verifier.gadget_alike hO (.randomizerGadget (synthAlike_sbox sbox) ..)

end functions

end Bp
