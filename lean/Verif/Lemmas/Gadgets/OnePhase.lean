import Verif.Model.Gadgets.Randomizer
import Verif.Lemmas.CS
import Verif.Spec.FiatShamir
import Verif.Lemmas.Log
import Verif.Lemmas.Gadgets.Driver

/-! # The gadgets leave no randomized constraints for the second phase -/

set_option linter.unusedSectionVars false

namespace Bp
variable {F G C : Type} [Field F] [AddCommGroup G] [SMul F G] {rnd : Bool} {α β : Type}

/-- The program never calls `specify_randomized_constraints`. -/
def Prog.NoSpec : Prog F C rnd α → Prop
  | .ret _ => True
  | .err _ => True
  | .panic _ => True
  | .multiply _ _ k => ∀ q, (k q).NoSpec
  | .allocate _ k => ∀ q, (k q).NoSpec
  | .allocateMultiplier _ k => ∀ q, (k q).NoSpec
  | .constrain _ k => k.NoSpec
  | .specify _ _ => False
  | .evaluateLc _ k => ∀ q, (k q).NoSpec
  | .allocateSingle _ k => ∀ q, (k q).NoSpec
  | .challenge _ _ k => ∀ q, (k q).NoSpec
  | .simplify _ k => ∀ q, (k q).NoSpec

namespace NoSpec
open Prog

theorem bind {c : Prog F C rnd α} {f : α → Prog F C rnd β} (h : c.NoSpec) (hf : ∀ a, (f a).NoSpec) : (c >>= f).NoSpec := by
  show (Prog.bind c f).NoSpec
  induction c with
  | ret a => exact hf a
  | err e => exact True.intro
  | panic w => exact True.intro
  | multiply l r k ih => exact fun q => ih q (h q)
  | allocate x k ih => exact fun q => ih q (h q)
  | allocateMultiplier x k ih => exact fun q => ih q (h q)
  | constrain lc k ih => exact ih h
  | specify cb k ih => exact h.elim
  | evaluateLc lc k ih => exact fun q => ih q (h q)
  | allocateSingle x k ih => exact fun q => ih q (h q)
  | challenge e l k ih => exact fun q => ih q (h q)
  | simplify lc k ih => exact fun q => ih q (h q)

theorem pure (a : α) : (Pure.pure a : Prog F C rnd α).NoSpec := True.intro
theorem ret (a : α) : (.ret a : Prog F C rnd α).NoSpec := True.intro
theorem panic (w : String) : (.panic w : Prog F C rnd α).NoSpec := True.intro
theorem err (e : R1CSError) : (.err e : Prog F C rnd α).NoSpec := True.intro
theorem ofExcept (e : Except R1CSError α) : (Prog.ofExcept e : Prog F C rnd α).NoSpec := by cases e <;> exact True.intro
theorem mul (l r : LC F) : (Prog.mul l r : Prog F C rnd _).NoSpec := fun _ => True.intro
theorem alloc (x : Option F) : (Prog.alloc x : Prog F C rnd _).NoSpec := fun _ => ofExcept _
theorem allocMul (x : Option (F × F)) : (Prog.allocMul x : Prog F C rnd _).NoSpec := fun _ => ofExcept _
theorem con (lc : LC F) : (Prog.con lc : Prog F C rnd _).NoSpec := True.intro
theorem eval (lc : LC F) : (Prog.eval lc : Prog F C rnd _).NoSpec := fun _ => True.intro
theorem allocSingle (x : Option F) : (Prog.allocSingle x : Prog F C rnd _).NoSpec := fun _ => ofExcept _
theorem simp (lc : LC F) : (Prog.simp lc : Prog F C rnd _).NoSpec := fun _ => True.intro
theorem unwrap (x : Option α) : (Prog.unwrap x : Prog F C rnd α).NoSpec := by cases x <;> exact True.intro
theorem index (xs : List α) (i : ℕ) : (Prog.index xs i : Prog F C rnd α).NoSpec := by
  unfold Prog.index
  split <;> exact True.intro
theorem ofRes (r : Res α) : (Prog.ofRes r : Prog F C rnd α).NoSpec := by
  unfold Prog.ofRes
  split <;> exact True.intro
theorem conScalar (lc : LC F) (x : F) : (constrainLcWithScalar lc x : Prog F C rnd _).NoSpec := True.intro
theorem loop {body : ℕ → β → Prog F C rnd β} (h : ∀ i a, (body i a).NoSpec) : ∀ n i a, (Prog.loop body i n a).NoSpec := by
  intro n
  induction n with
  | zero => intro i a; exact True.intro
  | succ n ih => intro i a; exact bind (h i a) fun b => ih _ b
theorem forN {body : ℕ → β → Prog F C rnd β} (n : ℕ) (a : β) (h : ∀ i a, (body i a).NoSpec) : (Prog.forN n a body).NoSpec := loop h n 0 a

end NoSpec

/-! ## Runs of the verifier -/

theorem Verifier.run_noSpec {env : Env F G} {onSpec : C → Verifier F G → Verifier F G} (c : Prog F C rnd α) (hc : c.NoSpec) : ∀ s a s', Verifier.run env onSpec c s = .ok (a, s') → s'.deferred = s.deferred := by
  induction c with
  | ret a => intro s a s' h; simp only [run, Except.ok.injEq, Prod.mk.injEq] at h; rw [h.2]
  | err e => intro s a s' h; simp [run, Res.err] at h
  | panic w => intro s a s' h; simp [run, Res.panic] at h
  | multiply l r k ih => intro s a s' h; exact (ih _ (hc _) _ _ _ h).trans rfl
  | allocate x k ih =>
    intro s a s' h
    rw [run] at h
    refine (ih _ (hc _) _ _ _ h).trans ?_
    unfold allocate
    cases s.pending <;> rfl
  | allocateMultiplier x k ih => intro s a s' h; exact (ih _ (hc _) _ _ _ h).trans rfl
  | constrain lc k ih => intro s a s' h; exact (ih hc _ _ _ h).trans rfl
  | specify cb k ih => exact hc.elim
  | evaluateLc lc k ih => intro s a s' h; exact (ih _ (hc _) _ _ _ h).trans rfl
  | allocateSingle x k ih =>
    intro s a s' h
    rw [run] at h
    refine (ih _ (hc _) _ _ _ h).trans ?_
    unfold allocateSingle allocate
    cases s.pending <;> rfl
  | challenge e l k ih => intro s a s' h; exact (ih _ (hc _) _ _ _ h).trans rfl
  | simplify lc k ih => intro s a s' h; exact (ih _ (hc _) _ _ _ h).trans rfl

attribute [irreducible] Prog.NoSpec

namespace NoSpec

/-- The end of a program. -/
macro "leaf" : tactic => `(tactic| first | exact NoSpec.pure _ | exact NoSpec.panic _)

/-- Going through a program. -/
macro "nospec" : tactic => `(tactic| repeat' (first
  | with_reducible exact NoSpec.mul _ _
  | with_reducible exact NoSpec.con _
  | with_reducible exact NoSpec.pure _
  | with_reducible exact NoSpec.allocMul _
  | with_reducible exact NoSpec.index _ _
  | with_reducible exact NoSpec.ofRes _
  | with_reducible exact NoSpec.conScalar _ _
  | with_reducible exact NoSpec.panic _
  | with_reducible exact NoSpec.err _
  | with_reducible exact NoSpec.eval _
  | with_reducible exact NoSpec.allocSingle _
  | with_reducible exact NoSpec.simp _
  | with_reducible exact NoSpec.unwrap _
  | with_reducible exact NoSpec.alloc _
  | with_reducible apply NoSpec.forN
  | with_reducible apply NoSpec.bind
  | intro _
  | split))

/-- Going through a program that calls programs for which this is known. -/
macro "nospec_using" t:term : tactic => `(tactic| repeat' (first
  | with_reducible apply $t
  | with_reducible exact NoSpec.mul _ _
  | with_reducible exact NoSpec.con _
  | with_reducible exact NoSpec.pure _
  | with_reducible exact NoSpec.allocMul _
  | with_reducible exact NoSpec.index _ _
  | with_reducible exact NoSpec.ofRes _
  | with_reducible exact NoSpec.conScalar _ _
  | with_reducible exact NoSpec.panic _
  | with_reducible exact NoSpec.err _
  | with_reducible exact NoSpec.eval _
  | with_reducible exact NoSpec.allocSingle _
  | with_reducible exact NoSpec.simp _
  | with_reducible exact NoSpec.unwrap _
  | with_reducible exact NoSpec.alloc _
  | with_reducible apply NoSpec.forN
  | with_reducible apply NoSpec.bind
  | intro _
  | split))

theorem bit (v : Alloc F) : (bitGadget v : Prog F C rnd _).NoSpec := by unfold bitGadget; nospec
theorem positiveNo [IntRep F] (v : Alloc F) (n : ℕ) : (positiveNoGadget v n : Prog F C rnd _).NoSpec := by unfold positiveNoGadget positiveNoBody; nospec
theorem isNonzero (x y : Var) : (isNonzeroGadget x y : Prog F C rnd _).NoSpec := by unfold isNonzeroGadget; nospec
theorem vectorSum (vs : List Var) (n : ℕ) : (vectorSumConstraints vs n : Prog F C rnd _).NoSpec := con _
theorem boundCheck [IntRep F] (debug : Bool) (v a b : Alloc F) (max min n : ℕ) : (boundCheckGadget debug v a b max min n : Prog F C rnd _).NoSpec := by
  unfold boundCheckGadget
  nospec_using positiveNo
theorem setMembership (v : Alloc F) (ds : List (Alloc F)) (set : List F) : (setMembershipGadget v ds set : Prog F C rnd _).NoSpec := by unfold setMembershipGadget setMembershipBody; nospec
theorem setNonMembership (v : Alloc F) (ds es : List (Alloc F)) (set : List F) : (setNonMembershipGadget v ds es set : Prog F C rnd _).NoSpec := by
  unfold setNonMembershipGadget setNonMembershipBody
  nospec_using isNonzero
theorem vectorProduct (items : List ℕ) (vec : List (Alloc F)) (v : Alloc F) : (vectorProductGadget items vec v : Prog F C rnd _).NoSpec := by unfold vectorProductGadget vectorProductBody; nospec
theorem hamming (os : List (Alloc F)) (new : List F) (count : ℕ) : (hammingDistanceGadget os new count : Prog F C rnd _).NoSpec := by
  unfold hammingDistanceGadget hammingBody
  split
  · exact err _
  refine bind (forN _ _ fun i a => ?_) fun _ => vectorSum _ _
  nospec
theorem mimc (l r : Alloc F) (rounds : ℕ) (constants : List F) (image : F) : (mimcGadget l r rounds constants image : Prog F C rnd _).NoSpec := by unfold mimcGadget enforceMimc2Inputs mimcBody; nospec

theorem sbox (s : SboxType) (l : LC F) (k : F) : (s.synthesize l k : Prog F C rnd _).NoSpec := by
  cases s
  · show (synthesizeCube l k).NoSpec; unfold synthesizeCube; nospec
  · show (synthesizeInverse l k).NoSpec; unfold synthesizeInverse; nospec_using isNonzero
  · show (synthesizeQuint l k).NoSpec; unfold synthesizeQuint; nospec

variable {synth : LC F → F → Prog F C rnd Var}

theorem sboxLayer (hs : ∀ l k, (synth l k).NoSpec) (keys : List F) : ∀ (xs : List (LC F)) (off : ℕ), (sboxLayerC synth keys xs off).NoSpec := by
  intro xs
  induction xs with
  | nil => intro off; leaf
  | cons x xs ih => intro off; exact bind (index _ _) fun _ => bind (hs _ _) fun _ => bind (ih _) fun _ => pure _

theorem partialLayer (hs : ∀ l k, (synth l k).NoSpec) (keys : List F) : ∀ (xs : List (LC F)) (off : ℕ), (partialLayerC synth keys xs off).NoSpec := by
  intro xs
  induction xs with
  | nil => intro off; leaf
  | cons x xs ih =>
    intro off
    cases xs with
    | nil => exact bind (index _ _) fun _ => bind (hs _ _) fun _ => pure _
    | cons y ys => exact bind (index _ _) fun _ => bind (ih _) fun _ => pure _

theorem mdsColumn (mds : List (List F)) (i : ℕ) : ∀ (xs : List (LC F)) (j : ℕ) (acc : LC F), (mdsColumnC mds i j xs acc : Prog F C rnd _).NoSpec := by
  intro xs
  induction xs with
  | nil => intro j acc; leaf
  | cons x xs ih => intro j acc; exact bind (index _ _) fun _ => bind (index _ _) fun _ => ih _ _

theorem linearLayer (mds : List (List F)) (st : List (LC F)) : (linearLayerC mds st : Prog F C rnd _).NoSpec := by
  unfold linearLayerC
  have h : ∀ n i, (linearColumnsC mds st i n : Prog F C rnd _).NoSpec := by
    intro n
    induction n with
    | zero => intro i; leaf
    | succ n ih =>
      intro i
      unfold linearColumnsC
      exact bind (mdsColumn _ _ _ _ _) fun _ => bind (ih _) fun _ => pure _
  exact h _ _

theorem simplifyAll' : ∀ (xs : List (LC F)), (simplifyAll xs : Prog F C rnd _).NoSpec := by
  intro xs
  induction xs with
  | nil => leaf
  | cons x xs ih => exact bind (simp _) fun _ => bind ih fun _ => pure _

theorem permRounds {layer : List (LC F) → ℕ → Prog F C rnd (List (LC F))} {post : List (LC F) → Prog F C rnd (List (LC F))} (h1 : ∀ l i, (layer l i).NoSpec) (h2 : ∀ l, (post l).NoSpec) (mds : List (List F)) (width : ℕ) :
    ∀ n st off, (permRoundsC layer post mds width n st off).NoSpec := by
  intro n
  induction n with
  | zero => intro st off; leaf
  | succ n ih =>
    intro st off
    unfold permRoundsC
    exact bind (h1 _ _) fun _ => bind (linearLayer _ _) fun _ => bind (h2 _) fun _ => ih _ _

theorem perm (hs : ∀ l k, (synth l k).NoSpec) (p : PoseidonParams F) (input : List (LC F)) : (permConstraintsWith synth p input).NoSpec := by
  unfold permConstraintsWith
  split
  · leaf
  · exact bind (permRounds (sboxLayer hs _) pure _ _ _ _ _) fun _ => bind (permRounds (partialLayer hs _) simplifyAll' _ _ _ _ _) fun _ => bind (permRounds (sboxLayer hs _) pure _ _ _ _ _) fun _ => pure _

theorem hash (hs : ∀ l k, (synth l k).NoSpec) (p : PoseidonParams F) (input : List (LC F)) : (hashConstraints synth p input).NoSpec := bind (perm hs p input) fun _ => index _ _

theorem hash2 (hs : ∀ l k, (synth l k).NoSpec) (xl xr : LC F) (statics : List (LC F)) (p : PoseidonParams F) : (poseidonHash2Constraints xl xr statics p synth).NoSpec := by
  unfold poseidonHash2Constraints
  nospec_using (hash hs)
theorem hash4 (hs : ∀ l k, (synth l k).NoSpec) (input statics : List (LC F)) (p : PoseidonParams F) : (poseidonHash4Constraints input statics p synth).NoSpec := by
  unfold poseidonHash4Constraints
  nospec_using (hash hs)
theorem hash8 (hs : ∀ l k, (synth l k).NoSpec) (input : List (LC F)) (zero : LC F) (p : PoseidonParams F) : (poseidonHash8Constraints input zero p synth).NoSpec := by
  unfold poseidonHash8Constraints
  nospec_using (hash hs)

theorem hash2Call' (hs : ∀ l k, (synth l k).NoSpec) (p : PoseidonParams F) (output : F) (vars statics : List Var) : (hash2Call p synth output vars statics).NoSpec := by
  unfold hash2Call
  split
  · exact bind (hash2 hs _ _ _ _) fun _ => conScalar _ _
  · leaf
theorem hash4Call' (hs : ∀ l k, (synth l k).NoSpec) (p : PoseidonParams F) (output : F) (vars statics : List Var) : (hash4Call p synth output vars statics).NoSpec := by
  unfold hash4Call poseidonHash4Gadget
  split
  · leaf
  · exact bind (hash4 hs _ _ _) fun _ => conScalar _ _
theorem hash8Call' (hs : ∀ l k, (synth l k).NoSpec) (p : PoseidonParams F) (output : F) (vars statics : List Var) : (hash8Call p synth output vars statics).NoSpec := by
  unfold hash8Call
  split
  · unfold poseidonHash8Gadget
    split
    · leaf
    · exact bind (hash8 hs _ _ _) fun _ => conScalar _ _
  · leaf

theorem popNodes' (n : ℕ) (nodes : List Var) : (popNodes n nodes : Prog F C rnd _).NoSpec := by unfold popNodes; nospec
theorem allocBit' (b : Option ℕ) : (allocBit b : Prog F C rnd _).NoSpec := by unfold allocBit; nospec
theorem select4' (a b c d : Var) (N N1 N2 N3 : LC F) : (select4 a b c d N N1 N2 N3 : Prog F C rnd _).NoSpec := by unfold select4; nospec
theorem select8' (a b c d e f : Var) (N N1 N2 N3 N4 N5 N6 N7 : LC F) : (select8 a b c d e f N N1 N2 N3 N4 N5 N6 N7 : Prog F C rnd _).NoSpec := by unfold select8; nospec

theorem level4 (hs : ∀ l k, (synth l k).NoSpec) (bits : Option (ℕ × ℕ)) (statics : List (LC F)) (p : PoseidonParams F) (st : MerkleState F) : (merkleLevel4 bits statics p synth st).NoSpec := by
  unfold merkleLevel4
  refine bind (allocBit' _) fun _ => bind (allocBit' _) fun _ => bind (popNodes' _ _) fun q => ?_
  dsimp only
  split
  · exact bind (select4' _ _ _ _ _ _ _ _) fun _ => bind (hash4 hs _ _ _) fun _ => bind (simp _) fun _ => pure _
  · leaf

theorem level8 (hs : ∀ l k, (synth l k).NoSpec) (bits : Option (ℕ × ℕ × ℕ)) (z : LC F) (p : PoseidonParams F) (st : MerkleState F) : (merkleLevel8 bits z p synth st).NoSpec := by
  unfold merkleLevel8
  refine bind (allocBit' _) fun _ => bind (allocBit' _) fun _ => bind (allocBit' _) fun _ => bind (popNodes' _ _) fun q => ?_
  dsimp only
  split
  · exact bind (select8' _ _ _ _ _ _ _ _ _ _ _ _ _ _) fun _ => bind (hash8 hs _ _ _) fun _ => bind (simp _) fun _ => pure _
  · leaf

theorem merkle4 [ByteRep F] (hs : ∀ l k, (synth l k).NoSpec) (root : F) (depth : ℕ) (p : PoseidonParams F) (leaf : Var) (index : Alloc F) (nodes statics : List Var) : (merkleCall4 root depth p synth leaf index nodes statics).NoSpec := by
  unfold merkleCall4 merkleGadget4
  refine bind (forN _ _ fun i st => forN _ _ fun j st => ?_) fun _ => bind (con _) fun _ => conScalar _ _
  split
  · leaf
  · refine bind ?_ fun _ => level4 hs _ _ _ _
    unfold indexBits4
    nospec

theorem merkle8 [ByteRep F] (hs : ∀ l k, (synth l k).NoSpec) (root : F) (depth : ℕ) (p : PoseidonParams F) (leaf : Var) (index : Alloc F) (nodes statics : List Var) : (merkleCall8 root depth p synth leaf index nodes statics).NoSpec := by
  unfold merkleCall8
  split
  · unfold merkleGadget8
    refine bind ?_ fun _ => bind (forN _ _ fun i st => ?_) fun _ => bind (con _) fun _ => conScalar _ _
    · unfold indexOctets; nospec
    split
    · leaf
    · refine bind ?_ fun _ => level8 hs _ _ _ _
      unfold octetBits
      nospec
  · leaf

theorem origPath' (hs : ∀ l k, (synth l k).NoSpec) (statics : List (LC F)) (p : PoseidonParams F) : ∀ (path : List ℕ) (nodes : List Var) (cur : LC F), (origPath statics p synth path nodes cur).NoSpec := by
  intro path
  induction path with
  | nil => intro nodes cur; leaf
  | cons pos path ih => intro nodes cur; exact bind (popNodes' _ _) fun _ => bind (ofRes _) fun _ => bind (hash4 hs _ _ _) fun _ => ih _ _

theorem updatePath' (hs : ∀ l k, (synth l k).NoSpec) (depth : ℕ) (statics : List (LC F)) (p : PoseidonParams F) : ∀ (j : ℕ) (path : List ℕ) (lc : LC F) (m : NodeMap F), (updatePath depth statics p synth j path lc m).NoSpec := by
  intro j
  induction j with
  | zero => intro path lc m; leaf
  | succ j ih => intro path lc m; exact bind (index _ _) fun _ => bind (ofRes _) fun _ => bind (ofRes _) fun _ => bind (hash4 hs _ _ _) fun _ => ih _ _ _

theorem origLoop' [ByteRep F] (hs : ∀ l k, (synth l k).NoSpec) (depth : ℕ) (r : Var) (n : F) (db : HashDb (List F)) (statics : List (LC F)) (p : PoseidonParams F) :
    ∀ (is : List F) (vs : List Var) (ps : List (List Var)) (m : NodeMap F), (origLoop depth r n db statics p synth is vs ps m).NoSpec := by
  intro is
  induction is with
  | nil => intro vs ps m; unfold origLoop; leaf
  | cons i is ih =>
    intro vs ps m
    cases vs with
    | nil => leaf
    | cons v vs =>
      cases ps with
      | nil => leaf
      | cons q ps => exact bind (ofRes _) fun _ => bind (origPath' hs _ _ _ _ _) fun _ => bind (con _) fun _ => bind (ofRes _) fun _ => ih _ _ _

theorem updateLoop' [ByteRep F] (hs : ∀ l k, (synth l k).NoSpec) (depth : ℕ) (statics : List (LC F)) (p : PoseidonParams F) :
    ∀ (is : List F) (vs : List Var) (m : NodeMap F), (updateLoop4 depth statics p synth is vs m).NoSpec := by
  intro is
  induction is with
  | nil => intro vs m; unfold updateLoop4; leaf
  | cons i is ih =>
    intro vs m
    cases vs with
    | nil => leaf
    | cons v vs => exact bind (ofRes _) fun _ => bind (updatePath' hs _ _ _ _ _ _ _) fun _ => ih _ _

theorem randomizer [ByteRep F] (hs : ∀ l k, (synth l k).NoSpec) (depth : ℕ) (r : Var) (t : SparseTree F) (db : HashDb (List F)) (is : List F) (vs : List Var) (ps : List (List Var)) (statics : List Var) (p : PoseidonParams F) :
    (randomizerGadget depth r t db is vs ps statics p synth).NoSpec := by
  unfold randomizerGadget
  split
  · leaf
  split
  · leaf
  exact bind (origLoop' hs _ _ _ _ _ _ _ _ _ _) fun _ => bind (updateLoop' hs _ _ _ _ _ _) fun _ => bind (ofRes _) fun _ => con _

end NoSpec

/-! ## The drivers -/

namespace OnePhase

theorem bind {d : Drv (Verifier F G) α} {k : α → Drv (Verifier F G) β} (h : OnePhase d) (hk : ∀ a, OnePhase (k a)) : OnePhase (d >>= k) := by
  intro s b s' e
  have e : Drv.bind d k s = (.ok b, s') := e
  unfold Drv.bind at e
  cases hd : d s with
  | mk r t =>
    rw [hd] at e
    cases r with
    | error x => simp at e
    | ok a =>
      obtain ⟨h1, Vs, h2, h3⟩ := h _ _ _ hd
      obtain ⟨k1, Ws, k2, k3⟩ := hk a _ _ _ e
      exact ⟨k1.trans h1, Vs ++ Ws, by rw [k2, h2, List.append_assoc], by rw [k3, h3, List.map_append, List.append_assoc]⟩

theorem pure (a : α) : OnePhase (Pure.pure a : Drv (Verifier F G) α) := by
  intro s b s' e
  have e : (.ok a, s) = ((.ok b : Res α), s') := e
  rw [(Prod.mk.inj e).2]
  exact ⟨rfl, [], by simp⟩

theorem lift (r : Res α) : OnePhase (Drv.lift r : Drv (Verifier F G) α) := by
  intro s b s' e
  have e : (r, s) = (.ok b, s') := e
  rw [(Prod.mk.inj e).2]
  exact ⟨rfl, [], by simp⟩

theorem gadget (env : Env F G) {c : Prog1 F α} (hc : c.NoSpec) : OnePhase (Verifier.gadget env c) := by
  intro s a s' e
  unfold Verifier.gadget at e
  cases h : s.run1 env c with
  | error x => rw [h] at e; simp at e
  | ok p =>
    obtain ⟨b, t⟩ := p
    rw [h] at e
    simp only [Prod.mk.injEq, Except.ok.injEq] at e
    obtain ⟨rfl, rfl⟩ := e
    obtain ⟨h1, h2⟩ := Verifier.run1_transcript h
    exact ⟨Verifier.run_noSpec c hc _ _ _ h, [], by simp [h1, h2]⟩

theorem commits (Vs : List G) : OnePhase (F := F) (Verifier.commits Vs) := by
  intro s a s' e
  unfold Verifier.commits at e
  have := congrArg Prod.snd e
  simp only at this
  rw [← this, Verifier.commitAll_eq]
  exact ⟨rfl, Vs, rfl, rfl⟩

theorem boundedNum [IntRep F] (env : Env F G) (debug : Bool) (lower upper n : ℕ) (coms : List G) : OnePhase (F := F) (verifyBoundedNum env debug lower upper n coms) := by
  unfold verifyBoundedNum
  refine bind (lift _) fun _ => bind (commits _) fun _ => ?_
  split
  · exact gadget env (NoSpec.boundCheck _ _ _ _ _ _ _)
  · exact lift _

theorem nonZeroVal (env : Env F G) (coms : List G) : OnePhase (verifyNonZeroVal env coms) := by
  unfold verifyNonZeroVal
  refine bind (lift _) fun _ => bind (commits _) fun _ => ?_
  split
  · exact gadget env (NoSpec.isNonzero _ _)
  · exact lift _

theorem setMembership (env : Env F G) (set : List F) (coms : List G) : OnePhase (verifySetMembership env set coms) := by
  unfold verifySetMembership
  refine bind (lift _) fun _ => bind (commits _) fun _ => ?_
  split
  · exact gadget env (NoSpec.setMembership _ _ _)
  · exact lift _

theorem setNonMembership (env : Env F G) (set : List F) (coms : List G) : OnePhase (verifySetNonMembership env set coms) := by
  unfold verifySetNonMembership
  refine bind (lift _) fun _ => bind (commits _) fun _ => ?_
  split
  · exact gadget env (NoSpec.setNonMembership _ _ _ _)
  · exact lift _

theorem verifyBits' (env : Env F G) : ∀ Vs : List G, OnePhase (verifyBits env Vs) := by
  intro Vs
  induction Vs with
  | nil => exact pure _
  | cons V Vs ih =>
    refine bind (commits _) fun _ => ?_
    split
    · exact bind (gadget env (NoSpec.bit _)) fun _ => bind ih fun _ => pure _
    · exact lift _

theorem setMembershipAlt (env : Env F G) (set : List ℕ) (coms : List G) : OnePhase (verifySetMembershipAlt env set coms) := by
  unfold verifySetMembershipAlt
  refine bind (lift _) fun _ => bind (verifyBits' _ _) fun _ => bind (gadget env (NoSpec.vectorSum _ _)) fun _ => bind (commits _) fun _ => ?_
  split
  · exact gadget env (NoSpec.vectorProduct _ _ _)
  · exact lift _

theorem hammingDistance (env : Env F G) (new : List F) (count : ℕ) (coms : List G) : OnePhase (verifyHammingDistance env new count coms) :=
  bind (commits _) fun _ => gadget env (NoSpec.hamming _ _ _)

theorem mimcPreimage (env : Env F G) (image : F) (constants : List F) (rounds : ℕ) (coms : List G) : OnePhase (verifyMimcPreimage env image constants rounds coms) := by
  unfold verifyMimcPreimage
  refine bind (lift _) fun _ => bind (commits _) fun _ => ?_
  split
  · exact gadget env (NoSpec.mimc _ _ _ _ _)
  · exact lift _

theorem poseidon2 (env : Env F G) (output : F) (p : PoseidonParams F) (sbox : SboxType) (g h : G) (coms : List G) : OnePhase (verifyPoseidon2 env output p sbox g h coms) :=
  bind (lift _) fun _ => bind (commits _) fun _ => bind (commits _) fun _ => gadget env (NoSpec.hash2Call' (NoSpec.sbox sbox) _ _ _ _)
theorem poseidon4 (env : Env F G) (output : F) (p : PoseidonParams F) (sbox : SboxType) (g h : G) (coms : List G) : OnePhase (verifyPoseidon4 env output p sbox g h coms) :=
  bind (lift _) fun _ => bind (commits _) fun _ => bind (commits _) fun _ => gadget env (NoSpec.hash4Call' (NoSpec.sbox sbox) _ _ _ _)
theorem poseidon8 (env : Env F G) (output : F) (p : PoseidonParams F) (sbox : SboxType) (g h : G) (coms : List G) : OnePhase (verifyPoseidon8 env output p sbox g h coms) :=
  bind (lift _) fun _ => bind (commits _) fun _ => bind (commits _) fun _ => gadget env (NoSpec.hash8Call' (NoSpec.sbox sbox) _ _ _ _)

theorem inclusion (env : Env F G) (g h : G) {call : Var → Alloc F → List Var → List Var → Prog1 F Unit} (hc : ∀ l i n s, (call l i n s).NoSpec) (coms : List G) : OnePhase (verifyInclusion env g h call coms) := by
  unfold verifyInclusion
  split
  · refine bind (commits _) fun _ => bind (commits _) fun _ => bind (commits _) fun _ => ?_
    split
    · exact gadget env (hc _ _ _ _)
    · exact lift _
  · exact lift _

theorem inclusion4 [ByteRep F] (env : Env F G) (root : F) (depth : ℕ) (p : PoseidonParams F) (sbox : SboxType) (g h : G) (coms : List G) : OnePhase (verifyInclusion4 env root depth p sbox g h coms) :=
  inclusion env g h (fun _ _ _ _ => NoSpec.merkle4 (NoSpec.sbox sbox) _ _ _ _ _ _ _) coms
theorem inclusion8 [ByteRep F] (env : Env F G) (root : F) (depth : ℕ) (p : PoseidonParams F) (sbox : SboxType) (g h : G) (coms : List G) : OnePhase (verifyInclusion8 env root depth p sbox g h coms) :=
  inclusion env g h (fun _ _ _ _ => NoSpec.merkle8 (NoSpec.sbox sbox) _ _ _ _ _ _ _) coms

theorem commitVals' (depth : ℕ) : ∀ (n : ℕ) (coms : List G), OnePhase (F := F) (commitVals depth n coms) := by
  intro n
  induction n with
  | zero => intro coms; exact pure _
  | succ n ih => intro coms; exact bind (lift _) fun _ => bind (commits _) fun _ => bind (lift _) fun _ => bind (commits _) fun _ => bind (ih _) fun _ => pure _

theorem randomizer [ByteRep F] (env : Env F G) (t : SparseTree F) (db : HashDb (List F)) (indices : List F) (depth : ℕ) (p : PoseidonParams F) (sbox : SboxType) (g h : G) (coms : List G) :
    OnePhase (verifyRandomizer env t db indices depth p sbox g h coms) := by
  unfold verifyRandomizer
  refine bind (lift _) fun _ => bind (commits _) fun _ => bind (commitVals' _ _ _) fun _ => bind (commits _) fun _ => ?_
  split
  · exact gadget env (NoSpec.randomizer (NoSpec.sbox sbox) _ _ _ _ _ _ _ _ _)
  · exact lift _

/-- A session opened with `new` has nothing to do in the second phase. -/
theorem new {d : Drv (Verifier F G) Unit} (h : OnePhase d) {label : String} {s : Verifier F G} (hs : d (Verifier.new [.init label]) = (.ok (), s)) : s.deferred = [] := (h _ _ _ hs).1.trans rfl

/-- The log of such a session. -/
theorem log {d : Drv (Verifier F G) Unit} (h : OnePhase d) {label : String} {s : Verifier F G} (hs : d (Verifier.new [.init label]) = (.ok (), s)) :
    s.transcript = [.init label, .domSep "r1cs v1"] ++ s.V.map (TEvent.point "V") := by
  obtain ⟨-, Vs, h1, h2⟩ := h _ _ _ hs
  rw [h1, h2]
  rfl

end OnePhase

end Bp
