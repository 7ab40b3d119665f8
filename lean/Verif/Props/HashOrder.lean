import Verif.Lemmas.HashOrderGadgets
import Verif.Props.Api

set_option linter.unusedSectionVars false

namespace Bp
variable {F G : Type} [Field F] [AddCommGroup G] [Module F G]

/-! # C92: the order in which a hash map yields its entries changes nothing -/

/-- `LinearCombination::simplify` goes through a `HashMap`, whose order is different on every machine, in every process and for every map.  Two machines that differ in nothing else get the same result from every generating function,
for all arguments and all random numbers: the same proof and the same commitments, the same error or the same panic. -/
theorem c92_generate [ByteRep F] [DecidableEq F] {env env' : Env F G} (he : SameButOrder env env') :
    genProofBoundedNum (F := F) env = genProofBoundedNum env'
    ∧ genProofNonZeroVal env = genProofNonZeroVal env'
    ∧ genProofSetMembership env = genProofSetMembership env'
    ∧ genProofSetMembershipAlt env = genProofSetMembershipAlt env'
    ∧ genProofSetNonMembership env = genProofSetNonMembership env'
    ∧ genProofHammingDistance env = genProofHammingDistance env'
    ∧ genProofMimc env = genProofMimc env'
    ∧ genProofPoseidon2 env = genProofPoseidon2 env'
    ∧ genProofPoseidon4 env = genProofPoseidon4 env'
    ∧ genProofPoseidon8 env = genProofPoseidon8 env'
    ∧ genProofInclusion4 env = genProofInclusion4 env'
    ∧ genProofInclusion8 env = genProofInclusion8 env'
    ∧ genProofRandomizer env = genProofRandomizer env' := by
  have hO := he.oracle
  refine ⟨?_, ?_, ?_, ?_, ?_, ?_, ?_, ?_, ?_, ?_, ?_, ?_, ?_⟩
  · funext debug val randomness lower upper n rng sys label g h c Gs Hs
    exact genProof_alike hO (by apply alike_proveBoundedNum hO) ..
  · funext value randomness rng sys label g h c Gs Hs
    exact genProof_alike hO (by apply alike_proveNonZeroVal hO) ..
  · funext value randomness set rng sys label g h c Gs Hs
    exact genProof_alike hO (by apply alike_proveSetMembership hO) ..
  · funext value randomness set rng sys label g h c Gs Hs
    exact genProof_alike hO (by apply alike_proveSetMembershipAlt hO) ..
  · funext value randomness set rng sys label g h c Gs Hs
    exact genProof_alike hO (by apply alike_proveSetNonMembership hO) ..
  · funext original new count sys label g h c Gs Hs
    exact genProofUnwrap_alike hO (by apply alike_proveHammingDistance hO) ..
  · funext inputs randomness expected constants rounds rng label g h c Gs Hs
    exact genProof_alike hO (by apply alike_proveMimcPreimage hO) ..
  · funext inputs randomness expected p sbox rng label g h c Gs Hs
    exact genProof_alike hO (alike_provePreimage hO 2 _ _ _ fun _ _ => .hash2Call (synthAlike_sbox sbox) ..) ..
  · funext inputs randomness expected p sbox rng label g h c Gs Hs
    exact genProof_alike hO (alike_provePreimage hO 4 _ _ _ fun _ _ => .hash4Call (synthAlike_sbox sbox) ..) ..
  · funext inputs randomness expected p sbox rng label g h c Gs Hs
    exact genProof_alike hO (alike_provePreimage hO 8 _ _ _ fun _ _ => .hash8Call (synthAlike_sbox sbox) ..) ..
  · funext leaf leafIndex randomness merkleProof root depth p sbox rng sys label g h c Gs Hs
    exact genProofUnwrap_alike hO (alike_proveInclusion hO _ _ _ _ _ _ (steady_merkleCall4 root depth p sbox)) ..
  · funext leaf leafIndex randomness merkleProof root depth p sbox rng sys label g h c Gs Hs
    exact genProof_alike hO (alike_proveInclusion hO _ _ _ _ _ _ (steady_merkleCall8 root depth p sbox)) ..
  · funext origTree origDb newTree newDb is vals depth p sbox sys label g h c Gs Hs
    exact genProofUnwrap_alike hO (by apply alike_proveRandomizer hO) ..

/-- And from every verifying function: the same answer for all arguments and all proofs. -/
theorem c92_verify [ByteRep F] [DecidableEq G] {env env' : Env F G} (he : SameButOrder env env') :
    verifyProofBoundedNum (F := F) env = verifyProofBoundedNum env'
    ∧ verifyProofNonZeroVal env = verifyProofNonZeroVal env'
    ∧ verifyProofSetMembership env = verifyProofSetMembership env'
    ∧ verifyProofSetMembershipAlt env = verifyProofSetMembershipAlt env'
    ∧ verifyProofSetNonMembership env = verifyProofSetNonMembership env'
    ∧ verifyProofHammingDistance env = verifyProofHammingDistance env'
    ∧ verifyProofMimc env = verifyProofMimc env'
    ∧ verifyProofPoseidon2 env = verifyProofPoseidon2 env'
    ∧ verifyProofPoseidon4 env = verifyProofPoseidon4 env'
    ∧ verifyProofPoseidon8 env = verifyProofPoseidon8 env'
    ∧ verifyProofInclusion4 env = verifyProofInclusion4 env'
    ∧ verifyProofInclusion8 env = verifyProofInclusion8 env'
    ∧ verifyProofRandomizer env = verifyProofRandomizer env' := by
  have hO := he.oracle
  refine ⟨?_, ?_, ?_, ?_, ?_, ?_, ?_, ?_, ?_, ?_, ?_, ?_, ?_⟩
  · funext debug lower upper n proof coms label g h Gs Hs r
    exact verifyProof_alike he (by apply alike_verifyBoundedNum hO) ..
  · funext proof coms label g h Gs Hs r
    exact verifyProof_alike he (by apply alike_verifyNonZeroVal hO) ..
  · funext set proof coms label g h Gs Hs r
    exact verifyProof_alike he (by apply alike_verifySetMembership hO) ..
  · funext set proof coms label g h Gs Hs r
    exact verifyProof_alike he (by apply alike_verifySetMembershipAlt hO) ..
  · funext set proof coms label g h Gs Hs r
    exact verifyProof_alike he (by apply alike_verifySetNonMembership hO) ..
  · funext new count proof coms label g h Gs Hs r
    exact verifyProof_alike he (by apply alike_verifyHammingDistance hO) ..
  · funext expected constants rounds proof coms label g h Gs Hs r
    exact verifyProof_alike he (by apply alike_verifyMimcPreimage hO) ..
  · funext expected p sbox proof coms label g h Gs Hs r
    exact verifyProof_alike he (alike_verifyPreimage hO 2 _ _ (fun _ _ => .hash2Call (synthAlike_sbox sbox) ..) _) ..
  · funext expected p sbox proof coms label g h Gs Hs r
    exact verifyProof_alike he (alike_verifyPreimage hO 4 _ _ (fun _ _ => .hash4Call (synthAlike_sbox sbox) ..) _) ..
  · funext expected p sbox proof coms label g h Gs Hs r
    exact verifyProof_alike he (alike_verifyPreimage hO 8 _ _ (fun _ _ => .hash8Call (synthAlike_sbox sbox) ..) _) ..
  · funext root depth p sbox proof coms label g h Gs Hs r
    exact verifyProof_alike he (alike_verifyInclusion hO _ _ (steady_merkleCall4 root depth p sbox) _) ..
  · funext root depth p sbox proof coms label g h Gs Hs r
    exact verifyProof_alike he (alike_verifyInclusion hO _ _ (steady_merkleCall8 root depth p sbox) _) ..
  · funext newTree newDb is depth p sbox proof coms label g h Gs Hs r
    exact verifyProof_alike he (by apply alike_verifyRandomizer hO) ..

theorem Script.alike {env env' : Env F G} (hO : env.oracle = env'.oracle) : ∀ s : Script F G, s.Steady → Drv.Alike Prover.Alike Eq (s.run env) (s.run env')
  | .done, _ => Drv.Alike.pure _
  | .commit v b k, hs => by
    unfold Script.run
    refine Drv.Alike.bind' (Prover.commits_alike _) fun cs => ?_
    split
    · exact Drv.Alike.bind' (Script.alike hO _ (hs _)) fun _ => Drv.Alike.pure _
    · exact Drv.Alike.lift _
  | .gadget c k, hs => by
    unfold Script.run
    exact Drv.Alike.bind' (Prover.gadget_alike hO hs.1) fun a => Script.alike hO _ (hs.2 a)

theorem VScript.alike {env env' : Env F G} (hO : env.oracle = env'.oracle) : ∀ s : VScript F G, s.Steady → Drv.Alike Verifier.Alike Eq (s.run env) (s.run env')
  | .done, _ => Drv.Alike.pure _
  | .commit V k, hs => by
    unfold VScript.run
    refine Drv.Alike.bind' (Verifier.commits_alike _) fun vs => ?_
    split
    · exact VScript.alike hO _ (hs _)
    · exact Drv.Alike.lift _
  | .gadget c k, hs => by
    unfold VScript.run
    exact Drv.Alike.bind' (Verifier.gadget_alike hO hs.1) fun a => VScript.alike hO _ (hs.2 a)

/-- The same for every client that brings its own gadgets, in one phase or in two, and calls them and `commit` in any order: as long as its gadgets do not look at the order of the terms of a linear combination that they have
simplified (`Steady`), its proofs, its commitments and its verdicts are the same on all machines. -/
theorem c92_client [DecidableEq G] {env env' : Env F G} (he : SameButOrder env env') :
    (∀ s : Script F G, s.Steady → ∀ (label : String) (g h : G) (c : Coins F) (Gs Hs : List G), genProof env label g h c Gs Hs (s.run env) = genProof env' label g h c Gs Hs (s.run env'))
    ∧ ∀ s : VScript F G, s.Steady → ∀ (label : String) (pr : R1CSProof F G) (g h : G) (Gs Hs : List G) (r : F),
      verifyProof env label (s.run env) pr g h Gs Hs r = verifyProof env' label (s.run env') pr g h Gs Hs r :=
  ⟨fun s hs label g h c Gs Hs => genProof_alike he.oracle (s.alike he.oracle hs) label g h c Gs Hs, fun s hs label pr g h Gs Hs r => verifyProof_alike he (s.alike he.oracle hs) label pr g h Gs Hs r⟩

/-- All gadgets of the repository, and the shuffle of its documentation, are such gadgets. -/
theorem c92_gadgets [ByteRep F] :
    (∀ debug (v a b : Alloc F) (max min n : ℕ), Prog1.Steady (boundCheckGadget debug v a b max min n))
    ∧ (∀ x i : Var, Prog1.Steady (isNonzeroGadget x i : Prog1 F Unit))
    ∧ (∀ (v : Alloc F) ds set, Prog1.Steady (setMembershipGadget v ds set))
    ∧ (∀ (v : Alloc F) ds is set, Prog1.Steady (setNonMembershipGadget v ds is set))
    ∧ (∀ v : Alloc F, Prog1.Steady (bitGadget v))
    ∧ (∀ items vec (v : Alloc F), Prog1.Steady (vectorProductGadget items vec v))
    ∧ (∀ (os : List (Alloc F)) new count, Prog1.Steady (hammingDistanceGadget os new count))
    ∧ (∀ (l r : Alloc F) rounds constants image, Prog1.Steady (mimcGadget l r rounds constants image))
    ∧ (∀ (input : List (Alloc F)) p sbox output, Prog1.Steady (poseidonPermutationGadget input p sbox output))
    ∧ (∀ (p : PoseidonParams F) (sbox : SboxType) output vars statics, Prog1.Steady (hash2Call p sbox.synthesize output vars statics) ∧ Prog1.Steady (hash4Call p sbox.synthesize output vars statics)
        ∧ Prog1.Steady (hash8Call p sbox.synthesize output vars statics))
    ∧ (∀ depth root leaf (index : Alloc F) nodes statics p (sbox : SboxType), Prog1.Steady (merkleGadget4 depth root leaf index nodes statics p sbox.synthesize))
    ∧ (∀ depth root leaf (index : Alloc F) nodes z p (sbox : SboxType), Prog1.Steady (merkleGadget8 depth root leaf index nodes z p sbox.synthesize))
    ∧ (∀ depth rv (t : SparseTree F) db is vs proofs zs p (sbox : SboxType), Prog1.Steady (randomizerGadget depth rv t db is vs proofs zs p sbox.synthesize))
    ∧ ∀ xs ys : List Var, Prog1.Steady (shuffleGadget xs ys : Prog1 F Unit) :=
  ⟨fun _ _ _ _ _ _ _ => .boundCheck .., fun _ _ => .isNonzero .., fun _ _ _ => .setMembership .., fun _ _ _ _ => .setNonMembership .., fun _ => .bit _, fun _ _ _ => .vectorProduct .., fun _ _ _ => .hamming ..,
    fun _ _ _ _ _ => .mimc .., fun _ _ _ _ => .permutationGadget ..,
    fun _ sbox _ _ _ => ⟨.hash2Call (synthAlike_sbox sbox) .., .hash4Call (synthAlike_sbox sbox) .., .hash8Call (synthAlike_sbox sbox) ..⟩,
    fun _ _ _ _ _ _ _ sbox => .merkleGadget4 (synthAlike_sbox sbox) .., fun _ _ _ _ _ _ _ sbox => .merkleGadget8 (synthAlike_sbox sbox) ..,
    fun _ _ _ _ _ _ _ _ _ sbox => .randomizerGadget (synthAlike_sbox sbox) .., steady_shuffle⟩

/-! ## Examples -/

/-- The machine of `demoEnv`, with every hash map iterated backwards. -/
def backEnv : Env Fr Fr :=
  { demoEnv with hashOrd := fun _ l => l.reverse, hashOrd_perm := fun _ l => l.reverse_perm }

/-- Two machines that iterate in different orders. -/
example : SameButOrder demoEnv backEnv ∧ ∃ l : LC Fr, (l.simplify (demoEnv.hashOrd 0)).terms ≠ (l.simplify (backEnv.hashOrd 0)).terms :=
  ⟨⟨rfl, rfl⟩, ⟨[(.one, 1), (.committed 0, 2)]⟩, by decide +kernel⟩

/-- A gadget that looks: it constrains the first term of what it has simplified. -/
def peek : Prog1 Fr Unit := do
  let m ← Prog.simp ⟨[(.one, 1), (.committed 0, 2)]⟩
  Prog.con ⟨m.terms.take 1⟩

/-- Its constraints differ from machine to machine. -/
example :
    ((Prover.new (1 : Fr) 2 []).run1 demoEnv peek).toOption.map (fun r => r.2.constraints.map LC.terms) = some [[(Var.one, 1)]]
    ∧ ((Prover.new (1 : Fr) 2 []).run1 backEnv peek).toOption.map (fun r => r.2.constraints.map LC.terms) = some [[(Var.committed 0, 2)]] := by decide +kernel

/-- So it is not `Steady`. -/
example : ¬ Prog1.Steady peek := by
  intro hs
  cases hs with
  | simplify _ hk =>
    have := hk ⟨[(.one, 1), (.committed 0, 2)]⟩ ⟨[(.committed 0, 2), (.one, 1)]⟩ (List.Perm.swap _ _ _)
    cases this with
    | constrain hl _ =>
      have h1 : (([(Var.one, 1)] : List (Var × Fr))).Perm [(Var.committed 0, 2)] := hl
      have := h1.mem_iff (a := (Var.one, 1))
      exact absurd this (by decide +kernel)

end Bp
