import Verif.Model.Unwrap
import Verif.Model.Gadgets.Simple
import Verif.Model.Gadgets.Poseidon
import Verif.Model.Gadgets.Merkle
import Verif.Model.Gadgets.Randomizer

/-! # The functions that a user of the gadgets calls

One definition for each `gen_proof_*` and each `verify_proof_*`.  All of them make a new transcript with the given label and a new prover or verifier, run the `prove_*` or `verify_*` function on it, and end with
`prove` or `verify`; what they print is not modelled.  `sys` are the random numbers drawn on the way, `c` those drawn by `prove`, `r` the one drawn by `verify`; `debug` says whether the arithmetic on `u64` is checked. -/

namespace Bp
variable {F G : Type} [Field F] [AddCommGroup G] [SMul F G]

/-- `gen_proof_of_bounded_num`, bound_check.rs:133-161. -/
def genProofBoundedNum [IntRep F] (env : Env F G) (debug : Bool) (val : ℕ) (randomness : Option F) (lower upper maxBitsInVal : ℕ) (rng : Option (ℕ → F)) (sys : ℕ → F) (label : String) (g h : G) (c : Coins F) (Gs Hs : List G) : Res (R1CSProof F G × List G) :=
  genProof env label g h c Gs Hs (proveBoundedNum env debug val randomness lower upper maxBitsInVal rng sys)

/-- `verify_proof_of_bounded_num`, bound_check.rs:163-179. -/
def verifyProofBoundedNum [IntRep F] [DecidableEq G] (env : Env F G) (debug : Bool) (lower upper maxBitsInVal : ℕ) (proof : R1CSProof F G) (commitments : List G) (label : String) (g h : G) (Gs Hs : List G) (r : F) : Res Unit :=
  verifyProof env label (verifyBoundedNum env debug lower upper maxBitsInVal commitments) proof g h Gs Hs r

/-- `gen_proof_of_non_zero_val`, non_zero.rs:67-84. -/
def genProofNonZeroVal (env : Env F G) (value : F) (randomness : Option F) (rng : Option (ℕ → F)) (sys : ℕ → F) (label : String) (g h : G) (c : Coins F) (Gs Hs : List G) : Res (R1CSProof F G × List G) :=
  genProof env label g h c Gs Hs (proveNonZeroVal env value randomness rng sys)

/-- `verify_proof_of_non_zero_val`, non_zero.rs:86-100. -/
def verifyProofNonZeroVal [DecidableEq G] (env : Env F G) (proof : R1CSProof F G) (commitments : List G) (label : String) (g h : G) (Gs Hs : List G) (r : F) : Res Unit :=
  verifyProof env label (verifyNonZeroVal env commitments) proof g h Gs Hs r

/-- `gen_proof_of_set_membership`, set_membership.rs:110-128. -/
def genProofSetMembership (env : Env F G) (value : F) (randomness : Option F) (set : List F) (rng : Option (ℕ → F)) (sys : ℕ → F) (label : String) (g h : G) (c : Coins F) (Gs Hs : List G) : Res (R1CSProof F G × List G) :=
  genProof env label g h c Gs Hs (proveSetMembership env value randomness set rng sys)

/-- `verify_proof_of_set_membership`, set_membership.rs:130-146. -/
def verifyProofSetMembership [DecidableEq G] (env : Env F G) (set : List F) (proof : R1CSProof F G) (commitments : List G) (label : String) (g h : G) (Gs Hs : List G) (r : F) : Res Unit :=
  verifyProof env label (verifySetMembership env set commitments) proof g h Gs Hs r

/-- `gen_proof_of_set_membership_alt`, set_membership_alt.rs:175-201. -/
def genProofSetMembershipAlt (env : Env F G) (value : ℕ) (randomness : Option F) (set : List ℕ) (rng : Option (ℕ → F)) (sys : ℕ → F) (label : String) (g h : G) (c : Coins F) (Gs Hs : List G) : Res (R1CSProof F G × List G) :=
  genProof env label g h c Gs Hs (proveSetMembershipAlt env value randomness set rng sys)

/-- `verify_proof_of_set_membership_alt`, set_membership_alt.rs:203-219. -/
def verifyProofSetMembershipAlt [DecidableEq G] (env : Env F G) (set : List ℕ) (proof : R1CSProof F G) (commitments : List G) (label : String) (g h : G) (Gs Hs : List G) (r : F) : Res Unit :=
  verifyProof env label (verifySetMembershipAlt env set commitments) proof g h Gs Hs r

/-- `gen_proof_of_set_non_membership`, set_non_membership.rs:127-146. -/
def genProofSetNonMembership (env : Env F G) (value : F) (randomness : Option F) (set : List F) (rng : Option (ℕ → F)) (sys : ℕ → F) (label : String) (g h : G) (c : Coins F) (Gs Hs : List G) : Res (R1CSProof F G × List G) :=
  genProof env label g h c Gs Hs (proveSetNonMembership env value randomness set rng sys)

/-- `verify_proof_of_set_non_membership`, set_non_membership.rs:148-164. -/
def verifyProofSetNonMembership [DecidableEq G] (env : Env F G) (set : List F) (proof : R1CSProof F G) (commitments : List G) (label : String) (g h : G) (Gs Hs : List G) (r : F) : Res Unit :=
  verifyProof env label (verifySetNonMembership env set commitments) proof g h Gs Hs r

/-- `gen_proof_for_hamming_distance`, hamming_distance.rs:108-131. The result of `prove` is `unwrap`ped. -/
def genProofHammingDistance (env : Env F G) (originalVals newVals : List F) (countDifferent : ℕ) (sys : ℕ → F) (label : String) (g h : G) (c : Coins F) (Gs Hs : List G) : Res (R1CSProof F G × List G) :=
  genProofUnwrap env label g h c Gs Hs (proveHammingDistance env originalVals newVals countDifferent sys)

/-- `verify_proof_for_hamming_distance`, hamming_distance.rs:133-153. -/
def verifyProofHammingDistance [DecidableEq G] (env : Env F G) (newVals : List F) (countDifferent : ℕ) (proof : R1CSProof F G) (commitments : List G) (label : String) (g h : G) (Gs Hs : List G) (r : F) : Res Unit :=
  verifyProof env label (verifyHammingDistance env newVals countDifferent commitments) proof g h Gs Hs r

/-- `gen_proof_of_knowledge_of_preimage_of_mimc`, mimc.rs:90-125. -/
def genProofMimc (env : Env F G) (inputs : List F) (randomness : Option (List F)) (expectedOutput : F) (constants : List F) (mimcRounds : ℕ) (rng : Option (ℕ → F)) (label : String) (g h : G) (c : Coins F) (Gs Hs : List G) : Res (R1CSProof F G × List G) :=
  genProof env label g h c Gs Hs (proveMimcPreimage env inputs randomness expectedOutput constants mimcRounds rng)

/-- `verify_knowledge_of_preimage_of_mimc`, mimc.rs:127-152. -/
def verifyProofMimc [DecidableEq G] (env : Env F G) (expectedOutput : F) (constants : List F) (mimcRounds : ℕ) (proof : R1CSProof F G) (commitments : List G) (label : String) (g h : G) (Gs Hs : List G) (r : F) : Res Unit :=
  verifyProof env label (verifyMimcPreimage env expectedOutput constants mimcRounds commitments) proof g h Gs Hs r

/-- `gen_proof_of_knowledge_of_preimage_of_Poseidon_2`, poseidon_hash.rs:148-188. -/
def genProofPoseidon2 (env : Env F G) (inputs : List F) (randomness : Option (List F)) (expectedOutput : F) (hashParams : PoseidonParams F) (sboxType : SboxType) (rng : Option (ℕ → F)) (label : String) (g h : G) (c : Coins F) (Gs Hs : List G) : Res (R1CSProof F G × List G) :=
  genProof env label g h c Gs Hs (provePoseidon2 env inputs randomness expectedOutput hashParams sboxType rng)

/-- `verify_proof_of_knowledge_of_preimage_of_Poseidon_2`, poseidon_hash.rs:190-215. -/
def verifyProofPoseidon2 [DecidableEq G] (env : Env F G) (expectedOutput : F) (hashParams : PoseidonParams F) (sboxType : SboxType) (proof : R1CSProof F G) (commitments : List G) (label : String) (g h : G) (Gs Hs : List G) (r : F) : Res Unit :=
  verifyProof env label (verifyPoseidon2 env expectedOutput hashParams sboxType g h commitments) proof g h Gs Hs r

/-- `gen_proof_of_knowledge_of_preimage_of_Poseidon_4`, poseidon_hash.rs:295-335. -/
def genProofPoseidon4 (env : Env F G) (inputs : List F) (randomness : Option (List F)) (expectedOutput : F) (hashParams : PoseidonParams F) (sboxType : SboxType) (rng : Option (ℕ → F)) (label : String) (g h : G) (c : Coins F) (Gs Hs : List G) : Res (R1CSProof F G × List G) :=
  genProof env label g h c Gs Hs (provePoseidon4 env inputs randomness expectedOutput hashParams sboxType rng)

/-- `verify_proof_of_knowledge_of_preimage_of_Poseidon_4`, poseidon_hash.rs:337-363. -/
def verifyProofPoseidon4 [DecidableEq G] (env : Env F G) (expectedOutput : F) (hashParams : PoseidonParams F) (sboxType : SboxType) (proof : R1CSProof F G) (commitments : List G) (label : String) (g h : G) (Gs Hs : List G) (r : F) : Res Unit :=
  verifyProof env label (verifyPoseidon4 env expectedOutput hashParams sboxType g h commitments) proof g h Gs Hs r

/-- `gen_proof_of_knowledge_of_preimage_of_Poseidon_8`, poseidon_hash.rs:431-471. -/
def genProofPoseidon8 (env : Env F G) (inputs : List F) (randomness : Option (List F)) (expectedOutput : F) (hashParams : PoseidonParams F) (sboxType : SboxType) (rng : Option (ℕ → F)) (label : String) (g h : G) (c : Coins F) (Gs Hs : List G) : Res (R1CSProof F G × List G) :=
  genProof env label g h c Gs Hs (provePoseidon8 env inputs randomness expectedOutput hashParams sboxType rng)

/-- `verify_proof_of_knowledge_of_preimage_of_Poseidon_8`, poseidon_hash.rs:473-499. -/
def verifyProofPoseidon8 [DecidableEq G] (env : Env F G) (expectedOutput : F) (hashParams : PoseidonParams F) (sboxType : SboxType) (proof : R1CSProof F G) (commitments : List G) (label : String) (g h : G) (Gs Hs : List G) (r : F) : Res Unit :=
  verifyProof env label (verifyPoseidon8 env expectedOutput hashParams sboxType g h commitments) proof g h Gs Hs r

/-- `gen_proof_of_leaf_inclusion_4_ary_merkle_tree`, sparse_merkle_tree_4_ary.rs:132-177. The result of `prove` is `unwrap`ped. -/
def genProofInclusion4 [ByteRep F] (env : Env F G) (leaf leafIndex : F) (randomness : Option (List F)) (merkleProof : List (List F)) (root : F) (treeDepth : ℕ) (hashParams : PoseidonParams F) (sboxType : SboxType) (rng : Option (ℕ → F)) (sys : ℕ → F) (label : String) (g h : G) (c : Coins F) (Gs Hs : List G) : Res (R1CSProof F G × List G) :=
  genProofUnwrap env label g h c Gs Hs (proveInclusion4 env leaf leafIndex randomness merkleProof root treeDepth hashParams sboxType rng sys)

/-- `verify_proof_of_leaf_inclusion_4_ary_merkle_tree`, sparse_merkle_tree_4_ary.rs:179-213. -/
def verifyProofInclusion4 [ByteRep F] [DecidableEq G] (env : Env F G) (root : F) (treeDepth : ℕ) (hashParams : PoseidonParams F) (sboxType : SboxType) (proof : R1CSProof F G) (commitments : List G) (label : String) (g h : G) (Gs Hs : List G) (r : F) : Res Unit :=
  verifyProof env label (verifyInclusion4 env root treeDepth hashParams sboxType g h commitments) proof g h Gs Hs r

/-- `gen_proof_of_leaf_inclusion_8_ary_merkle_tree`, sparse_merkle_tree_8_ary.rs:130-173. -/
def genProofInclusion8 [ByteRep F] (env : Env F G) (leaf leafIndex : F) (randomness : Option (List F)) (merkleProof : List (List F)) (root : F) (treeDepth : ℕ) (hashParams : PoseidonParams F) (sboxType : SboxType) (rng : Option (ℕ → F)) (sys : ℕ → F) (label : String) (g h : G) (c : Coins F) (Gs Hs : List G) : Res (R1CSProof F G × List G) :=
  genProof env label g h c Gs Hs (proveInclusion8 env leaf leafIndex randomness merkleProof root treeDepth hashParams sboxType rng sys)

/-- `verify_proof_of_leaf_inclusion_8_ary_merkle_tree`, sparse_merkle_tree_8_ary.rs:175-207. -/
def verifyProofInclusion8 [ByteRep F] [DecidableEq G] (env : Env F G) (root : F) (treeDepth : ℕ) (hashParams : PoseidonParams F) (sboxType : SboxType) (proof : R1CSProof F G) (commitments : List G) (label : String) (g h : G) (Gs Hs : List G) (r : F) : Res Unit :=
  verifyProof env label (verifyInclusion8 env root treeDepth hashParams sboxType g h commitments) proof g h Gs Hs r

/-- `gen_proof_for_randomizer`, randomizer.rs:201-282. The result of `prove` is `unwrap`ped. -/
def genProofRandomizer [ByteRep F] (env : Env F G) [DecidableEq F] (origTree : SparseTree F) (origDb : HashDb (List F)) (newTree : SparseTree F) (newDb : HashDb (List F)) (modifiedIndices origVals : List F) (treeDepth : ℕ) (hashParams : PoseidonParams F) (sboxType : SboxType) (sys : ℕ → F) (label : String) (g h : G) (c : Coins F) (Gs Hs : List G) : Res (R1CSProof F G × List G) :=
  genProofUnwrap env label g h c Gs Hs (proveRandomizer env origTree origDb newTree newDb modifiedIndices origVals treeDepth hashParams sboxType sys)

/-- `verify_proof_for_randomizer`, randomizer.rs:284-343. -/
def verifyProofRandomizer [ByteRep F] [DecidableEq G] (env : Env F G) (newTree : SparseTree F) (newDb : HashDb (List F)) (modifiedIndices : List F) (treeDepth : ℕ) (hashParams : PoseidonParams F) (sboxType : SboxType) (proof : R1CSProof F G) (commitments : List G) (label : String) (g h : G) (Gs Hs : List G) (r : F) : Res Unit :=
  verifyProof env label (verifyRandomizer env newTree newDb modifiedIndices treeDepth hashParams sboxType g h commitments) proof g h Gs Hs r

end Bp
