import Verif.Model.Api
import Verif.Spec.Statements
import Verif.Spec.Refuted

/-! # Specification: the functions that a user of the gadgets calls -/

namespace Bp
variable {F G : Type} [Field F] [AddCommGroup G] [Module F G]

/-- The prover's and the verifier's machine: the same hash function, whose challenges are not zero; the hash maps may be iterated in different orders. -/
structure Peers (env env' : Env F G) : Prop where
  oracle : env.oracle = env'.oracle
  nonzero : ∀ l, env.oracle l ≠ 0
  empty : env'.batchInvert [] = .ok ([], 1)

/-- A generating function and a verifying function fit together: for all labels, all generators (at least as many as there are gates, rounded up to a power of two), and all random numbers, the first returns a proof and commitments to
`openings`, and the second accepts them. -/
def RoundTrip (gates : ℕ) (openings : List (F × F)) (gen : String → G → G → Coins F → List G → List G → Res (R1CSProof F G × List G)) (check : R1CSProof F G → List G → String → G → G → List G → List G → F → Res Unit) : Prop :=
  ∀ (label : String) (g h : G) (c : Coins F) (Gs Hs : List G) (r : F), nextPowerOfTwo gates ≤ Gs.length → nextPowerOfTwo gates ≤ Hs.length →
    ∃ pr coms, gen label g h c Gs Hs = .ok (pr, coms) ∧ check pr coms label g h Gs Hs r = .ok () ∧ coms = openings.map fun q => q.1 • g + q.2 • h

/-- The verifying function for a statement.  (For the factors there is none in the crate, only in the tests.) -/
def Stmt.check [ByteRep F] [DecidableEq G] (env : Env F G) : Stmt F → R1CSProof F G → List G → String → G → G → List G → List G → F → Res Unit
  | .boundedNum debug lower upper n => verifyProofBoundedNum env debug lower upper n
  | .nonZero => verifyProofNonZeroVal env
  | .setMembership set => verifyProofSetMembership env set
  | .setMembershipAlt set => verifyProofSetMembershipAlt env set
  | .setNonMembership set => verifyProofSetNonMembership env set
  | .hamming new count => verifyProofHammingDistance env new count
  | .mimc image constants rounds => verifyProofMimc env image constants rounds
  | .poseidon2 output p sbox => verifyProofPoseidon2 env output p sbox
  | .poseidon4 output p sbox => verifyProofPoseidon4 env output p sbox
  | .poseidon8 output p sbox => verifyProofPoseidon8 env output p sbox
  | .inclusion4 root depth p sbox => verifyProofInclusion4 env root depth p sbox
  | .inclusion8 root depth p sbox => verifyProofInclusion8 env root depth p sbox
  | .randomizer t db indices depth p => verifyProofRandomizer env t db indices depth p .quint
  | .factors k r' => fun pr coms label g h Gs Hs r => verifyProof env label (verifyFactors env k r' coms) pr g h Gs Hs r

/-- `Called st gen P`: `gen` is a call of the generating function of the crate for the statement `st`, and `P` says that the statement is true of the secret inputs. -/
inductive Called [ByteRep F] : Stmt F → (Env F G → String → G → G → Coins F → List G → List G → Res (R1CSProof F G × List G)) → Prop → Prop where
  | boundedNum (debug : Bool) (val lower upper n : ℕ) (hval : val < 2 ^ 64) (randomness : Option F) (rng : Option (ℕ → F)) (sys : ℕ → F) :
      Called (.boundedNum debug lower upper n) (fun env => genProofBoundedNum env debug val randomness lower upper n rng sys) (lower ≤ val ∧ val ≤ upper)
  | nonZero (value : F) (randomness : Option F) (rng : Option (ℕ → F)) (sys : ℕ → F) : Called .nonZero (fun env => genProofNonZeroVal env value randomness rng sys) (value ≠ 0)
  | setMembership (value : F) (set : List F) (randomness : Option F) (rng : Option (ℕ → F)) (sys : ℕ → F) :
      Called (.setMembership set) (fun env => genProofSetMembership env value randomness set rng sys) (value ∈ set)
  | setMembershipAlt (value : ℕ) (set : List ℕ) (randomness : Option F) (rng : Option (ℕ → F)) (sys : ℕ → F) :
      Called (.setMembershipAlt set) (fun env => genProofSetMembershipAlt env value randomness set rng sys) (value ∈ set)
  | setNonMembership (value : F) (set : List F) (randomness : Option F) (rng : Option (ℕ → F)) (sys : ℕ → F) :
      Called (.setNonMembership set) (fun env => genProofSetNonMembership env value randomness set rng sys) (value ∉ set)
  | mimc (x y image : F) (constants : List F) (rounds : ℕ) (randomness : Option (List F)) (rng : Option (ℕ → F)) :
      Called (.mimc image constants rounds) (fun env => genProofMimc env [x, y] randomness image constants rounds rng) (Bp.mimc x y constants rounds = .ok image)
  | poseidon2 (a b output : F) (p : PoseidonParams F) (sbox : SboxType) (randomness : Option (List F)) (rng : Option (ℕ → F)) :
      Called (.poseidon2 output p sbox) (fun env => genProofPoseidon2 env [a, b] randomness output p sbox rng) (poseidonHash2 a b p sbox = .ok output)
  | poseidon4 (a b c d output : F) (p : PoseidonParams F) (sbox : SboxType) (randomness : Option (List F)) (rng : Option (ℕ → F)) :
      Called (.poseidon4 output p sbox) (fun env => genProofPoseidon4 env [a, b, c, d] randomness output p sbox rng) (poseidonHash4 [a, b, c, d] p sbox = .ok output)
  | poseidon8 (a b c d a' b' c' d' output : F) (p : PoseidonParams F) (sbox : SboxType) (randomness : Option (List F)) (rng : Option (ℕ → F)) :
      Called (.poseidon8 output p sbox) (fun env => genProofPoseidon8 env [a, b, c, d, a', b', c', d'] randomness output p sbox rng) (poseidonHash8 [a, b, c, d, a', b', c', d'] p sbox = .ok output)
  | inclusion4 (leaf leafIndex root : F) (siblings : List (List F)) (p : PoseidonParams F) (sbox : SboxType) (hs : ∀ s ∈ siblings, s.length = 3) (hd : getByteSize siblings.length 4 ≤ ByteRep.modBytes F)
      (randomness : Option (List F)) (rng : Option (ℕ → F)) (coins : ℕ → F) :
      Called (.inclusion4 root siblings.length p sbox) (fun env => genProofInclusion4 env leaf leafIndex randomness siblings root siblings.length p sbox rng coins)
        (∃ path : List ℕ, path.length = siblings.length ∧ (∀ d ∈ path, d < 4) ∧ leafIndex = (Nat.ofDigits 4 path.reverse : ℕ) ∧ merkleRoot (hasher4 p sbox).digest (path.zip siblings) leaf = root)
  | inclusion8 (leaf leafIndex root : F) (siblings : List (List F)) (p : PoseidonParams F) (sbox : SboxType) (hs : ∀ s ∈ siblings, s.length = 7) (hd : getByteSize siblings.length 8 ≤ ByteRep.modBytes F)
      (randomness : Option (List F)) (rng : Option (ℕ → F)) (coins : ℕ → F) :
      Called (.inclusion8 root siblings.length p sbox) (fun env => genProofInclusion8 env leaf leafIndex randomness siblings root siblings.length p sbox rng coins)
        (∃ path : List ℕ, path.length = siblings.length ∧ (∀ d ∈ path, d < 8) ∧ leafIndex = (Nat.ofDigits 8 path.reverse : ℕ) ∧ merkleRoot (hasher8 p sbox).digest (path.zip siblings) leaf = root)

end Bp
