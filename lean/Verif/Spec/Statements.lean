import Verif.Model.Gadgets.Factors
import Verif.Model.Gadgets.Randomizer
import Verif.Spec.Knowledge
import Verif.Spec.Merkle
import Verif.Spec.Randomizer
import Verif.Lemmas.Gadgets.PoseidonFun

/-! # Specification: several statements of the crate in one proof, and what they claim -/

namespace Bp
variable {F G : Type} [Field F] [AddCommGroup G] [SMul F G]

/-- A statement of the crate, with its public parameters. -/
inductive Stmt (F : Type) where
  | boundedNum (debug : Bool) (lower upper n : ℕ)
  | nonZero
  | setMembership (set : List F)
  | setMembershipAlt (set : List ℕ)
  | setNonMembership (set : List F)
  | hamming (new : List F) (count : ℕ)
  | mimc (image : F) (constants : List F) (rounds : ℕ)
  | poseidon2 (output : F) (p : PoseidonParams F) (sbox : SboxType)
  | poseidon4 (output : F) (p : PoseidonParams F) (sbox : SboxType)
  | poseidon8 (output : F) (p : PoseidonParams F) (sbox : SboxType)
  | inclusion4 (root : F) (depth : ℕ) (p : PoseidonParams F) (sbox : SboxType)
  | inclusion8 (root : F) (depth : ℕ) (p : PoseidonParams F) (sbox : SboxType)
  | randomizer (t : SparseTree F) (db : HashDb (List F)) (indices : List F) (depth : ℕ) (p : PoseidonParams F)
  | factors (k : ℕ) (r : F)

namespace Stmt

/-- The number of commitments that the statement is about. -/
def size : Stmt F → ℕ
  | boundedNum .. => 3
  | nonZero => 2
  | setMembership set => set.length + 1
  | setMembershipAlt set => set.length + 1
  | setNonMembership set => 2 * set.length + 1
  | hamming new _ => new.length
  | mimc .. => 2
  | poseidon2 .. => 2
  | poseidon4 .. => 4
  | poseidon8 .. => 8
  | inclusion4 _ depth .. => 2 + 3 * depth
  | inclusion8 _ depth .. => 2 + 7 * depth
  | randomizer _ _ indices depth _ => 1 + indices.length * (1 + 3 * depth)
  | factors k _ => k + 2

/-- The verifier's call for the statement. -/
def verify [ByteRep F] (env : Env F G) (g h : G) : Stmt F → List G → Drv (Verifier F G) Unit
  | boundedNum debug lower upper n => verifyBoundedNum env debug lower upper n
  | nonZero => verifyNonZeroVal env
  | setMembership set => verifySetMembership env set
  | setMembershipAlt set => verifySetMembershipAlt env set
  | setNonMembership set => verifySetNonMembership env set
  | hamming new count => verifyHammingDistance env new count
  | mimc image constants rounds => verifyMimcPreimage env image constants rounds
  | poseidon2 output p sbox => verifyPoseidon2 env output p sbox g h
  | poseidon4 output p sbox => verifyPoseidon4 env output p sbox g h
  | poseidon8 output p sbox => verifyPoseidon8 env output p sbox g h
  | inclusion4 root depth p sbox => verifyInclusion4 env root depth p sbox g h
  | inclusion8 root depth p sbox => verifyInclusion8 env root depth p sbox g h
  | randomizer t db indices depth p => verifyRandomizer env t db indices depth p .quint g h
  | factors k r => verifyFactors env k r

/-- What is asked of the public parameters.  (The statements excluded here are those that leave some commitment without any constraint, the bounds and sizes of C26, and the inverse S-box of C34.) -/
def Ok [ByteRep F] : Stmt F → Prop
  | boundedNum _ lower upper n => lower < 2 ^ 64 ∧ upper < 2 ^ 64 ∧ 2 ^ 64 < IntRep.order F ∧ 2 ^ (n + 1) ≤ IntRep.order F
  | nonZero => True
  | setMembership _ => True
  | setMembershipAlt _ => True
  | setNonMembership set => set ≠ []
  | hamming .. => True
  | mimc _ constants rounds => constants.length = rounds ∧ rounds ≠ 0
  | poseidon2 _ p sbox => sbox ≠ .inverse ∧ p.fullRoundsBeginning ≠ 0
  | poseidon4 _ p sbox => sbox ≠ .inverse ∧ p.fullRoundsBeginning ≠ 0
  | poseidon8 _ p sbox => sbox ≠ .inverse ∧ p.fullRoundsBeginning ≠ 0
  | inclusion4 _ _ _ sbox => sbox ≠ .inverse
  | inclusion8 _ _ _ sbox => sbox ≠ .inverse
  | randomizer _ _ _ depth p => p.Valid ∧ p.width = 5 ∧ depth ≤ 4 * ByteRep.modBytes F ∧ depth ≠ 0 ∧ p.fullRoundsBeginning ≠ 0
  | factors .. => True

/-- What the statement claims about the committed values, `v 0` the first.  (The bitmap version of set membership lets 0 pass, and the statement about the Hamming distance says nothing about the committed values: these two
are what is left of the intended claims, see C29 and C31.) -/
def Claim [ByteRep F] : Stmt F → (ℕ → F) → Prop
  | boundedNum _ lower upper _, v => ∃ k : ℕ, lower ≤ k ∧ k ≤ upper ∧ v 0 = (k : F)
  | nonZero, v => v 0 ≠ 0
  | setMembership set, v => v 0 ∈ set
  | setMembershipAlt set, v => (∀ i < set.length, v i = 0 ∨ v i = 1) ∧ ((List.range set.length).map v).sum = 1 ∧ ((∃ x ∈ set, v set.length = (x : F)) ∨ v set.length = 0)
  | setNonMembership set, v => v 0 ∉ set
  | hamming new count, _ => ∃ k : ℕ, k ≤ new.length ∧ (count : F) = k
  | mimc image constants rounds, v => Bp.mimc (v 0) (v 1) constants rounds = .ok image
  | poseidon2 output p sbox, v => poseidonHash2 (v 0) (v 1) p sbox = .ok output
  | poseidon4 output p sbox, v => poseidonHash4 [v 0, v 1, v 2, v 3] p sbox = .ok output
  | poseidon8 output p sbox, v => poseidonHash8 [v 0, v 1, v 2, v 3, v 4, v 5, v 6, v 7] p sbox = .ok output
  | inclusion4 root depth p sbox, v => Included (hasher4 p sbox) depth root v
  | inclusion8 root depth p sbox, v => Included (hasher8 p sbox) depth root v
  | randomizer t db indices depth p, v => ∀ db0 hist, (tree4 p).CollisionFree depth hist → runHistory (tree4 p) depth db0 hist = .ok (t, db) → Randomized (tree4 p) depth (written (4 ^ depth) hist) indices v
  | factors k r, v => ((List.range (k + 2)).map v).prod = r

/-- The statement determines its committed values: all but the Hamming distance. -/
def Binding : Stmt F → Prop
  | hamming .. => False
  | _ => True

end Stmt

/-- The commitments can be opened, to values of which `R` is true. -/
def Known (g h : G) (coms : List G) (R : (ℕ → F) → Prop) : Prop := ∃ v : ℕ → F, (∀ (i : ℕ) P, coms[i]? = some P → CommitsTo g h P (v i)) ∧ R v

/-- What a statement says about its commitments: they can be opened to values of which the claim is true. -/
def Stmt.Holds [ByteRep F] (g h : G) (coms : List G) (st : Stmt F) : Prop := (st.Binding → Known g h coms st.Claim) ∧ ∃ v, st.Claim v

/-- The number of commitments for a list of statements. -/
def totalSize (stmts : List (Stmt F)) : ℕ := (stmts.map Stmt.size).sum

/-- Verify several statements in one proof: the calls are made one after the other on the same verifier, each with its own commitments, as in tests/multiple_constraint_systems.rs:91-93 and :166-170 and tests/r1cs.rs:60-66. -/
def verifyStmts [ByteRep F] (env : Env F G) (g h : G) : List (Stmt F) → List G → Drv (Verifier F G) Unit
  | [], _ => pure ()
  | st :: stmts, coms => do
    st.verify env g h (coms.take st.size)
    verifyStmts env g h stmts (coms.drop st.size)

/-- Every statement holds of its own commitments. -/
def AllHold [ByteRep F] (g h : G) : List (Stmt F) → List G → Prop
  | [], _ => True
  | st :: stmts, coms => st.Holds g h (coms.take st.size) ∧ AllHold g h stmts (coms.drop st.size)

end Bp
