import Verif.Spec.Statements
import Verif.Spec.Interactive

/-! # Specification: how large a statement is

The number of multiplication gates decides how many generators are needed (verifier.rs:290-299, prover.rs:374-381), and with the number of constraints it decides how much a cheating prover can gain (C58, C62). -/

namespace Bp
variable {F G : Type} [Field F] [AddCommGroup G] [Module F G]

/-- Gates of one S-box. -/
def SboxType.gateCount : SboxType → ℕ
  | .cube => 2
  | .quint => 3
  | .inverse => 3
/-- Constraints of one S-box. -/
def SboxType.constraintCount : SboxType → ℕ
  | .cube => 4
  | .quint => 6
  | .inverse => 7

/-- S-boxes in a permutation. -/
def PoseidonParams.sboxes (p : PoseidonParams F) : ℕ := (p.fullRoundsBeginning + p.fullRoundsEnd) * p.width + p.partialRounds

namespace Stmt

/-- The number of gates of a statement. -/
def gates : Stmt F → ℕ
  | boundedNum _ _ _ n => 2 * n
  | nonZero => 2
  | setMembership set => set.length
  | setMembershipAlt set => 3 * set.length
  | setNonMembership set => 2 * set.length
  | hamming new _ => 2 * new.length
  | mimc _ _ rounds => 2 * rounds
  | poseidon2 _ p sbox => p.sboxes * sbox.gateCount
  | poseidon4 _ p sbox => p.sboxes * sbox.gateCount
  | poseidon8 _ p sbox => p.sboxes * sbox.gateCount
  | inclusion4 _ depth p sbox => depth * (13 + p.sboxes * sbox.gateCount)
  | inclusion8 _ depth p sbox => depth * (34 + p.sboxes * sbox.gateCount)
  | randomizer _ _ indices depth p => 2 * indices.length * depth * (p.sboxes * SboxType.quint.gateCount)
  | factors k _ => k + 1

/-- The number of linear constraints of a statement. -/
def constraints : Stmt F → ℕ
  | boundedNum _ _ _ n => 4 * n + 5
  | nonZero => 6
  | setMembership set => 3 * set.length + 1
  | setMembershipAlt set => 7 * set.length + 2
  | setNonMembership set => 7 * set.length
  | hamming new _ => 3 * new.length + 1
  | mimc _ _ rounds => 4 * rounds + 1
  | poseidon2 _ p sbox => p.sboxes * sbox.constraintCount + 1
  | poseidon4 _ p sbox => p.sboxes * sbox.constraintCount + 1
  | poseidon8 _ p sbox => p.sboxes * sbox.constraintCount + 1
  | inclusion4 _ depth p sbox => depth * (26 + p.sboxes * sbox.constraintCount) + 2
  | inclusion8 _ depth p sbox => depth * (68 + p.sboxes * sbox.constraintCount) + 2
  | randomizer _ _ indices depth p => 2 * indices.length * depth * (p.sboxes * SboxType.quint.constraintCount) + indices.length + 1
  | factors k _ => 2 * k + 3

/-- The number of commitments in the proof: those of the caller, and a constant for the hashes. -/
def commitments : Stmt F → ℕ
  | st@(poseidon2 ..) => st.size + 1
  | st@(poseidon4 ..) => st.size + 1
  | st@(poseidon8 ..) => st.size + 1
  | st@(inclusion4 ..) => st.size + 1
  | st@(inclusion8 ..) => st.size + 1
  | st@(randomizer ..) => st.size + 1
  | st => st.size

end Stmt

/-- The gates of a list of statements. -/
def totalGates (stmts : List (Stmt F)) : ℕ := (stmts.map Stmt.gates).sum
/-- The constraints of a list of statements. -/
def totalConstraints (stmts : List (Stmt F)) : ℕ := (stmts.map Stmt.constraints).sum
/-- The commitments of a list of statements. -/
def totalCommitments (stmts : List (Stmt F)) : ℕ := (stmts.map Stmt.commitments).sum

/-- Between `s` and `s'` there are so many more gates, constraints and commitments, and no gate is left half allocated. -/
structure Grown (s s' : Verifier F G) (gates constraints commitments : ℕ) : Prop where
  gates : s'.numVars = s.numVars + gates
  constraints : s'.constraints.length = s.constraints.length + constraints
  commitments : s'.V.length = s.V.length + commitments
  pending : s'.pending = none

end Bp
