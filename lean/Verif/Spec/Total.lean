import Verif.Spec.Statements

/-! # Specification: with which public parameters, and with how many commitments, the verifying functions run -/

namespace Bp
variable {F : Type}

/-- Public parameters with which the code of the verifier runs: nothing is asked of most statements.  (In debug builds the bounds have to be in order, `max - min` is computed in u64; there are constants for all rounds of
MiMC; the parameters of Poseidon are consistent and of the width for the arity.  The randomizer, which reads a tree, is treated apart.) -/
def Stmt.Runs : Stmt F → Prop
  | .boundedNum debug lower upper _ => debug = false ∨ lower ≤ upper
  | .mimc _ constants rounds => rounds ≤ constants.length
  | .poseidon2 _ p _ => p.Valid ∧ p.width = 3
  | .poseidon4 _ p _ => p.Valid ∧ p.width = 5
  | .poseidon8 _ p _ => p.Valid ∧ p.width = 9
  | .inclusion4 _ _ p _ => p.Valid ∧ p.width = 5
  | .inclusion8 _ _ p _ => p.Valid ∧ p.width = 9
  | .randomizer .. => False
  | _ => True

/-- The statements whose verifying function takes its commitments one by one from the front of the vector: all but the Hamming distance, which takes all there are, and the inclusions, which take two and then
all others. -/
def Stmt.Removes : Stmt F → Prop
  | .hamming .. => False
  | .inclusion4 .. => False
  | .inclusion8 .. => False
  | _ => True

end Bp
