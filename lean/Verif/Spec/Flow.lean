import Verif.Spec.Tree
import Verif.Model.Gadgets.Randomizer

/-! # Specification: the use of the randomizer from beginning to end

The steps of a client, as in the crate's test (src/r1cs/gadgets/randomizer.rs:352-470): fill a tree with data, choose indices, compute the new data, update a copy of the tree, prove. -/

namespace Bp
variable {F : Type} [Field F] [ByteRep F]

/-- Write the data to the leaves 0, 1, 2, … -/
def filling (data : List F) : History F := data.mapIdx fun i x => ((i : F), x)

/-- The updates that randomize the listed leaves, given with their old values. -/
def randomizing (hashMsg : List UInt8 → F) (modified : List (F × F)) : History F := modified.map fun e => (e.1, randomize hashMsg e.2)

/-- The leaves of a tree that holds the data, and 0 elsewhere. -/
def leavesOf (data : List F) (i : ℕ) : F := data.getD i 0

end Bp
