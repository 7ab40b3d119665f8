import Verif.Spec.Merkle

/-! # Specification of the randomizer statement -/

namespace Bp
variable {F : Type} [Field F]

/-- Contents `c` of a tree with `N` leaves after writing the (index, value) pairs `ws`, oldest first. -/
def overlay [ByteRep F] (N : ℕ) (ws : List (F × F)) (c : ℕ → F) (i : ℕ) : F :=
  match ws.reverse.find? fun w => IntRep.rep w.1 % N = i with
  | some w => w.2
  | none => c i

/-- Which commitment holds the original value number `i`: after the root (number 0), each value is followed by the `3 * depth` siblings on its path. -/
def randVal (depth i : ℕ) : ℕ := 1 + i * (1 + 3 * depth)

/-- The pairs of listed index and committed original value. -/
def origPairs (depth : ℕ) (indices : List F) (v : ℕ → F) : List (F × F) := indices.mapIdx fun i x => (x, v (randVal depth i))

/-- The statement about the committed values `v`, when the new tree has the contents `c`: below the committed root `v 0` each original value is at its index, and writing the original
values into the new tree gives the root `v 0`. -/
def Randomized [ByteRep F] (T : TreeOps F) (depth : ℕ) (c : ℕ → F) (indices : List F) (v : ℕ → F) : Prop :=
  (∀ i x, indices[i]? = some x →
    merkleRoot T.digest ((digitsOf T.arity depth (IntRep.rep x)).zip (nodesAt (T.arity - 1) depth (randVal depth i + 1) v)) (v (randVal depth i)) = v 0) ∧
  rootOf T.digest T.arity depth (overlay (T.arity ^ depth) (origPairs depth indices v) c) = v 0

end Bp
