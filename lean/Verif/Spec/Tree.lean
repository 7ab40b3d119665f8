import Verif.Model.Gadgets.Tree

/-! # Specification of the sparse Merkle trees

A tree of depth `d` with arity `A` stands for a map from `0 .. A^d - 1` to scalars (`contents`).  Its root is the hash of the roots of its `A` subtrees. -/

namespace Bp
variable {F : Type} [Field F]

/-- A history of updates: index and value, oldest first. -/
abbrev History (F : Type) := List (F × F)

/-- The value at position `i` (of `N`) after a history: that of the last write to an index congruent to `i` modulo `N`, or 0. -/
def written [ByteRep F] (N : ℕ) (h : History F) (i : ℕ) : F :=
  match h.reverse.find? fun w => IntRep.rep w.1 % N = i with
  | some w => w.2
  | none => 0

/-- The contents of subtree `k` of a tree whose subtrees have `n` leaves. -/
def subContents (c : ℕ → F) (n k : ℕ) : ℕ → F := fun i => c (k * n + i)

/-- Root of the tree of depth `d` with contents `c`. -/
def rootOf (H : List F → F) (A : ℕ) : ℕ → (ℕ → F) → F
  | 0, c => c 0
  | d + 1, c => H ((List.range A).map fun k => rootOf H A d (subContents c (A ^ d) k))

/-- All child lists of the inner nodes of the tree of depth `d` with contents `c`. -/
def childLists (H : List F → F) (A : ℕ) : ℕ → (ℕ → F) → List (List F)
  | 0, _ => []
  | d + 1, c => ((List.range A).map fun k => rootOf H A d (subContents c (A ^ d) k)) ::
      (List.range A).flatMap fun k => childLists H A d (subContents c (A ^ d) k)

/-- No two different lists in `S` have the same hash. -/
def NoCollision (H : List F → F) (S : List (List F)) : Prop := ∀ a ∈ S, ∀ b ∈ S, H a = H b → a = b

/-- All child lists occurring in the trees a history runs through. -/
def historyLists [ByteRep F] (H : List F → F) (A depth : ℕ) (h : History F) : List (List F) :=
  h.inits.flatMap fun h' => childLists H A depth (written (A ^ depth) h')

/-- The hash as a total function (0 where the code panics; it does not on child lists of the right length). -/
def TreeOps.digest (T : TreeOps F) (xs : List F) : F :=
  match T.hash xs with
  | .ok h => h
  | .error _ => 0

/-- A fresh tree in the database `db`, then the updates of the history. -/
def runHistory [ByteRep F] (T : TreeOps F) (depth : ℕ) (db : HashDb (List F)) (h : History F) : Res (SparseTree F × HashDb (List F)) := do
  let s ← SparseTree.new T depth db
  h.foldlM (fun s w => do
    let (_, t, db) ← s.1.update T w.1 w.2 s.2
    return (t, db)) s

/-- The root obtained by hashing `v` up: `levels` lists, from root to leaf, the position of the path node among its siblings and the siblings. -/
def merkleRoot (H : List F → F) : List (ℕ × List F) → F → F
  | [], v => v
  | (k, s) :: ls, v => H (s.insertIdx k (merkleRoot H ls v))

/-- The lists hashed by `merkleRoot`. -/
def merkleHashed (H : List F → F) : List (ℕ × List F) → F → List (List F)
  | [], _ => []
  | (k, s) :: ls, v => s.insertIdx k (merkleRoot H ls v) :: merkleHashed H ls v

/-- Base-`A` digits of `i`, most significant first, `d` of them. -/
def digitsOf (A : ℕ) : ℕ → ℕ → List ℕ
  | 0, _ => []
  | d + 1, i => i / A ^ d % A :: digitsOf A d i

/-- `T` is one of the two trees of the crate, with parameters made for its arity and a depth whose paths fit a scalar's encoding. -/
def TreeOps.IsTree [ByteRep F] (T : TreeOps F) (p : PoseidonParams F) (depth : ℕ) : Prop :=
  (T = tree4 p ∧ p.width = 5 ∧ depth ≤ 4 * ByteRep.modBytes F) ∨ (T = tree8 p ∧ p.width = 9 ∧ 3 * depth ≤ 8 * ByteRep.modBytes F)

/-- No two different child lists occurring in the history have the same hash. -/
def TreeOps.CollisionFree [ByteRep F] (T : TreeOps F) (depth : ℕ) (h : History F) : Prop := NoCollision T.digest (historyLists T.digest T.arity depth h)

end Bp
