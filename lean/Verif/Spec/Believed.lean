import Verif.Spec.Randomizer

/-! # Specification: the randomizer with a database that is not trusted -/

namespace Bp
variable {F : Type} [Field F] [ByteRep F]

/-- Every answer of the database hashes to the key that was asked for: a client can ensure this by checking each answer (src/utils/hash_db.rs:4-8: `HashDb` is a trait, so the check can be put around any
database). -/
def HashDb.Checked (H : List F → F) (db : HashDb (List F)) : Prop := ∀ k l, db.get k = .ok l → k = toBytes (H l)

/-- Code of a careful client (not part of the crate): a database put around another one, which passes on only what hashes to its key. -/
def HashDb.audited (H : List F → F) (db : HashDb (List F)) : HashDb (List F) := ⟨db.db.filter fun e => e.1 = toBytes (H e.2)⟩

/-- A collision of the hash function between an answer of the database or a node of the tree with contents `c`, and a node of this tree. -/
def DbCollision (H : List F → F) (A depth : ℕ) (c : ℕ → F) (db : HashDb (List F)) : Prop :=
  ∃ a, ((∃ k, db.get k = .ok a) ∨ a ∈ childLists H A depth c) ∧ ∃ b ∈ childLists H A depth c, a ≠ b ∧ H a = H b

/-- A client that keeps only the tree object and puts the checks around whatever database it is given for each update. -/
def auditedRun (T : TreeOps F) : SparseTree F → List ((F × F) × HashDb (List F)) → Res (SparseTree F)
  | t, [] => .ok t
  | t, (w, db) :: rest => do
    let (_, t', _) ← t.update T w.1 w.2 (db.audited T.digest)
    auditedRun T t' rest

end Bp
