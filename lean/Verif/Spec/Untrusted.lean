import Verif.Spec.Tree

/-! # Specification: trees whose database is not trusted

`HashDb` is a trait (src/utils/hash_db.rs:4-8): a client may keep the nodes of a tree in a store it does not control, and keep only the root itself. -/

namespace Bp
variable {F : Type} [Field F] [ByteRep F]

/-- All values in the database are arrays of the length `A`; in the code this is so by their type (`DBVal_4_ary`, `DBVal_8_ary`). -/
def HashDb.Arrays (A : ℕ) (db : HashDb (List F)) : Prop := ∀ k l, db.get k = .ok l → l.length = A

/-- Code of a careful client (not part of the crate): read the leaf with its proof, check the proof, update, and check the old proof with the new value and the new root.
The database may answer the second call otherwise than the first, so there are two of them. -/
def checkedUpdate [DecidableEq F] (T : TreeOps F) (t : SparseTree F) (i w : F) (db1 db2 : HashDb (List F)) : Res (Option (SparseTree F × HashDb (List F))) := do
  let (v, proof) ← t.get T i (some []) db1
  match proof with
  | none => Res.panic "called `Option::unwrap()` on a `None` value"
  | some proof =>
    let before ← t.verifyProof T i v proof none
    let (root, t', db') ← t.update T i w db2
    let after ← t.verifyProof T i w proof (some root)
    return if before && after then some (t', db') else none

/-- A careful client that makes many updates. The databases may be others at every call; the client stops at the first check that fails. -/
def checkedRun [DecidableEq F] (T : TreeOps F) : SparseTree F → List ((F × F) × HashDb (List F) × HashDb (List F)) → Res (Option (SparseTree F))
  | t, [] => .ok (some t)
  | t, (w, db1, db2) :: rest => do
    match ← checkedUpdate T t w.1 w.2 db1 db2 with
    | none => return none
    | some (t', _) => checkedRun T t' rest

end Bp
