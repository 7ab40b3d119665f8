import Verif.Spec.Tree

/-! # Specification: several trees that share one database, and crashes

`new` and `update` get the database as a mutable reference to anything that implements the trait `HashDb` (utils/hash_db.rs:4-8), so that a program can keep many trees in one database, keep copies of tree objects (`#[derive(Clone)]`,
4_ary.rs:47, 8_ary.rs:49), and, when the database is persistent, can stop in the middle of `new` or `update`. -/

namespace Bp
variable {F : Type} [Field F] [ByteRep F]

/-- What a program does with its trees, which are numbered in the order in which they are made. -/
inductive TreeCall (F : Type) where
  /-- Make a new tree. -/
  | new (depth : ℕ)
  /-- Make a copy of a tree object. -/
  | clone (tree : ℕ)
  | update (tree : ℕ) (i v : F)
  /-- `new` stops after `k` insertions into the database: no tree is made. -/
  | crashedNew (depth k : ℕ)
  /-- `update` stops after `k` insertions into the database: the tree object has not been changed. -/
  | crashedUpdate (tree : ℕ) (i v : F) (k : ℕ)

/-- The trees and their database. -/
structure Forest (F : Type) where
  trees : List (SparseTree F)
  db : HashDb (List F)

/-- `update`, 4_ary.rs:89-126, 8_ary.rs:95-134, stopped after `k` insertions: the database as it is then. -/
def SparseTree.updateUntil (T : TreeOps F) (t : SparseTree F) (i val : F) (db : HashDb (List F)) (k : ℕ) : Res (HashDb (List F)) := do
  let (_, sidenodes) ← t.get T i (some []) db
  match sidenodes with
  | none => Res.panic "called `Option::unwrap()` on a `None` value"
  | some sidenodes =>
    let path ← leafIndexToPath T i t.depth
    let (_, db) ← SparseTree.updateLoop T (path.reverse.take k) sidenodes val db
    return db

/-- A call.  (A call on a tree that has not been made cannot be written in Rust.) -/
def Forest.call (T : TreeOps F) (f : Forest F) : TreeCall F → Res (Forest F)
  | .new depth => do
    let (t, db) ← SparseTree.new T depth f.db
    return ⟨f.trees ++ [t], db⟩
  | .clone j =>
    match f.trees[j]? with
    | none => Res.panic "no such tree"
    | some t => return ⟨f.trees ++ [t], f.db⟩
  | .update j i v =>
    match f.trees[j]? with
    | none => Res.panic "no such tree"
    | some t => do
      let (_, t', db) ← t.update T i v f.db
      return ⟨f.trees.set j t', db⟩
  | .crashedNew depth k => do
    let (_, db) ← SparseTree.newLoop T (min k depth) 0 f.db
    return ⟨f.trees, db⟩
  | .crashedUpdate j i v k =>
    match f.trees[j]? with
    | none => Res.panic "no such tree"
    | some t => do
      let db ← t.updateUntil T i v f.db k
      return ⟨f.trees, db⟩

/-- What each tree should hold: its depth and the updates made to it (and to what it is a copy of). -/
abbrev ForestLog (F : Type) := List (ℕ × History F)

/-- The effect of a call: crashed calls have none. -/
def ForestLog.call (l : ForestLog F) : TreeCall F → ForestLog F
  | .new depth => l ++ [(depth, [])]
  | .clone j =>
    match l[j]? with
    | none => l
    | some e => l ++ [e]
  | .update j i v =>
    match l[j]? with
    | none => l
    | some e => l.set j (e.1, e.2 ++ [(i, v)])
  | .crashedNew .. => l
  | .crashedUpdate .. => l

/-- The call is about a tree that exists. -/
def ForestLog.Has (l : ForestLog F) : TreeCall F → Prop
  | .new _ => True
  | .clone j => j < l.length
  | .update j _ _ => j < l.length
  | .crashedNew .. => True
  | .crashedUpdate j .. => j < l.length

/-- The child lists of one tree. -/
def TreeOps.listsOf (T : TreeOps F) (e : ℕ × History F) : List (List F) := childLists T.digest T.arity e.1 (written (T.arity ^ e.1) e.2)

/-- The child lists that a call brings into play: those of the tree that results, or would have resulted without the crash. -/
def TreeOps.listsBy (T : TreeOps F) (l : ForestLog F) : TreeCall F → List (List F)
  | .new depth => T.listsOf (depth, [])
  | .clone _ => []
  | .update j i v =>
    match l[j]? with
    | none => []
    | some e => T.listsOf (e.1, e.2 ++ [(i, v)])
  | .crashedNew depth _ => T.listsOf (depth, [])
  | .crashedUpdate j i v _ =>
    match l[j]? with
    | none => []
    | some e => T.listsOf (e.1, e.2 ++ [(i, v)])

/-- All child lists that occur. -/
def TreeOps.listsIn (T : TreeOps F) : ForestLog F → List (TreeCall F) → List (List F)
  | _, [] => []
  | l, c :: cs => T.listsBy l c ++ T.listsIn (l.call c) cs

/-- Every call is about a tree that exists, and no tree is deeper than its kind allows. -/
def CallsOk (T : TreeOps F) (p : PoseidonParams F) : ForestLog F → List (TreeCall F) → Prop
  | _, [] => True
  | l, c :: cs => l.Has c ∧ (∀ depth, c = .new depth ∨ (∃ k, c = .crashedNew depth k) → T.IsTree p depth) ∧ CallsOk T p (l.call c) cs

/-- The calls, one after the other. -/
def Forest.run (T : TreeOps F) (db : HashDb (List F)) (cs : List (TreeCall F)) : Res (Forest F) := cs.foldlM (fun f c => f.call T c) ⟨[], db⟩

/-- What the trees should hold after the calls. -/
def ForestLog.run (cs : List (TreeCall F)) : ForestLog F := cs.foldl ForestLog.call []

end Bp
