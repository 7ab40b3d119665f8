import Verif.Spec.Tree

/-! # Specification: clients that share a database

`HashDb` is a trait (src/utils/hash_db.rs:4-8), so the nodes of many trees may be kept in one store that serves many clients at the same time. The functions of a tree are then sequences of single requests, between which
the store may serve other clients. `newP`, `getP` and `updateP` are these sequences; `c105_alone` says that without other clients they are `new`, `get` and `update`. -/

namespace Bp
variable {F : Type} [Field F] [ByteRep F] {α β : Type}

/-- What a client has still to do: nothing, as it has a result or has failed; ask for the value of a key and go on with it (and fail if there is none); or store a value under a key. -/
inductive DbProg (F α : Type)
  | done (r : Res α)
  | get (k : List UInt8) (f : List F → DbProg F α)
  | put (k : List UInt8) (l : List F) (p : DbProg F α)

/-- One program after the other; it fails if the first one does. -/
def DbProg.bind : DbProg F α → (α → DbProg F β) → DbProg F β
  | .done (.ok a), g => g a
  | .done (.error e), _ => .done (.error e)
  | .get k f, g => .get k fun l => (f l).bind g
  | .put k l p, g => .put k l (p.bind g)

/-- A client that has the database for itself. -/
def DbProg.alone : DbProg F α → HashDb (List F) → Res (α × HashDb (List F))
  | .done r, db => r.map fun a => (a, db)
  | .get k f, db => do
    let l ← db.get k
    (f l).alone db
  | .put k l p, db => p.alone (db.insert k l)

/-- One request. -/
def DbProg.step : DbProg F α → HashDb (List F) → DbProg F α × HashDb (List F)
  | .done r, db => (.done r, db)
  | .get k f, db => (match db.get k with | .ok l => f l | .error e => .done (.error e), db)
  | .put k l p, db => (p, db.insert k l)

/-- Many clients: the schedule says whose request is served next. -/
def interleave : List ℕ → List (DbProg F α) → HashDb (List F) → List (DbProg F α) × HashDb (List F)
  | [], ps, db => (ps, db)
  | i :: is, ps, db =>
    match ps[i]? with
    | none => interleave is ps db
    | some p => interleave is (ps.set i (p.step db).1) (p.step db).2

/-! ## The functions of a tree as sequences of requests -/

/-- `new`, 4_ary.rs:55-87, 8_ary.rs:57-93. -/
def newLoopP (T : TreeOps F) : ℕ → F → DbProg F F
  | 0, prev => .done (.ok prev)
  | n + 1, prev =>
    match T.hash (List.replicate T.arity prev) with
    | .error e => .done (.error e)
    | .ok new => .put (toBytes new) (List.replicate T.arity prev) (newLoopP T n new)

@[inherit_doc newLoopP]
def newP (T : TreeOps F) (depth : ℕ) : DbProg F (SparseTree F) := (newLoopP T depth 0).bind fun root => .done (.ok ⟨depth, root⟩)

/-- The loop of `get`, 4_ary.rs:142-161, 8_ary.rs:150-176. -/
def getLoopP : List ℕ → F → List (List F) → DbProg F (F × List (List F))
  | [], cur, acc => .done (.ok (cur, acc))
  | d :: ds, cur, acc => .get (toBytes cur) fun l =>
    match idx l d with
    | .error e => .done (.error e)
    | .ok next => getLoopP ds next (acc ++ [l.eraseIdx d])

/-- `get` with a proof, 4_ary.rs:129-171, 8_ary.rs:137-186. -/
def getP (T : TreeOps F) (t : SparseTree F) (i : F) : DbProg F (F × List (List F)) :=
  match leafIndexToPath T i t.depth with
  | .error e => .done (.error e)
  | .ok path => getLoopP path t.root []

/-- The loop of `update`, 4_ary.rs:106-121, 8_ary.rs:111-129. -/
def updateLoopP (T : TreeOps F) : List ℕ → List (List F) → F → DbProg F F
  | [], _, cur => .done (.ok cur)
  | d :: ds, sidenodes, cur =>
    match sidenodes.getLast? with
    | none => .done (Res.panic "called `Option::unwrap()` on a `None` value")
    | some side =>
      match vecInsert side d cur with
      | .error e => .done (.error e)
      | .ok l =>
        if l.length ≠ T.arity then .done (Res.panic "clone_from_slice: lengths differ") else
        match T.hash l with
        | .error e => .done (.error e)
        | .ok h => .put (toBytes h) l (updateLoopP T ds sidenodes.dropLast h)

/-- `update`, 4_ary.rs:89-126, 8_ary.rs:95-134. -/
def updateP (T : TreeOps F) (t : SparseTree F) (i v : F) : DbProg F (SparseTree F) :=
  (getP T t i).bind fun r =>
    match leafIndexToPath T i t.depth with
    | .error e => .done (.error e)
    | .ok path => (updateLoopP T path.reverse r.2 v).bind fun root => .done (.ok { t with root := root })

/-! ## Clients -/

/-- What a client may do with its tree. -/
inductive TreeOp (F : Type)
  | read (i : F)
  | write (i v : F)

/-- The calls of a client, one after the other; `acc` are the values it has read. -/
def opsP (T : TreeOps F) : SparseTree F → List (TreeOp F) → List F → DbProg F (SparseTree F × List F)
  | t, [], acc => .done (.ok (t, acc))
  | t, .read i :: ops, acc => (getP T t i).bind fun r => opsP T t ops (acc ++ [r.1])
  | t, .write i v :: ops, acc => (updateP T t i v).bind fun t' => opsP T t' ops acc

/-- A client makes a tree and uses it. -/
def clientP (T : TreeOps F) (depth : ℕ) (ops : List (TreeOp F)) : DbProg F (SparseTree F × List F) := (newP T depth).bind fun t => opsP T t ops []

/-- The writes of a client. -/
def writes : List (TreeOp F) → History F
  | [] => []
  | .read _ :: ops => writes ops
  | .write i v :: ops => (i, v) :: writes ops

/-- What a map with `N` entries, to which `h` has been written, would answer. -/
def replies (N : ℕ) : History F → List (TreeOp F) → List F
  | _, [] => []
  | h, .read i :: ops => written N h (IntRep.rep i % N) :: replies N h ops
  | h, .write i v :: ops => replies N (h ++ [(i, v)]) ops

/-- The number of requests of the calls of a client, for a tree of the depth `d`. -/
def requests (d : ℕ) : List (TreeOp F) → ℕ
  | [] => 0
  | .read _ :: ops => d + requests d ops
  | .write _ _ :: ops => 2 * d + requests d ops

/-! ## Clients that trust nobody -/

/-- A client that checks every answer (code that a user may add, not part of the crate): it goes on only if the hash of the answer is the key it has asked for. -/
def DbProg.guarded (H : List F → F) : DbProg F α → DbProg F α
  | .done r => .done r
  | .get k f => .get k fun l => if toBytes (H l) = k then (f l).guarded H else .done (.error (.panic "wrong answer"))
  | .put k l p => .put k l (p.guarded H)

/-- A client whose requests get the given answers, one after the other, whatever it asks for and has stored. -/
def DbProg.against : DbProg F α → List (Res (List F)) → Res α
  | .done r, _ => r
  | .get _ _, [] => .error (.panic "no answer")
  | .get _ f, .ok l :: as => (f l).against as
  | .get _ _, .error e :: _ => .error e
  | .put _ _ p, as => p.against as

/-- The answers that client `i` is given. -/
def answersTo (i : ℕ) : List ℕ → List (DbProg F α) → HashDb (List F) → List (Res (List F))
  | [], _, _ => []
  | j :: js, ps, db =>
    match ps[j]? with
    | none => answersTo i js ps db
    | some p => (if j = i then match p with | .get k _ => [db.get k] | _ => [] else []) ++ answersTo i js (ps.set j (p.step db).1) (p.step db).2

end Bp
