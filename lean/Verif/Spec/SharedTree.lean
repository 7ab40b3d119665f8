import Mathlib.Logic.Function.Basic
import Verif.Spec.Clients

/-! # Specification: clients that share one tree

Several clients may write to the same tree if the root is kept in a common register that can be compared and exchanged in one step. (The register is not part of the crate, which gives every client a tree object; this is how a user would
share one.) A client reads the register, makes an update from that tree with the common database, and exchanges the register if its root is still the one it has read; otherwise it starts again. -/

namespace Bp
variable {F : Type} [Field F] [ByteRep F]

/-- Where a client is with its one write. -/
inductive Phase (F : Type)
  | idle
  | busy (snap : SparseTree F) (p : DbProg F (SparseTree F))
  | success
  | failed

/-- The common database, the register and the clients. -/
structure SharedState (F : Type) where
  db : HashDb (List F)
  tree : SparseTree F
  phase : ℕ → Phase F

/-- Client `j`, which wants to make the write `w j`, does one step: it reads the register, or is served one request, or tries to exchange the register. -/
def SharedState.step [DecidableEq F] (T : TreeOps F) (w : ℕ → F × F) (s : SharedState F) (j : ℕ) : SharedState F :=
  match s.phase j with
  | .idle => { s with phase := Function.update s.phase j (.busy s.tree (updateP T s.tree (w j).1 (w j).2)) }
  | .busy snap p =>
    match p with
    | .done (.ok t) => if s.tree.root = snap.root then { s with tree := t, phase := Function.update s.phase j .success } else { s with phase := Function.update s.phase j .idle }
    | .done (.error _) => { s with phase := Function.update s.phase j .failed }
    | p => { s with db := (p.step s.db).2, phase := Function.update s.phase j (.busy snap (p.step s.db).1) }
  | .success => s
  | .failed => s

/-- A schedule. -/
def SharedState.run [DecidableEq F] (T : TreeOps F) (w : ℕ → F × F) (s : SharedState F) (sched : List ℕ) : SharedState F := sched.foldl (SharedState.step T w) s

end Bp
