import Verif.Props.Gadgets.Clients
import Verif.Props.Gadgets.Alias

/-! # C105: a verifier that keeps only the root -/

set_option linter.unusedSectionVars false

namespace Bp
variable {F G : Type} [Field F] [ByteRep F] [AddCommGroup G] [Module F G]

/-- **C105**: a verifier may keep only the root, maintain it with the help of a database that it does not trust, checking every answer, and then verify zero-knowledge proofs of inclusion for the root it has arrived at: the committed leaf is the
one that the verifier itself has last written at the committed index, or there is a collision with a node of its tree, of an answer of the database or of a list that the prover has hashed. -/
theorem c105_inclusion (T : TreeOps F) (p : PoseidonParams F) (hp : p.Valid) (depth : ℕ) (hT : T.IsTree p depth) (ho : T.arity ^ depth ≤ IntRep.order F) (ops : List (TreeOp F)) (hc : T.CollisionFree depth (writes ops))
    (answers : List (Res (List F))) (t : SparseTree F) (values : List F) (hrun : ((clientP T depth ops).guarded T.digest).against answers = .ok (t, values)) (env : Env F G) (g h : G)
    (dv : List G → Drv (Verifier F G) Unit) (hdv : (T = tree4 p ∧ dv = verifyInclusion4 env t.root depth p .quint g h) ∨ (T = tree8 p ∧ dv = verifyInclusion8 env t.root depth p .quint g h)) :
    SoundForExactly (2 + (T.arity - 1) * depth) [0] [0] dv (fun v => IntRep.rep (v 1) < T.arity ^ depth ∧ (HoldsAt depth T.arity (writes ops) v ∨
      ∃ a ∈ merkleHashed T.digest ((digitsOf T.arity depth (IntRep.rep (v 1))).zip (nodesAt (T.arity - 1) depth 2 v)) (v 0),
        ∃ b ∈ childLists T.digest T.arity depth (written (T.arity ^ depth) (writes ops)), a ≠ b ∧ T.digest a = T.digest b)) ∨
      ∃ l, .ok l ∈ answers ∧ ∃ b ∈ historyLists T.digest T.arity depth (writes ops), l ≠ b ∧ T.digest l = T.digest b := by
  rcases c105_guarded T p hp depth hT ops hc answers _ hrun with e | e
  · obtain ⟨db, er, -⟩ := run_ok hp hT HashDb.new (writes ops) hc
    have e1 : t = ⟨depth, rootOf T.digest T.arity depth (written (T.arity ^ depth) (writes ops))⟩ := congrArg Prod.fst e
    rw [← e1] at er
    exact .inl (c57_holds_at_partial T p hp depth hT ho HashDb.new (writes ops) hc t db er env g h dv hdv)
  · exact .inr e

/-- A verifier that has written `demoHistory`. -/
example : ∃ (answers : List (Res (List Fr))) (t : SparseTree Fr) (values : List Fr),
    ((clientP (tree4 demoParams5) 2 [.write 1 7, .write 14 8, .write 17 9]).guarded (tree4 demoParams5).digest).against answers = .ok (t, values) ∧
    (SoundForExactly (2 + 3 * 2) [0] [0] (verifyInclusion4 demoEnv t.root 2 demoParams5 .quint (5 : Fr) 6) (fun v => IntRep.rep (v 1) < 16 ∧ (HoldsAt 2 4 demoHistory v ∨
      ∃ a ∈ merkleHashed (tree4 demoParams5).digest ((digitsOf 4 2 (IntRep.rep (v 1))).zip (nodesAt 3 2 2 v)) (v 0),
        ∃ b ∈ childLists (tree4 demoParams5).digest 4 2 (written 16 demoHistory), a ≠ b ∧ (tree4 demoParams5).digest a = (tree4 demoParams5).digest b)) ∨
      ∃ l, .ok l ∈ answers ∧ ∃ b ∈ historyLists (tree4 demoParams5).digest 4 2 demoHistory, l ≠ b ∧ (tree4 demoParams5).digest l = (tree4 demoParams5).digest b) := by
  have hT : (tree4 demoParams5).IsTree demoParams5 2 := .inl ⟨rfl, rfl, by decide⟩
  obtain ⟨as, h⟩ := c105_guarded_complete (tree4 demoParams5) demoParams5 demoParams5_valid 2 hT [.write 1 7, .write 14 8, .write 17 9] demo_collisionFree
  exact ⟨as, _, _, h, c105_inclusion (tree4 demoParams5) demoParams5 demoParams5_valid 2 hT (by decide +kernel) [.write 1 7, .write 14 8, .write 17 9] demo_collisionFree as _ _ h demoEnv 5 6 _ (.inl ⟨rfl, rfl⟩)⟩

end Bp
