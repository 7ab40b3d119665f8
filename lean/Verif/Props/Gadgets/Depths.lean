import Verif.Props.Gadgets.Merkle

/-! # C96: a root does not say how deep the tree is

The hash of an inner node is made in the same way whatever its children are, and the leaves are hashed as they are.  So the inner nodes of a tree are the leaves of another tree, that is less deep. -/

set_option linter.unusedSectionVars false

namespace Bp
variable {F : Type} [Field F] [ByteRep F]

/-- The inner nodes that are `e` levels above the leaves, if the leaves are `c`. -/
def innerNodes (T : TreeOps F) (e : ℕ) (c : ℕ → F) : ℕ → F := fun j => rootOf T.digest T.arity e (subContents c (T.arity ^ e) j)

theorem childLists_inner (H : List F → F) (A e : ℕ) : ∀ m (c : ℕ → F), ∀ l ∈ childLists H A m (fun j => rootOf H A e (subContents c (A ^ e) j)), l ∈ childLists H A (m + e) c
  | 0, c, l, hl => by simp [childLists] at hl
  | m + 1, c, l, hl => by
    have hs : ∀ k, subContents (fun j => rootOf H A e (subContents c (A ^ e) j)) (A ^ m) k = fun j => rootOf H A e (subContents (subContents c (A ^ (m + e)) k) (A ^ e) j) := fun k => by
      funext j
      rw [subContents_sub]; rfl
    rw [show m + 1 + e = (m + e) + 1 by omega, mem_childLists]
    rcases mem_childLists.mp hl with rfl | ⟨k, hk, hl⟩
    · refine .inl ?_
      unfold kids
      refine List.map_congr_left fun k _ => ?_
      rw [rootOf_split, hs]
    · refine .inr ⟨k, hk, childLists_inner H A e m _ l ?_⟩
      rwa [hs] at hl

variable (T : TreeOps F) (p : PoseidonParams F) (hp : p.Valid) (m e : ℕ) (hT : T.IsTree p (m + e)) (hT' : T.IsTree p m) (db1 db2 : HashDb (List F)) (h1 h2 : History F)

include hp hT hT' in
/-- **C96**: a tree of depth `m` whose leaves are the nodes that a tree of depth `m + e` has at level `m`, has the same root. -/
theorem c96_same_root (hc1 : T.CollisionFree (m + e) h1) (hc2 : T.CollisionFree m h2) (heq : ∀ j < T.arity ^ m, written (T.arity ^ m) h2 j = innerNodes T e (written (T.arity ^ (m + e)) h1) j)
    (t1 t2 : SparseTree F) (d1 d2 : HashDb (List F)) (r1 : runHistory T (m + e) db1 h1 = .ok (t1, d1)) (r2 : runHistory T m db2 h2 = .ok (t2, d2)) : t1.root = t2.root := by
  obtain ⟨_, e1, -⟩ := run_ok hp hT db1 h1 hc1
  obtain ⟨_, e2, -⟩ := run_ok hp hT' db2 h2 hc2
  rw [r1] at e1; rw [r2] at e2
  injection e1 with e1; injection e1 with e1 _
  injection e2 with e2; injection e2 with e2 _
  rw [e1, e2]
  show rootOf _ _ _ _ = rootOf _ _ _ _
  rw [rootOf_split]
  exact (rootOf_congr _ _ _ _ _ heq).symm

include hp hT hT' in
/-- **C96**: conversely, trees of depths `m + e` and `m` with the same root are like that, or there is a collision between a child list of one and a child list of the other.  (For `e = 0` this is C39.) -/
theorem c96_contents (hc1 : T.CollisionFree (m + e) h1) (hc2 : T.CollisionFree m h2)
    (t1 t2 : SparseTree F) (d1 d2 : HashDb (List F)) (r1 : runHistory T (m + e) db1 h1 = .ok (t1, d1)) (r2 : runHistory T m db2 h2 = .ok (t2, d2)) (hr : t1.root = t2.root) :
    (∀ j < T.arity ^ m, written (T.arity ^ m) h2 j = innerNodes T e (written (T.arity ^ (m + e)) h1) j) ∨
      ∃ a ∈ childLists T.digest T.arity (m + e) (written (T.arity ^ (m + e)) h1), ∃ b ∈ childLists T.digest T.arity m (written (T.arity ^ m) h2), a ≠ b ∧ T.digest a = T.digest b := by
  obtain ⟨_, e1, -⟩ := run_ok hp hT db1 h1 hc1
  obtain ⟨_, e2, -⟩ := run_ok hp hT' db2 h2 hc2
  rw [r1] at e1; rw [r2] at e2
  injection e1 with e1; injection e1 with e1 _
  injection e2 with e2; injection e2 with e2 _
  rw [e1, e2] at hr
  have hr : rootOf T.digest T.arity (m + e) _ = rootOf T.digest T.arity m _ := hr
  rw [rootOf_split] at hr
  rcases rootOf_binding m _ _ hr with h | ⟨a, ha, b, hb, hab⟩
  · exact .inl fun j hj => (h j hj).symm
  · exact .inr ⟨a, childLists_inner _ _ _ _ _ a ha, b, hb, hab⟩

include hp hT hT' in
/-- **C96**: a tree object with the root and the database of a tree of depth `m + e`, but with the depth `m` (the field is public), reads the inner nodes at level `m` as if they were leaves, and the proofs it returns are accepted by
`verify_proof` with this depth. -/
theorem c96_read_shallower [DecidableEq F] (hc1 : T.CollisionFree (m + e) h1) (t : SparseTree F) (db : HashDb (List F)) (hrun : runHistory T (m + e) db1 h1 = .ok (t, db)) (i : F) :
    ∃ proof, (⟨m, t.root⟩ : SparseTree F).get T i (some []) db = .ok (innerNodes T e (written (T.arity ^ (m + e)) h1) (IntRep.rep i % T.arity ^ m), some proof) ∧ proof.length = m ∧
      (⟨m, t.root⟩ : SparseTree F).verifyProof T i (innerNodes T e (written (T.arity ^ (m + e)) h1) (IntRep.rep i % T.arity ^ m)) proof none = .ok true := by
  obtain ⟨db', e', k⟩ := run_ok hp hT db1 h1 hc1
  rw [hrun] at e'
  injection e' with e'; injection e' with e1 e2
  subst e1 e2
  obtain ⟨tot, hd⟩ := isTree_total hp hT'
  have hr : rootOf T.digest T.arity (m + e) (written (T.arity ^ (m + e)) h1) = rootOf T.digest T.arity m (innerNodes T e (written (T.arity ^ (m + e)) h1)) := rootOf_split _ _ _ _ _
  have hl := sides_length T.digest T.arity m (innerNodes T e (written (T.arity ^ (m + e)) h1)) (IntRep.rep i)
  refine ⟨_, get_ok (T := T) (t := ⟨m, _⟩) hd hr (fun l hl => k h1 List.prefix_rfl l (childLists_inner _ _ _ _ _ l hl)) i (some []), hl, ?_⟩
  show SparseTree.verifyProof T ⟨m, _⟩ i _ (sides T.digest T.arity m (innerNodes T e (written (T.arity ^ (m + e)) h1)) (IntRep.rep i)) none = _
  rw [verifyProof_ok (T := T) (t := ⟨m, _⟩) tot hd i _ (le_of_eq hl.symm) (sides_node_length T.digest T.arity_pos m _ (IntRep.rep i)) none]
  simpa [hr] using merkleRoot_sides T.arity_pos m _

/-! ## Examples -/

/-- A tree of depth 1 with the inner nodes of the tree of depth 2 from above as leaves. -/
def shallowHistory : History Fr := (List.range 4).map fun (j : ℕ) => ((j : Fr), innerNodes (tree4 demoParams5) 1 (written (4 ^ 2) demoHistory) j)

theorem shallow_collisionFree : (tree4 demoParams5).CollisionFree 1 shallowHistory := by
  unfold TreeOps.CollisionFree NoCollision
  decide +kernel

example : ∃ t1 d1 t2 d2, runHistory (tree4 demoParams5) 2 HashDb.new demoHistory = .ok (t1, d1) ∧ runHistory (tree4 demoParams5) 1 HashDb.new shallowHistory = .ok (t2, d2) ∧ t1.root = t2.root := by
  have hT : (tree4 demoParams5).IsTree demoParams5 2 := .inl ⟨rfl, rfl, by decide⟩
  have hT' : (tree4 demoParams5).IsTree demoParams5 1 := .inl ⟨rfl, rfl, by decide⟩
  obtain ⟨d1, r1, -⟩ := run_ok demoParams5_valid hT HashDb.new demoHistory demo_collisionFree
  obtain ⟨d2, r2, -⟩ := run_ok demoParams5_valid hT' HashDb.new shallowHistory shallow_collisionFree
  refine ⟨_, d1, _, d2, r1, r2, c96_same_root _ _ demoParams5_valid 1 1 hT hT' HashDb.new HashDb.new demoHistory shallowHistory demo_collisionFree shallow_collisionFree ?_ _ _ d1 d2 r1 r2⟩
  show ∀ j < 4, _
  decide +kernel

/-- The trees of the example before this one meet the hypotheses of `c96_contents`. -/
example : ∃ t1 d1 t2 d2, runHistory (tree4 demoParams5) (1 + 1) HashDb.new demoHistory = .ok (t1, d1) ∧ runHistory (tree4 demoParams5) 1 HashDb.new shallowHistory = .ok (t2, d2) ∧ t1.root = t2.root ∧
    ((∀ j < 4, written 4 shallowHistory j = innerNodes (tree4 demoParams5) 1 (written 16 demoHistory) j) ∨
      ∃ a ∈ childLists (tree4 demoParams5).digest 4 2 (written 16 demoHistory), ∃ b ∈ childLists (tree4 demoParams5).digest 4 1 (written 4 shallowHistory), a ≠ b ∧ (tree4 demoParams5).digest a = (tree4 demoParams5).digest b) := by
  have hT : (tree4 demoParams5).IsTree demoParams5 2 := .inl ⟨rfl, rfl, by decide⟩
  have hT' : (tree4 demoParams5).IsTree demoParams5 1 := .inl ⟨rfl, rfl, by decide⟩
  obtain ⟨d1, r1, -⟩ := run_ok demoParams5_valid hT HashDb.new demoHistory demo_collisionFree
  obtain ⟨d2, r2, -⟩ := run_ok demoParams5_valid hT' HashDb.new shallowHistory shallow_collisionFree
  have hr := c96_same_root _ _ demoParams5_valid 1 1 hT hT' HashDb.new HashDb.new demoHistory shallowHistory demo_collisionFree shallow_collisionFree (by show ∀ j < 4, _; decide +kernel) _ _ d1 d2 r1 r2
  exact ⟨_, d1, _, d2, r1, r2, hr, c96_contents _ _ demoParams5_valid 1 1 hT hT' HashDb.new HashDb.new demoHistory shallowHistory demo_collisionFree shallow_collisionFree _ _ d1 d2 r1 r2 hr⟩

/-- Reading the tree of depth 2 as one of depth 1. -/
example (i : Fr) : ∃ t db proof, runHistory (tree4 demoParams5) 2 HashDb.new demoHistory = .ok (t, db) ∧
    (⟨1, t.root⟩ : SparseTree Fr).verifyProof (tree4 demoParams5) i (innerNodes (tree4 demoParams5) 1 (written (4 ^ 2) demoHistory) (IntRep.rep i % 4 ^ 1)) proof none = .ok true := by
  have hT : (tree4 demoParams5).IsTree demoParams5 2 := .inl ⟨rfl, rfl, by decide⟩
  have hT' : (tree4 demoParams5).IsTree demoParams5 1 := .inl ⟨rfl, rfl, by decide⟩
  obtain ⟨d1, r1, -⟩ := run_ok demoParams5_valid hT HashDb.new demoHistory demo_collisionFree
  obtain ⟨proof, -, -, h⟩ := c96_read_shallower _ _ demoParams5_valid 1 1 hT hT' HashDb.new demoHistory demo_collisionFree _ d1 r1 i
  exact ⟨_, d1, proof, r1, h⟩

end Bp
