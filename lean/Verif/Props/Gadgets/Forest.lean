import Verif.Lemmas.Gadgets.Forest
import Verif.Props.Gadgets.Tree

/-! # C64: several trees in one database, and crashes -/

namespace Bp
variable {F : Type} [Field F] [ByteRep F]

theorem forest_run {T : TreeOps F} {p : PoseidonParams F} (hp : p.Valid) (hT : T.IsTree p 0) {S : List (List F)} (hS : NoCollision T.digest S) : ∀ (cs : List (TreeCall F)) (f : Forest F) (l : ForestLog F), f.Sound T S l →
    CallsOk T p l cs → (∀ x ∈ T.listsIn l cs, x ∈ S) → ∃ f', cs.foldlM (fun f c => f.call T c) f = .ok f' ∧ f'.Sound T S (cs.foldl ForestLog.call l)
  | [], f, l, hs, _, _ => ⟨f, rfl, hs⟩
  | c :: cs, f, l, hs, ⟨h1, h2, h3⟩, hin => by
    obtain ⟨f1, e1, s1⟩ := hs.call (isTree_total hp hT).1 hS c h1 (fun d hd => (isTree_total hp (h2 d hd)).2) fun x hx => hin x (List.mem_append_left _ hx)
    obtain ⟨f2, e2, s2⟩ := forest_run hp hT hS cs f1 (l.call c) s1 h3 fun x hx => hin x (List.mem_append_right _ hx)
    refine ⟨f2, ?_, s2⟩
    rw [List.foldlM_cons, e1]
    exact e2

/-- **C64**: any number of trees (of one kind, of any depths) in one database, made, copied and updated in any order, with any number of calls to `new` and `update` that stop in the middle.  No call fails, and afterwards each tree holds
exactly what was written to it (or, before it was copied, to its original): reading gives this value, with a proof that verifies against the root of the tree; provided no two different child lists that occur have the same hash. -/
theorem c64_forest [DecidableEq F] (T : TreeOps F) (p : PoseidonParams F) (hp : p.Valid) (hT : T.IsTree p 0) (db0 : HashDb (List F)) (cs : List (TreeCall F)) (hcs : CallsOk T p [] cs)
    (hc : NoCollision T.digest (T.listsIn [] cs)) :
    ∃ f, Forest.run T db0 cs = .ok f ∧ f.trees.length = (ForestLog.run cs).length ∧
      ∀ (j depth : ℕ) (h : History F), (ForestLog.run cs)[j]? = some (depth, h) → ∃ t, f.trees[j]? = some t ∧ t.depth = depth ∧
        ∀ i : F, ∃ proof, t.get T i (some []) f.db = .ok (written (T.arity ^ depth) h (IntRep.rep i % T.arity ^ depth), some proof) ∧
          t.verifyProof T i (written (T.arity ^ depth) h (IntRep.rep i % T.arity ^ depth)) proof none = .ok true := by
  obtain ⟨f, e, hs⟩ := forest_run hp hT hc cs ⟨[], db0⟩ [] ⟨rfl, by simp, by simp⟩ hcs fun _ h => h
  refine ⟨f, e, by rw [hs.trees, List.length_map]; rfl, fun j depth h hj => ⟨_, hs.get? hj, rfl, fun i => ?_⟩⟩
  have hmem := List.mem_of_getElem? hj
  have hd := hs.depth _ hmem
  have hn := sides_node_length T.digest T.arity_pos depth (written (T.arity ^ depth) h) (IntRep.rep i)
  have hl := sides_length T.digest T.arity depth (written (T.arity ^ depth) h) (IntRep.rep i)
  refine ⟨_, get_ok (T := T) (t := ⟨depth, _⟩) hd rfl (fun x hx => (hs.lists _ hmem x hx).2) i (some []), ?_⟩
  show SparseTree.verifyProof T ⟨depth, _⟩ i _ (sides T.digest T.arity depth (written (T.arity ^ depth) h) (IntRep.rep i)) none = _
  rw [verifyProof_ok (T := T) (t := ⟨depth, _⟩) (isTree_total hp hT).1 hd i _ (le_of_eq hl.symm) hn none]
  simpa using merkleRoot_sides T.arity_pos depth _

/-- **C64**, each tree is as if it had a database of its own: the same tree object results from making its updates alone in any database, and reading (with or without a proof) gives the same. -/
theorem c64_alone (T : TreeOps F) (p : PoseidonParams F) (hp : p.Valid) (hT : T.IsTree p 0) (db0 : HashDb (List F)) (cs : List (TreeCall F)) (hcs : CallsOk T p [] cs) (hc : NoCollision T.digest (T.listsIn [] cs))
    (f : Forest F) (hrun : Forest.run T db0 cs = .ok f) (j depth : ℕ) (h : History F) (hj : (ForestLog.run cs)[j]? = some (depth, h)) (db1 : HashDb (List F)) (hc1 : T.CollisionFree depth h)
    (hd : T.IsTree p depth) :
    ∃ t db, runHistory T depth db1 h = .ok (t, db) ∧ f.trees[j]? = some t ∧ ∀ (i : F) proof, t.get T i proof f.db = t.get T i proof db := by
  obtain ⟨f', e, hs⟩ := forest_run hp hT hc cs ⟨[], db0⟩ [] ⟨rfl, by simp, by simp⟩ hcs fun _ h => h
  rw [Forest.run] at hrun
  rw [hrun] at e
  injection e with e
  subst e
  obtain ⟨db, e, k⟩ := run_ok hp hd db1 h hc1
  have hmem := List.mem_of_getElem? hj
  refine ⟨_, db, e, hs.get? hj, fun i proof => ?_⟩
  rw [get_ok (T := T) (t := ⟨depth, _⟩) (hs.depth _ hmem) rfl (fun x hx => (hs.lists _ hmem x hx).2) i proof,
    get_ok (T := T) (t := ⟨depth, _⟩) (hs.depth _ hmem) rfl (k h List.prefix_rfl) i proof]

/-- **C64**, a call that stops in the middle leaves every tree as it was, and the update can be made again. -/
theorem c64_crash_retry (T : TreeOps F) (p : PoseidonParams F) (hp : p.Valid) (hT : T.IsTree p 0) (db0 : HashDb (List F)) (cs : List (TreeCall F)) (j k : ℕ) (i v : F)
    (hcs : CallsOk T p [] (cs ++ [.crashedUpdate j i v k, .update j i v])) (hc : NoCollision T.digest (T.listsIn [] (cs ++ [.crashedUpdate j i v k, .update j i v]))) :
    ∃ f f1 f2 f3, Forest.run T db0 cs = .ok f ∧ f.call T (.crashedUpdate j i v k) = .ok f1 ∧ f1.trees = f.trees ∧ f1.call T (.update j i v) = .ok f2 ∧ f.call T (.update j i v) = .ok f3 ∧ f2.trees = f3.trees := by
  obtain ⟨tot, -⟩ := isTree_total hp hT
  have hsplit : ∀ (a b : List (TreeCall F)) (l : ForestLog F), T.listsIn l (a ++ b) = T.listsIn l a ++ T.listsIn (a.foldl ForestLog.call l) b := by
    intro a b
    induction a with
    | nil => exact fun l => rfl
    | cons c a ih =>
      intro l
      rw [List.cons_append, TreeOps.listsIn, TreeOps.listsIn, ih, List.append_assoc]
      rfl
  have hok : ∀ (a b : List (TreeCall F)) (l : ForestLog F), CallsOk T p l (a ++ b) → CallsOk T p l a ∧ CallsOk T p (a.foldl ForestLog.call l) b := by
    intro a b
    induction a with
    | nil => exact fun l h => ⟨trivial, h⟩
    | cons c a ih =>
      intro l ⟨h1, h2, h3⟩
      exact ⟨⟨h1, h2, (ih _ h3).1⟩, (ih _ h3).2⟩
  obtain ⟨o1, o2, -, o3, -⟩ := hok _ _ _ hcs
  rw [hsplit] at hc
  obtain ⟨f, e, hs⟩ := forest_run hp hT hc cs ⟨[], db0⟩ [] ⟨rfl, by simp, by simp⟩ o1 fun x h => List.mem_append_left _ h
  have m1 : ∀ x ∈ T.listsBy (cs.foldl ForestLog.call []) (.crashedUpdate j i v k), x ∈ T.listsIn [] cs ++ T.listsIn (cs.foldl ForestLog.call []) [.crashedUpdate j i v k, .update j i v] := fun x hx =>
    List.mem_append_right _ (List.mem_append_left _ hx)
  obtain ⟨f1, e1, s1⟩ := hs.call tot hc (.crashedUpdate j i v k) o2 (by simp) m1
  obtain ⟨f2, e2, s2⟩ := s1.call tot hc (.update j i v) o3 (by simp) m1
  obtain ⟨f3, e3, s3⟩ := hs.call tot hc (.update j i v) o3 (by simp) m1
  exact ⟨f, f1, f2, f3, e, e1, by rw [s1.trees, hs.trees]; rfl, e2, e3, by rw [s2.trees, s3.trees]; rfl⟩

/-- **C64**, with a database that has lost entries (or another one whose entries are the same): reading fails, or gives the same value and the same proof. -/
theorem c64_lossy (T : TreeOps F) (t : SparseTree F) (db db' : HashDb (List F)) (hsub : ∀ k l, db'.get k = .ok l → db.get k = .ok l) (i : F) (proof : Option (List (List F))) (r : F × Option (List (List F)))
    (h : t.get T i proof db' = .ok r) : t.get T i proof db = .ok r := by
  rw [SparseTree.get] at h ⊢
  obtain ⟨path, h1, h⟩ := res_bind_ok.mp h
  obtain ⟨⟨cur, pv⟩, h2, h⟩ := res_bind_ok.mp h
  rw [h1]
  simp only [bind, Except.bind]
  rw [getLoop_lossy hsub _ _ _ _ h2]
  exact h

/-! ## The hypotheses are met: two trees of different depths and a copy, with crashes -/

def demoCalls : List (TreeCall Fr) := [.new 1, .crashedNew 2 1, .new 2, .update 0 3 7, .clone 0, .crashedUpdate 1 9 4 1, .update 0 1 5, .update 1 9 4, .crashedUpdate 0 2 2 1]

theorem demoCalls_ok : CallsOk (tree4 demoParams5) demoParams5 [] demoCalls := by
  have hT : ∀ d, d ≤ 2 → (tree4 demoParams5).IsTree demoParams5 d := fun d hd => .inl ⟨rfl, rfl, le_trans hd (by decide)⟩
  simp only [demoCalls, CallsOk, ForestLog.Has, ForestLog.call]
  simp
  exact ⟨hT 1 (by omega), hT 2 (by omega)⟩

theorem demoCalls_collisionFree : NoCollision (tree4 demoParams5).digest ((tree4 demoParams5).listsIn [] demoCalls) := by
  unfold NoCollision
  decide +kernel

theorem demoCalls_log : ForestLog.run demoCalls = [(1, [(3, 7), (1, 5)]), (2, [(9, 4)]), (1, [(3, 7)])] := rfl

example : ∃ f t0 t1 t2, Forest.run (tree4 demoParams5) HashDb.new demoCalls = .ok f ∧ f.trees = [t0, t1, t2] ∧
    (∃ π, t0.get (tree4 demoParams5) 1 (some []) f.db = .ok (5, some π)) ∧ (∃ π, t1.get (tree4 demoParams5) 9 (some []) f.db = .ok (4, some π)) ∧
    (∃ π, t2.get (tree4 demoParams5) 1 (some []) f.db = .ok (0, some π)) ∧ (∃ π, t2.get (tree4 demoParams5) 3 (some []) f.db = .ok (7, some π)) := by
  obtain ⟨f, e, hl, hf⟩ := c64_forest (tree4 demoParams5) demoParams5 demoParams5_valid (.inl ⟨rfl, rfl, by decide⟩) HashDb.new demoCalls demoCalls_ok demoCalls_collisionFree
  rw [demoCalls_log] at hl hf
  obtain ⟨t0, a0, -, b0⟩ := hf 0 1 _ rfl
  obtain ⟨t1, a1, -, b1⟩ := hf 1 2 _ rfl
  obtain ⟨t2, a2, -, b2⟩ := hf 2 1 _ rfl
  refine ⟨f, t0, t1, t2, e, ?_, ?_, ?_, ?_, ?_⟩
  · match hft : f.trees, hl with
    | [x, y, z], _ =>
      rw [hft] at a0 a1 a2
      injection a0 with a0; injection a1 with a1; injection a2 with a2
      rw [a0, a1, a2]
  · obtain ⟨π, h, -⟩ := b0 1
    exact ⟨π, h.trans (by congr 1)⟩
  · obtain ⟨π, h, -⟩ := b1 9
    exact ⟨π, h.trans (by congr 1)⟩
  · obtain ⟨π, h, -⟩ := b2 1
    exact ⟨π, h.trans (by congr 1)⟩
  · obtain ⟨π, h, -⟩ := b2 3
    exact ⟨π, h.trans (by congr 1)⟩

end Bp
