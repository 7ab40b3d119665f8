import Mathlib.Data.Nat.Digits.Defs
import Verif.Lemmas.Gadgets.Tree
import Verif.Props.Gadgets.Poseidon

/-! # C36–C40, C44: sparse Merkle trees -/

namespace Bp
variable {F : Type} [Field F] [ByteRep F]

/-! ## C44 -/

/-- **C44** After any sequence of inserts, `get` returns the value of the last insert for the key, and `HashNotFoundInDB` carrying the key if there was none. -/
theorem c44_last_write {T : Type} (ops : List (List UInt8 × T)) (k : List UInt8) :
    (ops.foldl (fun d w => d.insert w.1 w.2) HashDb.new).get k =
      match ops.reverse.find? fun w => w.1 = k with
      | some w => .ok w.2
      | none => Res.err (.hashNotFoundInDB k) := by
  induction ops using List.reverseRecOn with
  | nil => rfl
  | append_singleton ops w ih =>
    rw [List.foldl_append, List.foldl_cons, List.foldl_nil, List.reverse_append, List.reverse_singleton, List.singleton_append, List.find?_cons]
    by_cases e : w.1 = k
    · subst e; simp [HashDb.get_insert_self]
    · rw [HashDb.get_insert_ne _ _ e, ih]; simp [e]

example : (([([1], 5), ([2], 6), ([1], 7)] : List (List UInt8 × ℕ)).foldl (fun d w => d.insert w.1 w.2) HashDb.new).get [1] = .ok 7 := by decide +kernel

/-! ## C40 -/

theorem ofDigits_reverse_digitsOf {A : ℕ} (hA : 0 < A) : ∀ n i, Nat.ofDigits A (digitsOf A n i).reverse = i % A ^ n
  | 0, i => by simp [digitsOf, Nat.mod_one]
  | n + 1, i => by
    rw [digitsOf, List.reverse_cons, Nat.ofDigits_append, ofDigits_reverse_digitsOf hA n, List.length_reverse, digitsOf_length, Nat.ofDigits_singleton, pow_succ, Nat.mod_mul]

/-- **C40** `get_base_4_repr`: exactly `n` base-4 digits, most significant first, of the scalar modulo `4 ^ n`, if `n` digits fit `MODBYTES` bytes; a panic otherwise. -/
theorem c40_base4 (x : F) (n : ℕ) :
    (n ≤ 4 * ByteRep.modBytes F → ∃ ds, getBase4Repr x n = .ok ds ∧ ds.length = n ∧ (∀ d ∈ ds, d < 4) ∧ Nat.ofDigits 4 ds.reverse = IntRep.rep x % 4 ^ n) ∧
    (4 * ByteRep.modBytes F < n → ∃ why, getBase4Repr x n = Res.panic why) := by
  refine ⟨fun h => ⟨digitsOf 4 n (IntRep.rep x), getBaseRepr_ok (getByteSize_4 h), digitsOf_length .., digitsOf_lt (by omega) n _, ofDigits_reverse_digitsOf (by omega) n _⟩, fun h => ⟨"limit_bytes cannot be more than MODBYTES", ?_⟩⟩
  rw [getBase4Repr, getBaseRepr, if_pos]
  have : Nat.log 2 (2 ^ 2) = 2 := Nat.log_pow (by omega) 2
  simp only [getByteSize, getBitCount, this]
  split <;> omega

/-- **C40** `get_base_8_repr`. -/
theorem c40_base8 (x : F) (n : ℕ) :
    (3 * n ≤ 8 * ByteRep.modBytes F → ∃ ds, getBase8Repr x n = .ok ds ∧ ds.length = n ∧ (∀ d ∈ ds, d < 8) ∧ Nat.ofDigits 8 ds.reverse = IntRep.rep x % 8 ^ n) ∧
    (8 * ByteRep.modBytes F < 3 * n → ∃ why, getBase8Repr x n = Res.panic why) := by
  refine ⟨fun h => ⟨digitsOf 8 n (IntRep.rep x), getBaseRepr_ok (getByteSize_8 h), digitsOf_length .., digitsOf_lt (by omega) n _, ofDigits_reverse_digitsOf (by omega) n _⟩, fun h => ⟨"limit_bytes cannot be more than MODBYTES", ?_⟩⟩
  rw [getBase8Repr, getBaseRepr, if_pos]
  have : Nat.log 2 (2 ^ 3) = 3 := Nat.log_pow (by omega) 3
  simp only [getByteSize, getBitCount, this]
  split <;> omega

/-- MODBYTES of BLS12-381. -/
instance : ByteRep Fr where
  modBytes := 48
  order_le := by norm_num [IntRep.order]

example : getBase4Repr (27 : Fr) 5 = .ok [0, 0, 1, 2, 3] := by decide +kernel
example : getBase8Repr (-1 : Fr) 2 = .ok [0, 0] := by decide +kernel

/-! ## C36, C37 -/

theorem isTree_total {T : TreeOps F} {p : PoseidonParams F} {depth : ℕ} (hp : p.Valid) (hT : T.IsTree p depth) :
    T.Total ∧ getByteSize depth (2 ^ T.bits) ≤ ByteRep.modBytes F := by
  rcases hT with ⟨rfl, hw, hd⟩ | ⟨rfl, hw, hd⟩
  · exact ⟨tree4_total hp hw, getByteSize_4 hd⟩
  · exact ⟨tree8_total hp hw, getByteSize_8 hd⟩

theorem run_ok {T : TreeOps F} {p : PoseidonParams F} {depth : ℕ} (hp : p.Valid) (hT : T.IsTree p depth) (db0 : HashDb (List F)) (h : History F) (hc : T.CollisionFree depth h) :
    ∃ db, runHistory T depth db0 h = .ok (⟨depth, rootOf T.digest T.arity depth (written (T.arity ^ depth) h)⟩, db) ∧
      ∀ h', h' <+: h → ∀ l ∈ childLists T.digest T.arity depth (written (T.arity ^ depth) h'), db.Has T.digest l :=
  runHistory_ok (isTree_total hp hT).1 (isTree_total hp hT).2 db0 hc h fun _ h => h

/-- **C36** A fresh 4-ary tree (in any database) followed by any updates: none of them fails, and afterwards `get` returns, for every index, the value last written to an index
with the same lowest `2 * depth` bits, or 0 — provided no two different child lists occurring on the way collide. -/
theorem c36_map (p : PoseidonParams F) (hp : p.Valid) (hw : p.width = 5) (depth : ℕ) (hd : depth ≤ 4 * ByteRep.modBytes F) (db0 : HashDb (List F)) (h : History F)
    (hc : (tree4 p).CollisionFree depth h) :
    ∃ t db, runHistory (tree4 p) depth db0 h = .ok (t, db) ∧
      ∀ i : F, t.get (tree4 p) i none db = .ok (written (4 ^ depth) h (IntRep.rep i % 4 ^ depth), none) := by
  have hT : (tree4 p).IsTree p depth := .inl ⟨rfl, hw, hd⟩
  obtain ⟨db, e, k⟩ := run_ok hp hT db0 h hc
  exact ⟨_, db, e, fun i => get_ok (T := tree4 p) (t := ⟨depth, _⟩) (isTree_total hp hT).2 rfl (k h List.prefix_rfl) i none⟩

/-- **C37** The same for the 8-ary tree. -/
theorem c37_map (p : PoseidonParams F) (hp : p.Valid) (hw : p.width = 9) (depth : ℕ) (hd : 3 * depth ≤ 8 * ByteRep.modBytes F) (db0 : HashDb (List F)) (h : History F)
    (hc : (tree8 p).CollisionFree depth h) :
    ∃ t db, runHistory (tree8 p) depth db0 h = .ok (t, db) ∧
      ∀ i : F, t.get (tree8 p) i none db = .ok (written (8 ^ depth) h (IntRep.rep i % 8 ^ depth), none) := by
  have hT : (tree8 p).IsTree p depth := .inr ⟨rfl, hw, hd⟩
  obtain ⟨db, e, k⟩ := run_ok hp hT db0 h hc
  exact ⟨_, db, e, fun i => get_ok (T := tree8 p) (t := ⟨depth, _⟩) (isTree_total hp hT).2 rfl (k h List.prefix_rfl) i none⟩

/-! ## C38 -/

/-- **C38** The proof obtained from `get` verifies, against the tree's own root and against the root given explicitly. -/
theorem c38_complete [DecidableEq F] (T : TreeOps F) (p : PoseidonParams F) (hp : p.Valid) (depth : ℕ) (hT : T.IsTree p depth) (db0 : HashDb (List F)) (h : History F)
    (hc : T.CollisionFree depth h) (t : SparseTree F) (db : HashDb (List F)) (hrun : runHistory T depth db0 h = .ok (t, db)) (i : F) :
    ∃ v proof, t.get T i (some []) db = .ok (v, some proof) ∧ v = written (T.arity ^ depth) h (IntRep.rep i % T.arity ^ depth) ∧ proof.length = depth ∧
      (∀ n ∈ proof, n.length = T.arity - 1) ∧ t.verifyProof T i v proof none = .ok true ∧ t.verifyProof T i v proof (some t.root) = .ok true := by
  obtain ⟨db', e, k⟩ := run_ok hp hT db0 h hc
  rw [hrun] at e
  injection e with e; injection e with e1 e2
  subst e1 e2
  obtain ⟨tot, hd⟩ := isTree_total hp hT
  have hn := sides_node_length T.digest T.arity_pos depth (written (T.arity ^ depth) h) (IntRep.rep i)
  have hl := sides_length T.digest T.arity depth (written (T.arity ^ depth) h) (IntRep.rep i)
  refine ⟨_, _, get_ok (T := T) (t := ⟨depth, _⟩) hd rfl (k h List.prefix_rfl) i (some []), rfl, hl, hn, ?_, ?_⟩
  · show SparseTree.verifyProof T ⟨depth, _⟩ i _ (sides T.digest T.arity depth (written (T.arity ^ depth) h) (IntRep.rep i)) none = _
    rw [verifyProof_ok (T := T) (t := ⟨depth, _⟩) tot hd i _ (le_of_eq hl.symm) hn none]
    simpa using merkleRoot_sides T.arity_pos depth _
  · show SparseTree.verifyProof T ⟨depth, _⟩ i _ (sides T.digest T.arity depth (written (T.arity ^ depth) h) (IntRep.rep i)) _ = _
    rw [verifyProof_ok (T := T) (t := ⟨depth, _⟩) tot hd i _ (le_of_eq hl.symm) hn _]
    simpa using merkleRoot_sides T.arity_pos depth _

/-- **C38** Whatever proof (of nodes of the right size) verifies for `(i, val)` against the root of a reachable tree — by that tree, or by any tree object of the same depth given this root —:
`val` is the stored value, or the verification hashed a list that collides with a different child list of the tree. -/
theorem c38_sound [DecidableEq F] (T : TreeOps F) (p : PoseidonParams F) (hp : p.Valid) (depth : ℕ) (hT : T.IsTree p depth) (db0 : HashDb (List F)) (h : History F)
    (hc : T.CollisionFree depth h) (t : SparseTree F) (db : HashDb (List F)) (hrun : runHistory T depth db0 h = .ok (t, db))
    (i val : F) (proof : List (List F)) (hn : ∀ n ∈ proof, n.length = T.arity - 1)
    (hv : t.verifyProof T i val proof none = .ok true ∨ ∃ t' : SparseTree F, t'.depth = depth ∧ t'.verifyProof T i val proof (some t.root) = .ok true) :
    val = written (T.arity ^ depth) h (IntRep.rep i % T.arity ^ depth) ∨
      ∃ a ∈ merkleHashed T.digest ((digitsOf T.arity depth (IntRep.rep i)).zip proof) val,
        ∃ b ∈ childLists T.digest T.arity depth (written (T.arity ^ depth) h), a ≠ b ∧ T.digest a = T.digest b := by
  obtain ⟨db', e, k⟩ := run_ok hp hT db0 h hc
  rw [hrun] at e
  injection e with e; injection e with e1 e2
  obtain ⟨tot, hd⟩ := isTree_total hp hT
  have key : depth ≤ proof.length ∧ merkleRoot T.digest ((digitsOf T.arity depth (IntRep.rep i)).zip proof) val = rootOf T.digest T.arity depth (written (T.arity ^ depth) h) := by
    subst e1
    rcases hv with hv | ⟨t', rfl, hv⟩
    · have hl := verifyProof_length hv
      rw [verifyProof_ok (T := T) (t := ⟨depth, _⟩) tot hd i val hl hn none] at hv
      exact ⟨hl, by simpa using hv⟩
    · have hl := verifyProof_length hv
      rw [verifyProof_ok (T := T) tot hd i val hl hn _] at hv
      exact ⟨hl, by simpa using hv⟩
  obtain ⟨hl, key⟩ := key
  have hz : (digitsOf T.arity depth (IntRep.rep i)).zip proof = (digitsOf T.arity depth (IntRep.rep i)).zip (proof.take depth) := by
    have := List.zip_eq_zip_take_min (l₁ := digitsOf T.arity depth (IntRep.rep i)) (l₂ := proof)
    rwa [digitsOf_length, min_eq_left hl, List.take_of_length_le (by rw [digitsOf_length])] at this
  rw [hz] at key ⊢
  rcases merkle_binding T.arity_pos depth _ (proof.take depth) (by rw [List.length_take]; omega) (fun s hs => hn s (List.mem_of_mem_take hs)) key with ⟨h1, -⟩ | h1
  · exact .inl h1
  · exact .inr h1

/-! ## C39 -/

/-- **C39** Two collision-free histories on trees of the same kind and depth, in whatever databases, that leave the same contents, end with the same root. -/
theorem c39_root_of_contents (T : TreeOps F) (p : PoseidonParams F) (hp : p.Valid) (depth : ℕ) (hT : T.IsTree p depth) (db1 db2 : HashDb (List F)) (h1 h2 : History F)
    (hc1 : T.CollisionFree depth h1) (hc2 : T.CollisionFree depth h2) (heq : ∀ i < T.arity ^ depth, written (T.arity ^ depth) h1 i = written (T.arity ^ depth) h2 i)
    (t1 t2 : SparseTree F) (d1 d2 : HashDb (List F)) (r1 : runHistory T depth db1 h1 = .ok (t1, d1)) (r2 : runHistory T depth db2 h2 = .ok (t2, d2)) : t1.root = t2.root := by
  obtain ⟨_, e1, -⟩ := run_ok hp hT db1 h1 hc1
  obtain ⟨_, e2, -⟩ := run_ok hp hT db2 h2 hc2
  rw [r1] at e1; rw [r2] at e2
  injection e1 with e1; injection e1 with e1 _
  injection e2 with e2; injection e2 with e2 _
  rw [e1, e2]
  exact rootOf_congr _ _ _ _ _ heq

/-- **C39** Conversely, equal roots mean equal contents, or a collision between a child list of one tree and a child list of the other. -/
theorem c39_contents_of_root (T : TreeOps F) (p : PoseidonParams F) (hp : p.Valid) (depth : ℕ) (hT : T.IsTree p depth) (db1 db2 : HashDb (List F)) (h1 h2 : History F)
    (hc1 : T.CollisionFree depth h1) (hc2 : T.CollisionFree depth h2)
    (t1 t2 : SparseTree F) (d1 d2 : HashDb (List F)) (r1 : runHistory T depth db1 h1 = .ok (t1, d1)) (r2 : runHistory T depth db2 h2 = .ok (t2, d2)) (hr : t1.root = t2.root) :
    (∀ i < T.arity ^ depth, written (T.arity ^ depth) h1 i = written (T.arity ^ depth) h2 i) ∨
      ∃ a ∈ childLists T.digest T.arity depth (written (T.arity ^ depth) h1), ∃ b ∈ childLists T.digest T.arity depth (written (T.arity ^ depth) h2), a ≠ b ∧ T.digest a = T.digest b := by
  obtain ⟨_, e1, -⟩ := run_ok hp hT db1 h1 hc1
  obtain ⟨_, e2, -⟩ := run_ok hp hT db2 h2 hc2
  rw [r1] at e1; rw [r2] at e2
  injection e1 with e1; injection e1 with e1 _
  injection e2 with e2; injection e2 with e2 _
  rw [e1, e2] at hr
  exact rootOf_binding depth _ _ hr

/-- **C39** Old roots stay readable: with the tree object as it was after a prefix `h'` of the history, `get` on the final database returns the contents as of `h'`, with a proof that verifies. -/
theorem c39_old_roots [DecidableEq F] (T : TreeOps F) (p : PoseidonParams F) (hp : p.Valid) (depth : ℕ) (hT : T.IsTree p depth) (db0 : HashDb (List F)) (h h' : History F) (hpre : h' <+: h)
    (hc : T.CollisionFree depth h) (t' t : SparseTree F) (db' db : HashDb (List F)) (r' : runHistory T depth db0 h' = .ok (t', db')) (r : runHistory T depth db0 h = .ok (t, db)) (i : F) :
    ∃ proof, t'.get T i (some []) db = .ok (written (T.arity ^ depth) h' (IntRep.rep i % T.arity ^ depth), some proof) ∧
      t.verifyProof T i (written (T.arity ^ depth) h' (IntRep.rep i % T.arity ^ depth)) proof (some t'.root) = .ok true := by
  have hc' : T.CollisionFree depth h' := by
    have hin : ∀ l ∈ historyLists T.digest T.arity depth h', l ∈ historyLists T.digest T.arity depth h := fun l hl => by
      obtain ⟨h'', hp'', hl⟩ := List.mem_flatMap.mp hl
      exact List.mem_flatMap.mpr ⟨h'', (List.mem_inits _ _).mpr (((List.mem_inits _ _).mp hp'').trans hpre), hl⟩
    exact fun a ha b hb e => hc a (hin a ha) b (hin b hb) e
  obtain ⟨_, e1, -⟩ := run_ok hp hT db0 h' hc'
  obtain ⟨_, e2, k⟩ := run_ok hp hT db0 h hc
  rw [r'] at e1; rw [r] at e2
  injection e1 with e1; injection e1 with e1 _
  injection e2 with e2; injection e2 with e2 e3
  subst e1 e2 e3
  obtain ⟨tot, hd⟩ := isTree_total hp hT
  have hn := sides_node_length T.digest T.arity_pos depth (written (T.arity ^ depth) h') (IntRep.rep i)
  have hl := sides_length T.digest T.arity depth (written (T.arity ^ depth) h') (IntRep.rep i)
  refine ⟨_, get_ok (T := T) (t := ⟨depth, _⟩) hd rfl (k h' hpre) i (some []), ?_⟩
  show SparseTree.verifyProof T ⟨depth, _⟩ i _ (sides T.digest T.arity depth (written (T.arity ^ depth) h') (IntRep.rep i)) _ = _
  rw [verifyProof_ok (T := T) (t := ⟨depth, _⟩) tot hd i _ (le_of_eq hl.symm) hn _]
  simpa using merkleRoot_sides T.arity_pos depth _

/-- **C39** `update` returns the root it leaves in the tree. -/
theorem c39_update_root (T : TreeOps F) (t t' : SparseTree F) (i v r : F) (db db' : HashDb (List F)) (h : t.update T i v db = .ok (r, t', db')) : t'.root = r ∧ t'.depth = t.depth := by
  rw [SparseTree.update] at h
  obtain ⟨⟨_, s⟩, -, h⟩ := res_bind_ok.mp h
  cases s with
  | none => cases h
  | some s =>
    obtain ⟨path, -, h⟩ := res_bind_ok.mp h
    obtain ⟨⟨cur, db2⟩, -, h⟩ := res_bind_ok.mp h
    injection h with h; injection h with h1 h2; injection h2 with h2 h3
    subst h1 h2
    exact ⟨rfl, rfl⟩

/-! ## Examples: a 4-ary tree of depth 2 and an 8-ary tree of depth 1 -/

/-- Writes to leaves 1, 14, and (17 = 1 mod 16) 1 again. -/
def demoHistory : History Fr := [(1, 7), (14, 8), (17, 9)]

theorem demo_collisionFree : (tree4 demoParams5).CollisionFree 2 demoHistory := by
  unfold TreeOps.CollisionFree NoCollision
  decide +kernel

example : ∃ t db, runHistory (tree4 demoParams5) 2 HashDb.new demoHistory = .ok (t, db) ∧ t.get (tree4 demoParams5) 1 none db = .ok (9, none) ∧
    t.get (tree4 demoParams5) 14 none db = .ok (8, none) ∧ t.get (tree4 demoParams5) 3 none db = .ok (0, none) := by
  obtain ⟨t, db, e, h⟩ := c36_map demoParams5 demoParams5_valid rfl 2 (by decide) HashDb.new demoHistory demo_collisionFree
  refine ⟨t, db, e, ?_, ?_, ?_⟩
  · rw [h 1]; decide +kernel
  · rw [h 14]; decide +kernel
  · rw [h 3]; decide +kernel

/-- The hypotheses of the other theorems, for the same history. -/
example (i : Fr) : ∃ t db, runHistory (tree4 demoParams5) 2 HashDb.new demoHistory = .ok (t, db) ∧
    ∃ v proof, t.get (tree4 demoParams5) i (some []) db = .ok (v, some proof) ∧ t.verifyProof (tree4 demoParams5) i v proof none = .ok true := by
  have hT : (tree4 demoParams5).IsTree demoParams5 2 := .inl ⟨rfl, rfl, by decide⟩
  obtain ⟨db, e, -⟩ := run_ok demoParams5_valid hT HashDb.new demoHistory demo_collisionFree
  obtain ⟨v, proof, h1, -, -, -, h2, -⟩ := c38_complete _ _ demoParams5_valid 2 hT HashDb.new demoHistory demo_collisionFree _ db e i
  exact ⟨_, db, e, v, proof, h1, h2⟩

/-- Parameters for width 9. -/
def demoParams9 : PoseidonParams Fr := ⟨9, 1, 0, 0, [1, 2, 3, 4, 5, 6, 7, 8, 9], (List.range 9).map fun i => (List.range 9).map fun j => ((i * 7 + j * j * 3 + 1 : ℕ) : Fr)⟩
theorem demoParams9_valid : demoParams9.Valid := ⟨rfl, rfl, by simp [demoParams9], by simp [demoParams9]⟩

example : ∃ t db, runHistory (tree8 demoParams9) 1 HashDb.new [(3, 5), (11, 6)] = .ok (t, db) ∧ t.get (tree8 demoParams9) 3 none db = .ok (6, none) := by
  obtain ⟨t, db, e, h⟩ := c37_map demoParams9 demoParams9_valid rfl 1 (by decide) HashDb.new [(3, 5), (11, 6)] (by unfold TreeOps.CollisionFree NoCollision; decide +kernel)
  exact ⟨t, db, e, by rw [h 3]; decide +kernel⟩

end Bp
