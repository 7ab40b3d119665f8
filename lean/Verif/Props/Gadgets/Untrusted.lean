import Verif.Spec.Untrusted
import Verif.Props.Gadgets.Refresh
import Verif.Props.Gadgets.Forest

/-! # C102: trees whose database is not trusted -/

set_option linter.unusedSectionVars false

namespace Bp
variable {F : Type} [Field F] [ByteRep F]

theorem getLoop_lengths {A : ℕ} {db : HashDb (List F)} (hdb : db.Arrays A) : ∀ (ds : List ℕ) (cur : F) (acc : List (List F)) (v : F) (pf : List (List F)),
    SparseTree.getLoop db ds cur acc = .ok (v, pf) → (∀ n ∈ acc, n.length = A - 1) → ∀ n ∈ pf, n.length = A - 1
  | [], cur, acc, v, pf, h, ha => by
    cases h
    exact ha
  | d :: ds, cur, acc, v, pf, h, ha => by
    rw [SparseTree.getLoop] at h
    obtain ⟨l, h1, h⟩ := res_bind_ok.mp h
    obtain ⟨x, h2, h⟩ := res_bind_ok.mp h
    refine getLoop_lengths hdb ds x _ v pf h fun n hn => ?_
    rcases List.mem_append.mp hn with hn | hn
    · exact ha n hn
    · obtain rfl := List.mem_singleton.mp hn
      have hl := hdb _ _ h1
      have hd : d < l.length := by
        have := idx_get.mp h2
        exact (List.getElem?_eq_some_iff.mp this).1
      rw [List.length_eraseIdx_of_lt hd, hl]

/-- **C102**: what `get` returns is worth nothing by itself: for every tree of positive depth and every value there is a database with which `get` returns this value for every index, without an error. -/
theorem c102_get (T : TreeOps F) (t : SparseTree F) (hd : 0 < t.depth) (hs : getByteSize t.depth (2 ^ T.bits) ≤ ByteRep.modBytes F) (v : F) :
    ∃ db : HashDb (List F), db.Arrays T.arity ∧ ∀ i : F, ∃ proof, t.get T i (some []) db = .ok (v, some proof) := by
  set l := List.replicate T.arity v with hl
  set db : HashDb (List F) := (HashDb.new.insert (toBytes t.root) l).insert (toBytes v) l with hdb
  have g1 : db.get (toBytes v) = .ok l := HashDb.get_insert_self _ _ _
  have g2 : db.get (toBytes t.root) = .ok l := by
    by_cases e : toBytes v = toBytes t.root
    · rw [← e]; exact g1
    · rw [hdb, HashDb.get_insert_ne _ _ e]; exact HashDb.get_insert_self _ _ _
  have hx : ∀ d < T.arity, idx l d = .ok v := fun d hd => idx_get.mpr (by simp [hl, hd])
  have loop : ∀ (ds : List ℕ) (acc : List (List F)), (∀ d ∈ ds, d < T.arity) → ∃ pf, SparseTree.getLoop db ds v acc = .ok (v, pf) := by
    intro ds
    induction ds with
    | nil => exact fun acc _ => ⟨acc, rfl⟩
    | cons d ds ih =>
      intro acc h
      obtain ⟨pf, e⟩ := ih (acc ++ [l.eraseIdx d]) fun x hx => h x (List.mem_cons_of_mem _ hx)
      refine ⟨pf, ?_⟩
      rw [SparseTree.getLoop, g1]
      simp only [bind, Except.bind]
      rw [hx d (h d List.mem_cons_self)]
      exact e
  refine ⟨db, fun k m hm => ?_, fun i => ?_⟩
  · by_cases e1 : toBytes v = k
    · subst e1
      rw [g1] at hm
      cases hm
      simp [hl]
    · rw [hdb, HashDb.get_insert_ne _ _ e1] at hm
      by_cases e2 : toBytes t.root = k
      · subst e2
        rw [HashDb.get_insert_self] at hm
        cases hm
        simp [hl]
      · rw [HashDb.get_insert_ne _ _ e2] at hm
        cases hm
  · obtain ⟨n, hn⟩ : ∃ n, t.depth = n + 1 := ⟨t.depth - 1, by omega⟩
    have hlt := digitsOf_lt T.arity_pos t.depth (IntRep.rep i)
    rw [hn, digitsOf] at hlt
    obtain ⟨pf, e⟩ := loop (digitsOf T.arity n (IntRep.rep i)) ([] ++ [l.eraseIdx (IntRep.rep i / T.arity ^ n % T.arity)]) fun x hx => hlt x (List.mem_cons_of_mem _ hx)
    refine ⟨pf, ?_⟩
    rw [SparseTree.get, leafIndexToPath, getBaseRepr_ok hs]
    simp only [bind, Except.bind]
    rw [hn, digitsOf, SparseTree.getLoop, g2]
    simp only [bind, Except.bind]
    rw [show (2 : ℕ) ^ T.bits = T.arity from rfl, hx _ (hlt _ List.mem_cons_self)]
    simp only
    rw [e]
    rfl

/-- The entries of a database remain if another one is added. -/
theorem get_insert_new {db : HashDb (List F)} {k : List UInt8} (hk : ∀ l, db.get k ≠ .ok l) (m : List F) : ∀ k' l, db.get k' = .ok l → (db.insert k m).get k' = .ok l := by
  intro k' l h
  by_cases e : k = k'
  · subst e; exact absurd h (hk l)
  · rw [HashDb.get_insert_ne _ _ e]; exact h

/-- With one entry more, the database of a tree serves another tree object as if it were that tree. -/
theorem get_swap (T : TreeOps F) (t1 t2 : SparseTree F) (hd : t1.depth = t2.depth) (hpos : 0 < t2.depth) (db : HashDb (List F)) (hk : ∀ l, db.get (toBytes t1.root) ≠ .ok l) (m : List F)
    (hm : db.get (toBytes t2.root) = .ok m) (j : F) (pf : Option (List (List F))) (r : F × Option (List (List F))) (h : t2.get T j pf db = .ok r) :
    t1.get T j pf (db.insert (toBytes t1.root) m) = .ok r := by
  rw [SparseTree.get] at h ⊢
  rw [hd]
  obtain ⟨path, h1, h0⟩ := res_bind_ok.mp h
  obtain ⟨⟨cur, pv⟩, h2, h3⟩ := res_bind_ok.mp h0
  rw [h1]
  have hlen : path.length = t2.depth := by
    rw [leafIndexToPath, getBaseRepr] at h1
    split at h1
    · cases h1
    · injection h1 with h1
      rw [← h1, baseLoop_digits, digitsOf_length]
  cases path with
  | nil => simp at hlen; omega
  | cons d ds =>
    rw [SparseTree.getLoop, hm] at h2
    simp only [bind, Except.bind] at h2 ⊢
    rw [SparseTree.getLoop, HashDb.get_insert_self]
    simp only [bind, Except.bind]
    cases hx : idx m d with
    | error f => rw [hx] at h2; cases h2
    | ok x =>
      rw [hx] at h2
      simp only at h2 ⊢
      rw [getLoop_lossy (get_insert_new hk m) _ _ _ _ h2]
      exact h3

/-- **C102**: nor can `update` be relied upon: whatever a tree holds, there is a database with which one update of any leaf makes it a tree with the contents of any other history, and this update; all leaves are then read with proofs
that are accepted. -/
theorem c102_update [DecidableEq F] (T : TreeOps F) (p : PoseidonParams F) (hp : p.Valid) (depth : ℕ) (hpos : 0 < depth) (hT : T.IsTree p depth) (t1 : SparseTree F) (hd1 : t1.depth = depth) (db0 : HashDb (List F)) (h2 : History F) (i w : F)
    (hc : T.CollisionFree depth (h2 ++ [(i, w)])) (t2 : SparseTree F) (db2 : HashDb (List F)) (hrun : runHistory T depth db0 h2 = .ok (t2, db2)) (hnew : ∀ l, db2.get (toBytes t1.root) ≠ .ok l) :
    ∃ db db' t3, t1.update T i w db = .ok (t3.root, t3, db') ∧ t3.root = rootOf T.digest T.arity depth (written (T.arity ^ depth) (h2 ++ [(i, w)])) ∧
      ∀ j : F, ∃ proof, t3.get T j (some []) db' = .ok (written (T.arity ^ depth) (h2 ++ [(i, w)]) (IntRep.rep j % T.arity ^ depth), some proof) ∧
        t3.verifyProof T j (written (T.arity ^ depth) (h2 ++ [(i, w)]) (IntRep.rep j % T.arity ^ depth)) proof none = .ok true := by
  have hch : T.CollisionFree depth h2 := by
    have hin : ∀ l ∈ historyLists T.digest T.arity depth h2, l ∈ historyLists T.digest T.arity depth (h2 ++ [(i, w)]) := fun l hl => by
      obtain ⟨h'', hp'', hl⟩ := List.mem_flatMap.mp hl
      exact List.mem_flatMap.mpr ⟨h'', (List.mem_inits _ _).mpr (((List.mem_inits _ _).mp hp'').trans (List.prefix_append _ _)), hl⟩
    exact fun a ha b hb => hc a (hin a ha) b (hin b hb)
  obtain ⟨db2', e2, k2⟩ := run_ok hp hT db0 h2 hch
  rw [hrun] at e2
  injection e2 with e2; injection e2 with e2 e2'
  subst e2 e2'
  obtain ⟨tot, hs⟩ := isTree_total hp hT
  have has := k2 h2 List.prefix_rfl
  obtain ⟨d, rfl⟩ : ∃ d, depth = d + 1 := ⟨depth - 1, by omega⟩
  set c := written (T.arity ^ (d + 1)) h2 with hcdef
  set c' := written (T.arity ^ (d + 1)) (h2 ++ [(i, w)]) with hc'def
  have hm : db2.get (toBytes (rootOf T.digest T.arity (d + 1) c)) = .ok (kids T.digest T.arity d c) := has _ (mem_childLists.mpr (.inl rfl))
  set db := db2.insert (toBytes t1.root) (kids T.digest T.arity d c) with hdb
  have has' : ∀ l ∈ childLists T.digest T.arity (d + 1) c, db.Has T.digest l := fun l hl => get_insert_new hnew _ _ _ (has l hl)
  have hS : ∀ h', h' <+: h2 ++ [(i, w)] → ∀ l ∈ childLists T.digest T.arity (d + 1) (written (T.arity ^ (d + 1)) h'), l ∈ historyLists T.digest T.arity (d + 1) (h2 ++ [(i, w)]) := fun h' hp' l hl =>
    List.mem_flatMap.mpr ⟨h', (List.mem_inits _ _).mpr hp', hl⟩
  obtain ⟨db', e, hdb', -⟩ := update_ok (T := T) (t := ⟨d + 1, rootOf T.digest T.arity (d + 1) c⟩) (db := db) (c := c) (c' := c') (i := i) (v := w) tot hc hs rfl
    (fun l hl => ⟨hS h2 (List.prefix_append _ _) l hl, has' l hl⟩) (fun k _ => by
      rw [hc'def, written_snoc]
      by_cases ek : k = IntRep.rep i % T.arity ^ (d + 1)
      · rw [if_pos ek.symm, if_pos ek]
      · rw [if_neg (Ne.symm ek), if_neg ek]) (fun l hl => hS _ List.prefix_rfl l hl)
  refine ⟨db, db', ⟨d + 1, rootOf T.digest T.arity (d + 1) c'⟩, ?_, rfl, fun j => ?_⟩
  · have g2 := get_ok (T := T) (t := ⟨d + 1, rootOf T.digest T.arity (d + 1) c⟩) (db := db2) hs rfl has i (some [])
    have g2' := get_ok (T := T) (t := ⟨d + 1, rootOf T.digest T.arity (d + 1) c⟩) (db := db) hs rfl has' i (some [])
    have g1 := get_swap T t1 ⟨d + 1, rootOf T.digest T.arity (d + 1) c⟩ hd1 (by simp) db2 hnew _ hm i (some []) _ g2
    rw [SparseTree.update] at e ⊢
    rw [g2'] at e
    rw [← hdb] at g1
    rw [g1]
    simp only [bind, Except.bind] at e ⊢
    rw [hd1]
    simp only [Option.map_some] at e ⊢
    cases hl : leafIndexToPath T i (d + 1) with
    | error f => rw [hl] at e; cases e
    | ok path =>
      rw [hl] at e
      simp only at e ⊢
      cases hu : SparseTree.updateLoop T path.reverse ([] ++ sides T.digest T.arity (d + 1) c (IntRep.rep i)) w db with
      | error f => rw [hu] at e; cases e
      | ok r =>
        obtain ⟨cur, dbx⟩ := r
        rw [hu] at e
        simp only [pure, Except.pure] at e ⊢
        injection e with e; injection e with e1 e; injection e with e2 e3
        subst e1 e3
        obtain ⟨td, tr⟩ := t1
        simp only at hd1
        subst hd1
        rfl
  · refine ⟨_, get_ok (T := T) (t := ⟨d + 1, rootOf T.digest T.arity (d + 1) c'⟩) hs rfl hdb' j (some []), ?_⟩
    rw [verifyProof_ok (T := T) (t := ⟨d + 1, _⟩) tot hs j _ (by simp [sides_length]) (by simpa using sides_node_length T.digest T.arity_pos (d + 1) c' (IntRep.rep j)) none]
    simp only [List.nil_append, Option.getD_none, Except.ok.injEq, decide_eq_true_eq]
    exact merkleRoot_sides T.arity_pos (d + 1) c'

/-- **C102**: what a client should check.  If some proof is accepted for the old root with some value, and for the new root with the written value, then the old value is the one last written and the new root is that of the updated contents,
whatever the database has done; or there is a collision of the hash function. -/
theorem c102_check [DecidableEq F] (T : TreeOps F) (p : PoseidonParams F) (hp : p.Valid) (depth : ℕ) (hT : T.IsTree p depth) (db0 : HashDb (List F)) (h : History F) (hc : T.CollisionFree depth h)
    (t : SparseTree F) (db : HashDb (List F)) (hrun : runHistory T depth db0 h = .ok (t, db)) (i v w r : F) (proof : List (List F)) (hn : ∀ n ∈ proof, n.length = T.arity - 1)
    (hv : t.verifyProof T i v proof none = .ok true) (hw : t.verifyProof T i w proof (some r) = .ok true) :
    (v = written (T.arity ^ depth) h (IntRep.rep i % T.arity ^ depth) ∧ r = rootOf T.digest T.arity depth (written (T.arity ^ depth) (h ++ [(i, w)]))) ∨
      ∃ a ∈ merkleHashed T.digest ((digitsOf T.arity depth (IntRep.rep i)).zip proof) v,
        ∃ b ∈ childLists T.digest T.arity depth (written (T.arity ^ depth) h), a ≠ b ∧ T.digest a = T.digest b := by
  obtain ⟨db', e, k⟩ := run_ok hp hT db0 h hc
  rw [hrun] at e
  injection e with e; injection e with e1 e2
  obtain ⟨tot, hd⟩ := isTree_total hp hT
  subst e1
  have hl := verifyProof_length hv
  rw [verifyProof_ok (T := T) (t := ⟨depth, _⟩) tot hd i v hl hn none] at hv
  rw [verifyProof_ok (T := T) (t := ⟨depth, _⟩) tot hd i w hl hn _] at hw
  have key : merkleRoot T.digest ((digitsOf T.arity depth (IntRep.rep i)).zip proof) v = rootOf T.digest T.arity depth (written (T.arity ^ depth) h) := by simpa using hv
  have key' : merkleRoot T.digest ((digitsOf T.arity depth (IntRep.rep i)).zip proof) w = r := by simpa using hw
  have hz : (digitsOf T.arity depth (IntRep.rep i)).zip proof = (digitsOf T.arity depth (IntRep.rep i)).zip (proof.take depth) := by
    have := List.zip_eq_zip_take_min (l₁ := digitsOf T.arity depth (IntRep.rep i)) (l₂ := proof)
    rwa [digitsOf_length, min_eq_left hl, List.take_of_length_le (by rw [digitsOf_length])] at this
  rw [hz] at key key' ⊢
  rcases merkle_binding T.arity_pos depth _ (proof.take depth) (by rw [List.length_take]; simp only at hl; omega) (fun s hs => hn s (List.mem_of_mem_take hs)) key with ⟨h1, h3⟩ | h1
  · refine .inl ⟨h1, ?_⟩
    rw [← key', h3, ← merkleRoot_sides T.arity_pos (j := IntRep.rep i) depth (written (T.arity ^ depth) (h ++ [(i, w)])), written_snoc, if_pos rfl]
    congr 2
    exact (sides_self T.digest T.arity_pos _ depth _ _ fun a ha hne => by rw [written_snoc, if_neg (Ne.symm hne)]).symm
  · exact .inr h1

/-- **C102**: hence the careful client is safe with every database, also with one that answers differently from call to call: the tree it goes on with is the one it would have had with an honest database. -/
theorem c102_checked [DecidableEq F] (T : TreeOps F) (p : PoseidonParams F) (hp : p.Valid) (depth : ℕ) (hT : T.IsTree p depth) (db0 : HashDb (List F)) (h : History F) (i w : F) (hc : T.CollisionFree depth (h ++ [(i, w)]))
    (t t' th : SparseTree F) (db dbh : HashDb (List F)) (hrun : runHistory T depth db0 h = .ok (t, db)) (hrun' : runHistory T depth db0 (h ++ [(i, w)]) = .ok (th, dbh)) (db1 db2 db' : HashDb (List F)) (hdb1 : db1.Arrays T.arity)
    (hcall : checkedUpdate T t i w db1 db2 = .ok (some (t', db'))) :
    t' = th ∨ ∃ v proof, t.get T i (some []) db1 = .ok (v, some proof) ∧ ∃ a ∈ merkleHashed T.digest ((digitsOf T.arity depth (IntRep.rep i)).zip proof) v,
      ∃ b ∈ childLists T.digest T.arity depth (written (T.arity ^ depth) h), a ≠ b ∧ T.digest a = T.digest b := by
  have hch : T.CollisionFree depth h := by
    have hin : ∀ l ∈ historyLists T.digest T.arity depth h, l ∈ historyLists T.digest T.arity depth (h ++ [(i, w)]) := fun l hl => by
      obtain ⟨h'', hp'', hl⟩ := List.mem_flatMap.mp hl
      exact List.mem_flatMap.mpr ⟨h'', (List.mem_inits _ _).mpr (((List.mem_inits _ _).mp hp'').trans (List.prefix_append _ _)), hl⟩
    exact fun a ha b hb => hc a (hin a ha) b (hin b hb)
  rw [checkedUpdate] at hcall
  obtain ⟨⟨v, pf⟩, h1, hcall⟩ := res_bind_ok.mp hcall
  cases pf with
  | none => cases hcall
  | some proof =>
    simp only at hcall
    obtain ⟨b1, h2, hcall⟩ := res_bind_ok.mp hcall
    obtain ⟨⟨r, t'', db''⟩, h3, hcall⟩ := res_bind_ok.mp hcall
    obtain ⟨b2, h4, hcall⟩ := res_bind_ok.mp hcall
    simp only [pure, Except.pure, Except.ok.injEq] at hcall
    cases b1 <;> cases b2 <;> simp at hcall
    obtain ⟨rfl, rfl⟩ := hcall
    obtain ⟨u1, u2⟩ := c39_update_root T t t'' i w r _ _ h3
    have h1' := h1
    have hn : ∀ n ∈ proof, n.length = T.arity - 1 := by
      rw [SparseTree.get] at h1
      obtain ⟨path, -, h1⟩ := res_bind_ok.mp h1
      obtain ⟨⟨cur, pv⟩, g, h1⟩ := res_bind_ok.mp h1
      simp only [pure, Except.pure, Except.ok.injEq, Prod.mk.injEq, Option.map_some, Option.some.injEq, List.nil_append] at h1
      obtain ⟨rfl, rfl⟩ := h1
      exact getLoop_lengths hdb1 _ _ _ _ _ g (by simp)
    obtain ⟨_, e1, -⟩ := run_ok hp hT db0 h hch
    obtain ⟨_, e2, -⟩ := run_ok hp hT db0 (h ++ [(i, w)]) hc
    rcases c102_check T p hp depth hT db0 h hch t db hrun i v w r proof hn h2 h4 with ⟨-, hr⟩ | hb
    · left
      rw [hrun] at e1
      rw [hrun'] at e2
      injection e1 with e1; injection e1 with e1 _
      injection e2 with e2; injection e2 with e2 _
      obtain ⟨td, tr⟩ := t''
      simp only at u1 u2
      rw [e2, u1, hr, u2, e1]
    · exact .inr ⟨v, proof, h1', hb⟩

/-- **C102**: with an honest database the checks succeed. -/
theorem c102_honest [DecidableEq F] (T : TreeOps F) (p : PoseidonParams F) (hp : p.Valid) (depth : ℕ) (hT : T.IsTree p depth) (db0 : HashDb (List F)) (h : History F) (i w : F) (hc : T.CollisionFree depth (h ++ [(i, w)]))
    (t : SparseTree F) (db : HashDb (List F)) (hrun : runHistory T depth db0 h = .ok (t, db)) :
    ∃ r, checkedUpdate T t i w db db = .ok (some r) ∧ runHistory T depth db0 (h ++ [(i, w)]) = .ok r := by
  have hch : T.CollisionFree depth h := by
    have hin : ∀ l ∈ historyLists T.digest T.arity depth h, l ∈ historyLists T.digest T.arity depth (h ++ [(i, w)]) := fun l hl => by
      obtain ⟨h'', hp'', hl⟩ := List.mem_flatMap.mp hl
      exact List.mem_flatMap.mpr ⟨h'', (List.mem_inits _ _).mpr (((List.mem_inits _ _).mp hp'').trans (List.prefix_append _ _)), hl⟩
    exact fun a ha b hb => hc a (hin a ha) b (hin b hb)
  obtain ⟨db', e, k⟩ := run_ok hp hT db0 h hch
  have hrun0 := hrun
  rw [hrun] at e
  injection e with e; injection e with e1 e2
  obtain ⟨tot, hd⟩ := isTree_total hp hT
  subst e1 e2
  set c := written (T.arity ^ depth) h with hcdef
  set c' := written (T.arity ^ depth) (h ++ [(i, w)]) with hc'def
  have hS : ∀ h', h' <+: h ++ [(i, w)] → ∀ l ∈ childLists T.digest T.arity depth (written (T.arity ^ depth) h'), l ∈ historyLists T.digest T.arity depth (h ++ [(i, w)]) := fun h' hp' l hl =>
    List.mem_flatMap.mpr ⟨h', (List.mem_inits _ _).mpr hp', hl⟩
  have hmod : ∀ k, c' k = if k = IntRep.rep i % T.arity ^ depth then w else c k := fun k => by
    rw [hc'def, written_snoc]
    by_cases ek : k = IntRep.rep i % T.arity ^ depth
    · rw [if_pos ek.symm, if_pos ek]
    · rw [if_neg (Ne.symm ek), if_neg ek]
  obtain ⟨db'', e, -, -⟩ := update_ok (T := T) (t := ⟨depth, rootOf T.digest T.arity depth c⟩) (db := db) (c := c) (c' := c') (i := i) (v := w) tot hc hd rfl
    (fun l hl => ⟨hS h (List.prefix_append _ _) l hl, k h List.prefix_rfl l hl⟩) (fun k _ => hmod k) (fun l hl => hS _ List.prefix_rfl l hl)
  refine ⟨(⟨depth, rootOf T.digest T.arity depth c'⟩, db''), ?_, ?_⟩
  · have g := get_ok (T := T) (t := ⟨depth, rootOf T.digest T.arity depth c⟩) (db := db) hd rfl (k h List.prefix_rfl) i (some [])
    have v1 := verifyProof_ok (T := T) (t := ⟨depth, rootOf T.digest T.arity depth c⟩) tot hd i (c (IntRep.rep i % T.arity ^ depth)) (proof := sides T.digest T.arity depth c (IntRep.rep i)) (by simp [sides_length])
      (by simpa using sides_node_length T.digest T.arity_pos depth c (IntRep.rep i)) none
    have v2 := verifyProof_ok (T := T) (t := ⟨depth, rootOf T.digest T.arity depth c⟩) tot hd i w (proof := sides T.digest T.arity depth c (IntRep.rep i)) (by simp [sides_length])
      (by simpa using sides_node_length T.digest T.arity_pos depth c (IntRep.rep i)) (some (rootOf T.digest T.arity depth c'))
    have m1 := merkleRoot_sides (H := T.digest) T.arity_pos (j := IntRep.rep i) depth c
    have m2 := merkleRoot_sides (H := T.digest) T.arity_pos (j := IntRep.rep i) depth c'
    rw [hmod, if_pos rfl, sides_self T.digest T.arity_pos (IntRep.rep i) depth c c' fun a ha hne => by rw [hmod, if_neg hne]] at m2
    rw [checkedUpdate, g]
    simp only [bind, Except.bind, Option.map_some, List.nil_append]
    rw [v1]
    simp only
    rw [e]
    simp only
    rw [v2]
    simp [m1, m2, pure, Except.pure]
  · rw [runHistory] at hrun0 ⊢
    obtain ⟨s, h1, h2⟩ := res_bind_ok.mp hrun0
    rw [h1]
    simp only [bind, Except.bind]
    rw [List.foldlM_append]
    simp only [bind, Except.bind] at h2 ⊢
    rw [h2]
    simp only [List.foldlM_cons, List.foldlM_nil, bind, Except.bind]
    rw [e]
    rfl

/-! ## Examples -/

/-- A tree with 16 leaves: some database makes all of them 99. -/
example (root : Fr) : ∃ db : HashDb (List Fr), db.Arrays 4 ∧ ∀ i : Fr, ∃ proof, (⟨2, root⟩ : SparseTree Fr).get (tree4 demoParams5) i (some []) db = .ok (99, some proof) :=
  c102_get (tree4 demoParams5) ⟨2, root⟩ (show 0 < 2 by decide) (show getByteSize 2 (2 ^ 2) ≤ 48 by decide) 99

/-- Eight leaves, of which the first is 1; after an update of leaf 3 with a bad database, the first one is 0 and leaf 2 is 5. -/
example : ∃ (t1 : SparseTree Fr) (d1 : HashDb (List Fr)), runHistory (tree8 demoParams9) 1 HashDb.new [(0, 1)] = .ok (t1, d1) ∧
    ∃ (db db' : HashDb (List Fr)) (t3 : SparseTree Fr), t1.update (tree8 demoParams9) 3 6 db = .ok (t3.root, t3, db') ∧
      (∃ proof, t3.get (tree8 demoParams9) 0 (some []) db' = .ok (0, some proof) ∧ t3.verifyProof (tree8 demoParams9) 0 0 proof none = .ok true) ∧
      (∃ proof, t3.get (tree8 demoParams9) 2 (some []) db' = .ok (5, some proof) ∧ t3.verifyProof (tree8 demoParams9) 2 5 proof none = .ok true) := by
  have hT : (tree8 demoParams9).IsTree demoParams9 1 := .inr ⟨rfl, rfl, by decide⟩
  have c1 : (tree8 demoParams9).CollisionFree 1 [(0, 1)] := by unfold TreeOps.CollisionFree NoCollision; decide +kernel
  have c2 : (tree8 demoParams9).CollisionFree 1 [(2, 5)] := by unfold TreeOps.CollisionFree NoCollision; decide +kernel
  have c3 : (tree8 demoParams9).CollisionFree 1 ([(2, 5)] ++ [(3, 6)]) := by unfold TreeOps.CollisionFree NoCollision; decide +kernel
  obtain ⟨d1, r1, -⟩ := run_ok demoParams9_valid hT HashDb.new [(0, 1)] c1
  obtain ⟨d2, r2, -⟩ := run_ok demoParams9_valid hT HashDb.new [(2, 5)] c2
  have key : (match runHistory (tree8 demoParams9) 1 HashDb.new [(2, 5)] with
      | .ok r => (match r.2.get (toBytes (rootOf (tree8 demoParams9).digest (tree8 demoParams9).arity 1 (written ((tree8 demoParams9).arity ^ 1) [(0, 1)]))) with | .ok _ => false | .error _ => true)
      | .error _ => false) = true := by decide +kernel
  rw [r2] at key
  obtain ⟨db, db', t3, e, -, h⟩ := c102_update (tree8 demoParams9) demoParams9 demoParams9_valid 1 (by decide) hT ⟨1, _⟩ rfl HashDb.new [(2, 5)] 3 6 c3 _ d2 r2 (fun l hl => by
    simp only at key
    rw [hl] at key
    cases key)
  refine ⟨_, d1, r1, db, db', t3, e, ?_, ?_⟩
  · have h0 := h 0
    rwa [show written ((tree8 demoParams9).arity ^ 1) ([(2, 5)] ++ [(3, 6)] : History Fr) (IntRep.rep (0 : Fr) % (tree8 demoParams9).arity ^ 1) = 0 by decide +kernel] at h0
  · have h2 := h 2
    rwa [show written ((tree8 demoParams9).arity ^ 1) ([(2, 5)] ++ [(3, 6)] : History Fr) (IntRep.rep (2 : Fr) % (tree8 demoParams9).arity ^ 1) = 5 by decide +kernel] at h2

/-- The careful client with an honest database. -/
example : ∃ t db r, runHistory (tree4 demoParams5) 2 HashDb.new [(1, 7), (14, 8)] = .ok (t, db) ∧ checkedUpdate (tree4 demoParams5) t 17 9 db db = .ok (some r) ∧ runHistory (tree4 demoParams5) 2 HashDb.new demoHistory = .ok r := by
  have hT : (tree4 demoParams5).IsTree demoParams5 2 := .inl ⟨rfl, rfl, by decide⟩
  have hc : (tree4 demoParams5).CollisionFree 2 [(1, 7), (14, 8)] := by
    have hin : ∀ l ∈ historyLists (tree4 demoParams5).digest (tree4 demoParams5).arity 2 [(1, 7), (14, 8)], l ∈ historyLists (tree4 demoParams5).digest (tree4 demoParams5).arity 2 demoHistory := fun l hl => by
      obtain ⟨h'', hp'', hl⟩ := List.mem_flatMap.mp hl
      exact List.mem_flatMap.mpr ⟨h'', (List.mem_inits _ _).mpr (((List.mem_inits _ _).mp hp'').trans ⟨[(17, 9)], rfl⟩), hl⟩
    exact fun a ha b hb => demo_collisionFree a (hin a ha) b (hin b hb)
  obtain ⟨db, e, -⟩ := run_ok demoParams5_valid hT HashDb.new [(1, 7), (14, 8)] hc
  obtain ⟨r, h1, h2⟩ := c102_honest (tree4 demoParams5) demoParams5 demoParams5_valid 2 hT HashDb.new [(1, 7), (14, 8)] 17 9 demo_collisionFree _ db e
  exact ⟨_, db, r, e, h1, h2⟩

end Bp
