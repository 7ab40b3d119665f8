import Verif.Spec.Clients
import Verif.Props.Gadgets.Flow
import Verif.Props.Gadgets.Refresh

/-! # C105: clients that share a database -/

set_option linter.unusedSectionVars false

namespace Bp
variable {F : Type} [Field F] [ByteRep F] {α β : Type}

/-! ## Alone -/

theorem alone_bind (g : α → DbProg F β) : ∀ (p : DbProg F α) (db : HashDb (List F)), (p.bind g).alone db = (do let r ← p.alone db; (g r.1).alone r.2)
  | .done (.ok a), db => rfl
  | .done (.error e), db => rfl
  | .get k f, db => by
    rw [DbProg.bind, DbProg.alone, DbProg.alone]
    cases db.get k with
    | error e => rfl
    | ok l => exact alone_bind g (f l) db
  | .put k l p, db => alone_bind g p _

theorem newLoopP_alone (T : TreeOps F) : ∀ (n : ℕ) (prev : F) (db : HashDb (List F)), (newLoopP T n prev).alone db = SparseTree.newLoop T n prev db
  | 0, prev, db => rfl
  | n + 1, prev, db => by
    rw [newLoopP, SparseTree.newLoop]
    cases T.hash (List.replicate T.arity prev) with
    | error e => rfl
    | ok new => exact newLoopP_alone T n new _

theorem getLoopP_alone (db : HashDb (List F)) : ∀ (ds : List ℕ) (cur : F) (acc : List (List F)), (getLoopP ds cur acc).alone db = (SparseTree.getLoop db ds cur acc).map fun r => (r, db)
  | [], cur, acc => rfl
  | d :: ds, cur, acc => by
    rw [getLoopP, SparseTree.getLoop, DbProg.alone]
    cases db.get (toBytes cur) with
    | error e => rfl
    | ok l =>
      simp only [bind, Except.bind]
      cases idx l d with
      | error e => rfl
      | ok next => exact getLoopP_alone db ds next _

theorem updateLoopP_alone (T : TreeOps F) : ∀ (ds : List ℕ) (ss : List (List F)) (v : F) (db : HashDb (List F)), (updateLoopP T ds ss v).alone db = SparseTree.updateLoop T ds ss v db
  | [], ss, v, db => rfl
  | d :: ds, ss, v, db => by
    rw [updateLoopP, SparseTree.updateLoop]
    cases ss.getLast? with
    | none => rfl
    | some side =>
      simp only
      cases vecInsert side d v with
      | error e => rfl
      | ok l =>
        simp only [bind, Except.bind]
        split
        · rfl
        · cases T.hash l with
          | error e => rfl
          | ok h => exact updateLoopP_alone T ds _ h _

/-- **C105**: without other clients the sequences of requests are `new`, `get` and `update`, for every database and also when they fail. -/
theorem c105_alone (T : TreeOps F) (db : HashDb (List F)) :
    (∀ depth, (newP T depth).alone db = SparseTree.new T depth db) ∧
    (∀ t i, ((getP T t i).alone db).map (fun r => (r.1.1, some r.1.2)) = SparseTree.get T t i (some []) db) ∧
    ∀ t i v, ((updateP T t i v).alone db).map (fun r => (r.1.root, r.1, r.2)) = SparseTree.update T t i v db := by
  refine ⟨fun depth => ?_, fun t i => ?_, fun t i v => ?_⟩
  · rw [newP, alone_bind, newLoopP_alone, SparseTree.new]
    cases SparseTree.newLoop T depth 0 db <;> rfl
  · rw [getP, SparseTree.get]
    cases leafIndexToPath T i t.depth with
    | error e => rfl
    | ok path =>
      simp only [bind, Except.bind]
      rw [getLoopP_alone]
      cases SparseTree.getLoop db path t.root [] <;> rfl
  · rw [updateP, alone_bind, getP, SparseTree.update, SparseTree.get]
    cases leafIndexToPath T i t.depth with
    | error e => rfl
    | ok path =>
      simp only [bind, Except.bind]
      rw [getLoopP_alone]
      cases SparseTree.getLoop db path t.root [] with
      | error e => rfl
      | ok r =>
        simp only [Except.map, pure, Except.pure, Option.map_some, List.nil_append]
        rw [alone_bind, updateLoopP_alone]
        cases SparseTree.updateLoop T path.reverse r.2 v db <;> rfl

/-! ## Programs that do well on a database of their own -/

/-- Alone with the database `s` the program returns `a` and leaves `s'`, with at most `n` requests; all requests are answered, and the lists it stores, under their hashes, are in `S`. -/
def DbProg.Fine (H : List F → F) (S : List (List F)) : DbProg F α → HashDb (List F) → α → HashDb (List F) → ℕ → Prop
  | .done r, s, a, s', _ => r = .ok a ∧ s' = s
  | .get k f, s, a, s', n => ∃ l m, n = m + 1 ∧ s.get k = .ok l ∧ (f l).Fine H S s a s' m
  | .put k l p, s, a, s', n => ∃ m, n = m + 1 ∧ k = toBytes (H l) ∧ l ∈ S ∧ p.Fine H S (s.insert k l) a s' m

theorem DbProg.Fine.mono {H : List F → F} {S : List (List F)} : ∀ {p : DbProg F α} {s : HashDb (List F)} {a : α} {s' : HashDb (List F)} {n n' : ℕ}, p.Fine H S s a s' n → n ≤ n' → p.Fine H S s a s' n'
  | .done r, s, a, s', n, n', h, _ => h
  | .get k f, s, a, s', n, n', ⟨l, m, e, h1, h2⟩, hn => ⟨l, n' - 1, by omega, h1, h2.mono (by omega)⟩
  | .put k l p, s, a, s', n, n', ⟨m, e, h1, h2, h3⟩, hn => ⟨n' - 1, by omega, h1, h2, h3.mono (by omega)⟩

theorem DbProg.Fine.bind {H : List F → F} {S : List (List F)} {g : α → DbProg F β} {b : β} {s2 : HashDb (List F)} {m : ℕ} : ∀ {p : DbProg F α} {s : HashDb (List F)} {a : α} {s1 : HashDb (List F)} {n : ℕ},
    p.Fine H S s a s1 n → (g a).Fine H S s1 b s2 m → (p.bind g).Fine H S s b s2 (n + m)
  | .done r, s, a, s1, n, ⟨h1, h2⟩, hg => by
    subst h1 h2
    exact hg.mono (Nat.le_add_left _ _)
  | .get k f, s, a, s1, n, ⟨l, m', e, h1, h2⟩, hg => ⟨l, m' + m, by omega, h1, h2.bind hg⟩
  | .put k l p, s, a, s1, n, ⟨m', e, h1, h2, h3⟩, hg => ⟨m' + m, by omega, h1, h2, h3.bind hg⟩

theorem newLoop_fine {T : TreeOps F} (hT : T.Total) {S : List (List F)} : ∀ (n m : ℕ) (s s' : HashDb (List F)) (r : F), (∀ l ∈ childLists T.digest T.arity (m + n) (fun _ => 0), l ∈ S) →
    SparseTree.newLoop T n (rootOf T.digest T.arity m fun _ => 0) s = .ok (r, s') → (newLoopP T n (rootOf T.digest T.arity m fun _ => 0)).Fine T.digest S s r s' n
  | 0, m, s, s', r, _, h => by
    cases h
    exact ⟨rfl, rfl⟩
  | n + 1, m, s, s', r, h1, h => by
    have hmono : ∀ i (l : List F), l ∈ childLists T.digest T.arity (m + 1) (fun _ => 0) → l ∈ childLists T.digest T.arity (m + 1 + i) (fun _ => 0) := by
      intro i
      induction i with
      | zero => exact fun l h => h
      | succ i ih => exact fun l h => mem_childLists.mpr (.inr ⟨0, T.arity_pos, by rw [sub_zero]; exact ih l h⟩)
    have hk : kids T.digest T.arity m (fun _ => 0) ∈ S := h1 _ (by
      have := hmono n _ (mem_childLists.mpr (.inl rfl))
      rwa [show m + 1 + n = m + (n + 1) by omega] at this)
    have hhash : T.hash (List.replicate T.arity (rootOf T.digest T.arity m fun _ => 0)) = .ok (rootOf T.digest T.arity (m + 1) fun _ => 0) := by
      rw [rootOf_succ, kids_zero]; exact hT _ (by simp)
    rw [SparseTree.newLoop] at h
    simp only [hhash, bind, Except.bind] at h
    rw [newLoopP, hhash]
    refine ⟨n, rfl, by rw [rootOf_succ, kids_zero], by rw [← kids_zero]; exact hk, ?_⟩
    exact newLoop_fine hT n (m + 1) _ s' r (by rwa [show m + 1 + n = m + (n + 1) by omega]) h

theorem getLoop_fine {H : List F → F} {S : List (List F)} {s : HashDb (List F)} : ∀ (ds : List ℕ) (cur : F) (acc : List (List F)) (r : F × List (List F)), SparseTree.getLoop s ds cur acc = .ok r →
    (getLoopP ds cur acc).Fine H S s r s ds.length
  | [], cur, acc, r, h => by
    cases h
    exact ⟨rfl, rfl⟩
  | d :: ds, cur, acc, r, h => by
    rw [SparseTree.getLoop] at h
    obtain ⟨l, h1, h⟩ := res_bind_ok.mp h
    obtain ⟨next, h2, h⟩ := res_bind_ok.mp h
    refine ⟨l, ds.length, rfl, h1, ?_⟩
    dsimp only
    rw [h2]
    exact getLoop_fine ds next _ r h

/-- The lists that the loop of `update` stores. -/
def loopPuts (T : TreeOps F) : List ℕ → List (List F) → F → List (List F)
  | [], _, _ => []
  | d :: ds, ss, v =>
    match ss.getLast? with
    | none => []
    | some side => side.insertIdx d v :: loopPuts T ds ss.dropLast (T.digest (side.insertIdx d v))

/-- The value with which it ends. -/
def loopEnd (T : TreeOps F) : List ℕ → List (List F) → F → F
  | [], _, v => v
  | d :: ds, ss, v =>
    match ss.getLast? with
    | none => v
    | some side => loopEnd T ds ss.dropLast (T.digest (side.insertIdx d v))

theorem loopPuts_snoc (T : TreeOps F) (d : ℕ) (s : List F) : ∀ (ds : List ℕ) (ss : List (List F)) (v : F), ds.length = ss.length →
    loopPuts T (ds ++ [d]) (s :: ss) v = loopPuts T ds ss v ++ [s.insertIdx d (loopEnd T ds ss v)] ∧ loopEnd T (ds ++ [d]) (s :: ss) v = T.digest (s.insertIdx d (loopEnd T ds ss v))
  | [], [], v, _ => ⟨rfl, rfl⟩
  | e :: ds, ss, v, h => by
    have hne : ss ≠ [] := by rintro rfl; simp at h
    obtain ⟨x, hx⟩ : ∃ x, ss.getLast? = some x := ⟨_, List.getLast?_eq_some_getLast hne⟩
    have hx' : (s :: ss).getLast? = some x := by rw [List.getLast?_cons, hx]; rfl
    have hd : (s :: ss).dropLast = s :: ss.dropLast := List.dropLast_cons_of_ne_nil hne
    obtain ⟨i1, i2⟩ := loopPuts_snoc T d s ds ss.dropLast (T.digest (x.insertIdx e v)) (by simp at h ⊢; omega)
    simp only [List.cons_append, loopPuts, loopEnd, hx', hx, hd, i1, i2, and_self]

theorem loopPuts_eq (T : TreeOps F) : ∀ (ds : List ℕ) (ss : List (List F)) (v : F), ds.length = ss.length →
    loopPuts T ds.reverse ss v = (merkleHashed T.digest (ds.zip ss) v).reverse ∧ loopEnd T ds.reverse ss v = merkleRoot T.digest (ds.zip ss) v
  | [], _, v, _ => ⟨rfl, rfl⟩
  | d :: ds, s :: ss, v, h => by
    obtain ⟨i1, i2⟩ := loopPuts_eq T ds ss v (by simpa using h)
    obtain ⟨j1, j2⟩ := loopPuts_snoc T d s ds.reverse ss v (by simpa using h)
    rw [List.reverse_cons, j1, j2, i1, i2, List.zip_cons_cons, merkleHashed, merkleRoot, List.reverse_cons]
    exact ⟨rfl, rfl⟩

theorem merkleHashed_sides {H : List F → F} {A : ℕ} (hA : 0 < A) {j : ℕ} : ∀ d (c : ℕ → F), ∀ l ∈ merkleHashed H ((digitsOf A d j).zip (sides H A d c j)) (c (j % A ^ d)), l ∈ childLists H A d c
  | 0, c, l, h => by simp [digitsOf, merkleHashed] at h
  | d + 1, c, l, h => by
    have hk := Nat.mod_lt (j / A ^ d) hA
    have hlen : j / A ^ d % A < (kids H A d c).length := by rw [kids_length]; exact hk
    rw [digitsOf, sides, List.zip_cons_cons, merkleHashed, ← sub_mod A d j c, merkleRoot_sides hA d, List.insertIdx_eraseIdx_self (Nat.ne_of_lt hlen)] at h
    rcases List.mem_cons.mp h with rfl | h
    · refine mem_childLists.mpr (.inl ?_)
      apply List.ext_getElem?
      intro i
      rw [List.getElem?_set]
      split
      · next e => subst e; exact (kids_get hk).symm
      · rfl
    · exact mem_childLists.mpr (.inr ⟨_, hk, merkleHashed_sides hA d _ l h⟩)

theorem updateLoop_fine {T : TreeOps F} {S : List (List F)} : ∀ (ds : List ℕ) (ss : List (List F)) (v : F) (s s' : HashDb (List F)) (r : F), SparseTree.updateLoop T ds ss v s = .ok (r, s') →
    (∀ l ∈ loopPuts T ds ss v, l ∈ S) → (updateLoopP T ds ss v).Fine T.digest S s r s' ds.length
  | [], ss, v, s, s', r, h, _ => by
    cases h
    exact ⟨rfl, rfl⟩
  | d :: ds, ss, v, s, s', r, h, hp => by
    rw [SparseTree.updateLoop] at h
    rw [loopPuts] at hp
    rw [updateLoopP]
    split at h
    · cases h
    · obtain ⟨l, h1, h⟩ := res_bind_ok.mp h
      split at h
      · cases h
      · next hl =>
        rename_i side hside _
        obtain ⟨x, h2, h⟩ := res_bind_ok.mp h
        have hx : T.digest l = x := by simp [TreeOps.digest, h2]
        have hlv : l = side.insertIdx d v := by
          rw [vecInsert] at h1
          split at h1
          · exact (Except.ok.inj h1).symm
          · cases h1
        rw [hside] at hp ⊢
        dsimp only at hp ⊢
        rw [h1]
        dsimp only
        rw [if_neg hl, h2]
        rw [← hlv, hx] at hp
        exact ⟨ds.length, rfl, by rw [hx], hp l List.mem_cons_self, updateLoop_fine ds _ x _ s' r h fun l' hl' => hp l' (List.mem_cons_of_mem _ hl')⟩

/-! ## The calls of a client -/

theorem get_fine {T : TreeOps F} {S : List (List F)} {depth : ℕ} (hd : getByteSize depth (2 ^ T.bits) ≤ ByteRep.modBytes F) {c : ℕ → F} {s : HashDb (List F)} (hs : ∀ l ∈ childLists T.digest T.arity depth c, s.Has T.digest l) (i : F) :
    (getP T ⟨depth, rootOf T.digest T.arity depth c⟩ i).Fine T.digest S s (c (IntRep.rep i % T.arity ^ depth), sides T.digest T.arity depth c (IntRep.rep i)) s depth := by
  have h := getLoop_ok (H := T.digest) (A := T.arity) T.arity_pos (db := s) (j := IntRep.rep i) depth c [] hs
  have h2 := getLoop_fine (H := T.digest) (S := S) _ _ _ _ h
  rw [digitsOf_length, List.nil_append] at h2
  rw [getP]
  dsimp only
  rw [leafIndexToPath, getBaseRepr_ok hd]
  exact h2

theorem update_fine {T : TreeOps F} (hT : T.Total) {S : List (List F)} (hS : NoCollision T.digest S) {depth : ℕ} (hd : getByteSize depth (2 ^ T.bits) ≤ ByteRep.modBytes F) {c c' : ℕ → F} {i v : F} {s : HashDb (List F)}
    (hs : ∀ l ∈ childLists T.digest T.arity depth c, l ∈ S ∧ s.Has T.digest l) (hc : ∀ k, c' k = if k = IntRep.rep i % T.arity ^ depth then v else c k) (hin : ∀ l ∈ childLists T.digest T.arity depth c', l ∈ S) :
    ∃ s', (updateP T ⟨depth, rootOf T.digest T.arity depth c⟩ i v).Fine T.digest S s ⟨depth, rootOf T.digest T.arity depth c'⟩ s' (2 * depth) ∧ ∀ l ∈ childLists T.digest T.arity depth c', s'.Has T.digest l := by
  obtain ⟨s', e, p, -⟩ := climb_ok hT hS (j := IntRep.rep i) (v := v) depth c c' s (fun k _ => hc k) hin hs
  have hlen : (digitsOf T.arity depth (IntRep.rep i)).length = (sides T.digest T.arity depth c (IntRep.rep i)).length := by rw [digitsOf_length, sides_length]
  rw [← updateLoop_eq T _ _ _ _ hlen] at e
  refine ⟨s', ?_, p⟩
  have hg := get_fine (T := T) (S := S) hd (fun l hl => (hs l hl).2) i
  rw [updateP, two_mul]
  refine hg.bind ?_
  dsimp only
  rw [leafIndexToPath, getBaseRepr_ok hd]
  have hu := updateLoop_fine (S := S) _ _ _ _ _ _ e fun l hl => by
    rw [(loopPuts_eq T _ _ v hlen).1, List.mem_reverse] at hl
    refine hin l (merkleHashed_sides T.arity_pos (j := IntRep.rep i) depth c' l ?_)
    rw [hc, if_pos rfl, sides_self T.digest T.arity_pos _ depth c c' fun a _ hne => by rw [hc, if_neg hne]]
    exact hl
  rw [List.length_reverse, digitsOf_length] at hu
  exact (hu.bind (m := 0) ⟨rfl, rfl⟩)

theorem ops_fine {T : TreeOps F} (hT : T.Total) {S : List (List F)} (hS : NoCollision T.digest S) {depth : ℕ} (hd : getByteSize depth (2 ^ T.bits) ≤ ByteRep.modBytes F) : ∀ (ops : List (TreeOp F)) (h : History F) (s : HashDb (List F)) (acc : List F),
    (∀ l ∈ historyLists T.digest T.arity depth (h ++ writes ops), l ∈ S) → (∀ l ∈ childLists T.digest T.arity depth (written (T.arity ^ depth) h), s.Has T.digest l) →
    ∃ s', (opsP T ⟨depth, rootOf T.digest T.arity depth (written (T.arity ^ depth) h)⟩ ops acc).Fine T.digest S s
      (⟨depth, rootOf T.digest T.arity depth (written (T.arity ^ depth) (h ++ writes ops))⟩, acc ++ replies (T.arity ^ depth) h ops) s' (requests depth ops)
  | [], h, s, acc, _, _ => ⟨s, by rw [writes, replies, List.append_nil, List.append_nil], rfl⟩
  | .read i :: ops, h, s, acc, hin, hs => by
    obtain ⟨s', e⟩ := ops_fine hT hS hd ops h s (acc ++ [written (T.arity ^ depth) h (IntRep.rep i % T.arity ^ depth)]) hin hs
    refine ⟨s', ?_⟩
    rw [List.append_assoc] at e
    exact (get_fine hd hs i).bind e
  | .write i v :: ops, h, s, acc, hin, hs => by
    have happ : h ++ writes (.write i v :: ops) = (h ++ [(i, v)]) ++ writes ops := by simp [writes]
    rw [happ] at hin ⊢
    have hpre : ∀ h', h' <+: h ++ [(i, v)] → ∀ l ∈ childLists T.digest T.arity depth (written (T.arity ^ depth) h'), l ∈ S := fun h' hp l hl =>
      hin l (List.mem_flatMap.mpr ⟨h', (List.mem_inits _ _).mpr (hp.trans (List.prefix_append _ _)), hl⟩)
    obtain ⟨s1, e1, p1⟩ := update_fine hT hS hd (c := written (T.arity ^ depth) h) (c' := written (T.arity ^ depth) (h ++ [(i, v)])) (i := i) (v := v) (fun l hl => ⟨hpre h (List.prefix_append _ _) l hl, hs l hl⟩)
      (fun k => by rw [written_snoc]; simp only [eq_comm]) (hpre _ List.prefix_rfl)
    obtain ⟨s', e⟩ := ops_fine hT hS hd ops (h ++ [(i, v)]) s1 acc hin p1
    exact ⟨s', e1.bind e⟩

theorem client_fine {T : TreeOps F} (hT : T.Total) {S : List (List F)} (hS : NoCollision T.digest S) {depth : ℕ} (hd : getByteSize depth (2 ^ T.bits) ≤ ByteRep.modBytes F) (ops : List (TreeOp F))
    (hin : ∀ l ∈ historyLists T.digest T.arity depth (writes ops), l ∈ S) :
    ∃ s', (clientP T depth ops).Fine T.digest S HashDb.new (⟨depth, rootOf T.digest T.arity depth (written (T.arity ^ depth) (writes ops))⟩, replies (T.arity ^ depth) [] ops) s' (depth + requests depth ops) := by
  have h0 : ∀ l ∈ childLists T.digest T.arity depth (fun _ => 0), l ∈ S := fun l hl => hin l (List.mem_flatMap.mpr ⟨[], (List.mem_inits _ _).mpr List.nil_prefix, hl⟩)
  obtain ⟨s1, e1, p1⟩ := newLoop_ok hT hS depth 0 HashDb.new (by simpa using h0) (by simp [childLists])
  have f1 := newLoop_fine hT (S := S) depth 0 _ _ _ (by simpa using h0) e1
  simp only [Nat.zero_add] at f1 p1
  obtain ⟨s', e⟩ := ops_fine hT hS hd ops [] s1 [] hin p1
  have f2 : (newP T depth).Fine T.digest S HashDb.new ⟨depth, rootOf T.digest T.arity depth (written (T.arity ^ depth) [])⟩ s1 depth := f1.bind (m := 0) ⟨rfl, rfl⟩
  exact ⟨s', f2.bind e⟩

/-! ## Together -/

/-- The program does well on a database of its own, all of which the common database holds. -/
def DbProg.Sound (H : List F → F) (S : List (List F)) (p : DbProg F α) (db : HashDb (List F)) (a : α) (n : ℕ) : Prop :=
  ∃ s s', p.Fine H S s a s' n ∧ ∀ k l, s.get k = .ok l → db.get k = .ok l ∧ k = toBytes (H l) ∧ l ∈ S

theorem insert_keeps {H : List F → F} {S : List (List F)} (hS : NoCollision H S) {s db : HashDb (List F)} (h : ∀ k l, s.get k = .ok l → db.get k = .ok l ∧ k = toBytes (H l) ∧ l ∈ S) {l : List F} (hl : l ∈ S) :
    ∀ k l', s.get k = .ok l' → (db.insert (toBytes (H l)) l).get k = .ok l' ∧ k = toBytes (H l') ∧ l' ∈ S := by
  intro k l' hk
  obtain ⟨h1, h2, h3⟩ := h k l' hk
  refine ⟨?_, h2, h3⟩
  have : db.Has H l' := by rw [HashDb.Has, ← h2]; exact h1
  have := this.insert hS h3 hl
  rw [h2]
  exact this

theorem DbProg.Sound.step {H : List F → F} {S : List (List F)} (hS : NoCollision H S) {db : HashDb (List F)} {a : α} {n : ℕ} : ∀ {p : DbProg F α}, p.Sound H S db a n → (p.step db).1.Sound H S (p.step db).2 a (n - 1)
  | .done r, ⟨s, s', h, h'⟩ => ⟨s, s', h, h'⟩
  | .get k f, ⟨s, s', ⟨l, m, e, h1, h2⟩, h'⟩ => by
    refine ⟨s, s', ?_, h'⟩
    rw [DbProg.step, (h' k l h1).1, e]
    exact h2
  | .put k l p, ⟨s, s', ⟨m, e, h1, h2, h3⟩, h'⟩ => by
    refine ⟨s.insert k l, s', by rw [e]; exact h3, fun k' l' hk => ?_⟩
    subst h1
    by_cases ek : toBytes (H l) = k'
    · subst ek
      rw [HashDb.get_insert_self] at hk
      cases hk
      exact ⟨HashDb.get_insert_self .., rfl, h2⟩
    · rw [HashDb.get_insert_ne _ _ ek] at hk
      exact insert_keeps hS h' h2 k' l' hk

theorem DbProg.Sound.other {H : List F → F} {S : List (List F)} (hS : NoCollision H S) {db : HashDb (List F)} {a : α} {n : ℕ} {q : DbProg F β} {b : β} {m : ℕ} (hq : q.Sound H S db b m) :
    ∀ {p : DbProg F α}, p.Sound H S db a n → q.Sound H S (p.step db).2 b m
  | .done r, _ => hq
  | .get k f, _ => hq
  | .put k l p, ⟨_, _, ⟨_, _, h1, h2, _⟩, _⟩ => by
    obtain ⟨s, s', h, h'⟩ := hq
    refine ⟨s, s', h, ?_⟩
    rw [DbProg.step, h1]
    exact insert_keeps hS h' h2

theorem interleave_sound {H : List F → F} {S : List (List F)} (hS : NoCollision H S) {a : ℕ → α} : ∀ (sched : List ℕ) (ps : List (DbProg F α)) (db : HashDb (List F)) (n : ℕ → ℕ), (∀ (i : ℕ) (p : DbProg F α), ps[i]? = some p → p.Sound H S db (a i) (n i)) →
    (interleave sched ps db).1.length = ps.length ∧ ∀ (i : ℕ) (p : DbProg F α), (interleave sched ps db).1[i]? = some p → p.Sound H S (interleave sched ps db).2 (a i) (n i - sched.count i)
  | [], ps, db, n, h => ⟨rfl, fun i p hp => h i p hp⟩
  | j :: js, ps, db, n, h => by
    rw [interleave]
    cases hj : ps[j]? with
    | none =>
      obtain ⟨h1, h2⟩ := interleave_sound hS js ps db n h
      refine ⟨h1, fun i p hp => ?_⟩
      have hne : j ≠ i := by
        rintro rfl
        have := List.getElem?_eq_none_iff.mp hj
        rw [List.getElem?_eq_none (by rw [h1]; exact this)] at hp
        cases hp
      rw [List.count_cons_of_ne hne]
      exact h2 i p hp
    | some q =>
      have hq := h j q hj
      obtain ⟨h1, h2⟩ := interleave_sound hS js (ps.set j (q.step db).1) (q.step db).2 (fun i => if j = i then n i - 1 else n i) (fun i p hp => by
        rw [List.getElem?_set] at hp
        by_cases e : j = i
        · subst e
          rw [if_pos rfl] at hp
          split at hp
          · cases hp
            simp only [if_true]
            exact hq.step hS
          · cases hp
        · rw [if_neg e] at hp
          simp only [if_neg e]
          exact (h i p hp).other hS hq)
      refine ⟨by rw [h1, List.length_set], fun i p hp => ?_⟩
      have := h2 i p hp
      by_cases e : j = i
      · subst e
        rw [List.count_cons_self]
        simp only [if_true] at this
        rwa [show n j - (js.count j + 1) = n j - 1 - js.count j by omega]
      · rw [List.count_cons_of_ne e]
        simp only [if_neg e] at this
        exact this

theorem clients_core (T : TreeOps F) (clients : List (ℕ × List (TreeOp F))) (prog : ℕ × List (TreeOp F) → DbProg F (SparseTree F × List F))
    (hS : NoCollision T.digest (clients.flatMap fun c => historyLists T.digest T.arity c.1 (writes c.2))) 
    (hprog : ∀ c ∈ clients, ∃ s', (prog c).Fine T.digest (clients.flatMap fun c => historyLists T.digest T.arity c.1 (writes c.2)) HashDb.new
      (⟨c.1, rootOf T.digest T.arity c.1 (written (T.arity ^ c.1) (writes c.2))⟩, replies (T.arity ^ c.1) [] c.2) s' (c.1 + requests c.1 c.2)) (db : HashDb (List F)) (sched : List ℕ) (i : ℕ) (c : ℕ × List (TreeOp F)) (hi : clients[i]? = some c) :
    let result := (⟨c.1, rootOf T.digest T.arity c.1 (written (T.arity ^ c.1) (writes c.2))⟩, replies (T.arity ^ c.1) [] c.2)
    let progs := (interleave sched (clients.map prog) db).1
    (∀ r, progs[i]? = some (.done r) → r = .ok result) ∧ (c.1 + requests c.1 c.2 ≤ sched.count i → progs[i]? = some (.done (.ok result))) := by
  intro result progs
  have key := interleave_sound hS (a := fun i => match clients[i]? with
      | some c => ((⟨c.1, rootOf T.digest T.arity c.1 (written (T.arity ^ c.1) (writes c.2))⟩ : SparseTree F), replies (T.arity ^ c.1) [] c.2)
      | none => (⟨0, 0⟩, [])) sched (clients.map prog) db (fun i => match clients[i]? with
      | some c => c.1 + requests c.1 c.2
      | none => 0) (fun i q hq => by
        rw [List.getElem?_map] at hq
        cases hc : clients[i]? with
        | none => rw [hc] at hq; cases hq
        | some c =>
          rw [hc] at hq
          cases hq
          have hmem := List.mem_of_getElem? hc
          obtain ⟨s', e⟩ := hprog c hmem
          exact ⟨HashDb.new, s', e, fun k l hk => by cases hk⟩)
  obtain ⟨k1, k2⟩ := key
  have k3 := k2 i
  simp only [hi] at k3
  refine ⟨fun r hr => ?_, fun hn => ?_⟩
  · obtain ⟨s, s', h, -⟩ := k3 _ hr
    exact h.1
  · have hlt : i < progs.length := by
      have := (List.getElem?_eq_some_iff.mp hi).1
      rw [k1, List.length_map]
      exact this
    have hq : progs[i]? = some progs[i] := List.getElem?_eq_getElem hlt
    obtain ⟨s, s', h, -⟩ := k3 _ hq
    rw [Nat.sub_eq_zero_of_le hn] at h
    rw [hq]
    cases hpi : progs[i] with
    | done r =>
      rw [hpi] at h
      rw [h.1]
    | get k f =>
      rw [hpi] at h
      obtain ⟨_, m, e, -⟩ := h
      omega
    | put k l q =>
      rw [hpi] at h
      obtain ⟨m, e, -⟩ := h
      omega

/-- **C105**: any number of clients, each with a tree of its own depth, share a database that may hold anything at the beginning. Whatever the order in which their single requests are served, a client that has come to an end has not failed:
it has the root of what it has written, and every read has given the value last written before. A client comes to an end as soon as it has been served a number of times that depends on its own calls only, whether the others do or not. -/
theorem c105_clients (T : TreeOps F) (p : PoseidonParams F) (hp : p.Valid) (clients : List (ℕ × List (TreeOp F))) (hT : ∀ c ∈ clients, T.IsTree p c.1)
    (hS : NoCollision T.digest (clients.flatMap fun c => historyLists T.digest T.arity c.1 (writes c.2))) (db : HashDb (List F)) (sched : List ℕ) (i : ℕ) (c : ℕ × List (TreeOp F)) (hi : clients[i]? = some c) :
    let result := (⟨c.1, rootOf T.digest T.arity c.1 (written (T.arity ^ c.1) (writes c.2))⟩, replies (T.arity ^ c.1) [] c.2)
    let progs := (interleave sched (clients.map fun c => clientP T c.1 c.2) db).1
    (∀ r, progs[i]? = some (.done r) → r = .ok result) ∧ (c.1 + requests c.1 c.2 ≤ sched.count i → progs[i]? = some (.done (.ok result))) :=
  clients_core T clients (fun c => clientP T c.1 c.2) hS (fun c hc => client_fine (isTree_total hp (hT c hc)).1 hS (isTree_total hp (hT c hc)).2 c.2 fun _ hl => List.mem_flatMap.mpr ⟨c, hc, hl⟩) db sched i c hi

/-! ## Clients that trust nobody -/

theorem guarded_against {H : List F → F} {S : List (List F)} {r : α} : ∀ (p : DbProg F α) (s : HashDb (List F)) (a : α) (s' : HashDb (List F)) (n : ℕ) (as : List (Res (List F))), p.Fine H S s a s' n →
    (∀ k l, s.get k = .ok l → k = toBytes (H l) ∧ l ∈ S) → (p.guarded H).against as = .ok r → r = a ∨ ∃ l, .ok l ∈ as ∧ ∃ b ∈ S, l ≠ b ∧ H l = H b
  | .done q, s, a, s', n, as, h, _, hr => by
    rw [h.1] at hr
    cases hr
    exact .inl rfl
  | .get k f, s, a, s', n, [], h, _, hr => by cases hr
  | .get k f, s, a, s', n, .error e :: as, h, _, hr => by cases hr
  | .get k f, s, a, s', n, .ok l :: as, ⟨l0, m, e, h1, h2⟩, hs, hr => by
    obtain ⟨hk, hl0⟩ := hs k l0 h1
    rw [DbProg.guarded, DbProg.against] at hr
    split at hr
    · next hl =>
      by_cases heq : l = l0
      · rw [heq] at hr
        rcases guarded_against (f l0) s a s' m as h2 hs hr with h | ⟨x, hx, h⟩
        · exact .inl h
        · exact .inr ⟨x, List.mem_cons_of_mem _ hx, h⟩
      · exact .inr ⟨l, List.mem_cons_self, l0, hl0, heq, toBytes_injective (hl.trans hk)⟩
    · cases hr
  | .put k l p, s, a, s', n, as, ⟨m, e, h1, h2, h3⟩, hs, hr => by
    refine guarded_against p (s.insert k l) a s' m as h3 (fun k' l' hk => ?_) hr
    by_cases ek : k = k'
    · rw [ek, HashDb.get_insert_self] at hk
      cases hk
      exact ⟨by rw [← ek, h1], h2⟩
    · rw [HashDb.get_insert_ne _ _ ek] at hk
      exact hs k' l' hk

/-- **C105**: a client that checks every answer needs no honest database at all. Whatever answers it is given, one for each request: if it comes to an end then its root is that of what it has written and all values it has read are right, or
one of the answers and a node of its tree are a collision of the hash function. -/
theorem c105_guarded (T : TreeOps F) (p : PoseidonParams F) (hp : p.Valid) (depth : ℕ) (hT : T.IsTree p depth) (ops : List (TreeOp F)) (hc : T.CollisionFree depth (writes ops)) (answers : List (Res (List F)))
    (r : SparseTree F × List F) (hr : ((clientP T depth ops).guarded T.digest).against answers = .ok r) :
    r = (⟨depth, rootOf T.digest T.arity depth (written (T.arity ^ depth) (writes ops))⟩, replies (T.arity ^ depth) [] ops) ∨
      ∃ l, .ok l ∈ answers ∧ ∃ b ∈ historyLists T.digest T.arity depth (writes ops), l ≠ b ∧ T.digest l = T.digest b := by
  obtain ⟨k1, k2⟩ := isTree_total hp hT
  obtain ⟨s', e⟩ := client_fine k1 hc k2 ops fun l hl => hl
  exact guarded_against _ _ _ _ _ _ e (fun k l hk => by cases hk) hr

theorem against_answersTo (i : ℕ) : ∀ (sched : List ℕ) (ps : List (DbProg F α)) (db : HashDb (List F)) (p : DbProg F α), ps[i]? = some p →
    ∃ q, (interleave sched ps db).1[i]? = some q ∧ ∀ rest, p.against (answersTo i sched ps db ++ rest) = q.against rest
  | [], ps, db, p, h => ⟨p, h, fun _ => rfl⟩
  | j :: js, ps, db, p, h => by
    rw [interleave, answersTo]
    cases hj : ps[j]? with
    | none => exact against_answersTo i js ps db p h
    | some x =>
      dsimp only
      by_cases e : j = i
      · subst e
        rw [h] at hj
        cases hj
        have hlt : j < ps.length := (List.getElem?_eq_some_iff.mp h).1
        obtain ⟨q, h1, h2⟩ := against_answersTo j js (ps.set j (p.step db).1) (p.step db).2 (p.step db).1 (by rw [List.getElem?_set, if_pos rfl, if_pos hlt])
        refine ⟨q, h1, fun rest => ?_⟩
        rw [if_pos rfl, ← h2 rest]
        cases p with
        | done r => rfl
        | put k l p => rfl
        | get k f =>
          dsimp only
          rw [List.append_assoc, List.singleton_append]
          dsimp only [DbProg.step]
          cases db.get k <;> rfl
      · obtain ⟨q, h1, h2⟩ := against_answersTo i js (ps.set j (x.step db).1) (x.step db).2 p (by rw [List.getElem?_set, if_neg e]; exact h)
        refine ⟨q, h1, fun rest => ?_⟩
        rw [if_neg e, List.nil_append]
        exact h2 rest

/-- **C105**: so a client that checks every answer may share the database with clients of any kind, which may also store wrong lists under the keys of its nodes: they can make it fail, but not make it err. -/
theorem c105_malicious (T : TreeOps F) (p : PoseidonParams F) (hp : p.Valid) (depth : ℕ) (hT : T.IsTree p depth) (ops : List (TreeOp F)) (hc : T.CollisionFree depth (writes ops)) (others : List (DbProg F (SparseTree F × List F))) (i : ℕ)
    (hi : others[i]? = some ((clientP T depth ops).guarded T.digest)) (db : HashDb (List F)) (sched : List ℕ) (r : SparseTree F × List F) (hr : (interleave sched others db).1[i]? = some (.done (.ok r))) :
    r = (⟨depth, rootOf T.digest T.arity depth (written (T.arity ^ depth) (writes ops))⟩, replies (T.arity ^ depth) [] ops) ∨
      ∃ l, .ok l ∈ answersTo i sched others db ∧ ∃ b ∈ historyLists T.digest T.arity depth (writes ops), l ≠ b ∧ T.digest l = T.digest b := by
  obtain ⟨q, h1, h2⟩ := against_answersTo i sched others db _ hi
  rw [hr] at h1
  cases h1
  have := h2 []
  rw [List.append_nil] at this
  exact c105_guarded T p hp depth hT ops hc _ r this

theorem guarded_fine {H : List F → F} {S : List (List F)} : ∀ (p : DbProg F α) (s : HashDb (List F)) (a : α) (s' : HashDb (List F)) (n : ℕ), (∀ k l, s.get k = .ok l → k = toBytes (H l) ∧ l ∈ S) → p.Fine H S s a s' n →
    (p.guarded H).Fine H S s a s' n
  | .done q, s, a, s', n, _, h => h
  | .get k f, s, a, s', n, hs, ⟨l, m, e, h1, h2⟩ => by
    refine ⟨l, m, e, h1, ?_⟩
    dsimp only
    rw [if_pos (hs k l h1).1.symm]
    exact guarded_fine (f l) s a s' m hs h2
  | .put k l p, s, a, s', n, hs, ⟨m, e, h1, h2, h3⟩ => by
    refine ⟨m, e, h1, h2, guarded_fine p (s.insert k l) a s' m (fun k' l' hk => ?_) h3⟩
    by_cases ek : k = k'
    · rw [ek, HashDb.get_insert_self] at hk
      cases hk
      exact ⟨by rw [← ek, h1], h2⟩
    · rw [HashDb.get_insert_ne _ _ ek] at hk
      exact hs k' l' hk

theorem against_fine {H : List F → F} {S : List (List F)} : ∀ (p : DbProg F α) (s : HashDb (List F)) (a : α) (s' : HashDb (List F)) (n : ℕ), p.Fine H S s a s' n → ∃ as, p.against as = .ok a
  | .done q, s, a, s', n, h => ⟨[], h.1⟩
  | .get k f, s, a, s', n, ⟨l, m, e, h1, h2⟩ => by
    obtain ⟨as, h⟩ := against_fine (f l) s a s' m h2
    exact ⟨.ok l :: as, h⟩
  | .put k l p, s, a, s', n, ⟨m, e, h1, h2, h3⟩ => against_fine p _ a s' m h3

/-- **C105**: the checks do not make an honest database useless: there are answers with which the client comes to its end. -/
theorem c105_guarded_complete (T : TreeOps F) (p : PoseidonParams F) (hp : p.Valid) (depth : ℕ) (hT : T.IsTree p depth) (ops : List (TreeOp F)) (hc : T.CollisionFree depth (writes ops)) :
    ∃ answers, ((clientP T depth ops).guarded T.digest).against answers =
      .ok (⟨depth, rootOf T.digest T.arity depth (written (T.arity ^ depth) (writes ops))⟩, replies (T.arity ^ depth) [] ops) := by
  obtain ⟨k1, k2⟩ := isTree_total hp hT
  obtain ⟨s', e⟩ := client_fine k1 hc k2 ops fun l hl => hl
  exact against_fine _ _ _ _ _ (guarded_fine _ _ _ _ _ (fun k l hk => by cases hk) e)

/-- **C105**: and clients that check every answer live together like those that do not. -/
theorem c105_guarded_clients (T : TreeOps F) (p : PoseidonParams F) (hp : p.Valid) (clients : List (ℕ × List (TreeOp F))) (hT : ∀ c ∈ clients, T.IsTree p c.1)
    (hS : NoCollision T.digest (clients.flatMap fun c => historyLists T.digest T.arity c.1 (writes c.2))) (db : HashDb (List F)) (sched : List ℕ) (i : ℕ) (c : ℕ × List (TreeOp F)) (hi : clients[i]? = some c) :
    let result := (⟨c.1, rootOf T.digest T.arity c.1 (written (T.arity ^ c.1) (writes c.2))⟩, replies (T.arity ^ c.1) [] c.2)
    let progs := (interleave sched (clients.map fun c => (clientP T c.1 c.2).guarded T.digest) db).1
    (∀ r, progs[i]? = some (.done r) → r = .ok result) ∧ (c.1 + requests c.1 c.2 ≤ sched.count i → progs[i]? = some (.done (.ok result))) :=
  clients_core T clients (fun c => (clientP T c.1 c.2).guarded T.digest) hS (fun c hc => by
    obtain ⟨s', e⟩ := client_fine (isTree_total hp (hT c hc)).1 hS (isTree_total hp (hT c hc)).2 c.2 fun _ hl => List.mem_flatMap.mpr ⟨c, hc, hl⟩
    exact ⟨s', guarded_fine _ _ _ _ _ (fun k l hk => by cases hk) e⟩) db sched i c hi

/-! ## The hypotheses are met -/

/-- Two clients with trees of the depths 2 and 1. -/
def demoClients : List (ℕ × List (TreeOp Fr)) := [(2, [.write 1 7, .read 1, .write 14 8, .read 3]), (1, [.write 2 5, .read 2])]

/-- In whatever order their requests are served, and whatever the database holds: after 14 requests the first client has read 7 and 0. -/
example (db : HashDb (List Fr)) (sched : List ℕ) (h : 14 ≤ sched.count 0) :
    (interleave sched (demoClients.map fun c => clientP (tree4 demoParams5) c.1 c.2) db).1[0]? = some (.done (.ok (⟨2, rootOf (tree4 demoParams5).digest 4 2 (written 16 [(1, 7), (14, 8)])⟩, [7, 0]))) := by
  have hS : NoCollision (tree4 demoParams5).digest (demoClients.flatMap fun c => historyLists (tree4 demoParams5).digest (tree4 demoParams5).arity c.1 (writes c.2)) := by
    unfold NoCollision
    decide +kernel
  have := (c105_clients (tree4 demoParams5) demoParams5 demoParams5_valid demoClients (fun c hc => by
    rcases List.mem_cons.mp hc with rfl | hc
    · exact .inl ⟨rfl, rfl, by decide⟩
    · rcases List.mem_singleton.mp hc with rfl
      exact .inl ⟨rfl, rfl, by decide⟩) hS db sched 0 _ rfl).2 h
  rw [this]
  have hr : replies ((tree4 demoParams5).arity ^ 2) [] [.write (1 : Fr) 7, .read 1, .write 14 8, .read 3] = [7, 0] := by decide +kernel
  exact congrArg (fun x => some (DbProg.done (Except.ok (_, x)))) hr

/-- The writes of `demoHistory` and a read, with the checks. -/
example : ∃ answers r, ((clientP (tree4 demoParams5) 2 [.write 1 7, .write 14 8, .read 14, .write 17 9]).guarded (tree4 demoParams5).digest).against answers = .ok r ∧
    (r = (⟨2, rootOf (tree4 demoParams5).digest 4 2 (written 16 demoHistory)⟩, [8]) ∨
      ∃ l, .ok l ∈ answers ∧ ∃ b ∈ historyLists (tree4 demoParams5).digest 4 2 demoHistory, l ≠ b ∧ (tree4 demoParams5).digest l = (tree4 demoParams5).digest b) := by
  have hT : (tree4 demoParams5).IsTree demoParams5 2 := .inl ⟨rfl, rfl, by decide⟩
  obtain ⟨as, h⟩ := c105_guarded_complete (tree4 demoParams5) demoParams5 demoParams5_valid 2 hT [.write 1 7, .write 14 8, .read 14, .write 17 9] demo_collisionFree
  refine ⟨as, _, h, ?_⟩
  rcases c105_guarded (tree4 demoParams5) demoParams5 demoParams5_valid 2 hT [.write 1 7, .write 14 8, .read 14, .write 17 9] demo_collisionFree as _ h with e | e
  · have hr : replies ((tree4 demoParams5).arity ^ 2) [] [.write (1 : Fr) 7, .write 14 8, .read 14, .write 17 9] = [8] := by decide +kernel
    exact .inl (congrArg (fun x => (_, x)) hr)
  · exact .inr e

/-- The first of the two clients, with the checks, next to another client, in any order: what `c105_malicious` says of it. -/
example (db : HashDb (List Fr)) (sched : List ℕ) (h : 14 ≤ sched.count 0) :
    ∃ r, (interleave sched (demoClients.map fun c => (clientP (tree4 demoParams5) c.1 c.2).guarded (tree4 demoParams5).digest) db).1[0]? = some (.done (.ok r)) ∧
      (r = (⟨2, rootOf (tree4 demoParams5).digest 4 2 (written 16 [(1, 7), (14, 8)])⟩, replies 16 [] [.write 1 7, .read 1, .write 14 8, .read 3]) ∨
        ∃ l, .ok l ∈ answersTo 0 sched (demoClients.map fun c => (clientP (tree4 demoParams5) c.1 c.2).guarded (tree4 demoParams5).digest) db ∧
          ∃ b ∈ historyLists (tree4 demoParams5).digest 4 2 [(1, 7), (14, 8)], l ≠ b ∧ (tree4 demoParams5).digest l = (tree4 demoParams5).digest b) := by
  have hS : NoCollision (tree4 demoParams5).digest (demoClients.flatMap fun c => historyLists (tree4 demoParams5).digest (tree4 demoParams5).arity c.1 (writes c.2)) := by
    unfold NoCollision
    decide +kernel
  have hT : (tree4 demoParams5).IsTree demoParams5 2 := .inl ⟨rfl, rfl, by decide⟩
  have := (c105_guarded_clients (tree4 demoParams5) demoParams5 demoParams5_valid demoClients (fun c hc => by
    rcases List.mem_cons.mp hc with rfl | hc
    · exact hT
    · rcases List.mem_singleton.mp hc with rfl
      exact .inl ⟨rfl, rfl, by decide⟩) hS db sched 0 _ rfl).2 h
  exact ⟨_, this, c105_malicious (tree4 demoParams5) demoParams5 demoParams5_valid 2 hT [.write 1 7, .read 1, .write 14 8, .read 3] (collisionFree_prefix demo_collisionFree ⟨[(17, 9)], rfl⟩) _ 0 rfl db sched _ this⟩

end Bp
