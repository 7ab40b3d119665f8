import Verif.Spec.Forest
import Verif.Lemmas.Gadgets.Tree

/-! # Several trees that share one database -/

namespace Bp
variable {F : Type} [Field F] [ByteRep F]

/-- What was in the database before `new` stays there. -/
theorem newLoop_keeps {T : TreeOps F} (hT : T.Total) {S : List (List F)} (hS : NoCollision T.digest S) : ∀ n m (db db' : HashDb (List F)) (r : F),
    (∀ l ∈ childLists T.digest T.arity (m + n) (fun _ => 0), l ∈ S) → SparseTree.newLoop T n (rootOf T.digest T.arity m fun _ => 0) db = .ok (r, db') →
    ∀ l ∈ S, db.Has T.digest l → db'.Has T.digest l
  | 0, m, db, db', r, _, h, l, _, hd => by
    rw [SparseTree.newLoop] at h
    injection h with h; injection h with _ h
    rwa [← h]
  | n + 1, m, db, db', r, h1, h, l, hl, hd => by
    have hhash : T.hash (List.replicate T.arity (rootOf T.digest T.arity m fun _ => 0)) = .ok (rootOf T.digest T.arity (m + 1) fun _ => 0) := by
      rw [rootOf_succ, kids_zero]; exact hT _ (by simp)
    rw [SparseTree.newLoop] at h
    simp only [hhash, bind, Except.bind] at h
    have hmono : ∀ i (l : List F), l ∈ childLists T.digest T.arity (m + 1) (fun _ => 0) → l ∈ childLists T.digest T.arity (m + 1 + i) (fun _ => 0) := by
      intro i
      induction i with
      | zero => exact fun l h => h
      | succ i ih => exact fun l h => mem_childLists.mpr (.inr ⟨0, T.arity_pos, by rw [sub_zero]; exact ih l h⟩)
    have hk : kids T.digest T.arity m (fun _ => 0) ∈ S := h1 _ (by
      have := hmono n _ (mem_childLists.mpr (.inl rfl))
      rwa [show m + 1 + n = m + (n + 1) by omega] at this)
    refine newLoop_keeps hT hS n (m + 1) _ db' r (by rwa [show m + 1 + n = m + (n + 1) by omega]) h l hl ?_
    rw [← kids_zero]
    exact HashDb.Has.insert hS hd hl hk

/-- The child lists of a shallower empty tree occur in a deeper one. -/
theorem childLists_zero_mono {T : TreeOps F} {m n : ℕ} (h : m ≤ n) : ∀ l ∈ childLists T.digest T.arity m (fun _ => (0 : F)), l ∈ childLists T.digest T.arity n (fun _ => 0) := by
  obtain ⟨i, rfl⟩ := Nat.exists_eq_add_of_le h
  clear h
  induction i with
  | zero => exact fun l h => h
  | succ i ih => exact fun l h => mem_childLists.mpr (.inr ⟨0, T.arity_pos, by rw [sub_zero]; exact ih l h⟩)

/-- The sidenodes near the root are not used by the first insertions. -/
theorem updateLoop_cons (T : TreeOps F) (s : List F) : ∀ (ds : List ℕ) (ss : List (List F)) (v : F) (db : HashDb (List F)), ds.length ≤ ss.length →
    SparseTree.updateLoop T ds (s :: ss) v db = SparseTree.updateLoop T ds ss v db
  | [], _, _, _, _ => rfl
  | e :: ds, ss, v, db, h => by
    have hne : ss ≠ [] := by rintro rfl; simp at h
    have hx' : (s :: ss).getLast? = ss.getLast? := by
      obtain ⟨x, hx⟩ : ∃ x, ss.getLast? = some x := ⟨_, List.getLast?_eq_some_getLast hne⟩
      rw [List.getLast?_cons, hx]; rfl
    rw [SparseTree.updateLoop, SparseTree.updateLoop, hx', List.dropLast_cons_of_ne_nil hne]
    have ih : ∀ v db, SparseTree.updateLoop T ds (s :: ss.dropLast) v db = SparseTree.updateLoop T ds ss.dropLast v db := fun v db => updateLoop_cons T s ds ss.dropLast v db (by simp at h ⊢; omega)
    simp only [ih]

/-- The values in the subtree that contains `j`. -/
theorem sub_update {A d j : ℕ} {v : F} {c c' : ℕ → F} (hA : 0 < A) (hc : ∀ i < A ^ (d + 1), c' i = if i = j % A ^ (d + 1) then v else c i) :
    ∀ i < A ^ d, subContents c' (A ^ d) (j / A ^ d % A) i = if i = j % A ^ d then v else subContents c (A ^ d) (j / A ^ d % A) i := by
  intro i hi
  have hkA : j / A ^ d % A < A := Nat.mod_lt _ hA
  have hjm : j % A ^ (d + 1) = j / A ^ d % A * A ^ d + j % A ^ d := by rw [pow_succ, Nat.mod_mul]; ring
  have hlt : j / A ^ d % A * A ^ d + i < A ^ (d + 1) := by
    calc j / A ^ d % A * A ^ d + i < j / A ^ d % A * A ^ d + A ^ d := by omega
      _ = (j / A ^ d % A + 1) * A ^ d := by ring
      _ ≤ A * A ^ d := Nat.mul_le_mul_right _ hkA
      _ = A ^ (d + 1) := by ring
  rw [subContents, hc _ hlt, hjm]
  by_cases e : i = j % A ^ d
  · rw [if_pos e, if_pos (by omega)]
  · rw [if_neg e, if_neg (by omega)]; rfl

/-- The first `k` insertions of an update. -/
theorem updateLoop_until {T : TreeOps F} (hT : T.Total) {S : List (List F)} (hS : NoCollision T.digest S) {j k : ℕ} {v : F} : ∀ m (c c' : ℕ → F) (db : HashDb (List F)),
    (∀ i < T.arity ^ (k + m), c' i = if i = j % T.arity ^ (k + m) then v else c i) →
    (∀ l ∈ childLists T.digest T.arity (k + m) c', l ∈ S) → (∀ l ∈ childLists T.digest T.arity (k + m) c, l ∈ S ∧ db.Has T.digest l) →
    ∃ r db', SparseTree.updateLoop T ((digitsOf T.arity (k + m) j).reverse.take k) (sides T.digest T.arity (k + m) c j) v db = .ok (r, db') ∧ (∀ l ∈ S, db.Has T.digest l → db'.Has T.digest l)
  | 0, c, c', db, hc, h1, h2 => by
    obtain ⟨db', e, -, q⟩ := climb_ok hT hS (j := j) (v := v) k c c' db hc h1 h2
    refine ⟨rootOf T.digest T.arity k c', db', ?_, q⟩
    rw [List.take_of_length_le (by simp [digitsOf_length])]
    show SparseTree.updateLoop T (digitsOf T.arity k j).reverse (sides T.digest T.arity k c j) v db = _
    rw [updateLoop_eq T _ _ _ _ (by rw [digitsOf_length, sides_length]), e]
  | m + 1, c, c', db, hc, h1, h2 => by
    have hkA : j / T.arity ^ (k + m) % T.arity < T.arity := Nat.mod_lt _ T.arity_pos
    obtain ⟨r, db', e, q⟩ := updateLoop_until hT hS m (subContents c (T.arity ^ (k + m)) (j / T.arity ^ (k + m) % T.arity)) (subContents c' (T.arity ^ (k + m)) (j / T.arity ^ (k + m) % T.arity)) db
      (sub_update T.arity_pos hc) (fun l hl => h1 l (mem_childLists.mpr (.inr ⟨_, hkA, hl⟩))) (fun l hl => h2 l (mem_childLists.mpr (.inr ⟨_, hkA, hl⟩)))
    refine ⟨r, db', ?_, q⟩
    have hl : k ≤ (digitsOf T.arity (k + m) j).reverse.length := by rw [List.length_reverse, digitsOf_length]; omega
    show SparseTree.updateLoop T ((_ :: digitsOf T.arity (k + m) j).reverse.take k) (_ :: sides T.digest T.arity (k + m) _ j) v db = _
    rw [List.reverse_cons, List.take_append_of_le_length hl, updateLoop_cons _ _ _ _ _ _ (by rw [sides_length, List.length_take]; omega)]
    exact e

theorem updateUntil_ok {T : TreeOps F} (hT : T.Total) {S : List (List F)} (hS : NoCollision T.digest S) {t : SparseTree F} {db : HashDb (List F)} {c c' : ℕ → F} {i v : F}
    (hd : getByteSize t.depth (2 ^ T.bits) ≤ ByteRep.modBytes F) (hr : t.root = rootOf T.digest T.arity t.depth c)
    (hdb : ∀ l ∈ childLists T.digest T.arity t.depth c, l ∈ S ∧ db.Has T.digest l)
    (hc : ∀ k < T.arity ^ t.depth, c' k = if k = IntRep.rep i % T.arity ^ t.depth then v else c k) (hin : ∀ l ∈ childLists T.digest T.arity t.depth c', l ∈ S) (k : ℕ) :
    ∃ db', t.updateUntil T i v db k = .ok db' ∧ (∀ l ∈ S, db.Has T.digest l → db'.Has T.digest l) := by
  obtain ⟨k', m, hk, hkm⟩ : ∃ k' m, t.depth = k' + m ∧ ((digitsOf T.arity t.depth (IntRep.rep i)).reverse.take k = (digitsOf T.arity t.depth (IntRep.rep i)).reverse.take k') := by
    by_cases h : k ≤ t.depth
    · exact ⟨k, t.depth - k, by omega, rfl⟩
    · exact ⟨t.depth, 0, rfl, by rw [List.take_of_length_le (by simp [digitsOf_length]; omega), List.take_of_length_le (by simp [digitsOf_length])]⟩
  obtain ⟨r, db', e, q⟩ := updateLoop_until hT hS (k := k') (j := IntRep.rep i) (v := v) m c c' db (by rwa [← hk]) (by rwa [← hk]) (by rwa [← hk])
  refine ⟨db', ?_, q⟩
  rw [SparseTree.updateUntil, get_ok hd hr (fun l hl => (hdb l hl).2) i (some [])]
  simp only [bind, Except.bind, Option.map_some, List.nil_append]
  rw [leafIndexToPath, getBaseRepr_ok hd]
  simp only
  have hA : digitsOf (2 ^ T.bits) t.depth (IntRep.rep i) = digitsOf T.arity t.depth (IntRep.rep i) := rfl
  rw [hA, hkm, hk, e]
  rfl

/-- The trees are as the log says, and everything they need is in the database. -/
structure Forest.Sound (T : TreeOps F) (S : List (List F)) (f : Forest F) (l : ForestLog F) : Prop where
  trees : f.trees = l.map fun e => ⟨e.1, rootOf T.digest T.arity e.1 (written (T.arity ^ e.1) e.2)⟩
  depth : ∀ e ∈ l, getByteSize e.1 (2 ^ T.bits) ≤ ByteRep.modBytes F
  lists : ∀ e ∈ l, ∀ x ∈ T.listsOf e, x ∈ S ∧ f.db.Has T.digest x

variable {T : TreeOps F} {S : List (List F)}

theorem Forest.Sound.get? {f : Forest F} {l : ForestLog F} (hs : f.Sound T S l) {j : ℕ} {e : ℕ × History F} (he : l[j]? = some e) :
    f.trees[j]? = some ⟨e.1, rootOf T.digest T.arity e.1 (written (T.arity ^ e.1) e.2)⟩ := by
  rw [hs.trees, List.getElem?_map, he]; rfl

/-- One call. -/
theorem Forest.Sound.call (hT : T.Total) (hS : NoCollision T.digest S) {f : Forest F} {l : ForestLog F} (hs : f.Sound T S l) (c : TreeCall F) (hc : l.Has c)
    (hd : ∀ depth, c = .new depth ∨ (∃ k, c = .crashedNew depth k) → getByteSize depth (2 ^ T.bits) ≤ ByteRep.modBytes F) (hin : ∀ x ∈ T.listsBy l c, x ∈ S) :
    ∃ f', f.call T c = .ok f' ∧ f'.Sound T S (l.call c) := by
  cases c with
  | new depth =>
    obtain ⟨db, e, p⟩ := newLoop_ok hT hS depth 0 f.db (by rw [Nat.zero_add]; exact hin) (by simp [childLists])
    have q := newLoop_keeps hT hS depth 0 f.db db _ (by rw [Nat.zero_add]; exact hin) e
    simp only [Nat.zero_add] at e p
    have e' : SparseTree.newLoop T depth 0 f.db = _ := e
    refine ⟨⟨f.trees ++ [⟨depth, rootOf T.digest T.arity depth fun _ => 0⟩], db⟩, ?_, ?_, ?_, ?_⟩
    · simp only [Forest.call, SparseTree.new, e', bind, Except.bind]
      rfl
    · simp only [ForestLog.call, List.map_append, List.map_cons, List.map_nil, hs.trees]
      rfl
    · intro x hx
      rcases List.mem_append.mp hx with hx | hx
      · exact hs.depth x hx
      · rw [List.mem_singleton.mp hx]
        exact hd depth (.inl rfl)
    · intro x hx y hy
      rcases List.mem_append.mp hx with hx | hx
      · obtain ⟨a, b⟩ := hs.lists x hx y hy
        exact ⟨a, q y a b⟩
      · rw [List.mem_singleton.mp hx] at hy
        exact ⟨hin y hy, p y hy⟩
  | clone j =>
    obtain ⟨e, he⟩ : ∃ e, l[j]? = some e := ⟨_, List.getElem?_eq_getElem hc⟩
    refine ⟨⟨f.trees ++ [⟨e.1, rootOf T.digest T.arity e.1 (written (T.arity ^ e.1) e.2)⟩], f.db⟩, ?_, ?_, ?_, ?_⟩
    · simp only [Forest.call, hs.get? he]
      rfl
    · simp only [ForestLog.call, he, List.map_append, List.map_cons, List.map_nil, hs.trees]
    · intro x hx
      simp only [ForestLog.call, he] at hx
      rcases List.mem_append.mp hx with hx | hx
      · exact hs.depth x hx
      · rw [List.mem_singleton.mp hx]
        exact hs.depth e (List.mem_of_getElem? he)
    · intro x hx y hy
      simp only [ForestLog.call, he] at hx
      rcases List.mem_append.mp hx with hx | hx
      · exact hs.lists x hx y hy
      · rw [List.mem_singleton.mp hx] at hy
        exact hs.lists e (List.mem_of_getElem? he) y hy
  | update j i v =>
    obtain ⟨e, he⟩ : ∃ e, l[j]? = some e := ⟨_, List.getElem?_eq_getElem hc⟩
    have hmem := List.mem_of_getElem? he
    simp only [TreeOps.listsBy, he] at hin
    obtain ⟨db', e', p', q'⟩ := update_ok hT hS (t := ⟨e.1, rootOf T.digest T.arity e.1 (written (T.arity ^ e.1) e.2)⟩) (db := f.db) (c := written (T.arity ^ e.1) e.2)
      (c' := written (T.arity ^ e.1) (e.2 ++ [(i, v)])) (i := i) (v := v) (hs.depth e hmem) rfl (hs.lists e hmem) (fun k hk => by rw [written_snoc]; simp only [eq_comm]) hin
    refine ⟨⟨f.trees.set j ⟨e.1, rootOf T.digest T.arity e.1 (written (T.arity ^ e.1) (e.2 ++ [(i, v)]))⟩, db'⟩, ?_, ?_, ?_, ?_⟩
    · simp only [Forest.call, hs.get? he]
      rw [e']
      rfl
    · simp only [ForestLog.call, he, List.map_set, hs.trees]
    · intro x hx
      simp only [ForestLog.call, he] at hx
      rcases List.mem_or_eq_of_mem_set hx with hx | rfl
      · exact hs.depth x hx
      · exact hs.depth e hmem
    · intro x hx y hy
      simp only [ForestLog.call, he] at hx
      rcases List.mem_or_eq_of_mem_set hx with hx | rfl
      · obtain ⟨a, b⟩ := hs.lists x hx y hy
        exact ⟨a, q' y a b⟩
      · exact ⟨hin y hy, p' y hy⟩
  | crashedNew depth k =>
    have hin' : ∀ x ∈ childLists T.digest T.arity (0 + min k depth) (fun _ => (0 : F)), x ∈ S := fun x hx => hin x (childLists_zero_mono (by omega) x hx)
    obtain ⟨db, e, p⟩ := newLoop_ok hT hS (min k depth) 0 f.db hin' (by simp [childLists])
    have q := newLoop_keeps hT hS (min k depth) 0 f.db db _ hin' e
    have e' : SparseTree.newLoop T (min k depth) 0 f.db = _ := e
    refine ⟨⟨f.trees, db⟩, ?_, hs.trees, hs.depth, fun x hx y hy => ?_⟩
    · simp only [Forest.call, e', bind, Except.bind]
      rfl
    · obtain ⟨a, b⟩ := hs.lists x hx y hy
      exact ⟨a, q y a b⟩
  | crashedUpdate j i v k =>
    obtain ⟨e, he⟩ : ∃ e, l[j]? = some e := ⟨_, List.getElem?_eq_getElem hc⟩
    have hmem := List.mem_of_getElem? he
    simp only [TreeOps.listsBy, he] at hin
    obtain ⟨db', e', q'⟩ := updateUntil_ok hT hS (t := ⟨e.1, rootOf T.digest T.arity e.1 (written (T.arity ^ e.1) e.2)⟩) (db := f.db) (c := written (T.arity ^ e.1) e.2)
      (c' := written (T.arity ^ e.1) (e.2 ++ [(i, v)])) (i := i) (v := v) (hs.depth e hmem) rfl (hs.lists e hmem) (fun k hk => by rw [written_snoc]; simp only [eq_comm]) hin k
    refine ⟨⟨f.trees, db'⟩, ?_, hs.trees, hs.depth, fun x hx y hy => ?_⟩
    · simp only [Forest.call, hs.get? he]
      rw [e']
      rfl
    · obtain ⟨a, b⟩ := hs.lists x hx y hy
      exact ⟨a, q' y a b⟩

/-- Reading from a database that has lost entries. -/
theorem getLoop_lossy {db db' : HashDb (List F)} (hsub : ∀ k l, db'.get k = .ok l → db.get k = .ok l) : ∀ (ds : List ℕ) (cur : F) (acc : List (List F)) r, SparseTree.getLoop db' ds cur acc = .ok r →
    SparseTree.getLoop db ds cur acc = .ok r
  | [], _, _, _, h => h
  | d :: ds, cur, acc, r, h => by
    rw [SparseTree.getLoop] at h ⊢
    obtain ⟨ch, h1, h⟩ := res_bind_ok.mp h
    obtain ⟨nx, h2, h⟩ := res_bind_ok.mp h
    rw [hsub _ _ h1]
    simp only [bind, Except.bind]
    rw [h2]
    exact getLoop_lossy hsub ds nx _ r h

end Bp
