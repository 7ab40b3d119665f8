import Mathlib.Data.List.InsertIdx
import Mathlib.Data.List.Infix
import Mathlib.Tactic.Ring
import Verif.Spec.Tree
import Verif.Lemmas.Gadgets.PoseidonFun

/-! # Sparse Merkle trees: refinement to a map -/

namespace Bp
variable {F : Type} [Field F]

/-! ## Bytes and database -/

theorem nat_eq_of_bytes : ∀ (m a b : ℕ), a < 256 ^ m → b < 256 ^ m → (∀ i < m, a / 256 ^ i % 256 = b / 256 ^ i % 256) → a = b
  | 0, a, b, ha, hb, _ => by simp at ha hb; omega
  | m + 1, a, b, ha, hb, h => by
    have h0 := h 0 (by omega)
    have hr := nat_eq_of_bytes m (a / 256) (b / 256) (by rw [pow_succ] at ha; omega) (by rw [pow_succ] at hb; omega) (fun i hi => by
      have := h (i + 1) (by omega)
      rwa [pow_succ', ← Nat.div_div_eq_div_mul, ← Nat.div_div_eq_div_mul] at this)
    simp at h0
    omega

theorem toBytes_injective [ByteRep F] : Function.Injective (toBytes : F → List UInt8) := by
  intro x y h
  have h1 := List.reverse_injective h
  have h2 : ∀ i < ByteRep.modBytes F, (IntRep.rep x) / 256 ^ i % 256 = (IntRep.rep y) / 256 ^ i % 256 := by
    intro i hi
    have := (List.map_inj_left.mp h1) i (List.mem_range.mpr hi)
    have := congrArg UInt8.toNat this
    simpa [UInt8.toNat_ofNat'] using this
  have := nat_eq_of_bytes _ _ _ (lt_of_lt_of_le (IntRep.rep_lt x) ByteRep.order_le) (lt_of_lt_of_le (IntRep.rep_lt y) ByteRep.order_le) h2
  rw [← IntRep.cast_rep x, this, IntRep.cast_rep]

theorem HashDb.get_insert_self {T : Type} (d : HashDb T) (k : List UInt8) (v : T) : (d.insert k v).get k = .ok v := by
  simp [HashDb.insert, HashDb.get]

theorem HashDb.get_insert_ne {T : Type} (d : HashDb T) {k k' : List UInt8} (v : T) (h : k ≠ k') : (d.insert k v).get k' = d.get k' := by
  have : (d.db.filter fun e => decide (e.1 ≠ k)).find? (fun e => decide (e.1 = k')) = d.db.find? (fun e => decide (e.1 = k')) := by
    rw [List.find?_filter]
    congr 1
    funext e
    by_cases he : e.1 = k'
    · simp [he, Ne.symm h]
    · simp [he]
  have h2 := this
  simp only [HashDb.insert, HashDb.get, List.find?_cons, h, decide_false]
  rw [h2]

/-! ## Digits -/

theorem baseLoop_eq (b : ℕ) : ∀ k s, baseLoop b k s = (List.range k).map fun i => s / (2 ^ b) ^ i % 2 ^ b
  | 0, s => rfl
  | k + 1, s => by
    rw [List.range_succ_eq_map, List.map_cons, List.map_map, baseLoop]
    by_cases hs : s = 0
    · subst hs
      rw [if_pos rfl, List.replicate_succ]
      refine List.cons_eq_cons.mpr ⟨by simp, ?_⟩
      symm
      simp [List.eq_replicate_iff]
    · rw [if_neg hs, baseLoop_eq b k]
      simp only [pow_zero, Nat.div_one, List.cons.injEq, true_and]
      apply List.map_congr_left
      intro i _
      simp only [Function.comp, Nat.succ_eq_add_one, pow_succ' _ i, Nat.div_div_eq_div_mul]

theorem digitsOf_eq (A : ℕ) : ∀ d i, digitsOf A d i = ((List.range d).map fun e => i / A ^ e % A).reverse
  | 0, i => rfl
  | d + 1, i => by
    rw [digitsOf, digitsOf_eq A d, List.range_succ, List.map_append, List.reverse_append]
    rfl

theorem digitsOf_length (A d i : ℕ) : (digitsOf A d i).length = d := by simp [digitsOf_eq]

theorem baseLoop_digits (b k s : ℕ) : (baseLoop b k s).reverse = digitsOf (2 ^ b) k s := by rw [baseLoop_eq, digitsOf_eq]

theorem digitsOf_mod {A : ℕ} : ∀ d i, digitsOf A d (i % A ^ d) = digitsOf A d i := by
  intro d i
  rw [digitsOf_eq, digitsOf_eq]
  congr 1
  apply List.map_congr_left
  intro e he
  obtain ⟨k, hk⟩ := Nat.exists_eq_add_of_lt (List.mem_range.mp he)
  have : A ^ d = A ^ e * A * A ^ k := by rw [hk, pow_add, pow_add]; ring
  rw [this, mul_assoc, Nat.mod_mul_right_div_self, Nat.mod_mul_right_mod]

theorem digitsOf_lt {A : ℕ} (hA : 0 < A) (d i : ℕ) : ∀ x ∈ digitsOf A d i, x < A := by
  intro x hx
  rw [digitsOf_eq] at hx
  simp only [List.mem_reverse, List.mem_map] at hx
  obtain ⟨e, -, rfl⟩ := hx
  exact Nat.mod_lt _ hA

/-! ## Trees as maps -/

theorem rootOf_congr (H : List F → F) (A : ℕ) : ∀ d (c c' : ℕ → F), (∀ i < A ^ d, c i = c' i) → rootOf H A d c = rootOf H A d c'
  | 0, c, c', h => h 0 (by simp)
  | d + 1, c, c', h => by
    simp only [rootOf]
    congr 1
    apply List.map_congr_left
    intro k hk
    apply rootOf_congr H A d
    intro i hi
    apply h
    have hk := List.mem_range.mp hk
    calc k * A ^ d + i < k * A ^ d + A ^ d := by omega
      _ = (k + 1) * A ^ d := by ring
      _ ≤ A * A ^ d := Nat.mul_le_mul_right _ hk
      _ = A ^ (d + 1) := by ring

theorem subContents_congr {A d : ℕ} {c c' : ℕ → F} (h : ∀ i < A ^ (d + 1), c i = c' i) {k : ℕ} (hk : k < A) :
    ∀ i < A ^ d, subContents c (A ^ d) k i = subContents c' (A ^ d) k i := by
  intro i hi
  apply h
  calc k * A ^ d + i < k * A ^ d + A ^ d := by omega
    _ = (k + 1) * A ^ d := by ring
    _ ≤ A * A ^ d := Nat.mul_le_mul_right _ hk
    _ = A ^ (d + 1) := by ring

theorem childLists_congr (H : List F → F) (A : ℕ) : ∀ d (c c' : ℕ → F), (∀ i < A ^ d, c i = c' i) → childLists H A d c = childLists H A d c'
  | 0, c, c', h => rfl
  | d + 1, c, c', h => by
    simp only [childLists]
    congr 1
    · apply List.map_congr_left
      intro k hk
      exact rootOf_congr H A d _ _ (subContents_congr h (List.mem_range.mp hk))
    · apply List.flatMap_congr
      intro k hk
      exact childLists_congr H A d _ _ (subContents_congr h (List.mem_range.mp hk))

/-- The children of the root. -/
def kids (H : List F → F) (A d : ℕ) (c : ℕ → F) : List F := (List.range A).map fun k => rootOf H A d (subContents c (A ^ d) k)

theorem kids_length (H : List F → F) (A d : ℕ) (c : ℕ → F) : (kids H A d c).length = A := by simp [kids]

theorem kids_get {H : List F → F} {A d : ℕ} {c : ℕ → F} {k : ℕ} (hk : k < A) : (kids H A d c)[k]? = some (rootOf H A d (subContents c (A ^ d) k)) := by
  simp [kids, hk]

theorem rootOf_succ (H : List F → F) (A d : ℕ) (c : ℕ → F) : rootOf H A (d + 1) c = H (kids H A d c) := rfl

theorem mem_childLists {H : List F → F} {A d : ℕ} {c : ℕ → F} {l : List F} : l ∈ childLists H A (d + 1) c ↔
    l = kids H A d c ∨ ∃ k < A, l ∈ childLists H A d (subContents c (A ^ d) k) := by
  simp [childLists, kids]

theorem childLists_length {H : List F → F} {A : ℕ} : ∀ {d : ℕ} {c : ℕ → F} {l : List F}, l ∈ childLists H A d c → l.length = A
  | 0, c, l, h => by simp [childLists] at h
  | d + 1, c, l, h => by
    rcases mem_childLists.mp h with rfl | ⟨k, -, hk⟩
    · exact kids_length ..
    · exact childLists_length hk

/-- The siblings on the way from the root to leaf `j`. -/
def sides (H : List F → F) (A : ℕ) : ℕ → (ℕ → F) → ℕ → List (List F)
  | 0, _, _ => []
  | d + 1, c, j => (kids H A d c).eraseIdx (j / A ^ d % A) :: sides H A d (subContents c (A ^ d) (j / A ^ d % A)) j

theorem sides_length (H : List F → F) (A : ℕ) : ∀ d c j, (sides H A d c j).length = d
  | 0, _, _ => rfl
  | d + 1, c, j => by rw [sides, List.length_cons, sides_length H A d]

theorem sides_node_length (H : List F → F) {A : ℕ} (hA : 0 < A) : ∀ d c j, ∀ s ∈ sides H A d c j, s.length = A - 1
  | 0, _, _ => by simp [sides]
  | d + 1, c, j => by
    intro s hs
    rcases List.mem_cons.mp hs with rfl | hs
    · rw [List.length_eraseIdx_of_lt (by rw [kids_length]; exact Nat.mod_lt _ hA), kids_length]
    · exact sides_node_length H hA d _ _ s hs

theorem sub_mod (A d j : ℕ) (c : ℕ → F) : subContents c (A ^ d) (j / A ^ d % A) (j % A ^ d) = c (j % A ^ (d + 1)) := by
  rw [subContents, pow_succ, Nat.mod_mul]
  congr 1
  ring

variable [ByteRep F]

/-- The database knows the child list `l`. -/
def HashDb.Has (H : List F → F) (db : HashDb (List F)) (l : List F) : Prop := db.get (toBytes (H l)) = .ok l

theorem HashDb.Has.insert {H : List F → F} {db : HashDb (List F)} {S : List (List F)} (hS : NoCollision H S) {l l' : List F} (h : db.Has H l) (hl : l ∈ S) (hl' : l' ∈ S) :
    (db.insert (toBytes (H l')) l').Has H l := by
  by_cases e : H l' = H l
  · rw [hS l' hl' l hl e]; exact HashDb.get_insert_self ..
  · rw [HashDb.Has, HashDb.get_insert_ne _ _ (fun he => e (toBytes_injective he))]
    exact h

theorem getLoop_ok {H : List F → F} {A : ℕ} (hA : 0 < A) {db : HashDb (List F)} {j : ℕ} : ∀ d (c : ℕ → F) acc, (∀ l ∈ childLists H A d c, db.Has H l) →
    SparseTree.getLoop db (digitsOf A d j) (rootOf H A d c) acc = .ok (c (j % A ^ d), acc ++ sides H A d c j)
  | 0, c, acc, _ => by simp [SparseTree.getLoop, digitsOf, rootOf, sides, Nat.mod_one]
  | d + 1, c, acc, h => by
    have hk := Nat.mod_lt (j / A ^ d) hA
    have h0 : db.get (toBytes (rootOf H A (d + 1) c)) = .ok (kids H A d c) := h _ (mem_childLists.mpr (.inl rfl))
    have h1 : idx (kids H A d c) (j / A ^ d % A) = .ok (rootOf H A d (subContents c (A ^ d) (j / A ^ d % A))) := idx_get.mpr (kids_get hk)
    rw [digitsOf, SparseTree.getLoop, h0]
    show (do let next ← idx (kids H A d c) (j / A ^ d % A); _) = _
    rw [h1]
    show SparseTree.getLoop db _ _ _ = _
    rw [getLoop_ok hA d _ _ (fun l hl => h l (mem_childLists.mpr (.inr ⟨_, hk, hl⟩))), sub_mod]
    simp [sides]

/-! ## Updates -/

/-- One step of `update` towards the root. -/
def TreeOps.step (T : TreeOps F) (d : ℕ) (side : List F) (v : F) (db : HashDb (List F)) : Res (F × HashDb (List F)) := do
  let e ← vecInsert side d v
  if e.length ≠ T.arity then Res.panic "clone_from_slice: lengths differ" else
  let h ← T.hash e
  return (h, db.insert (toBytes h) e)

/-- `update` as a recursion from the root. -/
def TreeOps.climb (T : TreeOps F) : List (ℕ × List F) → F → HashDb (List F) → Res (F × HashDb (List F))
  | [], v, db => .ok (v, db)
  | (d, s) :: ls, v, db => do
    let (h, db) ← TreeOps.climb T ls v db
    T.step d s h db

theorem updateLoop_snoc (T : TreeOps F) (d : ℕ) (s : List F) : ∀ (ds : List ℕ) (ss : List (List F)) (v : F) (db : HashDb (List F)), ds.length = ss.length →
    SparseTree.updateLoop T (ds ++ [d]) (s :: ss) v db = (do
      let (h, db) ← SparseTree.updateLoop T ds ss v db
      T.step d s h db)
  | [], [], v, db, _ => by
    simp only [List.nil_append, SparseTree.updateLoop, List.getLast?_singleton, TreeOps.step]
    rfl
  | e :: ds, ss, v, db, h => by
    have hne : ss ≠ [] := by rintro rfl; simp at h
    obtain ⟨x, hx⟩ : ∃ x, ss.getLast? = some x := ⟨_, List.getLast?_eq_some_getLast hne⟩
    have hx' : (s :: ss).getLast? = some x := by rw [List.getLast?_cons, hx]; rfl
    have hd : (s :: ss).dropLast = s :: ss.dropLast := List.dropLast_cons_of_ne_nil hne
    rw [List.cons_append, SparseTree.updateLoop, SparseTree.updateLoop, hx', hx, hd]
    simp only
    cases hv : vecInsert x e v with
    | error f => rfl
    | ok y =>
      simp only [bind, Except.bind]
      split
      · rfl
      · cases hh : T.hash y with
        | error f => rfl
        | ok z =>
          simp only
          rw [updateLoop_snoc T d s ds ss.dropLast z _ (by simp at h ⊢; omega)]
          rfl

theorem updateLoop_eq (T : TreeOps F) : ∀ (ds : List ℕ) (ss : List (List F)) (v : F) (db : HashDb (List F)), ds.length = ss.length →
    SparseTree.updateLoop T ds.reverse ss v db = T.climb (ds.zip ss) v db
  | [], _, v, db, _ => rfl
  | d :: ds, s :: ss, v, db, h => by
    rw [List.reverse_cons, updateLoop_snoc T d s _ _ _ _ (by simpa using h), updateLoop_eq T ds ss v db (by simpa using h)]
    rfl

/-- The hash is defined on child lists, with value `T.digest`. -/
def TreeOps.Total (T : TreeOps F) : Prop := ∀ xs, xs.length = T.arity → T.hash xs = .ok (T.digest xs)

theorem TreeOps.arity_pos (T : TreeOps F) : 0 < T.arity := Nat.two_pow_pos _

theorem climb_ok {T : TreeOps F} (hT : T.Total) {S : List (List F)} (hS : NoCollision T.digest S) {j : ℕ} {v : F} : ∀ d (c c' : ℕ → F) (db : HashDb (List F)),
    (∀ i < T.arity ^ d, c' i = if i = j % T.arity ^ d then v else c i) →
    (∀ l ∈ childLists T.digest T.arity d c', l ∈ S) → (∀ l ∈ childLists T.digest T.arity d c, l ∈ S ∧ db.Has T.digest l) →
    ∃ db', T.climb ((digitsOf T.arity d j).zip (sides T.digest T.arity d c j)) v db = .ok (rootOf T.digest T.arity d c', db') ∧
      (∀ l ∈ childLists T.digest T.arity d c', db'.Has T.digest l) ∧ (∀ l ∈ S, db.Has T.digest l → db'.Has T.digest l)
  | 0, c, c', db, hc, _, _ => ⟨db, by
      have := hc 0 (by simp)
      simp [Nat.mod_one] at this
      simp [TreeOps.climb, digitsOf, rootOf, this], by simp [childLists], fun _ _ h => h⟩
  | d + 1, c, c', db, hc, h1, h2 => by
    set A := T.arity with hAdef
    set H := T.digest with hH
    have hA : 0 < A := T.arity_pos
    set k := j / A ^ d % A with hk
    have hkA : k < A := Nat.mod_lt _ hA
    have hpos : 0 < A ^ d := Nat.pow_pos hA
    have hjm : j % A ^ (d + 1) = k * A ^ d + j % A ^ d := by rw [pow_succ, Nat.mod_mul]; ring
    have hsub : ∀ i < A ^ d, subContents c' (A ^ d) k i = if i = j % A ^ d then v else subContents c (A ^ d) k i := by
      intro i hi
      have hlt : k * A ^ d + i < A ^ (d + 1) := by
        calc k * A ^ d + i < k * A ^ d + A ^ d := by omega
          _ = (k + 1) * A ^ d := by ring
          _ ≤ A * A ^ d := Nat.mul_le_mul_right _ hkA
          _ = A ^ (d + 1) := by ring
      rw [subContents, hc _ hlt, hjm]
      by_cases e : i = j % A ^ d
      · rw [if_pos e, if_pos (by omega)]
      · rw [if_neg e, if_neg (by omega)]; rfl
    have hoth : ∀ k' < A, k' ≠ k → ∀ i < A ^ d, subContents c' (A ^ d) k' i = subContents c (A ^ d) k' i := by
      intro k' hk' hne i hi
      have hlt : k' * A ^ d + i < A ^ (d + 1) := by
        calc k' * A ^ d + i < k' * A ^ d + A ^ d := by omega
          _ = (k' + 1) * A ^ d := by ring
          _ ≤ A * A ^ d := Nat.mul_le_mul_right _ hk'
          _ = A ^ (d + 1) := by ring
      rw [subContents, hc _ hlt, hjm, if_neg]
      · rfl
      · intro e
        apply hne
        have h3 := congrArg (· / A ^ d) e
        simp only [Nat.add_div_of_dvd_right (Dvd.intro_left k' rfl), Nat.add_div_of_dvd_right (Dvd.intro_left k rfl), Nat.mul_div_cancel _ hpos, Nat.div_eq_of_lt hi,
          Nat.div_eq_of_lt (Nat.mod_lt j hpos)] at h3
        simpa using h3
    obtain ⟨db1, e1, p1, q1⟩ := climb_ok hT hS d (subContents c (A ^ d) k) (subContents c' (A ^ d) k) db hsub
      (fun l hl => h1 l (mem_childLists.mpr (.inr ⟨k, hkA, hl⟩))) (fun l hl => h2 l (mem_childLists.mpr (.inr ⟨k, hkA, hl⟩)))
    have hset : (kids H A d c).set k (rootOf H A d (subContents c' (A ^ d) k)) = kids H A d c' := by
      apply List.ext_getElem?
      intro i
      by_cases hi : i < A
      · rw [kids_get hi, List.getElem?_set]
        by_cases e : k = i
        · subst e; simp [kids_length, hkA]
        · rw [if_neg e, kids_get hi]
          exact congrArg some (rootOf_congr H A d _ _ fun i' hi' => (hoth i hi (Ne.symm e) i' hi').symm)
      · rw [List.getElem?_eq_none (by simp [kids_length]; omega), List.getElem?_eq_none (by simp [kids_length]; omega)]
    have hins : vecInsert ((kids H A d c).eraseIdx k) k (rootOf H A d (subContents c' (A ^ d) k)) = .ok (kids H A d c') := by
      have hlen : k < (kids H A d c).length := by rw [kids_length]; exact hkA
      rw [vecInsert, if_pos (by rw [List.length_eraseIdx_of_lt hlen]; omega), List.insertIdx_eraseIdx_self (Nat.ne_of_lt hlen), hset]
    have hhash : T.hash (kids H A d c') = .ok (rootOf H A (d + 1) c') := hT _ (kids_length ..)
    have hkS : kids H A d c' ∈ S := h1 _ (mem_childLists.mpr (.inl rfl))
    refine ⟨db1.insert (toBytes (rootOf H A (d + 1) c')) (kids H A d c'), ?_, ?_, ?_⟩
    · rw [digitsOf, sides, List.zip_cons_cons, TreeOps.climb, ← hk, e1]
      show T.step k ((kids H A d c).eraseIdx k) (rootOf H A d (subContents c' (A ^ d) k)) db1 = _
      rw [TreeOps.step, hins]
      show (if (kids H A d c').length ≠ T.arity then _ else _) = _
      rw [if_neg (by simp [kids_length, hAdef]), hhash]
      rfl
    · intro l hl
      rcases mem_childLists.mp hl with rfl | ⟨k', hk', hl'⟩
      · exact HashDb.get_insert_self ..
      · refine HashDb.Has.insert hS ?_ (h1 l hl) hkS
        by_cases e : k' = k
        · subst e; exact p1 l hl'
        · rw [childLists_congr H A d _ _ (hoth k' hk' e)] at hl'
          obtain ⟨a, b⟩ := h2 l (mem_childLists.mpr (.inr ⟨k', hk', hl'⟩))
          exact q1 l a b
    · intro l hl h
      exact HashDb.Has.insert hS (q1 l hl h) hl hkS

/-! ## Histories -/

theorem sub_zero (n k : ℕ) : subContents (fun _ => (0 : F)) n k = fun _ => 0 := rfl

theorem kids_zero (H : List F → F) (A d : ℕ) : kids H A d (fun _ => 0) = List.replicate A (rootOf H A d fun _ => 0) := by
  simp [kids, sub_zero, List.eq_replicate_iff]

theorem newLoop_ok {T : TreeOps F} (hT : T.Total) {S : List (List F)} (hS : NoCollision T.digest S) : ∀ n m (db : HashDb (List F)),
    (∀ l ∈ childLists T.digest T.arity (m + n) (fun _ => 0), l ∈ S) → (∀ l ∈ childLists T.digest T.arity m (fun _ => 0), l ∈ S ∧ db.Has T.digest l) →
    ∃ db', SparseTree.newLoop T n (rootOf T.digest T.arity m fun _ => 0) db = .ok (rootOf T.digest T.arity (m + n) (fun _ => 0), db') ∧
      ∀ l ∈ childLists T.digest T.arity (m + n) (fun _ => 0), db'.Has T.digest l
  | 0, m, db, _, h2 => ⟨db, rfl, fun l hl => (h2 l hl).2⟩
  | n + 1, m, db, h1, h2 => by
    have hmono : ∀ i (l : List F), l ∈ childLists T.digest T.arity (m + 1) (fun _ => 0) → l ∈ childLists T.digest T.arity (m + 1 + i) (fun _ => 0) := by
      intro i
      induction i with
      | zero => exact fun l h => h
      | succ i ih => exact fun l h => mem_childLists.mpr (.inr ⟨0, T.arity_pos, by rw [sub_zero]; exact ih l h⟩)
    have hin : ∀ l ∈ childLists T.digest T.arity (m + 1) (fun _ => 0), l ∈ S := fun l hl => h1 l (by
      have := hmono n l hl
      rwa [show m + 1 + n = m + (n + 1) by omega] at this)
    have hk : kids T.digest T.arity m (fun _ => 0) ∈ S := hin _ (mem_childLists.mpr (.inl rfl))
    have hhash : T.hash (List.replicate T.arity (rootOf T.digest T.arity m fun _ => 0)) = .ok (rootOf T.digest T.arity (m + 1) fun _ => 0) := by
      rw [rootOf_succ, kids_zero]; exact hT _ (by simp)
    obtain ⟨db', e, p⟩ := newLoop_ok hT hS n (m + 1) (db.insert (toBytes (rootOf T.digest T.arity (m + 1) fun _ => 0)) (kids T.digest T.arity m fun _ => 0))
      (by rwa [show m + 1 + n = m + (n + 1) by omega]) (fun l hl => ⟨hin l hl, by
        rcases mem_childLists.mp hl with rfl | ⟨k', hk', hl'⟩
        · exact HashDb.get_insert_self ..
        · rw [sub_zero] at hl'
          exact HashDb.Has.insert hS (h2 l hl').2 (h2 l hl').1 hk⟩)
    refine ⟨db', ?_, by rwa [show m + 1 + n = m + (n + 1) by omega] at p⟩
    rw [SparseTree.newLoop]
    simp only [hhash, bind, Except.bind]
    rw [← kids_zero, e, show m + 1 + n = m + (n + 1) by omega]

theorem written_snoc (N : ℕ) (h : History F) (w : F × F) (i : ℕ) : written N (h ++ [w]) i = if IntRep.rep w.1 % N = i then w.2 else written N h i := by
  rw [written, List.reverse_append, List.reverse_singleton, List.singleton_append, List.find?_cons]
  by_cases e : IntRep.rep w.1 % N = i
  · simp [e]
  · simp only [e, decide_false, if_false]; rfl

theorem getBaseRepr_ok {b : ℕ} {x : F} {n : ℕ} (h : getByteSize n (2 ^ b) ≤ ByteRep.modBytes F) : getBaseRepr b x n = .ok (digitsOf (2 ^ b) n (IntRep.rep x)) := by
  rw [getBaseRepr, if_neg (by omega), baseLoop_digits]

theorem get_ok {T : TreeOps F} {t : SparseTree F} {db : HashDb (List F)} {c : ℕ → F} (hd : getByteSize t.depth (2 ^ T.bits) ≤ ByteRep.modBytes F)
    (hr : t.root = rootOf T.digest T.arity t.depth c) (hdb : ∀ l ∈ childLists T.digest T.arity t.depth c, db.Has T.digest l) (i : F) (proof : Option (List (List F))) :
    t.get T i proof db = .ok (c (IntRep.rep i % T.arity ^ t.depth), proof.map (· ++ sides T.digest T.arity t.depth c (IntRep.rep i))) := by
  rw [SparseTree.get, leafIndexToPath, getBaseRepr_ok hd]
  simp only [bind, Except.bind]
  have := getLoop_ok (H := T.digest) (A := T.arity) T.arity_pos (db := db) (j := IntRep.rep i) t.depth c [] hdb
  rw [hr]
  simp only [TreeOps.arity] at this ⊢
  rw [this]
  rfl

theorem update_ok {T : TreeOps F} (hT : T.Total) {S : List (List F)} (hS : NoCollision T.digest S) {t : SparseTree F} {db : HashDb (List F)} {c c' : ℕ → F} {i v : F}
    (hd : getByteSize t.depth (2 ^ T.bits) ≤ ByteRep.modBytes F) (hr : t.root = rootOf T.digest T.arity t.depth c)
    (hdb : ∀ l ∈ childLists T.digest T.arity t.depth c, l ∈ S ∧ db.Has T.digest l)
    (hc : ∀ k < T.arity ^ t.depth, c' k = if k = IntRep.rep i % T.arity ^ t.depth then v else c k) (hin : ∀ l ∈ childLists T.digest T.arity t.depth c', l ∈ S) :
    ∃ db', t.update T i v db = .ok (rootOf T.digest T.arity t.depth c', ⟨t.depth, rootOf T.digest T.arity t.depth c'⟩, db') ∧
      (∀ l ∈ childLists T.digest T.arity t.depth c', db'.Has T.digest l) ∧ (∀ l ∈ S, db.Has T.digest l → db'.Has T.digest l) := by
  obtain ⟨db', e, p, q⟩ := climb_ok hT hS (j := IntRep.rep i) (v := v) t.depth c c' db hc hin hdb
  refine ⟨db', ?_, p, q⟩
  rw [SparseTree.update, get_ok hd hr (fun l hl => (hdb l hl).2) i (some [])]
  simp only [bind, Except.bind, Option.map_some, List.nil_append]
  rw [leafIndexToPath, getBaseRepr_ok hd]
  simp only
  rw [updateLoop_eq T _ _ _ _ (by rw [digitsOf_length, sides_length])]
  simp only [TreeOps.arity] at e ⊢
  rw [e]
  rfl

theorem prefix_snoc {α : Type} {h' h : List α} {w : α} (hp : h' <+: h ++ [w]) : h' = h ++ [w] ∨ h' <+: h := List.prefix_concat_iff.mp hp

theorem runHistory_ok {T : TreeOps F} (hT : T.Total) {depth : ℕ} (hd : getByteSize depth (2 ^ T.bits) ≤ ByteRep.modBytes F) (db0 : HashDb (List F)) {S : List (List F)}
    (hS : NoCollision T.digest S) (h : History F) (hin : ∀ l ∈ historyLists T.digest T.arity depth h, l ∈ S) :
    ∃ db, runHistory T depth db0 h = .ok (⟨depth, rootOf T.digest T.arity depth (written (T.arity ^ depth) h)⟩, db) ∧
      ∀ h', h' <+: h → ∀ l ∈ childLists T.digest T.arity depth (written (T.arity ^ depth) h'), db.Has T.digest l := by
  induction h using List.reverseRecOn with
  | nil =>
    have h0 : ∀ l ∈ childLists T.digest T.arity depth (fun _ => 0), l ∈ S := fun l hl => hin l (by
      simp only [historyLists, List.inits, List.flatMap_cons, List.flatMap_nil, List.append_nil]; exact hl)
    obtain ⟨db, e, p⟩ := newLoop_ok hT hS depth 0 db0 (by simpa using h0) (by simp [childLists])
    simp only [Nat.zero_add] at e p
    refine ⟨db, ?_, ?_⟩
    · simp only [runHistory, SparseTree.new]
      have e' : SparseTree.newLoop T depth 0 db0 = _ := e
      rw [e']
      rfl
    · intro h' hp
      rw [List.prefix_nil.mp hp]
      exact p
  | append_singleton h w ih =>
    have hsub : ∀ h', h' <+: h ++ [w] → ∀ l ∈ childLists T.digest T.arity depth (written (T.arity ^ depth) h'), l ∈ S := fun h' hp l hl =>
      hin l (List.mem_flatMap.mpr ⟨h', (List.mem_inits h' _).mpr hp, hl⟩)
    obtain ⟨db, e, p⟩ := ih (fun l hl => by
      obtain ⟨h', hp, hl⟩ := List.mem_flatMap.mp hl
      exact hsub h' (((List.mem_inits h' _).mp hp).trans (List.prefix_append h [w])) l hl)
    obtain ⟨db', e', p', q'⟩ := update_ok hT hS (t := ⟨depth, rootOf T.digest T.arity depth (written (T.arity ^ depth) h)⟩) (db := db) (c := written (T.arity ^ depth) h)
      (c' := written (T.arity ^ depth) (h ++ [w])) (i := w.1) (v := w.2) hd rfl
      (fun l hl => ⟨hsub h (List.prefix_append h [w]) l hl, p h List.prefix_rfl l hl⟩)
      (fun k hk => by rw [written_snoc]; simp only [eq_comm]) (hsub _ List.prefix_rfl)
    refine ⟨db', ?_, ?_⟩
    · rw [runHistory] at e ⊢
      obtain ⟨s0, e0, e1⟩ := res_bind_ok.mp e
      rw [e0]
      simp only [bind, Except.bind]
      rw [List.foldlM_append]
      have e1' := e1
      simp only [bind, Except.bind] at e1' ⊢
      rw [e1']
      simp only [List.foldlM_cons, List.foldlM_nil, bind, Except.bind]
      rw [e']
      rfl
    · intro h' hp l hl
      rcases prefix_snoc hp with rfl | hp'
      · exact p' l hl
      · exact q' l (hsub h' hp l hl) (p h' hp' l hl)

/-! ## Proofs -/

/-- `verify_proof` as a recursion from the root. -/
theorem verifyLoop_ok {T : TreeOps F} (depth : ℕ) (proof : List (List F)) : ∀ (ds : List ℕ) (k : ℕ) (v : F), k + ds.length = depth → depth ≤ proof.length →
    SparseTree.verifyLoop T depth proof k ds v = (ds.zip ((proof.take ds.length).reverse)).foldlM (fun v e => do
      let p ← vecInsert e.2 e.1 v
      T.hash p) v
  | [], k, v, _, _ => rfl
  | d :: ds, k, v, hk, hl => by
    have hlt : ds.length < proof.length := by simp at hk; omega
    have hx : idx proof (depth - 1 - k) = .ok proof[ds.length] := by
      rw [show depth - 1 - k = ds.length by simp at hk; omega]
      exact idx_get.mpr (List.getElem?_eq_getElem hlt)
    have ht : (proof.take (d :: ds).length).reverse = proof[ds.length] :: (proof.take ds.length).reverse := by
      rw [List.length_cons, List.take_add_one, List.getElem?_eq_getElem hlt]
      simp
    rw [SparseTree.verifyLoop, hx, ht, List.zip_cons_cons, List.foldlM_cons]
    simp only [bind, Except.bind]
    cases vecInsert proof[ds.length] d v with
    | error f => rfl
    | ok y =>
      simp only
      cases T.hash y with
      | error f => rfl
      | ok z =>
        simp only
        rw [verifyLoop_ok depth proof ds (k + 1) z (by simp at hk; omega) hl]
        rfl

theorem foldrM_merkle {T : TreeOps F} (hT : T.Total) {v : F} : ∀ (ls : List (ℕ × List F)), (∀ e ∈ ls, e.1 < T.arity ∧ e.2.length = T.arity - 1) →
    ls.foldrM (fun e v => do
      let p ← vecInsert e.2 e.1 v
      T.hash p) v = Except.ok (ε := Fault) (merkleRoot T.digest ls v)
  | [], _ => rfl
  | e :: ls, h => by
    rw [List.foldrM_cons, foldrM_merkle hT ls fun e he => h e (List.mem_cons_of_mem _ he)]
    obtain ⟨h1, h2⟩ := h e List.mem_cons_self
    have hle : e.1 ≤ e.2.length := by omega
    simp only [bind, Except.bind, vecInsert, if_pos hle, merkleRoot]
    exact hT _ (by rw [List.length_insertIdx_of_le_length hle]; omega)

theorem verifyProof_ok [DecidableEq F] {T : TreeOps F} (hT : T.Total) {t : SparseTree F} (hd : getByteSize t.depth (2 ^ T.bits) ≤ ByteRep.modBytes F) (i v : F)
    {proof : List (List F)} (hl : t.depth ≤ proof.length) (hn : ∀ s ∈ proof, s.length = T.arity - 1) (root : Option F) :
    t.verifyProof T i v proof root = .ok (decide (merkleRoot T.digest ((digitsOf T.arity t.depth (IntRep.rep i)).zip proof) v = root.getD t.root)) := by
  have hlen := digitsOf_length T.arity t.depth (IntRep.rep i)
  have hz : (digitsOf T.arity t.depth (IntRep.rep i)).zip proof = (digitsOf T.arity t.depth (IntRep.rep i)).zip (proof.take t.depth) := by
    have := List.zip_eq_zip_take_min (l₁ := digitsOf T.arity t.depth (IntRep.rep i)) (l₂ := proof)
    rwa [hlen, min_eq_left hl, List.take_of_length_le (by omega)] at this
  have hr : (digitsOf T.arity t.depth (IntRep.rep i)).reverse.zip (proof.take t.depth).reverse = ((digitsOf T.arity t.depth (IntRep.rep i)).zip (proof.take t.depth)).reverse :=
    (List.reverse_zipWith (by rw [hlen, List.length_take]; omega)).symm
  rw [hz, SparseTree.verifyProof, leafIndexToPath, getBaseRepr_ok hd]
  simp only [bind, Except.bind]
  have hv := verifyLoop_ok (T := T) t.depth proof (digitsOf T.arity t.depth (IntRep.rep i)).reverse 0 v (by simp [hlen]) hl
  rw [List.length_reverse, hlen, hr, List.foldlM_reverse, foldrM_merkle hT] at hv
  · simp only [TreeOps.arity] at hv ⊢
    rw [hv]
    rfl
  · intro e he
    obtain ⟨h1, h2⟩ := List.of_mem_zip (a := e.1) (b := e.2) he
    exact ⟨digitsOf_lt T.arity_pos _ _ _ h1, hn _ (List.mem_of_mem_take h2)⟩

theorem verifyProof_length [DecidableEq F] {T : TreeOps F} {t : SparseTree F} {i v : F} {proof : List (List F)} {root : Option F} {b : Bool}
    (h : t.verifyProof T i v proof root = .ok b) : t.depth ≤ proof.length := by
  obtain ⟨path, e1, h⟩ := res_bind_ok.mp h
  obtain ⟨cur, e2, -⟩ := res_bind_ok.mp h
  have hlen : path.reverse.length = t.depth := by
    rw [leafIndexToPath, getBaseRepr] at e1
    split at e1
    · cases e1
    · injection e1 with e1
      rw [← e1, baseLoop_eq]; simp
  cases hp : path.reverse with
  | nil => rw [hp] at hlen; simp at hlen; omega
  | cons d ds =>
    rw [hp] at e2 hlen
    obtain ⟨p, e3, -⟩ := res_bind_ok.mp e2
    have := (List.getElem?_eq_some_iff.mp (idx_get.mp e3)).1
    omega

theorem merkleRoot_sides {H : List F → F} {A : ℕ} (hA : 0 < A) {j : ℕ} : ∀ d (c : ℕ → F), merkleRoot H ((digitsOf A d j).zip (sides H A d c j)) (c (j % A ^ d)) = rootOf H A d c
  | 0, c => by simp [merkleRoot, digitsOf, rootOf, Nat.mod_one]
  | d + 1, c => by
    have hk := Nat.mod_lt (j / A ^ d) hA
    have hlen : j / A ^ d % A < (kids H A d c).length := by rw [kids_length]; exact hk
    rw [digitsOf, sides, List.zip_cons_cons, merkleRoot, ← sub_mod A d j c, merkleRoot_sides hA d, List.insertIdx_eraseIdx_self (Nat.ne_of_lt hlen), rootOf_succ]
    congr 1
    apply List.ext_getElem?
    intro i
    rw [List.getElem?_set]
    split
    · next e => subst e; rw [kids_get hk]
    · rfl

theorem merkle_binding {H : List F → F} {A : ℕ} (hA : 0 < A) {j : ℕ} {v : F} : ∀ d (c : ℕ → F) (ss : List (List F)), ss.length = d → (∀ s ∈ ss, s.length = A - 1) →
    merkleRoot H ((digitsOf A d j).zip ss) v = rootOf H A d c → (v = c (j % A ^ d) ∧ ss = sides H A d c j) ∨
      ∃ a ∈ merkleHashed H ((digitsOf A d j).zip ss) v, ∃ b ∈ childLists H A d c, a ≠ b ∧ H a = H b
  | 0, c, ss, hl, _, h => by
    refine .inl ⟨?_, List.length_eq_zero_iff.mp hl⟩
    simpa [merkleRoot, digitsOf, rootOf, Nat.mod_one] using h
  | d + 1, c, s :: ss, hl, hn, h => by
    have hk := Nat.mod_lt (j / A ^ d) hA
    have hs : s.length = A - 1 := hn s List.mem_cons_self
    rw [digitsOf, List.zip_cons_cons, merkleRoot, rootOf_succ] at h
    by_cases e : s.insertIdx (j / A ^ d % A) (merkleRoot H ((digitsOf A d j).zip ss) v) = kids H A d c
    · have h1 : merkleRoot H ((digitsOf A d j).zip ss) v = rootOf H A d (subContents c (A ^ d) (j / A ^ d % A)) := by
        have := congrArg (·[j / A ^ d % A]?) e
        simp only [kids_get hk] at this
        rw [List.getElem?_insertIdx_self, if_pos (by omega)] at this
        exact Option.some.inj this
      have h2 : s = (kids H A d c).eraseIdx (j / A ^ d % A) := by rw [← e, List.eraseIdx_insertIdx_self]
      rcases merkle_binding hA d _ ss (by simpa using hl) (fun s h => hn s (List.mem_cons_of_mem _ h)) h1 with ⟨p, q⟩ | ⟨a, ha, b, hb, hab⟩
      · exact .inl ⟨by rw [p, sub_mod], by rw [sides, ← h2, ← q]⟩
      · exact .inr ⟨a, by rw [digitsOf, List.zip_cons_cons, merkleHashed]; exact List.mem_cons_of_mem _ ha, b, mem_childLists.mpr (.inr ⟨_, hk, hb⟩), hab⟩
    · exact .inr ⟨_, by rw [digitsOf, List.zip_cons_cons, merkleHashed]; exact List.mem_cons_self, _, mem_childLists.mpr (.inl rfl), e, h⟩

theorem rootOf_binding {H : List F → F} {A : ℕ} : ∀ d (c c' : ℕ → F), rootOf H A d c = rootOf H A d c' → (∀ i < A ^ d, c i = c' i) ∨
      ∃ a ∈ childLists H A d c, ∃ b ∈ childLists H A d c', a ≠ b ∧ H a = H b
  | 0, c, c', h => .inl fun i hi => by
    have : i = 0 := by simpa using hi
    subst this; exact h
  | d + 1, c, c', h => by
    by_cases e : kids H A d c = kids H A d c'
    · have hk : ∀ k < A, rootOf H A d (subContents c (A ^ d) k) = rootOf H A d (subContents c' (A ^ d) k) := by
        intro k hk
        have := congrArg (·[k]?) e
        simpa [kids_get hk] using this
      by_cases hex : ∃ k < A, ∃ a ∈ childLists H A d (subContents c (A ^ d) k), ∃ b ∈ childLists H A d (subContents c' (A ^ d) k), a ≠ b ∧ H a = H b
      · obtain ⟨k, hkA, a, ha, b, hb, hab⟩ := hex
        exact .inr ⟨a, mem_childLists.mpr (.inr ⟨k, hkA, ha⟩), b, mem_childLists.mpr (.inr ⟨k, hkA, hb⟩), hab⟩
      · refine .inl fun i hi => ?_
        have hA : 0 < A := Nat.pos_of_ne_zero fun h0 => by simp [h0] at hi
        have hpos : 0 < A ^ d := Nat.pow_pos hA
        have hkA : i / A ^ d < A := Nat.div_lt_of_lt_mul (by rwa [pow_succ] at hi)
        rcases rootOf_binding d _ _ (hk _ hkA) with h1 | h1
        · have := h1 (i % A ^ d) (Nat.mod_lt _ hpos)
          simpa only [subContents, Nat.div_add_mod'] using this
        · exact absurd ⟨_, hkA, h1⟩ hex
    · exact .inr ⟨_, mem_childLists.mpr (.inl rfl), _, mem_childLists.mpr (.inl rfl), e, h⟩

theorem tree4_total {p : PoseidonParams F} (hp : p.Valid) (hw : p.width = 5) : (tree4 p).Total := by
  intro xs hx
  have hx4 : xs.length = 4 := hx
  have : ∃ y, (tree4 p).hash xs = .ok y := by
    simp only [tree4, poseidonHash4, if_neg (not_not.mpr hx4)]
    exact hashOf_defined _ hp (by omega) (by simp [hx4, hw])
  obtain ⟨y, hy⟩ := this
  rw [TreeOps.digest, hy]

theorem tree8_total {p : PoseidonParams F} (hp : p.Valid) (hw : p.width = 9) : (tree8 p).Total := by
  intro xs hx
  have hx8 : xs.length = 8 := hx
  have : ∃ y, (tree8 p).hash xs = .ok y := by
    simp only [tree8, poseidonHash8, if_neg (not_not.mpr hx8)]
    exact hashOf_defined _ hp (by omega) (by simp [hx8, hw])
  obtain ⟨y, hy⟩ := this
  rw [TreeOps.digest, hy]

theorem getByteSize_4 {n m : ℕ} (h : n ≤ 4 * m) : getByteSize n (2 ^ 2) ≤ m := by
  have : Nat.log 2 (2 ^ 2) = 2 := Nat.log_pow (by omega) 2
  simp only [getByteSize, getBitCount, this]
  split <;> omega

theorem getByteSize_8 {n m : ℕ} (h : 3 * n ≤ 8 * m) : getByteSize n (2 ^ 3) ≤ m := by
  have : Nat.log 2 (2 ^ 3) = 3 := Nat.log_pow (by omega) 3
  simp only [getByteSize, getBitCount, this]
  split <;> omega

end Bp
