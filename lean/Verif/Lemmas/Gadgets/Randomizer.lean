import Verif.Model.Gadgets.Randomizer
import Verif.Spec.Randomizer
import Verif.Lemmas.Gadgets.MerkleGadget
import Mathlib.Data.List.InsertIdx

set_option linter.unusedSectionVars false
set_option linter.unusedSimpArgs false

/-! # The randomizer gadget -/

namespace Bp
variable {F G : Type} [Field F] [AddCommGroup G] [Module F G]
variable {C C' : Type} {rnd : Bool} {α β : Type}
variable {env : Env F G} {σ : Assignment F} {onSpec : C → Prover F G → Prover F G}

/-! ## Contents -/

section overlay
variable [ByteRep F]

theorem overlay_nil (N : ℕ) (c : ℕ → F) : overlay N [] c = c := rfl

theorem overlay_cons (N : ℕ) (w : F × F) (ws : List (F × F)) (c : ℕ → F) : overlay N (w :: ws) c = overlay N ws (overlay N [w] c) := by
  funext i
  simp only [overlay, List.reverse_cons, List.find?_append, List.reverse_nil, List.nil_append]
  cases List.find? (fun w => decide (IntRep.rep w.1 % N = i)) ws.reverse <;> simp

theorem overlay_one (N : ℕ) (w : F × F) (c : ℕ → F) (i : ℕ) : overlay N [w] c i = if IntRep.rep w.1 % N = i then w.2 else c i := by
  simp only [overlay, List.reverse_singleton, List.find?_singleton]
  by_cases h : IntRep.rep w.1 % N = i <;> simp [h]

theorem written_overlay (N : ℕ) (h ws : List (F × F)) : written N (h ++ ws) = overlay N ws (written N h) := by
  funext i
  simp only [overlay, written, List.reverse_append, List.find?_append]
  cases List.find? (fun w => decide (IntRep.rep w.1 % N = i)) ws.reverse <;> simp

end overlay

/-! ## Nodes by path -/

/-- The number of a node on its level. -/
def keyNum (key : List ℕ) : ℕ := Nat.ofDigits 4 key.reverse

theorem keyNum_snoc (key : List ℕ) (k : ℕ) : keyNum (key ++ [k]) = keyNum key * 4 + k := by
  simp [keyNum, Nat.ofDigits_cons]; ring

/-- The node at path `key` (from the root) in the tree of depth `depth` with contents `c`. -/
def nodeAt (H : List F → F) (depth : ℕ) (c : ℕ → F) (key : List ℕ) : F :=
  rootOf H 4 (depth - key.length) (subContents c (4 ^ (depth - key.length)) (keyNum key))

theorem nodeAt_nil (H : List F → F) (depth : ℕ) (c : ℕ → F) : nodeAt H depth c [] = rootOf H 4 depth c := by
  have : subContents c (4 ^ depth) 0 = c := by funext i; simp [subContents]
  simp [nodeAt, keyNum, this]

theorem subContents_snoc (c : ℕ → F) (e n k : ℕ) : subContents (subContents c (4 ^ (e + 1)) n) (4 ^ e) k = subContents c (4 ^ e) (n * 4 + k) := by
  funext i
  simp only [subContents]
  congr 1
  rw [pow_succ]; ring

theorem nodeAt_kids {H : List F → F} {depth : ℕ} {c : ℕ → F} {key : List ℕ} (h : key.length < depth) :
    nodeAt H depth c key = H ((List.range 4).map fun k => nodeAt H depth c (key ++ [k])) := by
  obtain ⟨e, he⟩ : ∃ e, depth - key.length = e + 1 := ⟨depth - key.length - 1, by omega⟩
  have he' : ∀ k, depth - (key ++ [k]).length = e := by intro k; simp; omega
  simp only [nodeAt, he, he', rootOf]
  congr 1
  apply List.map_congr_left
  intro k _
  rw [subContents_snoc, keyNum_snoc]

theorem nodeAt_congr {H : List F → F} {depth : ℕ} {c c' : ℕ → F} {P : ℕ} (hc : ∀ i, i ≠ P → c i = c' i) {key : List ℕ} (h : keyNum key ≠ P / 4 ^ (depth - key.length)) :
    nodeAt H depth c key = nodeAt H depth c' key := by
  refine rootOf_congr H 4 _ _ _ fun i hi => ?_
  simp only [subContents]
  refine hc _ fun e => h ?_
  rw [← e, Nat.mul_comm, Nat.mul_add_div (by positivity), Nat.div_eq_of_lt hi, Nat.add_zero]

theorem ofDigits_digitsOf {A : ℕ} (r : ℕ) : ∀ d, Nat.ofDigits A (digitsOf A d r).reverse = r % A ^ d
  | 0 => by simp [digitsOf, Nat.mod_one]
  | d + 1 => by
    rw [digitsOf, List.reverse_cons, Nat.ofDigits_append, Nat.ofDigits_singleton, ofDigits_digitsOf r d, List.length_reverse, digitsOf_length, Nat.mod_pow_succ]

theorem keyNum_take {depth t r : ℕ} (ht : t ≤ depth) : keyNum ((digitsOf 4 depth r).take t) = r % 4 ^ depth / 4 ^ (depth - t) := by
  have h1 : ((digitsOf 4 depth r).take t).reverse = (digitsOf 4 depth r).reverse.drop (depth - t) := by
    rw [List.drop_reverse, digitsOf_length]; congr 2; omega
  rw [keyNum, h1, ← Nat.ofDigits_div_pow_eq_ofDigits_drop _ (by norm_num) _ (fun x hx => digitsOf_lt (by norm_num) _ _ x (List.mem_reverse.mp hx)), ofDigits_digitsOf]

theorem digits_of_num {A : ℕ} : ∀ path : List ℕ, (∀ d ∈ path, d < A) → Nat.ofDigits A path.reverse < A ^ path.length ∧ digitsOf A path.length (Nat.ofDigits A path.reverse) = path
  | [], _ => by simp [digitsOf]
  | d :: ds, h => by
    obtain ⟨h1, h2⟩ := digits_of_num ds fun x hx => h x (.tail _ hx)
    have hd := h d (.head _)
    rw [List.reverse_cons, Nat.ofDigits_append, Nat.ofDigits_singleton, List.length_reverse, List.length_cons]
    generalize hx : Nat.ofDigits A ds.reverse = x at *
    have hpos : 0 < A ^ ds.length := by omega
    refine ⟨?_, ?_⟩
    · calc x + A ^ ds.length * d < A ^ ds.length + A ^ ds.length * d := by omega
        _ = A ^ ds.length * (d + 1) := by ring
        _ ≤ A ^ ds.length * A := Nat.mul_le_mul_left _ hd
    · rw [digitsOf, Nat.add_mul_div_left _ _ hpos, Nat.div_eq_of_lt h1, Nat.zero_add, Nat.mod_eq_of_lt hd, ← digitsOf_mod, Nat.add_mul_mod_self_left, digitsOf_mod, h2]

/-- A path that does not lead to the leaf `r` keeps its node when only that leaf changes. -/
theorem nodeAt_other {H : List F → F} {depth r : ℕ} {c c' : ℕ → F} (hc : ∀ i, i ≠ r % 4 ^ depth → c i = c' i) {key : List ℕ} (hl : key.length ≤ depth) (hd : ∀ d ∈ key, d < 4)
    (hp : ¬ key <+: digitsOf 4 depth r) : nodeAt H depth c key = nodeAt H depth c' key := by
  refine nodeAt_congr hc fun e => hp ?_
  rw [← keyNum_take hl] at e
  have h1 := (digits_of_num key hd).2
  have h2 := (digits_of_num ((digitsOf 4 depth r).take key.length) fun d hd => digitsOf_lt (by norm_num) _ _ d (List.mem_of_mem_take hd)).2
  rw [show Nat.ofDigits 4 key.reverse = keyNum key from rfl, e] at h1
  rw [show Nat.ofDigits 4 ((digitsOf 4 depth r).take key.length).reverse = keyNum ((digitsOf 4 depth r).take key.length) from rfl, List.length_take, digitsOf_length, Nat.min_eq_left hl, h1] at h2
  rw [h2]
  exact List.take_prefix _ _

theorem nodeAt_leaf (H : List F → F) (depth r : ℕ) (c : ℕ → F) : nodeAt H depth c (digitsOf 4 depth r) = c (r % 4 ^ depth) := by
  have h : keyNum (digitsOf 4 depth r) = r % 4 ^ depth := ofDigits_digitsOf r depth
  simp [nodeAt, digitsOf_length, h, rootOf, subContents]

/-! ## The map -/

theorem NodeMap.get?_insert (m : NodeMap F) (key key' : List ℕ) (lc : LC F) : (m.insert key lc).get? key' = if key = key' then some lc else m.get? key' := by
  unfold NodeMap.get? NodeMap.insert
  by_cases h : key = key'
  · subst h; simp
  · simp only [List.find?_cons, h, decide_false, Bool.false_eq_true, if_false]
    rw [List.find?_filter]
    congr 2
    funext e
    by_cases h' : e.1 = key'
    · simp [h', Ne.symm h]
    · simp [h']

/-- All entries of the map satisfy `R` with the value of their node. -/
def MapInv (R : LC F → F → Prop) (depth : ℕ) (val : List ℕ → F) (m : NodeMap F) : Prop :=
  ∀ key lc, m.get? key = some lc → key.length ≤ depth ∧ (∀ d ∈ key, d < 4) ∧ R lc (val key)

/-- The map has all keys of `m`. -/
def NodeMap.Sub (m m' : NodeMap F) : Prop := ∀ key, (m.get? key).isSome → (m'.get? key).isSome

theorem NodeMap.Sub.refl (m : NodeMap F) : m.Sub m := fun _ h => h
theorem NodeMap.Sub.trans {a b c : NodeMap F} (h : a.Sub b) (h' : b.Sub c) : a.Sub c := fun k hk => h' k (h k hk)
theorem NodeMap.sub_insert (m : NodeMap F) (key : List ℕ) (lc : LC F) : m.Sub (m.insert key lc) := by
  intro k hk
  rw [NodeMap.get?_insert]
  split
  · rfl
  · exact hk

theorem MapInv.insert {R : LC F → F → Prop} {depth : ℕ} {val : List ℕ → F} {m : NodeMap F} (h : MapInv R depth val m) {key : List ℕ} {lc : LC F} (h1 : key.length ≤ depth)
    (h2 : ∀ d ∈ key, d < 4) (h3 : R lc (val key)) : MapInv R depth val (m.insert key lc) := by
  intro k l hk
  rw [NodeMap.get?_insert] at hk
  split at hk
  · next e => subst e; cases hk; exact ⟨h1, h2, h3⟩
  · exact h k l hk

theorem addChildren_ok {R : LC F → F → Prop} (hR : ∀ x, R (LC.ofScalar x) x) {depth : ℕ} {val : List ℕ → F} {pre : List ℕ} (h1 : pre.length < depth) (h2 : ∀ d ∈ pre, d < 4) :
    ∀ (cs : List (F × ℕ)) (m : NodeMap F), (∀ e ∈ cs, e.2 < 4 ∧ e.1 = val (pre ++ [e.2])) → MapInv R depth val m →
      MapInv R depth val (addChildren pre cs m) ∧ m.Sub (addChildren pre cs m) ∧ ∀ e ∈ cs, ((addChildren pre cs m).get? (pre ++ [e.2])).isSome
  | [], m, _, hm => ⟨hm, .refl _, by simp⟩
  | (c, k) :: cs, m, hcs, hm => by
    obtain ⟨hk, hc⟩ := hcs (c, k) (by simp)
    have hm' : MapInv R depth val (if (m.get? (pre ++ [k])).isSome then m else m.insert (pre ++ [k]) (LC.ofScalar c)) ∧
        m.Sub (if (m.get? (pre ++ [k])).isSome then m else m.insert (pre ++ [k]) (LC.ofScalar c)) ∧
        ((if (m.get? (pre ++ [k])).isSome then m else m.insert (pre ++ [k]) (LC.ofScalar c)).get? (pre ++ [k])).isSome := by
      split
      · next h => exact ⟨hm, .refl _, h⟩
      · refine ⟨hm.insert (by simp; omega) ?_ ?_, NodeMap.sub_insert _ _ _, by rw [NodeMap.get?_insert]; simp⟩
        · intro d hd
          rcases List.mem_append.mp hd with h | h
          · exact h2 d h
          · rw [List.mem_singleton.mp h]; exact hk
        · rw [← hc]; exact hR c
    obtain ⟨a1, a2, a3⟩ := addChildren_ok hR h1 h2 cs _ (fun e he => hcs e (by simp [he])) hm'.1
    refine ⟨a1, hm'.2.1.trans a2, fun e he => ?_⟩
    rcases List.mem_cons.mp he with rfl | he
    · exact a2 _ hm'.2.2
    · exact a3 e he

/-- The map knows all children of the inner nodes on the path. -/
def NodeMap.Covers (m : NodeMap F) (path : List ℕ) : Prop := ∀ t < path.length, ∀ k < 4, (m.get? (path.take t ++ [k])).isSome

theorem NodeMap.Covers.sub {m m' : NodeMap F} {path : List ℕ} (h : m.Covers path) (hs : m.Sub m') : m'.Covers path := fun t ht k hk => hs _ (h t ht k hk)

theorem addNodes_ok [ByteRep F] {R : LC F → F → Prop} (hR : ∀ x, R (LC.ofScalar x) x) {H : List F → F} {db : HashDb (List F)} {depth : ℕ} {c : ℕ → F} :
    ∀ (path pre : List ℕ) (m : NodeMap F), pre.length + path.length = depth → (∀ d ∈ pre, d < 4) → (∀ d ∈ path, d < 4) →
      (∀ l ∈ childLists H 4 (depth - pre.length) (subContents c (4 ^ (depth - pre.length)) (keyNum pre)), db.Has H l) → MapInv R depth (nodeAt H depth c) m →
      ∃ m', addNodes db path (nodeAt H depth c pre) pre m = .ok m' ∧ MapInv R depth (nodeAt H depth c) m' ∧ m.Sub m' ∧
        ∀ t < path.length, ∀ k < 4, (m'.get? (pre ++ path.take t ++ [k])).isSome
  | [], pre, m, _, _, _, _, hm => ⟨m, rfl, hm, .refl _, by simp⟩
  | pos :: path, pre, m, hl, h1, h2, hdb, hm => by
    rw [List.length_cons] at hl
    have hlt : pre.length < depth := by omega
    obtain ⟨e, he⟩ : ∃ e, depth - pre.length = e + 1 := ⟨depth - pre.length - 1, by omega⟩
    have he' : ∀ k, depth - (pre ++ [k]).length = e := by intro k; simp; omega
    have hkids : ((List.range 4).map fun k => nodeAt H depth c (pre ++ [k])) = (List.range 4).map fun k => rootOf H 4 e (subContents (subContents c (4 ^ (e + 1)) (keyNum pre)) (4 ^ e) k) := by
      apply List.map_congr_left
      intro k _
      rw [subContents_snoc, nodeAt, he', keyNum_snoc]
    rw [he] at hdb
    have hget : db.get (toBytes (nodeAt H depth c pre)) = .ok ((List.range 4).map fun k => nodeAt H depth c (pre ++ [k])) := by
      rw [nodeAt_kids hlt]
      refine hdb _ ?_
      rw [hkids]
      exact mem_childLists.mpr (.inl rfl)
    have hpos := h2 pos (by simp)
    have hcs := addChildren_ok hR hlt h1 ((List.range 4).map fun k => nodeAt H depth c (pre ++ [k])).zipIdx m (val := nodeAt H depth c) ?_ hm
    swap
    · rintro ⟨x, k⟩ hx
      have := List.mem_zipIdx hx
      simp at this
      exact ⟨by simpa using this.1, this.2⟩
    obtain ⟨m', a1, a2, a3, a4⟩ := addNodes_ok hR (db := db) (H := H) (c := c) path (pre ++ [pos]) (addChildren pre ((List.range 4).map fun k => nodeAt H depth c (pre ++ [k])).zipIdx m) (by simp; omega)
      (by intro d hd; rcases List.mem_append.mp hd with h | h; exacts [h1 d h, by rw [List.mem_singleton.mp h]; exact hpos]) (fun d hd => h2 d (by simp [hd]))
      (by
        rw [he', keyNum_snoc, ← subContents_snoc]
        intro l hl
        exact hdb l (mem_childLists.mpr (.inr ⟨pos, hpos, hl⟩))) hcs.1
    refine ⟨m', ?_, a2, hcs.2.1.trans a3, ?_⟩
    · unfold addNodes
      rw [hget]
      simp only
      rw [show idx ((List.range 4).map fun k => nodeAt H depth c (pre ++ [k])) pos = .ok (nodeAt H depth c (pre ++ [pos])) by simp [idx, hpos]]
      exact a1
    · intro t ht k hk
      cases t with
      | zero =>
        rw [List.take_zero, List.append_nil]
        refine a3 _ (hcs.2.2 (nodeAt H depth c (pre ++ [k]), k) ?_)
        rw [List.mem_zipIdx_iff_getElem?]
        simp [hk]
      | succ t =>
        have := a4 t (by simpa using ht) k hk
        simpa using this


/-! ## Updating a leaf -/

theorem NodeMap.index_ok {m : NodeMap F} {key : List ℕ} {lc : LC F} : m.index key = .ok lc ↔ m.get? key = some lc := by
  unfold NodeMap.index
  split
  · next h => simp [h]
  · next h => simp [h, Res.panic]

theorem levelSiblings_ok {m : NodeMap F} {path : List ℕ} {j pj : ℕ} : ∀ {ks : List ℕ} {L : List (LC F)}, levelSiblings m path j pj ks = .ok L →
    List.Forall₂ (fun k lc => m.get? (path.set j k) = some lc) (ks.filter fun k => pj ≠ k) L
  | [], L, h => by cases h; simp
  | k :: ks, L, h => by
    unfold levelSiblings at h
    by_cases hk : pj = k
    · simp only [hk, ne_eq, not_true_eq_false, if_false] at h
      have := levelSiblings_ok h
      subst hk
      simpa using this
    · simp only [ne_eq, hk, not_false_eq_true, if_true] at h
      obtain ⟨lc, h1, h⟩ := res_bind_ok.mp h
      obtain ⟨rest, h2, h⟩ := res_bind_ok.mp h
      cases h
      simp only [ne_eq, hk, not_false_eq_true, decide_true, List.filter_cons_of_pos]
      exact .cons (NodeMap.index_ok.mp h1) (levelSiblings_ok h2)

theorem levelSiblings_defined {m : NodeMap F} {path : List ℕ} {j pj : ℕ} : ∀ {ks : List ℕ}, (∀ k ∈ ks, (m.get? (path.set j k)).isSome) → ∃ L, levelSiblings m path j pj ks = .ok L
  | [], _ => ⟨[], rfl⟩
  | k :: ks, h => by
    obtain ⟨L, hL⟩ := levelSiblings_defined (pj := pj) (ks := ks) fun k hk => h k (by simp [hk])
    unfold levelSiblings
    by_cases hk : pj = k
    · exact ⟨L, by simp only [hk, ne_eq, not_true_eq_false, if_false]; rw [← hk]; exact hL⟩
    · obtain ⟨lc, hlc⟩ := Option.isSome_iff_exists.mp (h k (by simp))
      refine ⟨lc :: L, ?_⟩
      simp only [ne_eq, hk, not_false_eq_true, if_true]
      rw [NodeMap.index_ok.mpr hlc, hL]; rfl

/-- The invariant of `updatePath` with `n` levels to go on the path to leaf `r`: `val` are the nodes after the update, the entries on the rest of the path are still the old ones. -/
structure UInv (R : LC F → F → Prop) (depth r : ℕ) (val : List ℕ → F) (n : ℕ) (lc : LC F) (m : NodeMap F) : Prop where
  cur : R lc (val ((digitsOf 4 depth r).take n))
  keys : ∀ key l, m.get? key = some l → key.length ≤ depth ∧ (∀ d ∈ key, d < 4) ∧
    (¬ (key <+: digitsOf 4 depth r ∧ (key.length < n ∨ n = depth)) → R l (val key))

theorem take_set {path : List ℕ} {j k : ℕ} (h : j < path.length) : (path.take (j + 1)).set j k = path.take j ++ [k] := by
  rw [List.take_succ_eq_append_getElem h, List.set_append_right _ _ (by simp)]
  have : j - (path.take j).length = 0 := by simp; omega
  rw [this]; rfl

theorem take_erase {path : List ℕ} {j : ℕ} (h : j < path.length) : (path.take (j + 1)).eraseIdx j = path.take j := by
  rw [List.take_succ_eq_append_getElem h, List.eraseIdx_append_of_length_le (by simp)]
  have : j - (path.take j).length = 0 := by simp; omega
  rw [this]; simp

theorem snoc_not_prefix {path : List ℕ} {j k : ℕ} (h : j < path.length) (hk : path[j] ≠ k) : ¬ path.take j ++ [k] <+: path := by
  rintro ⟨t, e⟩
  apply hk
  have := congrArg (fun l => l[j]?) e
  simpa [List.getElem?_append, h, Nat.min_eq_left (Nat.le_of_lt h)] using this.symm

theorem UInv.children {R : LC F → F → Prop} {depth r : ℕ} {val : List ℕ → F} {j : ℕ} {lc : LC F} {m : NodeMap F} (h : UInv R depth r val (j + 1) lc m) (hj : j < depth) {pj : ℕ}
    (hpj : (digitsOf 4 depth r)[j]? = some pj) {L nodes : List (LC F)} (hL : levelSiblings m ((digitsOf 4 depth r).take (j + 1)) j pj (List.range 4) = .ok L) (hn : vecInsert L pj lc = .ok nodes) :
    List.Forall₂ R nodes ((List.range 4).map fun k => val ((digitsOf 4 depth r).take j ++ [k])) := by
  have hlen : j < (digitsOf 4 depth r).length := by rw [digitsOf_length]; exact hj
  have hpj' : (digitsOf 4 depth r)[j] = pj := by rw [List.getElem?_eq_getElem hlen] at hpj; exact Option.some_inj.mp hpj
  have hlt : pj < 4 := digitsOf_lt (by norm_num) depth r pj (hpj' ▸ List.getElem_mem hlen)
  have hs := levelSiblings_ok hL
  simp only [take_set hlen] at hs
  have hs' : List.Forall₂ (fun k lc => R lc (val ((digitsOf 4 depth r).take j ++ [k]))) ((List.range 4).filter fun k => pj ≠ k) L := by
    have hmem : ∀ k ∈ (List.range 4).filter fun k => pj ≠ k, k ≠ pj := by
      intro k hk
      simp at hk
      exact fun e => hk.2 e.symm
    clear hL hn
    generalize (List.range 4).filter (fun k => pj ≠ k) = ks at hs hmem
    induction hs with
    | nil => exact .nil
    | cons h1 _ ih =>
      refine .cons ?_ (ih fun k hk => hmem k (by simp [hk]))
      exact (h.keys _ _ h1).2.2 fun hp => snoc_not_prefix hlen (by rw [hpj']; exact (hmem _ (by simp)).symm) hp.1
  have hcur : R lc (val ((digitsOf 4 depth r).take j ++ [pj])) := by
    have := h.cur
    rwa [List.take_succ_eq_append_getElem hlen, hpj'] at this
  have hl := hs'.length_eq
  unfold vecInsert at hn
  split at hn
  swap
  · cases hn
  injection hn with hn
  subst hn
  have hr4 : List.range 4 = [0, 1, 2, 3] := rfl
  rw [hr4] at hs' ⊢
  interval_cases pj <;> simp only [ne_eq, List.filter_cons, List.filter_nil, decide_not, reduceCtorEq, Nat.reduceEqDiff, decide_false, decide_true, Bool.not_true, Bool.not_false, if_true, if_false,
    Bool.false_eq_true, zero_ne_one, one_ne_zero, not_false_eq_true, OfNat.ofNat_ne_zero, OfNat.zero_ne_ofNat, OfNat.one_ne_ofNat, OfNat.ofNat_ne_one] at hs'
  all_goals
    obtain ⟨a, L1, ha, hs', e1⟩ := List.forall₂_cons_left_iff.mp hs'
    obtain ⟨b, L2, hb, hs', e2⟩ := List.forall₂_cons_left_iff.mp hs'
    obtain ⟨d, L3, hd, hs', e3⟩ := List.forall₂_cons_left_iff.mp hs'
    cases hs'
    subst e3 e2 e1
    simp only [List.insertIdx_zero, List.insertIdx_succ_cons, List.map_cons, List.map_nil]
  · exact .cons hcur (.cons ha (.cons hb (.cons hd .nil)))
  · exact .cons ha (.cons hcur (.cons hb (.cons hd .nil)))
  · exact .cons ha (.cons hb (.cons hcur (.cons hd .nil)))
  · exact .cons ha (.cons hb (.cons hd (.cons hcur .nil)))

theorem UInv.step {R R' : LC F → F → Prop} (hR : ∀ l x, R l x → R' l x) {depth r : ℕ} {val : List ℕ → F} {j : ℕ} {lc h' : LC F} {m : NodeMap F} (h : UInv R depth r val (j + 1) lc m)
    (hj : j < depth) (hh : R' h' (val ((digitsOf 4 depth r).take j))) :
    UInv R' depth r val j h' ((if j + 1 = depth then m.insert ((digitsOf 4 depth r).take (j + 1)) lc else m).insert ((digitsOf 4 depth r).take j) h') := by
  refine ⟨hh, fun key l hk => ?_⟩
  have hlt : ∀ t, ∀ d ∈ (digitsOf 4 depth r).take t, d < 4 := fun t d hd => digitsOf_lt (by norm_num) _ _ d (List.mem_of_mem_take hd)
  rw [NodeMap.get?_insert] at hk
  split at hk
  · next e =>
    cases hk; subst e
    exact ⟨by simp [digitsOf_length], hlt _, fun _ => hh⟩
  next hne =>
  have hpre : key <+: digitsOf 4 depth r → ¬ key.length < j → j + 1 ≤ key.length := by
    intro hp hl
    rcases Nat.lt_or_ge j key.length with h1 | h1
    · exact h1
    · exact absurd ((List.prefix_iff_eq_take.mp hp).trans (by rw [show key.length = j by omega])).symm hne
  by_cases hd : j + 1 = depth
  · rw [if_pos hd, NodeMap.get?_insert] at hk
    split at hk
    · next e =>
      cases hk; subst e
      exact ⟨by simp [digitsOf_length], hlt _, fun _ => hR _ _ h.cur⟩
    next hne' =>
    obtain ⟨a1, a2, a3⟩ := h.keys key l hk
    refine ⟨a1, a2, fun hx => hR _ _ (a3 fun hy => ?_)⟩
    have := hpre hy.1 fun hl => hx ⟨hy.1, .inl hl⟩
    exact hne' ((List.prefix_iff_eq_take.mp hy.1).trans (by rw [show key.length = j + 1 by omega])).symm
  · rw [if_neg hd] at hk
    obtain ⟨a1, a2, a3⟩ := h.keys key l hk
    refine ⟨a1, a2, fun hx => hR _ _ (a3 fun hy => ?_)⟩
    have := hpre hy.1 fun hl => hx ⟨hy.1, .inl hl⟩
    rcases hy.2 with h2 | h2 <;> omega

theorem UInv.start {R : LC F → F → Prop} {H : List F → F} {depth r : ℕ} {c c' : ℕ → F} {x : F} (hc : ∀ i, c' i = if r % 4 ^ depth = i then x else c i) {lc : LC F} (hx : R lc x) {m : NodeMap F}
    (h : MapInv R depth (nodeAt H depth c) m) : UInv R depth r (nodeAt H depth c') depth lc m := by
  refine ⟨?_, fun key l hk => ?_⟩
  · rw [List.take_of_length_le (by rw [digitsOf_length]), nodeAt_leaf, hc, if_pos rfl]; exact hx
  · obtain ⟨a1, a2, a3⟩ := h key l hk
    refine ⟨a1, a2, fun hp => ?_⟩
    rw [← nodeAt_other (c := c) (r := r) (fun i hi => by rw [hc, if_neg hi.symm]) a1 a2 fun hq => hp ⟨hq, .inr rfl⟩]
    exact a3

theorem UInv.finish {R : LC F → F → Prop} {depth r : ℕ} (hd : depth ≠ 0) {val : List ℕ → F} {lc : LC F} {m : NodeMap F} (h : UInv R depth r val 0 lc m) : MapInv R depth val m := by
  intro key l hk
  obtain ⟨a1, a2, a3⟩ := h.keys key l hk
  exact ⟨a1, a2, a3 fun hx => by rcases hx.2 with h | h <;> omega⟩

/-! ## Siblings by level -/

theorem groups_snoc {α : Type} {n : ℕ} : ∀ (m : ℕ) (a b : List α), a.length = n * m → b.length = n → groups n (m + 1) (a ++ b) = groups n m a ++ [b]
  | 0, a, b, ha, hb => by
    have : a = [] := List.length_eq_zero_iff.mp (by simpa using ha)
    subst this
    simp [groups, hb]
  | m + 1, a, b, ha, hb => by
    rw [Nat.mul_succ] at ha
    rw [groups, List.take_append_of_le_length (by omega), List.drop_append_of_le_length (by omega), groups_snoc m _ b (by rw [List.length_drop]; omega) hb]
    rfl

theorem merkleRoot_append (H : List F → F) (b : List (ℕ × List F)) (v : F) : ∀ a, merkleRoot H (a ++ b) v = merkleRoot H a (merkleRoot H b v)
  | [] => rfl
  | (k, s) :: a => by simp only [List.cons_append, merkleRoot, merkleRoot_append H b v a]

/-! ## Soundness -/

theorem VS.origPath (hg : σ.Gates) {sbox : SboxType} (hs : sbox ≠ .inverse) (p : PoseidonParams F) {z : LC F} (hz : z.value σ = 0) : ∀ (path : List ℕ) (nodes : List Var) (cur : LC F),
    nodes.length = 3 * path.length → VS env σ (origPath [z] p sbox.synthesize path nodes cur : Prog F C rnd _) fun l =>
      l.value σ = merkleRoot (hasher4 p sbox).digest (path.reverse.zip (groups 3 path.length (nodes.map σ.val))) (cur.value σ)
  | [], nodes, cur, _ => VS.pure (by simp [merkleRoot])
  | pos :: path, nodes, cur, hl => by
    rw [List.length_cons] at hl
    unfold Bp.origPath
    have hsplit := (List.take_append_drop (3 * path.length) nodes).symm
    rw [popNodes_eq hsplit (by rw [List.length_drop]; omega)]
    refine VS.bind (VS.pure (Q := fun q => q = (nodes.take (3 * path.length), nodes.drop (3 * path.length))) rfl) ?_
    rintro _ rfl
    refine VS.bind (VS.ofRes _) fun proof hp => VS.bind (VS.hash4 hg hs p hz proof) fun h hh => ?_
    refine (VS.origPath hg hs p hz path _ h (by rw [List.length_take]; omega)).mono fun l e => ?_
    rw [e, hh]
    unfold vecInsert at hp
    split at hp
    swap
    · cases hp
    injection hp with hp
    subst hp
    have h3 : (nodes.drop (3 * path.length)).length = 3 := by rw [List.length_drop]; omega
    conv_rhs => rw [hsplit, List.map_append, List.length_cons, groups_snoc _ _ _ (by simp; omega) (by rw [List.length_map, h3]), List.reverse_cons, List.zip_append (by simp [groups_length]),
      merkleRoot_append]
    congr 1
    simp only [List.zip_cons_cons, List.zip_nil_left, merkleRoot]
    congr 1
    rw [List.map_insertIdx, List.map_map]
    congr 1
    apply List.map_congr_left
    intro v _
    simp [LC.value_ofVar]

theorem VS.updatePath (hg : σ.Gates) {sbox : SboxType} (hs : sbox ≠ .inverse) (p : PoseidonParams F) {z : LC F} (hz : z.value σ = 0) {depth r : ℕ} {c : ℕ → F} : ∀ (n : ℕ) (lc : LC F) (m : NodeMap F),
    n ≤ depth → UInv (fun l x => l.value σ = x) depth r (nodeAt (hasher4 p sbox).digest depth c) n lc m →
    VS env σ (updatePath depth [z] p sbox.synthesize n ((digitsOf 4 depth r).take n) lc m : Prog F C rnd _) fun m' =>
      ∃ lc', UInv (fun l x => l.value σ = x) depth r (nodeAt (hasher4 p sbox).digest depth c) 0 lc' m'
  | 0, lc, m, _, h => VS.pure ⟨lc, h⟩
  | j + 1, lc, m, hn, h => by
    unfold Bp.updatePath
    have hlen : j < (digitsOf 4 depth r).length := by rw [digitsOf_length]; exact hn
    refine VS.bind (VS.index _ _) fun pj hpj => VS.bind (VS.ofRes _) fun L hL => VS.bind (VS.ofRes _) fun nodes hno => VS.bind (VS.hash4 hg hs p hz nodes) fun h' hh => ?_
    rw [List.getElem?_take_of_succ] at hpj
    have hch := h.children hn hpj hL hno
    have hval : nodes.map (LC.value σ) = (List.range 4).map fun k => nodeAt (hasher4 p sbox).digest depth c ((digitsOf 4 depth r).take j ++ [k]) := by
      clear hno hh
      generalize ((List.range 4).map fun k => nodeAt (hasher4 p sbox).digest depth c ((digitsOf 4 depth r).take j ++ [k])) = xs at hch
      induction hch with
      | nil => rfl
      | cons h _ ih => rw [List.map_cons, h, ih]
    rw [take_erase hlen]
    refine VS.updatePath hg hs p hz j h' _ (by omega) (h.step (fun _ _ h => h) hn ?_)
    rw [hh, hval, nodeAt_kids (by simp [digitsOf_length]; omega)]

section loops
variable [ByteRep F]

theorem getBase4Repr_eq {x : F} {n : ℕ} {path : List ℕ} (h : getBase4Repr x n = .ok path) : path = digitsOf 4 n (IntRep.rep x) := by
  rw [getBase4Repr, getBaseRepr] at h
  split at h
  · cases h
  · rw [baseLoop_digits] at h
    injection h with h
    exact h.symm

theorem VS.origLoop (hg : σ.Gates) {sbox : SboxType} (hs : sbox ≠ .inverse) (p : PoseidonParams F) {z : LC F} (hz : z.value σ = 0) {depth : ℕ} {c : ℕ → F} {newRoot : F} {db : HashDb (List F)} {root : Var}
    (hr : newRoot = rootOf (hasher4 p sbox).digest 4 depth c) (hdb : ∀ l ∈ childLists (hasher4 p sbox).digest 4 depth c, db.Has (hasher4 p sbox).digest l) :
    ∀ (is : List F) (vs : List Var) (proofs : List (List Var)) (m : NodeMap F), (∀ ns ∈ proofs, ns.length = 3 * depth) →
      MapInv (fun l x => l.value σ = x) depth (nodeAt (hasher4 p sbox).digest depth c) m →
      VS env σ (origLoop depth root newRoot db [z] p sbox.synthesize is vs proofs m : Prog F C rnd _) fun m' =>
        MapInv (fun l x => l.value σ = x) depth (nodeAt (hasher4 p sbox).digest depth c) m' ∧
        ∀ (i : ℕ) (x : F), is[i]? = some x → ∃ (v : Var) (ns : List Var), vs[i]? = some v ∧ proofs[i]? = some ns ∧
          merkleRoot (hasher4 p sbox).digest ((digitsOf 4 depth (IntRep.rep x)).zip (groups 3 depth (ns.map σ.val))) (σ.val v) = σ.val root
  | [], vs, proofs, m, _, hm => by
    unfold Bp.origLoop
    exact VS.pure ⟨hm, by simp⟩
  | x :: is, [], proofs, m, _, _ => by unfold Bp.origLoop; exact VS.panic
  | x :: is, v :: vs, [], m, _, _ => by unfold Bp.origLoop; exact VS.panic
  | x :: is, v :: vs, ns :: proofs, m, hns, hm => by
    unfold Bp.origLoop
    refine VS.bind (VS.ofRes _) fun path hpath => ?_
    have hpath := getBase4Repr_eq hpath
    subst hpath
    refine VS.bind (VS.origPath hg hs p hz _ ns _ (by rw [List.length_reverse, digitsOf_length]; exact hns ns (by simp))) fun h hh => VS.bind (VS.con _) fun _ hc => VS.bind (VS.ofRes _) fun m' hm' => ?_
    have ha := addNodes_ok (R := fun l x => l.value σ = x) (fun x => by simp [LC.value_ofScalar]) (H := (hasher4 p sbox).digest) (db := db) (c := c) (digitsOf 4 depth (IntRep.rep x)) [] m
      (by simp [digitsOf_length]) (by simp) (digitsOf_lt (by norm_num) _ _) (by
        have : subContents c (4 ^ depth) 0 = c := by funext i; simp [subContents]
        simpa [keyNum, this] using hdb) hm
    obtain ⟨m'', a1, a2, -, -⟩ := ha
    rw [nodeAt_nil, ← hr, hm'] at a1
    cases a1
    refine (VS.origLoop hg hs p hz hr hdb is vs proofs m' (fun n hn => hns n (by simp [hn])) a2).mono fun m2 h2 => ⟨h2.1, fun i y hi => ?_⟩
    cases i with
    | zero =>
      cases hi
      refine ⟨v, ns, rfl, rfl, ?_⟩
      rw [List.length_reverse, digitsOf_length, List.reverse_reverse, LC.value_ofVar] at hh
      rw [← hh]
      rw [LC.value_sub, LC.value_ofVar] at hc
      exact sub_eq_zero.mp hc
    | succ i => exact h2.2 i y hi

theorem VS.updateLoop4 (hg : σ.Gates) {sbox : SboxType} (hs : sbox ≠ .inverse) (p : PoseidonParams F) {z : LC F} (hz : z.value σ = 0) {depth : ℕ} (hd : depth ≠ 0) :
    ∀ (is : List F) (vs : List Var) (m : NodeMap F) (c : ℕ → F), MapInv (fun l x => l.value σ = x) depth (nodeAt (hasher4 p sbox).digest depth c) m →
      VS env σ (updateLoop4 depth [z] p sbox.synthesize is vs m : Prog F C rnd _) fun m' => is.length ≤ vs.length ∧
        MapInv (fun l x => l.value σ = x) depth (nodeAt (hasher4 p sbox).digest depth (overlay (4 ^ depth) (is.zip (vs.map σ.val)) c)) m'
  | [], vs, m, c, hm => by unfold Bp.updateLoop4; exact VS.pure ⟨by simp, by simpa [overlay_nil] using hm⟩
  | x :: is, [], m, c, _ => by unfold Bp.updateLoop4; exact VS.panic
  | x :: is, v :: vs, m, c, hm => by
    unfold Bp.updateLoop4
    refine VS.bind (VS.ofRes _) fun path hpath => ?_
    have hpath := getBase4Repr_eq hpath
    subst hpath
    have hu : UInv (fun l x => l.value σ = x) depth (IntRep.rep x) (nodeAt (hasher4 p sbox).digest depth (overlay (4 ^ depth) [(x, σ.val v)] c)) depth (LC.ofVar v) m :=
      UInv.start (c := c) (x := σ.val v) (fun i => overlay_one _ _ _ _) (by rw [LC.value_ofVar]) hm
    have hp := VS.updatePath (env := env) (C := C) (rnd := rnd) hg hs p hz depth (LC.ofVar v) m le_rfl hu
    rw [List.take_of_length_le (by rw [digitsOf_length])] at hp
    refine VS.bind hp ?_
    rintro m' ⟨lc', hm'⟩
    refine (VS.updateLoop4 hg hs p hz hd is vs m' _ (hm'.finish hd)).mono fun m2 h2 => ⟨by simpa using h2.1, ?_⟩
    rw [List.map_cons, List.zip_cons_cons, overlay_cons]
    exact h2.2

theorem VS.updateLoop4_zero {statics : List (LC F)} {p : PoseidonParams F} {synth : LC F → F → Prog F C rnd Var} : ∀ (is : List F) (vs : List Var) (m : NodeMap F),
    VS env σ (Bp.updateLoop4 0 statics p synth is vs m : Prog F C rnd _) fun m' => m' = m
  | [], vs, m => by unfold Bp.updateLoop4; exact VS.pure rfl
  | x :: is, [], m => by unfold Bp.updateLoop4; exact VS.panic
  | x :: is, v :: vs, m => by
    unfold Bp.updateLoop4
    exact VS.bind (VS.ofRes _) fun path _ => VS.bind (VS.pure (Q := fun q => q = m) rfl) fun m' hm' => (VS.updateLoop4_zero is vs m').mono fun m2 h2 => h2.trans hm'

theorem mapInv_root {R : LC F → F → Prop} (hR : ∀ x, R (LC.ofScalar x) x) {H : List F → F} {depth : ℕ} {c : ℕ → F} : MapInv R depth (nodeAt H depth c) ((NodeMap.mk []).insert [] (LC.ofScalar (rootOf H 4 depth c))) := by
  intro key l hk
  rw [NodeMap.get?_insert] at hk
  split at hk
  · next e =>
    subst e; cases hk
    exact ⟨by simp, by simp, by rw [nodeAt_nil]; exact hR _⟩
  · simp [NodeMap.get?] at hk

theorem VS.randomizerGadget (hg : σ.Gates) {sbox : SboxType} (hs : sbox ≠ .inverse) (p : PoseidonParams F) {z : Var} (hz : σ.val z = 0) {depth : ℕ} {c : ℕ → F} {t : SparseTree F} {db : HashDb (List F)} {root : Var}
    (hr : t.root = rootOf (hasher4 p sbox).digest 4 depth c) (hdb : ∀ l ∈ childLists (hasher4 p sbox).digest 4 depth c, db.Has (hasher4 p sbox).digest l)
    (is : List F) (vs : List Var) (proofs : List (List Var)) (hns : ∀ ns ∈ proofs, ns.length = 3 * depth) :
    VS env σ (randomizerGadget depth root t db is vs proofs [z] p sbox.synthesize : Prog F C rnd _) fun _ =>
      (∀ (i : ℕ) (x : F), is[i]? = some x → ∃ (v : Var) (ns : List Var), vs[i]? = some v ∧ proofs[i]? = some ns ∧
          merkleRoot (hasher4 p sbox).digest ((digitsOf 4 depth (IntRep.rep x)).zip (groups 3 depth (ns.map σ.val))) (σ.val v) = σ.val root) ∧
      rootOf (hasher4 p sbox).digest 4 depth (overlay (4 ^ depth) (is.zip (vs.map σ.val)) c) = σ.val root := by
  unfold Bp.randomizerGadget
  split
  · exact VS.panic
  split
  · exact VS.panic
  next hd hl =>
  have hz' : (LC.ofVar z : LC F).value σ = 0 := by rw [LC.value_ofVar, hz]
  rw [hr]
  refine VS.bind (VS.origLoop hg hs p hz' rfl hdb is vs proofs _ hns (mapInv_root fun x => by simp [LC.value_ofScalar])) fun m1 h1 => ?_
  by_cases h0 : depth = 0
  · subst h0
    refine VS.bind (VS.updateLoop4_zero is vs m1) fun m2 h2 => VS.bind (VS.ofRes _) fun r hr => (VS.con _).mono fun _ hc => ⟨h1.2, ?_⟩
    subst h2
    have := (h1.1 _ _ (NodeMap.index_ok.mp hr)).2.2
    rw [nodeAt_nil] at this
    rw [LC.value_sub, LC.value_ofVar, this] at hc
    have hc := sub_eq_zero.mp hc
    simp only [rootOf] at hc ⊢
    rw [← hc]
    unfold overlay
    split
    swap
    · rfl
    next w hw =>
    have hw := List.mem_reverse.mp (List.mem_of_find?_eq_some hw)
    obtain ⟨i, hi⟩ := List.mem_iff_getElem?.mp hw
    rw [List.getElem?_zip_eq_some] at hi
    obtain ⟨v, ns, b1, b2, b3⟩ := h1.2 i w.1 hi.1
    rw [List.getElem?_map, b1] at hi
    simp only [digitsOf, List.zip_nil_left, merkleRoot] at b3
    have := hi.2
    simp only [Option.map_some, Option.some.injEq] at this
    rw [← this, b3, hc]
  · refine VS.bind (VS.updateLoop4 hg hs p hz' h0 is vs m1 c h1.1) fun m2 h2 => VS.bind (VS.ofRes _) fun r hr => (VS.con _).mono fun _ hc => ⟨h1.2, ?_⟩
    have := (h2.2 _ _ (NodeMap.index_ok.mp hr)).2.2
    rw [nodeAt_nil] at this
    rw [LC.value_sub, LC.value_ofVar, this] at hc
    exact sub_eq_zero.mp hc

end loops

/-! ## The verifier's commitments -/

theorem commitVals_ok {depth : ℕ} : ∀ {n : ℕ} {coms : List G} {s s' : Verifier F G} {vs : List Var} {ps : List (List Var)}, commitVals depth n coms s = (.ok (vs, ps), s') →
    n * (1 + 3 * depth) ≤ coms.length ∧ s'.V = s.V ++ coms.take (n * (1 + 3 * depth)) ∧ s'.constraints = s.constraints ∧
    vs = (List.range n).map (fun i => Var.committed (s.V.length + i * (1 + 3 * depth))) ∧
    ps = (List.range n).map (fun i => (List.range (3 * depth)).map fun j => Var.committed (s.V.length + i * (1 + 3 * depth) + 1 + j))
  | 0, coms, s, s', vs, ps, h => by
    obtain ⟨h1, rfl⟩ := Drv.pure_ok.mp h
    cases h1
    simp
  | n + 1, coms, s, s', vs, ps, h => by
    unfold commitVals at h
    obtain ⟨c1, s1, h1, h⟩ := Drv.bind_ok.mp h
    obtain ⟨h1', rfl⟩ := Drv.lift_ok.mp h1
    obtain ⟨hl1, rfl⟩ := takeComms_ok.mp h1'
    obtain ⟨v1, s2, h2, h⟩ := Drv.bind_ok.mp h
    rw [Verifier.commits_ok] at h2
    obtain ⟨rfl, rfl⟩ := h2
    obtain ⟨c3, s3, h3, h⟩ := Drv.bind_ok.mp h
    obtain ⟨h3', rfl⟩ := Drv.lift_ok.mp h3
    obtain ⟨hl3, rfl⟩ := takeComms_ok.mp h3'
    obtain ⟨v4, s4, h4, h⟩ := Drv.bind_ok.mp h
    rw [Verifier.commits_ok] at h4
    obtain ⟨rfl, rfl⟩ := h4
    obtain ⟨⟨vs', ps'⟩, s5, h5, h⟩ := Drv.bind_ok.mp h
    obtain ⟨h6, rfl⟩ := Drv.pure_ok.mp h
    injection h6 with h6 h7
    subst h6 h7
    obtain ⟨a1, a2, a3, a4, a5⟩ := commitVals_ok h5
    rw [List.length_drop] at hl3
    simp only [List.length_drop] at a1
    have hN : (n + 1) * (1 + 3 * depth) = 1 + depth * 3 + n * (1 + 3 * depth) := by ring
    have t1 : (coms.take 1).length = 1 := by rw [List.length_take]; omega
    have t2 : ((coms.drop 1).take (depth * 3)).length = depth * 3 := by rw [List.length_take, List.length_drop]; omega
    simp only [List.length_append, t1, t2] at a4 a5
    refine ⟨by rw [hN]; omega, ?_, a3, ?_, ?_⟩
    · rw [a2, hN, List.append_assoc, List.append_assoc]
      congr 1
      rw [List.take_add, List.take_add, ← List.drop_drop, List.append_assoc]
    · rw [a4, List.range_succ_eq_map, t1]
      simp only [List.range_one, List.map_cons, List.map_nil, List.map_map, List.cons_append, List.nil_append, Nat.zero_mul]
      congr 1
      apply List.map_congr_left
      intro i _
      simp only [Function.comp, Nat.succ_mul, Var.committed.injEq]
      omega
    · rw [a5, List.range_succ_eq_map, t2, Nat.mul_comm depth 3]
      simp only [List.map_cons, List.map_map, Nat.zero_mul, Nat.add_zero, List.length_append, t1]
      congr 1
      apply List.map_congr_left
      intro i _
      apply List.map_congr_left
      intro j _
      simp only [Function.comp, Nat.succ_mul, Var.committed.injEq]
      omega

/-- Soundness of the entry point. -/
theorem randomizer_sound [ByteRep F] (env : Env F G) (g h : G) {sbox : SboxType} (hs : sbox ≠ .inverse) (p : PoseidonParams F) {depth : ℕ} {c : ℕ → F} {t : SparseTree F} {db : HashDb (List F)}
    (hr : t.root = rootOf (hasher4 p sbox).digest 4 depth c) (hdb : ∀ l ∈ childLists (hasher4 p sbox).digest 4 depth c, db.Has (hasher4 p sbox).digest l) (indices : List F) :
    SoundForWith (1 + indices.length * (1 + 3 * depth)) [0] [0] (verifyRandomizer env t db indices depth p sbox g h) (Randomized (hasher4 p sbox) depth c indices) := by
  intro coms s s' hd
  unfold verifyRandomizer at hd
  obtain ⟨c1, s1, h1, hd⟩ := Drv.bind_ok.mp hd
  obtain ⟨h1', rfl⟩ := Drv.lift_ok.mp h1
  obtain ⟨hl1, rfl⟩ := takeComms_ok.mp h1'
  obtain ⟨v1, s2, h2, hd⟩ := Drv.bind_ok.mp hd
  rw [Verifier.commits_ok] at h2
  obtain ⟨rfl, rfl⟩ := h2
  obtain ⟨⟨vs, ps⟩, s3, h3, hd⟩ := Drv.bind_ok.mp hd
  obtain ⟨a1, a2, a3, a4, a5⟩ := commitVals_ok h3
  obtain ⟨st, s4, h4, hd⟩ := Drv.bind_ok.mp hd
  rw [allocateStaticsForVerifier_one, Verifier.commits_ok] at h4
  obtain ⟨rfl, rfl⟩ := h4
  have t1 : (coms.take 1).length = 1 := by rw [List.length_take]; omega
  rw [List.length_drop] at a1
  simp only [t1, List.range_one, List.map_cons, List.map_nil, Nat.add_zero, List.length_cons, List.length_nil, Nat.zero_add] at hd
  obtain ⟨b1, b2, b3⟩ := Verifier.gadget_sound hd
  have hV : s3.V = s.V ++ coms.take (1 + indices.length * (1 + 3 * depth)) := by
    rw [a2]
    simp only
    rw [List.append_assoc, List.take_add]
  have hVl : s3.V.length = s.V.length + (1 + indices.length * (1 + 3 * depth)) := by
    rw [hV, List.length_append, List.length_take]; omega
  refine ⟨by omega, by rw [← a3]; exact b1, by rw [b2, ← hV], fun σ hg hsat hst => ?_⟩
  have h0 := hst 0 0 rfl
  rw [Nat.add_zero, ← hVl] at h0
  subst a4 a5
  refine b3 (Q := fun _ => _) ((VS.randomizerGadget hg hs p (by simpa [Assignment.val] using h0) hr hdb _ _ _ (by simp)).mono fun _ hx => ?_) hsat
  simp only [List.length_append, t1] at hx
  obtain ⟨x1, x2⟩ := hx
  refine ⟨fun i x hi => ?_, ?_⟩
  · obtain ⟨v, ns, e1, e2, e3⟩ := x1 i x hi
    have hil := (List.getElem?_eq_some_iff.mp hi).1
    simp only [List.getElem?_map, List.getElem?_range hil, Option.map_some, Option.some.injEq] at e1 e2
    subst e1 e2
    rw [List.map_map] at e3
    have hg3 := groups_nodesAt 3 (fun i => σ.committed (s.V.length + i)) depth (randVal depth i + 1)
    show merkleRoot (hasher4 p sbox).digest ((digitsOf 4 depth (IntRep.rep x)).zip (nodesAt 3 depth (randVal depth i + 1) fun i => σ.committed (s.V.length + i))) (σ.committed (s.V.length + randVal depth i)) = _
    rw [← hg3]
    have hx : ((List.range (3 * depth)).map fun j => σ.committed (s.V.length + (randVal depth i + 1 + j))) =
        (List.range (3 * depth)).map (σ.val ∘ fun j => Var.committed (s.V.length + 1 + i * (1 + 3 * depth) + 1 + j)) := by
      apply List.map_congr_left
      intro j _
      simp only [Function.comp, Assignment.val, randVal, Nat.add_assoc]
    rw [hx]
    simpa only [Assignment.val, randVal, Nat.add_zero, Nat.add_assoc] using e3
  · have x2 := x2.trans (show σ.val (Var.committed s.V.length) = σ.committed (s.V.length + 0) from rfl)
    show rootOf (hasher4 p sbox).digest 4 depth (overlay (4 ^ depth) (origPairs depth indices fun i => σ.committed (s.V.length + i)) c) = σ.committed (s.V.length + 0)
    rw [← x2]
    congr 2
    apply List.ext_getElem
    · simp [origPairs]
    · intro i h1 h2
      simp [origPairs, randVal, Assignment.val, Nat.add_assoc]

end Bp
