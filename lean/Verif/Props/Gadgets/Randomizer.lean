import Verif.Lemmas.Gadgets.RandomizerHonest
import Verif.Props.Gadgets.Merkle

set_option linter.unusedSectionVars false

/-! # C46, C47: the randomizer -/

namespace Bp
variable {F G : Type} [Field F] [AddCommGroup G] [Module F G] [ByteRep F]

/-! ## C46: soundness -/

/-- **C46**, soundness, for the cube and quintic S-boxes: for a new tree with contents `c` hashed with the same S-box, every satisfying assignment has each original value at its index under the committed
original root, and writing the original values into the new tree at the listed indices gives exactly that root. -/
theorem c46_sound (env : Env F G) (g h : G) (sbox : SboxType) (hs : sbox ≠ .inverse) (p : PoseidonParams F) (depth : ℕ) (c : ℕ → F) (t : SparseTree F) (db : HashDb (List F))
    (hr : t.root = rootOf (hasher4 p sbox).digest 4 depth c) (hdb : ∀ l ∈ childLists (hasher4 p sbox).digest 4 depth c, db.Has (hasher4 p sbox).digest l) (indices : List F) :
    SoundForWith (1 + indices.length * (1 + 3 * depth)) [0] [0] (verifyRandomizer env t db indices depth p sbox g h) (Randomized (hasher4 p sbox) depth c indices) :=
  randomizer_sound env g h hs p hr hdb indices

/-- **C46**, soundness for the trees of the crate (which hash with the quintic S-box): after any history of updates. -/
theorem c46_tree_sound (env : Env F G) (g h : G) (p : PoseidonParams F) (hp : p.Valid) (hw : p.width = 5) (depth : ℕ) (hd : depth ≤ 4 * ByteRep.modBytes F) (db0 : HashDb (List F)) (hist : History F)
    (hc : (tree4 p).CollisionFree depth hist) (t : SparseTree F) (db : HashDb (List F)) (hrun : runHistory (tree4 p) depth db0 hist = .ok (t, db)) (indices : List F) :
    SoundForWith (1 + indices.length * (1 + 3 * depth)) [0] [0] (verifyRandomizer env t db indices depth p .quint g h) (Randomized (tree4 p) depth (written (4 ^ depth) hist) indices) := by
  obtain ⟨db', e, k⟩ := run_ok hp (T := tree4 p) (.inl ⟨rfl, hw, hd⟩) db0 hist hc
  rw [hrun] at e
  injection e with e; injection e with e1 e2
  subst e1 e2
  exact c46_sound env g h .quint (by decide) p depth (written (4 ^ depth) hist) _ db rfl (k hist List.prefix_rfl) indices

/-- What the statement means for trees: if the committed original root belongs to a tree with contents `o`, then (unless a hash collision is exhibited) the committed values are those of
`o` at the listed indices, and the new contents `c` agree with `o` at all other indices. -/
theorem randomized_contents (T : TreeOps F) (hA : 2 ≤ T.arity) (depth : ℕ) (c o : ℕ → F) (indices : List F) (v : ℕ → F) (hv : Randomized T depth c indices v) (ho : v 0 = rootOf T.digest T.arity depth o) :
    ((∀ i x, indices[i]? = some x → v (randVal depth i) = o (IntRep.rep x % T.arity ^ depth)) ∧
      ∀ P < T.arity ^ depth, (∀ x ∈ indices, IntRep.rep x % T.arity ^ depth ≠ P) → c P = o P) ∨
    (∃ i x, indices[i]? = some x ∧ ∃ a ∈ merkleHashed T.digest ((digitsOf T.arity depth (IntRep.rep x)).zip (nodesAt (T.arity - 1) depth (randVal depth i + 1) v)) (v (randVal depth i)),
      ∃ b ∈ childLists T.digest T.arity depth o, a ≠ b ∧ T.digest a = T.digest b) ∨
    ∃ a ∈ childLists T.digest T.arity depth (overlay (T.arity ^ depth) (origPairs depth indices v) c), ∃ b ∈ childLists T.digest T.arity depth o, a ≠ b ∧ T.digest a = T.digest b := by
  by_cases h1 : ∃ i x, indices[i]? = some x ∧ ∃ a ∈ merkleHashed T.digest ((digitsOf T.arity depth (IntRep.rep x)).zip (nodesAt (T.arity - 1) depth (randVal depth i + 1) v)) (v (randVal depth i)),
      ∃ b ∈ childLists T.digest T.arity depth o, a ≠ b ∧ T.digest a = T.digest b
  · exact .inr (.inl h1)
  rcases rootOf_binding (H := T.digest) (A := T.arity) depth _ o (hv.2.trans ho) with h2 | h2
  swap
  · exact .inr (.inr h2)
  refine .inl ⟨fun i x hi => ?_, fun P hP hn => ?_⟩
  · have := hv.1 i x hi
    rw [ho] at this
    have hlen : (nodesAt (T.arity - 1) depth (randVal depth i + 1) v).length = depth := by simp [nodesAt]
    have hnode : ∀ s ∈ nodesAt (T.arity - 1) depth (randVal depth i + 1) v, s.length = T.arity - 1 := by
      intro s hs
      simp only [nodesAt, List.mem_map] at hs
      obtain ⟨_, _, rfl⟩ := hs
      simp
    rcases merkle_binding (by omega) depth o _ hlen hnode this with h3 | h3
    · exact h3.1
    · exact absurd ⟨i, x, hi, h3⟩ h1
  · rw [← h2 P hP]
    unfold overlay
    split
    · next w hw =>
      have e1 := List.find?_some hw
      have e2 := List.mem_reverse.mp (List.mem_of_find?_eq_some hw)
      simp only [decide_eq_true_eq] at e1
      obtain ⟨i, hi, rfl⟩ := List.mem_iff_getElem.mp e2
      simp only [origPairs, List.getElem_mapIdx] at e1
      exact absurd e1 (hn _ (List.getElem_mem _))
    · rfl

/-- **C46**, in terms of contents: an accepted statement about a new tree of the crate and a committed root of any contents `o` means that the two differ only at the listed indices and that the committed
values are the original ones, unless an explicit hash collision is at hand. -/
theorem c46_only_listed (env : Env F G) (g h : G) (p : PoseidonParams F) (hp : p.Valid) (hw : p.width = 5) (depth : ℕ) (hd : depth ≤ 4 * ByteRep.modBytes F) (db0 : HashDb (List F)) (hist : History F)
    (hc : (tree4 p).CollisionFree depth hist) (t : SparseTree F) (db : HashDb (List F)) (hrun : runHistory (tree4 p) depth db0 hist = .ok (t, db)) (indices : List F) (o : ℕ → F) :
    SoundForWith (1 + indices.length * (1 + 3 * depth)) [0] [0] (verifyRandomizer env t db indices depth p .quint g h) fun v => v 0 = rootOf (tree4 p).digest 4 depth o →
      ((∀ i x, indices[i]? = some x → v (randVal depth i) = o (IntRep.rep x % 4 ^ depth)) ∧
        ∀ P < 4 ^ depth, (∀ x ∈ indices, IntRep.rep x % 4 ^ depth ≠ P) → written (4 ^ depth) hist P = o P) ∨
      (∃ i x, indices[i]? = some x ∧ ∃ a ∈ merkleHashed (tree4 p).digest ((digitsOf 4 depth (IntRep.rep x)).zip (nodesAt 3 depth (randVal depth i + 1) v)) (v (randVal depth i)),
        ∃ b ∈ childLists (tree4 p).digest 4 depth o, a ≠ b ∧ (tree4 p).digest a = (tree4 p).digest b) ∨
      ∃ a ∈ childLists (tree4 p).digest 4 depth (overlay (4 ^ depth) (origPairs depth indices v) (written (4 ^ depth) hist)), ∃ b ∈ childLists (tree4 p).digest 4 depth o,
        a ≠ b ∧ (tree4 p).digest a = (tree4 p).digest b := by
  intro coms s s' hd'
  obtain ⟨a, b, c, k⟩ := c46_tree_sound env g h p hp hw depth hd db0 hist hc t db hrun indices coms s s' hd'
  exact ⟨a, b, c, fun σ h1 h2 h3 ho => randomized_contents (tree4 p) (show 2 ≤ 2 ^ 2 by norm_num) depth _ o indices _ (k σ h1 h2 h3) ho⟩

/-- A new tree of another depth than the statement's is refused by the verifier, whatever the commitments. -/
theorem c46_other_depth (env : Env F G) (g h : G) (sbox : SboxType) (p : PoseidonParams F) (depth : ℕ) (t : SparseTree F) (ht : t.depth ≠ depth) (db : HashDb (List F)) (indices : List F) (coms : List G)
    (s s' : Verifier F G) : verifyRandomizer env t db indices depth p sbox g h coms s ≠ (.ok (), s') := by
  intro hd
  unfold verifyRandomizer at hd
  obtain ⟨c1, s1, h1, hd⟩ := Drv.bind_ok.mp hd
  obtain ⟨v1, s2, h2, hd⟩ := Drv.bind_ok.mp hd
  obtain ⟨⟨vs, ps⟩, s3, h3, hd⟩ := Drv.bind_ok.mp hd
  obtain ⟨st, s4, h4, hd⟩ := Drv.bind_ok.mp hd
  split at hd
  · rw [Verifier.gadget_ok, randomizerGadget, if_pos ht] at hd
    simp [Verifier.run1, Verifier.run, Res.panic] at hd
  · obtain ⟨h, -⟩ := Drv.lift_ok.mp hd
    cases h

/-! ## C46: completeness -/

theorem Drv.bind_of_ok {S α β : Type} {d : Drv S α} {f : α → Drv S β} {s s1 : S} {a : α} (h : d s = (.ok a, s1)) : (d >>= f) s = f a s1 := by
  show Drv.bind d f s = _
  rw [Drv.bind, h]

theorem Drv.bind_of_error {S α β : Type} {d : Drv S α} {f : α → Drv S β} {s s' : S} {e : Fault} (h : d s = (.error e, s')) : (d >>= f) s = (.error e, s') := by
  show Drv.bind d f s = _
  rw [Drv.bind, h]


section complete
variable {env env' : Env F G} [DecidableEq F]

/-- **C46**, completeness: for two trees of the crate, after any histories whose contents agree outside the listed indices, proving with the original values succeeds and verifying succeeds; the commitments are
to the original root and, for each listed index, the value and the proof returned by `get`. -/
theorem c46_complete (hO : env.oracle = env'.oracle) (p : PoseidonParams F) (hp : p.Valid) (hw : p.width = 5) (depth : ℕ) (h0 : depth ≠ 0) (hd : depth ≤ 4 * ByteRep.modBytes F) (db0 db0' : HashDb (List F))
    (hist hist' : History F) (hc : (tree4 p).CollisionFree depth hist) (hc' : (tree4 p).CollisionFree depth hist') (t t' : SparseTree F) (db db' : HashDb (List F))
    (hrun : runHistory (tree4 p) depth db0 hist = .ok (t, db)) (hrun' : runHistory (tree4 p) depth db0' hist' = .ok (t', db')) (indices : List F)
    (hsame : ∀ i < 4 ^ depth, (∀ x ∈ indices, IntRep.rep x % 4 ^ depth ≠ i) → written (4 ^ depth) hist' i = written (4 ^ depth) hist i) (g h : G) (coins : ℕ → F) (pd : Option ℕ) :
    ∃ data : List (F × List (List F)), List.Forall₂ (fun x e => t.get (tree4 p) x (some []) db = .ok (e.1, some e.2)) indices data ∧
      data.map Prod.fst = indices.map (fun x => written (4 ^ depth) hist (IntRep.rep x % 4 ^ depth)) ∧
      HonestPair env env' pd (2 * (indices.length * (depth * permGates SboxType.quint.gates p))) ((t.root :: data.flatMap fun e => e.1 :: e.2.flatten).mapIdx fun j x => (x, coins j))
        (proveRandomizer env t db t' db' indices (data.map Prod.fst) depth p .quint coins) (verifyRandomizer env' t' db' indices depth p .quint g h) [(0, 0)] := by
  have hT : (tree4 p).IsTree p depth := .inl ⟨rfl, hw, hd⟩
  obtain ⟨db1, e, k⟩ := run_ok hp hT db0 hist hc
  rw [hrun] at e
  injection e with e; injection e with e1 e2
  obtain ⟨db1', e', k'⟩ := run_ok hp hT db0' hist' hc'
  rw [hrun'] at e'
  injection e' with e'; injection e' with e1' e2'
  subst e1 e2 e1' e2'
  have hb : getByteSize depth 4 ≤ ByteRep.modBytes F := getByteSize_4 hd
  have hon := randomizer_honest env env' hO pd g h hp hw h0 hb (o := written (4 ^ depth) hist) (c := written (4 ^ depth) hist') (t := ⟨depth, rootOf (tree4 p).digest (tree4 p).arity depth (written ((tree4 p).arity ^ depth) hist)⟩)
    (t' := ⟨depth, rootOf (tree4 p).digest (tree4 p).arity depth (written ((tree4 p).arity ^ depth) hist')⟩) (db := db) (db' := db') rfl rfl rfl rfl (k hist List.prefix_rfl) (k' hist' List.prefix_rfl) indices hsame coins
  refine ⟨indices.map fun x => (written (4 ^ depth) hist (IntRep.rep x % 4 ^ depth), sides (tree4 p).digest 4 depth (written (4 ^ depth) hist) (IntRep.rep x)), ?_, by simp, ?_⟩
  · rw [List.forall₂_map_right_iff]
    refine List.forall₂_same.mpr fun x _ => ?_
    have := get_ok (T := tree4 p) (t := ⟨depth, rootOf (tree4 p).digest (tree4 p).arity depth (written ((tree4 p).arity ^ depth) hist)⟩) (db := db) (c := written ((tree4 p).arity ^ depth) hist) (isTree_total hp hT).2 rfl
      (k hist List.prefix_rfl) x (some [])
    rw [this]
    rfl
  · rw [List.map_map, List.flatMap_map]
    exact hon

/-- **C46**, end to end. -/
theorem c46_end_to_end [DecidableEq G] (hO : env.oracle = env'.oracle) (hne : ∀ l, env.oracle l ≠ 0) (p : PoseidonParams F) (hp : p.Valid) (hw : p.width = 5) (depth : ℕ) (h0 : depth ≠ 0)
    (hd : depth ≤ 4 * ByteRep.modBytes F) (db0 db0' : HashDb (List F)) (hist hist' : History F) (hc : (tree4 p).CollisionFree depth hist) (hc' : (tree4 p).CollisionFree depth hist') (t t' : SparseTree F)
    (db db' : HashDb (List F)) (hrun : runHistory (tree4 p) depth db0 hist = .ok (t, db)) (hrun' : runHistory (tree4 p) depth db0' hist' = .ok (t', db')) (indices : List F)
    (hsame : ∀ i < 4 ^ depth, (∀ x ∈ indices, IntRep.rep x % 4 ^ depth ≠ i) → written (4 ^ depth) hist' i = written (4 ^ depth) hist i) (g h : G) (coins : ℕ → F)
    (hsz : nextPowerOfTwo (2 * (indices.length * (depth * permGates SboxType.quint.gates p))) < 2 ^ 32)
    (hb : 1 < 2 * (indices.length * (depth * permGates SboxType.quint.gates p)) ∨ env'.batchInvert [] = .ok ([], 1)) :
    ∃ data : List (F × List (List F)), List.Forall₂ (fun x e => t.get (tree4 p) x (some []) db = .ok (e.1, some e.2)) indices data ∧
      EndToEnd env env' (2 * (indices.length * (depth * permGates SboxType.quint.gates p))) ((t.root :: data.flatMap fun e => e.1 :: e.2.flatten).mapIdx fun j x => (x, coins j))
        (proveRandomizer env t db t' db' indices (data.map Prod.fst) depth p .quint coins) (verifyRandomizer env' t' db' indices depth p .quint g h) := by
  obtain ⟨data, h1, -, h2⟩ := c46_complete hO p hp hw depth h0 hd db0 db0' hist hist' hc hc' t t' db db' hrun hrun' indices hsame g h coins none
  exact ⟨data, h1, h2.endToEnd hO hne hsz hb⟩

theorem Prover.commits_eq (vs : List (F × F)) (q : Prover F G) : Prover.commits vs q = (.ok (q.commitAll vs).1, (q.commitAll vs).2) := rfl

/-- A wrong original value makes the prover panic before it commits to it. -/
theorem c46_wrong_value (p : PoseidonParams F) (hp : p.Valid) (hw : p.width = 5) (depth : ℕ) (hd : depth ≤ 4 * ByteRep.modBytes F) (db0 : HashDb (List F)) (hist : History F)
    (hc : (tree4 p).CollisionFree depth hist) (t t' : SparseTree F) (db db' : HashDb (List F)) (hrun : runHistory (tree4 p) depth db0 hist = .ok (t, db)) (x y : F)
    (hy : y ≠ written (4 ^ depth) hist (IntRep.rep x % 4 ^ depth)) (indices vals : List F) (sbox : SboxType) (coins : ℕ → F) (q : Prover F G) :
    (proveRandomizer env t db t' db' (x :: indices) (y :: vals) depth p sbox coins q).1 = Res.panic "assertion `left == right` failed" := by
  have hT : (tree4 p).IsTree p depth := .inl ⟨rfl, hw, hd⟩
  obtain ⟨db1, e, k⟩ := run_ok hp hT db0 hist hc
  rw [hrun] at e
  injection e with e; injection e with e1 e2
  subst e1 e2
  have hget := get_ok (T := tree4 p) (t := ⟨depth, rootOf (tree4 p).digest (tree4 p).arity depth (written ((tree4 p).arity ^ depth) hist)⟩) (db := db) (c := written ((tree4 p).arity ^ depth) hist) (isTree_total hp hT).2 rfl
      (k hist List.prefix_rfl) x (some [])
  unfold proveRandomizer
  rw [Drv.bind_of_ok (Prover.commits_eq _ q)]
  have hco : ∀ k q', commitOrig (G := G) (tree4 p) ⟨depth, rootOf (tree4 p).digest (tree4 p).arity depth (written ((tree4 p).arity ^ depth) hist)⟩ db coins k (x :: indices) (y :: vals) q' =
      (.error (.panic "assertion `left == right` failed"), q') := by
    intro k q'
    unfold commitOrig
    rw [Drv.bind_of_ok (Drv.lift_ok.mpr ⟨hget, rfl⟩)]
    simp only [Option.map_some, ne_eq]
    rw [if_pos (fun h => hy (by rw [← h]; rfl))]
    rfl
  rw [Drv.bind_of_error (hco _ _)]
  rfl

end complete

/-! ## C47 -/

theorem rep_injective {x y : F} (h : IntRep.rep x = IntRep.rep y) : x = y := by rw [← IntRep.cast_rep x, ← IntRep.cast_rep y, h]

theorem indicesLoop_ok [DecidableEq F] (fromBytes : List UInt8 → F) {m : ℕ} (hm : 0 < m) (ho : m ≤ IntRep.order F) (count : ℕ) : ∀ (target : List (List UInt8)) (indices : List F),
    indices.length ≤ count → indices.Nodup → (∀ x ∈ indices, IntRep.rep x < m) →
    ∃ l, indicesLoop fromBytes m count target indices = .ok l ∧ l.length ≤ count ∧ l.Nodup ∧ ∀ x ∈ l, IntRep.rep x < m
  | [], indices, h1, h2, h3 => ⟨indices, rfl, h1, h2, h3⟩
  | b :: target, indices, h1, h2, h3 => by
    unfold indicesLoop
    split
    · next hlt =>
      rw [if_neg (by omega)]
      have hmod := Nat.mod_lt (IntRep.rep (fromBytes b)) hm
      refine indicesLoop_ok fromBytes hm ho count target _ ?_ ?_ ?_
      all_goals
        simp only
        split
      · omega
      · simp; omega
      · exact h2
      · next hn =>
        rw [List.nodup_append]
        exact ⟨h2, by simp, by intro a ha c hc e; rw [List.mem_singleton.mp hc] at e; exact hn (e ▸ ha)⟩
      · exact h3
      · intro x hx
        rcases List.mem_append.mp hx with hx | hx
        · exact h3 x hx
        · rw [List.mem_singleton.mp hx, IntRep.rep_cast _ (by omega)]; exact hmod
    · exact ⟨indices, rfl, h1, h2, h3⟩

/-- **C47**, choice of the indices: for every nonce and every output of the hash, at most `count` distinct indices, all below the data size. -/
theorem c47_indices [DecidableEq F] (shake : List UInt8 → ℕ → UInt8) (fromBytes : List UInt8 → F) (nonce : F) (dataSize count : ℕ) (h0 : 0 < dataSize) (ho : dataSize < IntRep.order F) :
    ∃ l, getIndicesToModify shake fromBytes nonce dataSize count = .ok l ∧ l.length ≤ count ∧ l.Nodup ∧ ∀ x ∈ l, IntRep.rep x < dataSize := by
  unfold getIndicesToModify
  rw [IntRep.rep_cast _ ho]
  exact indicesLoop_ok fromBytes h0 ho.le count _ [] (by simp) .nil (by simp)

/-- With no data and at least one index asked for there is no result. -/
theorem c47_no_data [DecidableEq F] (shake : List UInt8 → ℕ → UInt8) (fromBytes : List UInt8 → F) (nonce : F) (count : ℕ) (hc : 0 < count) (l : List F) :
    getIndicesToModify shake fromBytes nonce 0 count ≠ .ok l := by
  unfold getIndicesToModify
  rw [IntRep.rep_cast 0 (lt_of_le_of_lt (Nat.zero_le _) (IntRep.rep_lt (0 : F)))]
  obtain ⟨n, rfl⟩ : ∃ n, count = n + 1 := ⟨count - 1, by omega⟩
  rw [show 2 * (n + 1) = (2 * n + 1) + 1 by ring, List.range_succ_eq_map, List.map_cons, indicesLoop, if_pos (by simp), if_pos rfl]
  simp [Res.panic]

theorem randomizedLoop_ok (hashMsg : List UInt8 → F) (limbBits : ℕ) : ∀ (indices : List F) (modified : List (F × F)) (cur : List F), (indices.map IntRep.rep).Nodup →
    (∀ x ∈ indices, IntRep.rep x < cur.length) → cur.length ≤ 2 ^ limbBits → ∃ new,
      randomizedLoop hashMsg limbBits indices modified cur = .ok (modified ++ indices.map (fun x => (x, cur.getD (IntRep.rep x) 0)), new) ∧ new.length = cur.length ∧
      ∀ i, i < cur.length → new.getD i 0 = if i ∈ indices.map IntRep.rep then randomize hashMsg (cur.getD i 0) else cur.getD i 0
  | [], modified, cur, _, _, _ => ⟨cur, by simp [randomizedLoop], rfl, by simp⟩
  | x :: indices, modified, cur, hn, hr, hl => by
    rw [List.map_cons, List.nodup_cons] at hn
    have hx := hr x (by simp)
    have hm : IntRep.rep x % 2 ^ limbBits = IntRep.rep x := Nat.mod_eq_of_lt (by omega)
    obtain ⟨new, a1, a2, a3⟩ := randomizedLoop_ok hashMsg limbBits indices (modified ++ [(x, cur.getD (IntRep.rep x) 0)]) (cur.set (IntRep.rep x) (randomize hashMsg (cur.getD (IntRep.rep x) 0))) hn.2
      (fun y hy => by rw [List.length_set]; exact hr y (by simp [hy])) (by rw [List.length_set]; exact hl)
    have hset : ∀ i, (cur.set (IntRep.rep x) (randomize hashMsg (cur.getD (IntRep.rep x) 0))).getD i 0 = if IntRep.rep x = i then randomize hashMsg (cur.getD i 0) else cur.getD i 0 := by
      intro i
      by_cases e : IntRep.rep x = i
      · subst e; simp [List.getD_eq_getElem?_getD, List.getElem?_set, hx]
      · simp [List.getD_eq_getElem?_getD, List.getElem?_set, e]
    refine ⟨new, ?_, by rw [a2, List.length_set], fun i hi => ?_⟩
    · unfold randomizedLoop
      rw [hm, show idx cur (IntRep.rep x) = .ok (cur.getD (IntRep.rep x) 0) by simp [idx, List.getElem?_eq_getElem hx, List.getD_eq_getElem?_getD]]
      show randomizedLoop hashMsg limbBits indices _ _ = _
      rw [a1, List.append_assoc]
      congr 3
      rw [List.map_cons, List.singleton_append]
      congr 1
      apply List.map_congr_left
      intro y hy
      rw [hset, if_neg (fun e => hn.1 (List.mem_map.mpr ⟨y, hy, e.symm⟩))]
    · rw [a3 i (by rw [List.length_set]; exact hi), hset]
      by_cases e : IntRep.rep x = i
      · subst e; rw [if_neg hn.1, if_pos rfl, if_pos (by simp)]
      · rw [if_neg e]
        by_cases hm : i ∈ indices.map IntRep.rep
        · rw [if_pos hm, if_pos (by simp only [List.map_cons, List.mem_cons]; exact .inr hm)]
        · rw [if_neg hm, if_neg (by simp only [List.map_cons, List.mem_cons, not_or]; exact ⟨fun h => e h.symm, hm⟩)]

/-- **C47**, the new data: for distinct indices below the data size (and data that fits the low limb), in any order, exactly the listed positions change, to the hash of the old value; the old values are returned,
each with its index. -/
theorem c47_data [DecidableEq F] (hashMsg : List UInt8 → F) (limbBits : ℕ) (data indices : List F) (hn : indices.Nodup) (hr : ∀ x ∈ indices, IntRep.rep x < data.length) (hl : data.length ≤ 2 ^ limbBits) :
    ∃ new, getRandomizedData hashMsg limbBits data indices = .ok (indices.map (fun x => (x, data.getD (IntRep.rep x) 0)), new) ∧ new.length = data.length ∧
      ∀ i < data.length, new.getD i 0 = if (i : F) ∈ indices ∧ i < IntRep.order F then hashMsg (toBytes (data.getD i 0)) else data.getD i 0 := by
  have hn' : (indices.map IntRep.rep).Nodup := hn.map fun x y h => rep_injective h
  obtain ⟨new, a1, a2, a3⟩ := randomizedLoop_ok hashMsg limbBits indices [] data hn' hr hl
  refine ⟨new, a1, a2, fun i hi => ?_⟩
  rw [a3 i hi]
  have : i ∈ indices.map IntRep.rep ↔ (i : F) ∈ indices ∧ i < IntRep.order F := by
    constructor
    · intro h
      obtain ⟨x, hx, rfl⟩ := List.mem_map.mp h
      exact ⟨by rw [IntRep.cast_rep]; exact hx, IntRep.rep_lt x⟩
    · exact fun h => List.mem_map.mpr ⟨_, h.1, IntRep.rep_cast i h.2⟩
  by_cases h : i ∈ indices.map IntRep.rep
  · rw [if_pos h, if_pos (this.mp h)]; rfl
  · rw [if_neg h, if_neg (fun h' => h (this.mpr h'))]

/-- An index outside the data (whose low limb is outside) panics. -/
theorem c47_out_of_range (hashMsg : List UInt8 → F) (limbBits : ℕ) (data : List F) (x : F) (hx : data.length ≤ IntRep.rep x % 2 ^ limbBits) (indices : List F) :
    getRandomizedData hashMsg limbBits data (x :: indices) = Res.panic "index out of bounds" := by
  unfold getRandomizedData randomizedLoop
  rw [show idx data (IntRep.rep x % 2 ^ limbBits) = Res.panic "index out of bounds" by simp [idx, List.getElem?_eq_none hx]]
  rfl

/-- **C47**, together: the chosen indices, iterated in any order, are always accepted by `get_randomized_data`. -/
theorem c47_compose [DecidableEq F] (shake : List UInt8 → ℕ → UInt8) (fromBytes : List UInt8 → F) (hashMsg : List UInt8 → F) (limbBits : ℕ) (nonce : F) (data : List F) (count : ℕ) (h0 : data ≠ [])
    (ho : data.length < IntRep.order F) (hl : data.length ≤ 2 ^ limbBits) :
    ∃ l, getIndicesToModify shake fromBytes nonce data.length count = .ok l ∧ l.length ≤ count ∧ ∀ l', l'.Perm l → ∃ new,
      getRandomizedData hashMsg limbBits data l' = .ok (l'.map (fun x => (x, data.getD (IntRep.rep x) 0)), new) ∧ new.length = data.length ∧
      ∀ i < data.length, new.getD i 0 = if (i : F) ∈ l then hashMsg (toBytes (data.getD i 0)) else data.getD i 0 := by
  obtain ⟨l, e, h1, h2, h3⟩ := c47_indices shake fromBytes nonce data.length count (List.length_pos_iff.mpr h0) ho
  refine ⟨l, e, h1, fun l' hp => ?_⟩
  obtain ⟨new, a1, a2, a3⟩ := c47_data hashMsg limbBits data l' (hp.nodup_iff.mpr h2) (fun x hx => h3 x (hp.mem_iff.mp hx)) hl
  refine ⟨new, a1, a2, fun i hi => ?_⟩
  rw [a3 i hi]
  by_cases hm : (i : F) ∈ l
  · rw [if_pos ⟨hp.mem_iff.mpr hm, by omega⟩, if_pos hm]
  · rw [if_neg (fun h => hm (hp.mem_iff.mp h.1)), if_neg hm]

/-! ## Examples -/

/-- The history of the original tree and that of a new one: leaves 1 and 14 changed. -/
def demoHistory' : History Fr := [(1, 7), (14, 8), (17, 9), (1, 20), (14, 21)]

theorem demo_collisionFree' : (tree4 demoParams5).CollisionFree 2 demoHistory' := by
  unfold TreeOps.CollisionFree NoCollision
  decide +kernel

theorem demo_same : ∀ i < 4 ^ 2, (∀ x ∈ ([14, 1] : List Fr), IntRep.rep x % 4 ^ 2 ≠ i) → written (4 ^ 2) demoHistory' i = written (4 ^ 2) demoHistory i := by
  intro i hi h
  have h1 : i ≠ 14 := fun e => h 14 (by simp) (by rw [e]; decide +kernel)
  have h2 : i ≠ 1 := fun e => h 1 (by simp) (by rw [e]; decide +kernel)
  clear h
  norm_num at hi
  interval_cases i <;> first | contradiction | decide +kernel

example : ∃ t t' db db' data, runHistory (tree4 demoParams5) 2 HashDb.new demoHistory = .ok (t, db) ∧ runHistory (tree4 demoParams5) 2 HashDb.new demoHistory' = .ok (t', db') ∧
    List.Forall₂ (fun x (e : Fr × List (List Fr)) => t.get (tree4 demoParams5) x (some []) db = .ok (e.1, some e.2)) [14, 1] data ∧
    EndToEnd demoEnv demoEnv (2 * (2 * (2 * permGates SboxType.quint.gates demoParams5))) ((t.root :: data.flatMap fun e => e.1 :: e.2.flatten).mapIdx fun j x => (x, (j : Fr)))
      (proveRandomizer demoEnv t db t' db' [14, 1] (data.map Prod.fst) 2 demoParams5 .quint fun j => (j : Fr)) (verifyRandomizer demoEnv t' db' [14, 1] 2 demoParams5 .quint 5 6) := by
  have hT : (tree4 demoParams5).IsTree demoParams5 2 := .inl ⟨rfl, rfl, by decide⟩
  obtain ⟨db, e, -⟩ := run_ok demoParams5_valid hT HashDb.new demoHistory demo_collisionFree
  obtain ⟨db', e', -⟩ := run_ok demoParams5_valid hT HashDb.new demoHistory' demo_collisionFree'
  obtain ⟨data, h1, h2⟩ := c46_end_to_end (env := demoEnv) (env' := demoEnv) rfl demoEnv_ne_zero demoParams5 demoParams5_valid rfl 2 (by decide) (by decide) HashDb.new HashDb.new demoHistory demoHistory' demo_collisionFree
    demo_collisionFree' _ _ db db' e e' [14, 1] demo_same 5 6 (fun j => (j : Fr)) (by decide +kernel) (.inl (by decide +kernel))
  exact ⟨_, _, db, db', data, e, e', h1, h2⟩

/-- The hypotheses of the soundness theorems. -/
example : ∃ t db, runHistory (tree4 demoParams5) 2 HashDb.new demoHistory' = .ok (t, db) ∧
    SoundForWith (1 + 2 * 7) [0] [0] (verifyRandomizer demoEnv t db [14, 1] 2 demoParams5 .quint (5 : Fr) 6) (Randomized (tree4 demoParams5) 2 (written 16 demoHistory') [14, 1]) := by
  have hT : (tree4 demoParams5).IsTree demoParams5 2 := .inl ⟨rfl, rfl, by decide⟩
  obtain ⟨db, e, -⟩ := run_ok demoParams5_valid hT HashDb.new demoHistory' demo_collisionFree'
  exact ⟨_, db, e, c46_tree_sound demoEnv 5 6 demoParams5 demoParams5_valid rfl 2 (by decide) HashDb.new demoHistory' demo_collisionFree' _ db e [14, 1]⟩

/-- Indices 3 and 1 of 5. -/
example : getIndicesToModify (fun _ i => if i < 48 then 0 else 1) (fun b => if b.head? = some 0 then 8 else 11 : List UInt8 → Fr) 7 5 2 = .ok [3, 1] := by decide +kernel
example : getRandomizedData (fun b => (b.length : Fr)) 58 [10, 11, 12, 13, 14] [3, 1] = .ok ([(3, 13), (1, 11)], [10, 48, 12, 48, 14]) := by decide +kernel
example : ∃ l, getIndicesToModify (fun _ i => if i < 48 then 0 else 1) (fun b => if b.head? = some 0 then 8 else 11 : List UInt8 → Fr) 7 5 2 = .ok l ∧ l.length ≤ 2 ∧ l.Nodup ∧ ∀ x ∈ l, IntRep.rep x < 5 :=
  c47_indices _ _ 7 5 2 (by decide) (by decide +kernel)

end Bp
