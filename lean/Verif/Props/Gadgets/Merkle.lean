import Verif.Lemmas.Gadgets.MerkleGadget
import Verif.Props.Gadgets.Tree

set_option linter.unusedSectionVars false

/-! # C41, C42, C43, C48: Merkle inclusion statements -/

namespace Bp
variable {F G : Type} [Field F] [AddCommGroup G] [Module F G] [ByteRep F]

theorem levels4 (depth : ℕ) : depth ≤ 4 * getByteSize depth 4 := by
  have : Nat.log 2 4 = 2 := Nat.log_pow (b := 2) (by omega) 2
  simp only [getByteSize, getBitCount, this]
  split <;> omega

/-! ## Soundness, for every vector of commitments (C43: what does hold) -/

/-- **C43**, what holds: a 4-ary verifier given `2 + n` commitments that does not fail has set up a statement about `m = n / 3` levels (at most four times the bytes needed for `depth` levels):
every satisfying assignment has a path of `m` base-4 digits, whose value is the committed index, from the root to the committed leaf; and the nodes fill all levels, unless there are more than
the code looks at.  Missing for C43: `m = depth`; `c43_inner_node_4` and `c43_not_enforced_4` show that it does not hold. -/
theorem c43_levels_4_partial (env : Env F G) (root : F) (depth : ℕ) (p : PoseidonParams F) (sbox : SboxType) (hs : sbox ≠ .inverse) (g h : G) (n : ℕ) :
    SoundForExactly (2 + n) [0] [0] (verifyInclusion4 env root depth p sbox g h) (fun v => (n / 3 < 4 * getByteSize depth 4 → 3 ∣ n) ∧
      IncludedFrom (hasher4 p sbox) (min (4 * getByteSize depth 4) (n / 3)) (2 + n - 3 * min (4 * getByteSize depth 4) (n / 3)) root v) :=
  inclusion_sound env g h (hasher4 p sbox) (show 2 ≤ 2 ^ 2 by norm_num) _ root (fun _ hg leaf index nodes _ hz => VS.merkleGadget4 hg hs p hz depth root leaf index nodes) n

/-- **C43**, what holds for the 8-ary verifier: the statement is about `min depth (n / 7)` levels. -/
theorem c43_levels_8_partial (env : Env F G) (root : F) (depth : ℕ) (p : PoseidonParams F) (sbox : SboxType) (hs : sbox ≠ .inverse) (g h : G) (n : ℕ) :
    SoundForExactly (2 + n) [0] [0] (verifyInclusion8 env root depth p sbox g h) (fun v => (n / 7 < depth → 7 ∣ n) ∧
      IncludedFrom (hasher8 p sbox) (min depth (n / 7)) (2 + n - 7 * min depth (n / 7)) root v) :=
  inclusion_sound env g h (hasher8 p sbox) (show 2 ≤ 2 ^ 3 by norm_num) _ root (fun _ hg leaf index nodes _ hz => VS.merkleGadget8 hg hs p hz depth root leaf index nodes) n

/-- **C41**, soundness: given leaf, index and `3 * depth` nodes. -/
theorem c41_sound (env : Env F G) (root : F) (depth : ℕ) (p : PoseidonParams F) (sbox : SboxType) (hs : sbox ≠ .inverse) (g h : G) :
    SoundForExactly (2 + 3 * depth) [0] [0] (verifyInclusion4 env root depth p sbox g h) (Included (hasher4 p sbox) depth root) := by
  have := c43_levels_4_partial env root depth p sbox hs g h (3 * depth)
  rw [Nat.mul_div_cancel_left _ (by omega), Nat.min_eq_right (levels4 depth), Nat.add_sub_cancel] at this
  intro coms s s' hl hd
  obtain ⟨a, b, c⟩ := this coms s s' hl hd
  exact ⟨a, b, fun σ h1 h2 h3 => (c σ h1 h2 h3).2⟩

/-- **C42**, soundness: given leaf, index and `7 * depth` nodes. -/
theorem c42_sound (env : Env F G) (root : F) (depth : ℕ) (p : PoseidonParams F) (sbox : SboxType) (hs : sbox ≠ .inverse) (g h : G) :
    SoundForExactly (2 + 7 * depth) [0] [0] (verifyInclusion8 env root depth p sbox g h) (Included (hasher8 p sbox) depth root) := by
  have := c43_levels_8_partial env root depth p sbox hs g h (7 * depth)
  rw [Nat.mul_div_cancel_left _ (by omega), Nat.min_self, Nat.add_sub_cancel] at this
  intro coms s s' hl hd
  obtain ⟨a, b, c⟩ := this coms s s' hl hd
  exact ⟨a, b, fun σ h1 h2 h3 => (c σ h1 h2 h3).2⟩

theorem digitsOf_path {A : ℕ} : ∀ path : List ℕ, (∀ d ∈ path, d < A) → Nat.ofDigits A path.reverse < A ^ path.length ∧ digitsOf A path.length (Nat.ofDigits A path.reverse) = path
  | [], _ => by simp [digitsOf]
  | d :: ds, h => by
    obtain ⟨h1, h2⟩ := digitsOf_path ds fun x hx => h x (.tail _ hx)
    have hd := h d (.head _)
    rw [List.reverse_cons, Nat.ofDigits_append, Nat.ofDigits_singleton, List.length_reverse, List.length_cons]
    generalize hx : Nat.ofDigits A ds.reverse = x at *
    have hpos : 0 < A ^ ds.length := by omega
    refine ⟨?_, ?_⟩
    · calc x + A ^ ds.length * d < A ^ ds.length + A ^ ds.length * d := by omega
        _ = A ^ ds.length * (d + 1) := by ring
        _ ≤ A ^ ds.length * A := Nat.mul_le_mul_left _ hd
    · rw [digitsOf, Nat.add_mul_div_left _ _ hpos, Nat.div_eq_of_lt h1, Nat.zero_add, Nat.mod_eq_of_lt hd, ← digitsOf_mod, Nat.add_mul_mod_self_left, digitsOf_mod, h2]

/-- What inclusion below the root of a tree with contents `c` means: the leaf is the content at the index — or a hashed list collides with a different child list of the tree.  If `A ^ depth` exceeds
the order, several positions have the same index. -/
theorem included_contents {T : TreeOps F} {depth : ℕ} {c : ℕ → F} {v : ℕ → F} (h : Included T depth (rootOf T.digest T.arity depth c) v) :
    ∃ j < T.arity ^ depth, v 1 = (j : F) ∧ (T.arity ^ depth ≤ IntRep.order F → j = IntRep.rep (v 1)) ∧
      (v 0 = c j ∨ ∃ a ∈ merkleHashed T.digest ((digitsOf T.arity depth j).zip (nodesAt (T.arity - 1) depth 2 v)) (v 0),
        ∃ b ∈ childLists T.digest T.arity depth c, a ≠ b ∧ T.digest a = T.digest b) := by
  obtain ⟨path, rfl, h2, h3, h4⟩ := h
  obtain ⟨k1, k2⟩ := digitsOf_path path h2
  refine ⟨_, k1, h3, fun ho => by rw [h3, IntRep.rep_cast _ (by omega)], ?_⟩
  have hz : path.zip (nodesAt (T.arity - 1) path.length 2 v) = (digitsOf T.arity path.length (Nat.ofDigits T.arity path.reverse)).zip (nodesAt (T.arity - 1) path.length 2 v) := by rw [k2]
  rw [hz] at h4
  rcases merkle_binding T.arity_pos path.length c (nodesAt (T.arity - 1) path.length 2 v) (by simp [nodesAt]) (by simp [nodesAt]) h4 with ⟨q, -⟩ | q
  · exact .inl (by rw [q, Nat.mod_eq_of_lt k1])
  · exact .inr q

/-- **C41**/**C42**, in terms of trees: below the root of a reachable tree (whose updates met no collision), the committed leaf is the value last written to the committed index — or the statement
exhibits a collision with a child list of the tree. -/
theorem c41_c42_tree_sound (T : TreeOps F) (p : PoseidonParams F) (hp : p.Valid) (depth : ℕ) (hT : T.IsTree p depth) (db0 : HashDb (List F)) (hist : History F)
    (hc : T.CollisionFree depth hist) (t : SparseTree F) (db : HashDb (List F)) (hrun : runHistory T depth db0 hist = .ok (t, db)) (env : Env F G) (g h : G)
    (dv : List G → Drv (Verifier F G) Unit) (hdv : (T = tree4 p ∧ dv = verifyInclusion4 env t.root depth p .quint g h) ∨ (T = tree8 p ∧ dv = verifyInclusion8 env t.root depth p .quint g h)) :
    SoundForExactly (2 + (T.arity - 1) * depth) [0] [0] dv fun v => ∃ j < T.arity ^ depth, v 1 = (j : F) ∧ (T.arity ^ depth ≤ IntRep.order F → j = IntRep.rep (v 1)) ∧
      (v 0 = written (T.arity ^ depth) hist j ∨ ∃ a ∈ merkleHashed T.digest ((digitsOf T.arity depth j).zip (nodesAt (T.arity - 1) depth 2 v)) (v 0),
        ∃ b ∈ childLists T.digest T.arity depth (written (T.arity ^ depth) hist), a ≠ b ∧ T.digest a = T.digest b) := by
  obtain ⟨db', e, -⟩ := run_ok hp hT db0 hist hc
  rw [hrun] at e
  injection e with e; injection e with e1 e2
  have key : SoundForExactly (2 + (T.arity - 1) * depth) [0] [0] dv (Included T depth t.root) := by
    rcases hdv with ⟨rfl, rfl⟩ | ⟨rfl, rfl⟩
    · exact c41_sound env t.root depth p .quint (by decide) g h
    · exact c42_sound env t.root depth p .quint (by decide) g h
  intro coms s s' hl hd
  obtain ⟨a, b, c⟩ := key coms s s' hl hd
  refine ⟨a, b, fun σ h1 h2 h3 => included_contents (v := fun i => σ.committed (s.V.length + i)) ?_⟩
  have := c σ h1 h2 h3
  rwa [e1] at this

/-! ## Completeness -/

section complete
variable {env env' : Env F G}

/-- Completeness of the 4-ary pair for any number `m` of levels the loops allow: no relation to `depth` is enforced. -/
theorem inclusion4_honest (hO : env.oracle = env'.oracle) (leaf leafIndex root : F) (merkleProof : List (List F)) (depth m : ℕ) (hm : m ≤ 4 * getByteSize depth 4) (hd : depth ≤ 4 * ByteRep.modBytes F)
    (hl : merkleProof.length = m) (hn : ∀ s ∈ merkleProof, s.length = 3) (p : PoseidonParams F) (hp : p.Valid) (hw : p.width = 5) (sbox : SboxType) (hs : sbox ≠ .inverse)
    (hi : IntRep.rep leafIndex < 4 ^ m) (hr : merkleRoot (hasher4 p sbox).digest ((digitsOf 4 m (IntRep.rep leafIndex)).zip merkleProof) leaf = root) (g h : G) (r0 r1 : F) (coins : ℕ → F)
    (randomness : Option (List F)) (rng : Option (ℕ → F)) (hrand : RandsFrom 2 randomness rng [r0, r1]) (pd : Option ℕ) :
    HonestPair env env' pd (m * gates4 p sbox) ([(leaf, r0), (leafIndex, r1)] ++ merkleProof.flatten.mapIdx fun i x => (x, coins i))
      (proveInclusion4 env leaf leafIndex randomness merkleProof root depth p sbox rng coins) (verifyInclusion4 env' root depth p sbox g h) [(0, 0)] := by
  subst hl
  have hfl := flatten_length merkleProof hn
  have hd' : getByteSize depth 4 ≤ ByteRep.modBytes F := getByteSize_4 hd
  refine inclusion_honest env env' hO pd g h leaf leafIndex r0 r1 merkleProof coins ?_ ?_ ?_ randomness rng hrand
  · intro q hq l i ns z h1 h2 h3 h4
    refine PS.merkleGadget4 hq hs hp hw h4 hm hd' h1 h2 h3 (by rw [h3.length_eq, hfl]) hi ?_
    rw [groups_flatten _ hn, hr]
  · exact fun l i ns z => Prog.Same.merkleGadget4 hd' root l i leafIndex ns [z] p sbox
  · exact fun l i ns z hns => PC.merkleGadget4 hs (by omega) hm root l _ (by rw [hns, hfl]) [z]

/-- Completeness of the 8-ary pair for any number `m ≤ depth` of levels. -/
theorem inclusion8_honest (hO : env.oracle = env'.oracle) (leaf leafIndex root : F) (merkleProof : List (List F)) (depth m : ℕ) (hm : m ≤ depth) (hd : 3 * depth ≤ 8 * ByteRep.modBytes F)
    (hl : merkleProof.length = m) (hn : ∀ s ∈ merkleProof, s.length = 7) (p : PoseidonParams F) (hp : p.Valid) (hw : p.width = 9) (sbox : SboxType) (hs : sbox ≠ .inverse)
    (hi : IntRep.rep leafIndex < 8 ^ m) (hr : merkleRoot (hasher8 p sbox).digest ((digitsOf 8 m (IntRep.rep leafIndex)).zip merkleProof) leaf = root) (g h : G) (r0 r1 : F) (coins : ℕ → F)
    (randomness : Option (List F)) (rng : Option (ℕ → F)) (hrand : RandsFrom 2 randomness rng [r0, r1]) (pd : Option ℕ) :
    HonestPair env env' pd (m * gates8 p sbox) ([(leaf, r0), (leafIndex, r1)] ++ merkleProof.flatten.mapIdx fun i x => (x, coins i))
      (proveInclusion8 env leaf leafIndex randomness merkleProof root depth p sbox rng coins) (verifyInclusion8 env' root depth p sbox g h) [(0, 0)] := by
  subst hl
  have hfl := flatten_length merkleProof hn
  have hd' : getByteSize depth 8 ≤ ByteRep.modBytes F := getByteSize_8 hd
  refine inclusion_honest env env' hO pd g h leaf leafIndex r0 r1 merkleProof coins ?_ ?_ ?_ randomness rng hrand
  · intro q hq l i ns z h1 h2 h3 h4
    refine PS.merkleGadget8 hq hs hp hw h4 hm hd' h1 h2 h3 (by rw [h3.length_eq, hfl]) hi ?_
    rw [groups_flatten _ hn, hr]
  · exact fun l i ns z => Prog.Same.merkleGadget8 hd' root l i leafIndex ns z p sbox
  · exact fun l i ns z hns => PC.merkleGadget8 hs (by omega) hm root l _ (by rw [hns, hfl]) z

/-- **C41**, completeness: `depth` nodes of 3 siblings hashing up to the root. -/
theorem c41_complete (hO : env.oracle = env'.oracle) (leaf leafIndex root : F) (merkleProof : List (List F)) (depth : ℕ) (hd : depth ≤ 4 * ByteRep.modBytes F)
    (hl : merkleProof.length = depth) (hn : ∀ s ∈ merkleProof, s.length = 3) (p : PoseidonParams F) (hp : p.Valid) (hw : p.width = 5) (sbox : SboxType) (hs : sbox ≠ .inverse)
    (hi : IntRep.rep leafIndex < 4 ^ depth) (hr : merkleRoot (hasher4 p sbox).digest ((digitsOf 4 depth (IntRep.rep leafIndex)).zip merkleProof) leaf = root) (g h : G) (r0 r1 : F) (coins : ℕ → F)
    (randomness : Option (List F)) (rng : Option (ℕ → F)) (hrand : RandsFrom 2 randomness rng [r0, r1]) (pd : Option ℕ) :
    HonestPair env env' pd (depth * gates4 p sbox) ([(leaf, r0), (leafIndex, r1)] ++ merkleProof.flatten.mapIdx fun i x => (x, coins i))
      (proveInclusion4 env leaf leafIndex randomness merkleProof root depth p sbox rng coins) (verifyInclusion4 env' root depth p sbox g h) [(0, 0)] :=
  inclusion4_honest hO leaf leafIndex root merkleProof depth depth (levels4 depth) hd hl hn p hp hw sbox hs hi hr g h r0 r1 coins randomness rng hrand pd

/-- **C42**, completeness: `depth` nodes of 7 siblings hashing up to the root. -/
theorem c42_complete (hO : env.oracle = env'.oracle) (leaf leafIndex root : F) (merkleProof : List (List F)) (depth : ℕ) (hd : 3 * depth ≤ 8 * ByteRep.modBytes F)
    (hl : merkleProof.length = depth) (hn : ∀ s ∈ merkleProof, s.length = 7) (p : PoseidonParams F) (hp : p.Valid) (hw : p.width = 9) (sbox : SboxType) (hs : sbox ≠ .inverse)
    (hi : IntRep.rep leafIndex < 8 ^ depth) (hr : merkleRoot (hasher8 p sbox).digest ((digitsOf 8 depth (IntRep.rep leafIndex)).zip merkleProof) leaf = root) (g h : G) (r0 r1 : F) (coins : ℕ → F)
    (randomness : Option (List F)) (rng : Option (ℕ → F)) (hrand : RandsFrom 2 randomness rng [r0, r1]) (pd : Option ℕ) :
    HonestPair env env' pd (depth * gates8 p sbox) ([(leaf, r0), (leafIndex, r1)] ++ merkleProof.flatten.mapIdx fun i x => (x, coins i))
      (proveInclusion8 env leaf leafIndex randomness merkleProof root depth p sbox rng coins) (verifyInclusion8 env' root depth p sbox g h) [(0, 0)] :=
  inclusion8_honest hO leaf leafIndex root merkleProof depth depth le_rfl hd hl hn p hp hw sbox hs hi hr g h r0 r1 coins randomness rng hrand pd

/-! ## With the trees of the crate -/

theorem subContents_sub (c : ℕ → F) (A m e k j : ℕ) : subContents (subContents c (A ^ (m + e)) k) (A ^ e) j = subContents c (A ^ e) (k * A ^ m + j) := by
  funext i
  simp only [subContents]
  congr 1
  rw [pow_add]; ring

theorem rootOf_split (H : List F → F) (A e : ℕ) : ∀ m (c : ℕ → F), rootOf H A (m + e) c = rootOf H A m fun j => rootOf H A e (subContents c (A ^ e) j)
  | 0, c => by
    have : subContents c (A ^ e) 0 = c := by funext i; simp [subContents]
    simp [rootOf, this]
  | m + 1, c => by
    rw [show m + 1 + e = (m + e) + 1 by omega, rootOf, rootOf]
    congr 1
    apply List.map_congr_left
    intro k _
    rw [rootOf_split H A e m]
    congr 1
    funext j
    rw [subContents_sub]; rfl

theorem sides_take (H : List F → F) (A e i : ℕ) : ∀ m (c : ℕ → F), (sides H A (m + e) c i).take m = sides H A m (fun j => rootOf H A e (subContents c (A ^ e) j)) (i / A ^ e)
  | 0, c => by simp [sides]
  | m + 1, c => by
    rw [show m + 1 + e = (m + e) + 1 by omega, sides, sides, List.take_succ_cons, sides_take H A e i m]
    have hdiv : i / A ^ (m + e) % A = i / A ^ e / A ^ m % A := by rw [Nat.div_div_eq_div_mul, ← pow_add, Nat.add_comm e m]
    rw [hdiv]
    congr 1
    · congr 1
      apply List.ext_getElem?
      intro k
      by_cases hk : k < A
      · rw [kids_get hk, kids_get hk, rootOf_split H A e m]
        congr 2
        funext j
        rw [subContents_sub]; rfl
      · rw [List.getElem?_eq_none (by rw [kids_length]; omega), List.getElem?_eq_none (by rw [kids_length]; omega)]
    · congr 1
      funext j
      rw [subContents_sub]; rfl

/-- The root of the subtree, `e` levels above the leaves, that contains position `i`. -/
def innerNode (T : TreeOps F) (e : ℕ) (c : ℕ → F) (i : ℕ) : F := rootOf T.digest T.arity e (subContents c (T.arity ^ e) (i / T.arity ^ e))

/-- The proof `get` returns for `i`, cut after `m` levels, hashes the inner node at that level up to the root. -/
theorem merkleRoot_inner {T : TreeOps F} {m e i : ℕ} (hi : i < T.arity ^ (m + e)) (c : ℕ → F) :
    merkleRoot T.digest ((digitsOf T.arity m (i / T.arity ^ e)).zip ((sides T.digest T.arity (m + e) c i).take m)) (innerNode T e c i) = rootOf T.digest T.arity (m + e) c := by
  have hlt : i / T.arity ^ e < T.arity ^ m := Nat.div_lt_of_lt_mul (by rwa [← pow_add, Nat.add_comm e m])
  rw [sides_take, rootOf_split, ← merkleRoot_sides T.arity_pos (j := i / T.arity ^ e) m, Nat.mod_eq_of_lt hlt]; rfl

/-- **C43** fails (4-ary): take any reachable tree, the proof `get` returns for any index `i` inside the tree, and cut it after any number `m` of levels.  The inner node there is proved and
accepted as if it were a leaf, with the index `i / 4 ^ (depth - m)`.  For `m = depth` this is the completeness of C41 for the proof returned by `get`. -/
theorem c43_inner_node_4 (hO : env.oracle = env'.oracle) (p : PoseidonParams F) (hp : p.Valid) (hw : p.width = 5) (m e : ℕ) (hd : m + e ≤ 4 * ByteRep.modBytes F) (db0 : HashDb (List F))
    (hist : History F) (hc : (tree4 p).CollisionFree (m + e) hist) (t : SparseTree F) (db : HashDb (List F)) (hrun : runHistory (tree4 p) (m + e) db0 hist = .ok (t, db)) (i : F)
    (hi : IntRep.rep i < 4 ^ (m + e)) (g h : G) (r0 r1 : F) (coins : ℕ → F) (randomness : Option (List F)) (rng : Option (ℕ → F)) (hrand : RandsFrom 2 randomness rng [r0, r1]) (pd : Option ℕ) :
    ∃ proof, t.get (tree4 p) i (some []) db = .ok (written (4 ^ (m + e)) hist (IntRep.rep i), some proof) ∧
      HonestPair env env' pd (m * gates4 p .quint)
        ([(innerNode (tree4 p) e (written (4 ^ (m + e)) hist) (IntRep.rep i), r0), (((IntRep.rep i / 4 ^ e : ℕ) : F), r1)] ++ (proof.take m).flatten.mapIdx fun i x => (x, coins i))
        (proveInclusion4 env (innerNode (tree4 p) e (written (4 ^ (m + e)) hist) (IntRep.rep i)) ((IntRep.rep i / 4 ^ e : ℕ) : F) randomness (proof.take m) t.root (m + e) p .quint rng coins)
        (verifyInclusion4 env' t.root (m + e) p .quint g h) [(0, 0)] := by
  have hT : (tree4 p).IsTree p (m + e) := .inl ⟨rfl, hw, hd⟩
  obtain ⟨db', er, k⟩ := run_ok hp hT db0 hist hc
  rw [hrun] at er
  injection er with er; injection er with e1 e2
  subst e1 e2
  have hg := get_ok (T := tree4 p) (t := ⟨m + e, rootOf _ _ _ (written ((tree4 p).arity ^ (m + e)) hist)⟩) (c := written ((tree4 p).arity ^ (m + e)) hist) (isTree_total hp hT).2 rfl (k hist List.prefix_rfl) i (some [])
  have hmod : IntRep.rep i % (tree4 p).arity ^ (m + e) = IntRep.rep i := Nat.mod_eq_of_lt hi
  rw [hmod] at hg
  have hlt : IntRep.rep i / 4 ^ e < 4 ^ m := Nat.div_lt_of_lt_mul (by rwa [← pow_add, Nat.add_comm e m])
  have hrep : IntRep.rep ((IntRep.rep i / 4 ^ e : ℕ) : F) = IntRep.rep i / 4 ^ e := IntRep.rep_cast _ (lt_of_le_of_lt (Nat.div_le_self _ _) (IntRep.rep_lt i))
  refine ⟨_, hg, inclusion4_honest hO _ _ _ _ (m + e) m (le_trans (by omega) (levels4 (m + e))) hd ?_ ?_ p hp hw .quint (by decide) (by rw [hrep]; exact hlt) ?_ g h r0 r1 coins randomness rng hrand pd⟩
  · simp [sides_length]
  · exact fun s hs => sides_node_length _ (tree4 p).arity_pos _ _ _ s (List.mem_of_mem_take (by simpa using hs))
  · rw [hrep]
    exact merkleRoot_inner (T := tree4 p) hi _

/-- **C43** fails (8-ary). -/
theorem c43_inner_node_8 (hO : env.oracle = env'.oracle) (p : PoseidonParams F) (hp : p.Valid) (hw : p.width = 9) (m e : ℕ) (hd : 3 * (m + e) ≤ 8 * ByteRep.modBytes F) (db0 : HashDb (List F))
    (hist : History F) (hc : (tree8 p).CollisionFree (m + e) hist) (t : SparseTree F) (db : HashDb (List F)) (hrun : runHistory (tree8 p) (m + e) db0 hist = .ok (t, db)) (i : F)
    (hi : IntRep.rep i < 8 ^ (m + e)) (g h : G) (r0 r1 : F) (coins : ℕ → F) (randomness : Option (List F)) (rng : Option (ℕ → F)) (hrand : RandsFrom 2 randomness rng [r0, r1]) (pd : Option ℕ) :
    ∃ proof, t.get (tree8 p) i (some []) db = .ok (written (8 ^ (m + e)) hist (IntRep.rep i), some proof) ∧
      HonestPair env env' pd (m * gates8 p .quint)
        ([(innerNode (tree8 p) e (written (8 ^ (m + e)) hist) (IntRep.rep i), r0), (((IntRep.rep i / 8 ^ e : ℕ) : F), r1)] ++ (proof.take m).flatten.mapIdx fun i x => (x, coins i))
        (proveInclusion8 env (innerNode (tree8 p) e (written (8 ^ (m + e)) hist) (IntRep.rep i)) ((IntRep.rep i / 8 ^ e : ℕ) : F) randomness (proof.take m) t.root (m + e) p .quint rng coins)
        (verifyInclusion8 env' t.root (m + e) p .quint g h) [(0, 0)] := by
  have hT : (tree8 p).IsTree p (m + e) := .inr ⟨rfl, hw, hd⟩
  obtain ⟨db', er, k⟩ := run_ok hp hT db0 hist hc
  rw [hrun] at er
  injection er with er; injection er with e1 e2
  subst e1 e2
  have hg := get_ok (T := tree8 p) (t := ⟨m + e, rootOf _ _ _ (written ((tree8 p).arity ^ (m + e)) hist)⟩) (c := written ((tree8 p).arity ^ (m + e)) hist) (isTree_total hp hT).2 rfl (k hist List.prefix_rfl) i (some [])
  have hmod : IntRep.rep i % (tree8 p).arity ^ (m + e) = IntRep.rep i := Nat.mod_eq_of_lt hi
  rw [hmod] at hg
  have hlt : IntRep.rep i / 8 ^ e < 8 ^ m := Nat.div_lt_of_lt_mul (by rwa [← pow_add, Nat.add_comm e m])
  have hrep : IntRep.rep ((IntRep.rep i / 8 ^ e : ℕ) : F) = IntRep.rep i / 8 ^ e := IntRep.rep_cast _ (lt_of_le_of_lt (Nat.div_le_self _ _) (IntRep.rep_lt i))
  refine ⟨_, hg, inclusion8_honest hO _ _ _ _ (m + e) m (by omega) hd ?_ ?_ p hp hw .quint (by decide) (by rw [hrep]; exact hlt) ?_ g h r0 r1 coins randomness rng hrand pd⟩
  · simp [sides_length]
  · exact fun s hs => sides_node_length _ (tree8 p).arity_pos _ _ _ s (List.mem_of_mem_take (by simpa using hs))
  · rw [hrep]
    exact merkleRoot_inner (T := tree8 p) hi _

/-- **C41**, completeness with the crate's tree: the proof `get` returns for an index inside the tree. -/
theorem c41_tree_complete (hO : env.oracle = env'.oracle) (p : PoseidonParams F) (hp : p.Valid) (hw : p.width = 5) (depth : ℕ) (hd : depth ≤ 4 * ByteRep.modBytes F) (db0 : HashDb (List F))
    (hist : History F) (hc : (tree4 p).CollisionFree depth hist) (t : SparseTree F) (db : HashDb (List F)) (hrun : runHistory (tree4 p) depth db0 hist = .ok (t, db)) (i : F)
    (hi : IntRep.rep i < 4 ^ depth) (g h : G) (r0 r1 : F) (coins : ℕ → F) (randomness : Option (List F)) (rng : Option (ℕ → F)) (hrand : RandsFrom 2 randomness rng [r0, r1]) (pd : Option ℕ) :
    ∃ v proof, t.get (tree4 p) i (some []) db = .ok (v, some proof) ∧ v = written (4 ^ depth) hist (IntRep.rep i) ∧
      HonestPair env env' pd (depth * gates4 p .quint) ([(v, r0), (i, r1)] ++ proof.flatten.mapIdx fun i x => (x, coins i))
        (proveInclusion4 env v i randomness proof t.root depth p .quint rng coins) (verifyInclusion4 env' t.root depth p .quint g h) [(0, 0)] := by
  obtain ⟨proof, h1, h2⟩ := c43_inner_node_4 hO p hp hw depth 0 hd db0 hist hc t db hrun i hi g h r0 r1 coins randomness rng hrand pd
  have hl : proof.length = depth := by
    obtain ⟨v', proof', e1, -, e2, -⟩ := @c38_complete F _ _ (Classical.decEq F) (tree4 p) p hp depth (.inl ⟨rfl, hw, hd⟩) db0 hist hc t db hrun i
    rw [h1] at e1; injection e1 with e1; injection e1 with _ e1; injection e1 with e1; rw [e1, e2]
  have hv : innerNode (tree4 p) 0 (written (4 ^ (depth + 0)) hist) (IntRep.rep i) = written (4 ^ depth) hist (IntRep.rep i) := by simp [innerNode, rootOf, subContents]
  rw [hv, pow_zero, Nat.div_one, IntRep.cast_rep, List.take_of_length_le (by rw [hl])] at h2
  exact ⟨_, proof, h1, rfl, h2⟩

/-- **C42**, completeness with the crate's tree. -/
theorem c42_tree_complete (hO : env.oracle = env'.oracle) (p : PoseidonParams F) (hp : p.Valid) (hw : p.width = 9) (depth : ℕ) (hd : 3 * depth ≤ 8 * ByteRep.modBytes F) (db0 : HashDb (List F))
    (hist : History F) (hc : (tree8 p).CollisionFree depth hist) (t : SparseTree F) (db : HashDb (List F)) (hrun : runHistory (tree8 p) depth db0 hist = .ok (t, db)) (i : F)
    (hi : IntRep.rep i < 8 ^ depth) (g h : G) (r0 r1 : F) (coins : ℕ → F) (randomness : Option (List F)) (rng : Option (ℕ → F)) (hrand : RandsFrom 2 randomness rng [r0, r1]) (pd : Option ℕ) :
    ∃ v proof, t.get (tree8 p) i (some []) db = .ok (v, some proof) ∧ v = written (8 ^ depth) hist (IntRep.rep i) ∧
      HonestPair env env' pd (depth * gates8 p .quint) ([(v, r0), (i, r1)] ++ proof.flatten.mapIdx fun i x => (x, coins i))
        (proveInclusion8 env v i randomness proof t.root depth p .quint rng coins) (verifyInclusion8 env' t.root depth p .quint g h) [(0, 0)] := by
  obtain ⟨proof, h1, h2⟩ := c43_inner_node_8 hO p hp hw depth 0 hd db0 hist hc t db hrun i hi g h r0 r1 coins randomness rng hrand pd
  have hl : proof.length = depth := by
    obtain ⟨v', proof', e1, -, e2, -⟩ := @c38_complete F _ _ (Classical.decEq F) (tree8 p) p hp depth (.inr ⟨rfl, hw, hd⟩) db0 hist hc t db hrun i
    rw [h1] at e1; injection e1 with e1; injection e1 with _ e1; injection e1 with e1; rw [e1, e2]
  have hv : innerNode (tree8 p) 0 (written (8 ^ (depth + 0)) hist) (IntRep.rep i) = written (8 ^ depth) hist (IntRep.rep i) := by simp [innerNode, rootOf, subContents]
  rw [hv, pow_zero, Nat.div_one, IntRep.cast_rep, List.take_of_length_le (by rw [hl])] at h2
  exact ⟨_, proof, h1, rfl, h2⟩

/-- **C41**, end to end. -/
theorem c41_end_to_end [DecidableEq G] (hO : env.oracle = env'.oracle) (h0 : ∀ l, env.oracle l ≠ 0) (p : PoseidonParams F) (hp : p.Valid) (hw : p.width = 5) (depth : ℕ)
    (hd : depth ≤ 4 * ByteRep.modBytes F) (db0 : HashDb (List F)) (hist : History F) (hc : (tree4 p).CollisionFree depth hist) (t : SparseTree F) (db : HashDb (List F))
    (hrun : runHistory (tree4 p) depth db0 hist = .ok (t, db)) (i : F) (hi : IntRep.rep i < 4 ^ depth) (g h : G) (r0 r1 : F) (coins : ℕ → F) (randomness : Option (List F)) (rng : Option (ℕ → F))
    (hrand : RandsFrom 2 randomness rng [r0, r1]) (hsz : nextPowerOfTwo (depth * gates4 p .quint) < 2 ^ 32) (hb : 1 < depth * gates4 p .quint ∨ env'.batchInvert [] = .ok ([], 1)) :
    ∃ v proof, t.get (tree4 p) i (some []) db = .ok (v, some proof) ∧ v = written (4 ^ depth) hist (IntRep.rep i) ∧
      EndToEnd env env' (depth * gates4 p .quint) ([(v, r0), (i, r1)] ++ proof.flatten.mapIdx fun i x => (x, coins i))
        (proveInclusion4 env v i randomness proof t.root depth p .quint rng coins) (verifyInclusion4 env' t.root depth p .quint g h) := by
  obtain ⟨v, proof, h1, h2, h3⟩ := c41_tree_complete hO p hp hw depth hd db0 hist hc t db hrun i hi g h r0 r1 coins randomness rng hrand none
  exact ⟨v, proof, h1, h2, h3.endToEnd hO h0 hsz hb⟩

/-- **C42**, end to end. -/
theorem c42_end_to_end [DecidableEq G] (hO : env.oracle = env'.oracle) (h0 : ∀ l, env.oracle l ≠ 0) (p : PoseidonParams F) (hp : p.Valid) (hw : p.width = 9) (depth : ℕ)
    (hd : 3 * depth ≤ 8 * ByteRep.modBytes F) (db0 : HashDb (List F)) (hist : History F) (hc : (tree8 p).CollisionFree depth hist) (t : SparseTree F) (db : HashDb (List F))
    (hrun : runHistory (tree8 p) depth db0 hist = .ok (t, db)) (i : F) (hi : IntRep.rep i < 8 ^ depth) (g h : G) (r0 r1 : F) (coins : ℕ → F) (randomness : Option (List F)) (rng : Option (ℕ → F))
    (hrand : RandsFrom 2 randomness rng [r0, r1]) (hsz : nextPowerOfTwo (depth * gates8 p .quint) < 2 ^ 32) (hb : 1 < depth * gates8 p .quint ∨ env'.batchInvert [] = .ok ([], 1)) :
    ∃ v proof, t.get (tree8 p) i (some []) db = .ok (v, some proof) ∧ v = written (8 ^ depth) hist (IntRep.rep i) ∧
      EndToEnd env env' (depth * gates8 p .quint) ([(v, r0), (i, r1)] ++ proof.flatten.mapIdx fun i x => (x, coins i))
        (proveInclusion8 env v i randomness proof t.root depth p .quint rng coins) (verifyInclusion8 env' t.root depth p .quint g h) := by
  obtain ⟨v, proof, h1, h2, h3⟩ := c42_tree_complete hO p hp hw depth hd db0 hist hc t db hrun i hi g h r0 r1 coins randomness rng hrand none
  exact ⟨v, proof, h1, h2, h3.endToEnd hO h0 hsz hb⟩

/-- A complete pair whose opened values violate `R` shows that `dv` is not sound for `R`. -/
theorem HonestPair.not_soundExactly {m : ℕ} {dp : Drv (Prover F G) (List G)} {dv : List G → Drv (Verifier F G) Unit} {os ss : List (F × F)}
    (h : HonestPair env env' none m os dp dv ss) (hO : env.oracle = env'.oracle) {points : List G} {R : (ℕ → F) → Prop} (hR : ¬ R fun i => ((os ++ ss).map Prod.fst).getD i 0) :
    ¬ SoundForExactly os.length (ss.map Prod.fst) points dv R := by
  intro hs
  obtain ⟨coms, p', s', h1, h2, J, -, -, o⟩ := h _ _ (Joint.new env env' (0 : G) (0 : G) [] 0 0) rfl
  have := (hs coms _ s' (by rw [o.points, List.length_map]) h2).2.2 _ (J.satisfies hO).1 (J.satisfies hO).2.1
  simp only [Prover.assignment, o.values, Verifier.new, Prover.new, List.length_nil, List.nil_append, Nat.zero_add] at this
  refine hR (this fun i x hx => ?_)
  rw [List.map_append, List.getD_eq_getElem?_getD, List.getElem?_append_right (by simp), List.length_map, Nat.add_sub_cancel_left, hx]; rfl

/-- **C43** fails: if the tree's content at position `i / 4 ^ e` is not the inner node `e` levels above the leaves, there is a number of commitments for which the 4-ary verifier's statement
does not imply that the leaf is the value stored at the index. -/
theorem c43_not_enforced_4 (hO : env.oracle = env'.oracle) (p : PoseidonParams F) (hp : p.Valid) (hw : p.width = 5) (m e : ℕ) (hd : m + e ≤ 4 * ByteRep.modBytes F) (db0 : HashDb (List F))
    (hist : History F) (hc : (tree4 p).CollisionFree (m + e) hist) (t : SparseTree F) (db : HashDb (List F)) (hrun : runHistory (tree4 p) (m + e) db0 hist = .ok (t, db)) (i : F)
    (hi : IntRep.rep i < 4 ^ (m + e)) (g h : G) (hne : innerNode (tree4 p) e (written (4 ^ (m + e)) hist) (IntRep.rep i) ≠ written (4 ^ (m + e)) hist (IntRep.rep i / 4 ^ e)) :
    ¬ ∀ k, SoundForExactly k [0] [0] (verifyInclusion4 env' t.root (m + e) p .quint g h) fun v => v 0 = written (4 ^ (m + e)) hist (IntRep.rep (v 1)) := by
  intro hs
  obtain ⟨proof, -, h2⟩ := c43_inner_node_4 hO p hp hw m e hd db0 hist hc t db hrun i hi g h 0 0 (fun _ => 0) (some [0, 0]) none (.inl rfl) none
  refine h2.not_soundExactly hO ?_ (hs _)
  have hrep : IntRep.rep ((IntRep.rep i / 4 ^ e : ℕ) : F) = IntRep.rep i / 4 ^ e := IntRep.rep_cast _ (lt_of_le_of_lt (Nat.div_le_self _ _) (IntRep.rep_lt i))
  simpa [hrep] using hne

/-- **C43** fails for the 8-ary verifier. -/
theorem c43_not_enforced_8 (hO : env.oracle = env'.oracle) (p : PoseidonParams F) (hp : p.Valid) (hw : p.width = 9) (m e : ℕ) (hd : 3 * (m + e) ≤ 8 * ByteRep.modBytes F) (db0 : HashDb (List F))
    (hist : History F) (hc : (tree8 p).CollisionFree (m + e) hist) (t : SparseTree F) (db : HashDb (List F)) (hrun : runHistory (tree8 p) (m + e) db0 hist = .ok (t, db)) (i : F)
    (hi : IntRep.rep i < 8 ^ (m + e)) (g h : G) (hne : innerNode (tree8 p) e (written (8 ^ (m + e)) hist) (IntRep.rep i) ≠ written (8 ^ (m + e)) hist (IntRep.rep i / 8 ^ e)) :
    ¬ ∀ k, SoundForExactly k [0] [0] (verifyInclusion8 env' t.root (m + e) p .quint g h) fun v => v 0 = written (8 ^ (m + e)) hist (IntRep.rep (v 1)) := by
  intro hs
  obtain ⟨proof, -, h2⟩ := c43_inner_node_8 hO p hp hw m e hd db0 hist hc t db hrun i hi g h 0 0 (fun _ => 0) (some [0, 0]) none (.inl rfl) none
  refine h2.not_soundExactly hO ?_ (hs _)
  have hrep : IntRep.rep ((IntRep.rep i / 8 ^ e : ℕ) : F) = IntRep.rep i / 8 ^ e := IntRep.rep_cast _ (lt_of_le_of_lt (Nat.div_le_self _ _) (IntRep.rep_lt i))
  simpa [hrep] using hne

end complete

/-! ## C48 -/

/-- **C48** for the Merkle entry points: without randomness and generator, or with a number of blindings other than 2. -/
theorem c48_merkle (env : Env F G) (leaf leafIndex : F) (randomness : Option (List F)) (merkleProof : List (List F)) (root : F) (depth : ℕ) (p : PoseidonParams F) (sbox : SboxType)
    (rng : Option (ℕ → F)) (coins : ℕ → F) (hbad : (randomness = none ∧ rng = none) ∨ ∃ rs, randomness = some rs ∧ rs.length ≠ 2) :
    Refused (proveInclusion4 env leaf leafIndex randomness merkleProof root depth p sbox rng coins) ∧
    Refused (proveInclusion8 env leaf leafIndex randomness merkleProof root depth p sbox rng coins) := by
  have key : ∀ call, Refused (proveInclusion env leaf leafIndex randomness merkleProof rng coins call) := by
    intro call
    rcases hbad with ⟨rfl, rfl⟩ | ⟨rs, rfl, hl⟩
    · exact refused_bind refused_check _
    · unfold proveInclusion
      rw [show checkRandomness (some rs) rng = .ok () from checkRandomness_ok (by simp), drv_lift_bind, show pickBlindings (some rs) rng 2 = .ok rs from rfl, drv_lift_bind]
      match rs, hl with
      | [], _ => exact refused_lift rfl
      | [_], _ => exact refused_lift rfl
      | _ :: _ :: _ :: _, _ => exact refused_lift rfl
      | [_, _], hl => simp at hl
  exact ⟨key _, key _⟩

/-! ## Examples: the tree of `demoHistory` (4-ary, depth 2) -/

example : Refused (proveInclusion4 demoEnv (7 : Fr) 1 (some [1, 2, 3]) [] 5 0 demoParams5 .quint none fun _ => 0) :=
  (c48_merkle demoEnv 7 1 (some [1, 2, 3]) [] 5 0 demoParams5 .quint none (fun _ => 0) (.inr ⟨_, rfl, by simp⟩)).1

/-- The honest proof for leaf 14, and (C43) the proof for the inner node above it, presented as leaf 3. -/
example : ∃ t db, runHistory (tree4 demoParams5) 2 HashDb.new demoHistory = .ok (t, db) ∧
    (∃ v proof, t.get (tree4 demoParams5) 14 (some []) db = .ok (v, some proof) ∧ v = 8 ∧
      EndToEnd demoEnv demoEnv (2 * gates4 demoParams5 .quint) ([(v, 1), (14, 2)] ++ proof.flatten.mapIdx fun i x => (x, (i : Fr)))
        (proveInclusion4 demoEnv v 14 (some [1, 2]) proof t.root 2 demoParams5 .quint none fun i => (i : Fr)) (verifyInclusion4 demoEnv t.root 2 demoParams5 .quint 5 6)) ∧
    ¬ ∀ k, SoundForExactly k [0] [0] (verifyInclusion4 demoEnv t.root 2 demoParams5 .quint (5 : Fr) 6) fun v => v 0 = written (4 ^ 2) demoHistory (IntRep.rep (v 1)) := by
  have hT : (tree4 demoParams5).IsTree demoParams5 2 := .inl ⟨rfl, rfl, by decide⟩
  obtain ⟨db, e, -⟩ := run_ok demoParams5_valid hT HashDb.new demoHistory demo_collisionFree
  refine ⟨_, db, e, ?_, ?_⟩
  · obtain ⟨v, proof, h1, h2, h3⟩ := c41_end_to_end (env := demoEnv) (env' := demoEnv) rfl demoEnv_ne_zero demoParams5 demoParams5_valid rfl 2 (by decide) HashDb.new demoHistory
      demo_collisionFree _ db e 14 (by decide +kernel) 5 6 1 2 (fun i => (i : Fr)) (some [1, 2]) none (.inl rfl) (by decide +kernel) (.inl (by decide +kernel))
    exact ⟨v, proof, h1, h2.trans (by decide +kernel), h3⟩
  · exact c43_not_enforced_4 (env := demoEnv) rfl demoParams5 demoParams5_valid rfl 1 1 (by decide) HashDb.new demoHistory demo_collisionFree _ db e 14 (by decide +kernel) 5 6 (by decide +kernel)

/-- 8-ary, depth 1: the root itself is accepted as leaf 0. -/
example : ∃ t db, runHistory (tree8 demoParams9) 1 HashDb.new [(3, 5), (11, 6)] = .ok (t, db) ∧
    (∃ v proof, t.get (tree8 demoParams9) 3 (some []) db = .ok (v, some proof) ∧ v = 6 ∧
      EndToEnd demoEnv demoEnv (1 * gates8 demoParams9 .quint) ([(v, 1), (3, 2)] ++ proof.flatten.mapIdx fun i x => (x, (i : Fr)))
        (proveInclusion8 demoEnv v 3 (some [1, 2]) proof t.root 1 demoParams9 .quint none fun i => (i : Fr)) (verifyInclusion8 demoEnv t.root 1 demoParams9 .quint 5 6)) ∧
    ¬ ∀ k, SoundForExactly k [0] [0] (verifyInclusion8 demoEnv t.root 1 demoParams9 .quint (5 : Fr) 6) fun v => v 0 = written (8 ^ 1) [(3, 5), (11, 6)] (IntRep.rep (v 1)) := by
  have hT : (tree8 demoParams9).IsTree demoParams9 1 := .inr ⟨rfl, rfl, by decide⟩
  have hc : (tree8 demoParams9).CollisionFree 1 [(3, 5), (11, 6)] := by unfold TreeOps.CollisionFree NoCollision; decide +kernel
  obtain ⟨db, e, -⟩ := run_ok demoParams9_valid hT HashDb.new [(3, 5), (11, 6)] hc
  refine ⟨_, db, e, ?_, ?_⟩
  · obtain ⟨v, proof, h1, h2, h3⟩ := c42_end_to_end (env := demoEnv) (env' := demoEnv) rfl demoEnv_ne_zero demoParams9 demoParams9_valid rfl 1 (by decide) HashDb.new _
      hc _ db e 3 (by decide +kernel) 5 6 1 2 (fun i => (i : Fr)) (some [1, 2]) none (.inl rfl) (by decide +kernel) (.inl (by decide +kernel))
    exact ⟨v, proof, h1, h2.trans (by decide +kernel), h3⟩
  · exact c43_not_enforced_8 (env := demoEnv) rfl demoParams9 demoParams9_valid rfl 0 1 (by decide) HashDb.new _ hc _ db e 3 (by decide +kernel) 5 6 (by decide +kernel)

end Bp
