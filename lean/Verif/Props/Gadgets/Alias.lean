import Verif.Props.Gadgets.Merkle

set_option linter.unusedSectionVars false

/-! # C57: inclusion statements and positions beyond the group order

The Merkle gadgets constrain the base-4 (base-8) number spelled by the path to equal the committed index *in the field*.  When the tree has more positions than the field has elements, the path of
position `j + order` is as good as that of `j`. -/

namespace Bp
variable {F G : Type} [Field F] [AddCommGroup G] [Module F G] [ByteRep F]
variable {C : Type} {rnd : Bool}

/-! ## A prover that follows the path of its choice -/

/-- The honest 4-ary gadget (`merkleGadget4`), except that the bits are those of the position `k` chosen by the prover. -/
def forgeGadget4 (k depth : ℕ) (root : F) (leaf : Var) (index : Alloc F) (nodes statics : List Var) (p : PoseidonParams F) (synth : LC F → F → Prog F C rnd Var) : Prog F C rnd Unit := do
  let st ← Prog.forN (getByteSize depth 4) ⟨nodes, LC.ofVar leaf, [(index.var, (-1 : F))], (1 : F)⟩ fun i st =>
    Prog.forN 4 st fun j => guarded (merkleLevel4 (index.assignment.map fun _ => ((k / 256 ^ i % 256) >>> (2 * j) % 2, (k / 256 ^ i % 256) >>> (2 * j + 1) % 2)) (statics.map LC.ofVar) p synth)
  Prog.con (LC.ofTerms st.terms)
  constrainLcWithScalar st.prev root

/-- The honest 8-ary gadget (`merkleGadget8`), except that the bits are those of the position `k` chosen by the prover. -/
def forgeGadget8 (k depth : ℕ) (root : F) (leaf : Var) (index : Alloc F) (nodes : List Var) (zero : Var) (p : PoseidonParams F) (synth : LC F → F → Prog F C rnd Var) : Prog F C rnd Unit := do
  let st ← Prog.forN depth ⟨nodes, LC.ofVar leaf, [(index.var, (-1 : F))], (1 : F)⟩ fun i =>
    guarded (merkleLevel8 (index.assignment.map fun _ => ((k / 8 ^ i % 8) >>> 0 % 2, (k / 8 ^ i % 8) >>> 1 % 2, (k / 8 ^ i % 8) >>> 2 % 2)) (LC.ofVar zero) p synth)
  Prog.con (LC.ofTerms st.terms)
  constrainLcWithScalar st.prev root

/-- As `merkleCall8`. -/
def forgeCall8 (k : ℕ) (root : F) (depth : ℕ) (p : PoseidonParams F) (synth : LC F → F → Prog F C rnd Var) (leaf : Var) (index : Alloc F) (nodes statics : List Var) : Prog F C rnd Unit :=
  match statics with
  | zero :: _ => forgeGadget8 k depth root leaf index nodes zero p synth
  | [] => Prog.panic "removal index (is 0) should be < len (is 0)"

/-- `proveInclusion4` with the path of position `k`; the index committed to is `k` as a field element. -/
def forgeInclusion4 (env : Env F G) (k : ℕ) (leaf : F) (randomness : Option (List F)) (merkleProof : List (List F)) (root : F) (depth : ℕ) (p : PoseidonParams F) (sbox : SboxType)
    (rng : Option (ℕ → F)) (coins : ℕ → F) : Drv (Prover F G) (List G) :=
  proveInclusion env leaf (k : F) randomness merkleProof rng coins fun l i ns zs => forgeGadget4 k depth root l i ns zs p sbox.synthesize

/-- `proveInclusion8` with the path of position `k`. -/
def forgeInclusion8 (env : Env F G) (k : ℕ) (leaf : F) (randomness : Option (List F)) (merkleProof : List (List F)) (root : F) (depth : ℕ) (p : PoseidonParams F) (sbox : SboxType)
    (rng : Option (ℕ → F)) (coins : ℕ → F) : Drv (Prover F G) (List G) :=
  proveInclusion env leaf (k : F) randomness merkleProof rng coins (forgeCall8 k root depth p sbox.synthesize)

section lemmas
variable {C' : Type} {env : Env F G} {onSpec : C → Prover F G → Prover F G}

theorem forgeGadget4_none (k depth : ℕ) (root : F) (leaf index : Var) (nodes statics : List Var) (p : PoseidonParams F) (synth : LC F → F → Prog F C rnd Var) :
    forgeGadget4 k depth root leaf ⟨index, none⟩ nodes statics p synth = merkleGadget4 depth root leaf ⟨index, none⟩ nodes statics p synth := rfl

theorem forgeGadget8_none (k depth : ℕ) (root : F) (leaf index : Var) (nodes : List Var) (z : Var) (p : PoseidonParams F) (synth : LC F → F → Prog F C rnd Var) :
    forgeGadget8 k depth root leaf ⟨index, none⟩ nodes z p synth = merkleGadget8 depth root leaf ⟨index, none⟩ nodes z p synth := rfl

theorem PInv.final' {p0 : Prover F G} {T : TreeOps F} {m : ℕ} {nodes : List Var} {vals : List F} {leaf : F} {j k : ℕ} (hk : m ≤ k) {st : MerkleState F} {p : Prover F G} {root : F}
    (hi : j < T.arity ^ m) (hr : merkleRoot T.digest ((digitsOf T.arity m j).zip (groups (T.arity - 1) m vals)) leaf = root)
    (h : PInv p0 T.digest T.arity m nodes vals leaf (j : F) j k st p) : p.Has (LC.ofTerms st.terms) 0 ∧ p.Has st.prev root := by
  obtain ⟨-, -, -, h1, h2⟩ := h
  rw [Nat.min_eq_right hk] at h1 h2
  rw [Nat.sub_eq_zero_of_le hk, Nat.mul_zero, List.drop_zero, hr] at h2
  exact ⟨h1.congr (by rw [Nat.mod_eq_of_lt hi, sub_self]), h2⟩

theorem PS.forgeGadget4 {p0 : Prover F G} (hg : p0.Good) {sbox : SboxType} (hs : sbox ≠ .inverse) {pp : PoseidonParams F} (hp : pp.Valid) (hw : pp.width = 5) {z leaf : Var} (hz : p0.HasV z 0)
    {depth m k : ℕ} (hm : m ≤ 4 * getByteSize depth 4) {root x : F} (hx : p0.HasV leaf x) {index : Var} (hy : p0.HasV index (k : F))
    {nodes : List Var} {vals : List F} (hv : List.Forall₂ p0.HasV nodes vals) (hn : nodes.length = 3 * m) (hi : k < 4 ^ m)
    (hr : merkleRoot (hasher4 pp sbox).digest ((digitsOf 4 m k).zip (groups 3 m vals)) x = root) :
    PS env onSpec p0 (forgeGadget4 k depth root leaf ⟨index, some (k : F)⟩ nodes [z] pp sbox.synthesize : Prog F C rnd _) fun _ p' => p0.Next p' := by
  unfold Bp.forgeGadget4
  have hL : ∀ i j, j < 4 → LevelPS env onSpec p0 (hasher4 pp sbox).digest 4 (k / 4 ^ (4 * i + j) % 4)
      (merkleLevel4 (some ((k / 256 ^ i % 256) >>> (2 * j) % 2, (k / 256 ^ i % 256) >>> (2 * j + 1) % 2)) [LC.ofVar z] pp sbox.synthesize : MerkleState F → Prog F C rnd _) := by
    intro i j hj
    exact levelPS4 hg hs hp hw (.ofVar hz) (Nat.mod_lt _ (by norm_num)) (Nat.mod_lt _ (by norm_num)) (digit4 _ _ _ hj)
  refine PS.bind (PS.forN (fun i st p => PInv p0 (hasher4 pp sbox).digest 4 m nodes vals x (k : F) k (4 * i) st p) _ _ _ (PInv.init hg _ 4 m hn vals hx hy _) ?_) ?_
  · intro i hi st p h
    exact PS.forN (fun j st p => PInv p0 (hasher4 pp sbox).digest 4 m nodes vals x (k : F) k (4 * i + j) st p) _ _ _ h fun j hj st p h =>
      PS.guarded hg (by norm_num) hv hn (fun _ => hL i j hj) h
  · intro st p h
    obtain ⟨h1, h2⟩ := PInv.final' (T := hasher4 pp sbox) hm hi hr h
    refine PS.bind (PS.con h.next.good h1) ?_
    rintro _ p1 n1
    exact (PS.conScalar n1.good (h2.next h.next.good n1)).mono fun _ p2 n2 => (h.next.trans n1).trans n2

theorem PS.forgeGadget8 {p0 : Prover F G} (hg : p0.Good) {sbox : SboxType} (hs : sbox ≠ .inverse) {pp : PoseidonParams F} (hp : pp.Valid) (hw : pp.width = 9) {z leaf : Var} (hz : p0.HasV z 0)
    {depth m k : ℕ} (hm : m ≤ depth) {root x : F} (hx : p0.HasV leaf x) {index : Var} (hy : p0.HasV index (k : F))
    {nodes : List Var} {vals : List F} (hv : List.Forall₂ p0.HasV nodes vals) (hn : nodes.length = 7 * m) (hi : k < 8 ^ m)
    (hr : merkleRoot (hasher8 pp sbox).digest ((digitsOf 8 m k).zip (groups 7 m vals)) x = root) :
    PS env onSpec p0 (forgeGadget8 k depth root leaf ⟨index, some (k : F)⟩ nodes z pp sbox.synthesize : Prog F C rnd _) fun _ p' => p0.Next p' := by
  unfold Bp.forgeGadget8
  have hL : ∀ i, LevelPS env onSpec p0 (hasher8 pp sbox).digest 8 (k / 8 ^ i % 8)
      (merkleLevel8 (some ((k / 8 ^ i % 8) >>> 0 % 2, (k / 8 ^ i % 8) >>> 1 % 2, (k / 8 ^ i % 8) >>> 2 % 2)) (LC.ofVar z) pp sbox.synthesize : MerkleState F → Prog F C rnd _) := by
    intro i
    exact levelPS8 hg hs hp hw (.ofVar hz) (Nat.mod_lt _ (by norm_num)) (Nat.mod_lt _ (by norm_num)) (Nat.mod_lt _ (by norm_num)) (digit8 (Nat.mod_lt _ (by norm_num)))
  refine PS.bind (PS.forN (fun i st p => PInv p0 (hasher8 pp sbox).digest 8 m nodes vals x (k : F) k i st p) _ _ _ (PInv.init hg _ 8 m hn vals hx hy _) ?_) ?_
  · exact fun i _ st p h => PS.guarded hg (by norm_num) hv hn (fun _ => hL i) h
  · intro st p h
    obtain ⟨h1, h2⟩ := PInv.final' (T := hasher8 pp sbox) hm hi hr h
    refine PS.bind (PS.con h.next.good h1) ?_
    rintro _ p1 n1
    exact (PS.conScalar n1.good (h2.next h.next.good n1)).mono fun _ p2 n2 => (h.next.trans n1).trans n2

theorem Prog.Same.forgeGadget4 {RC : C → C' → Prop} (k depth : ℕ) (root : F) (leaf index : Var) (y : F) (nodes statics : List Var) (p : PoseidonParams F) (sbox : SboxType) :
    Prog.Same RC (fun _ _ => True) (forgeGadget4 k depth root leaf ⟨index, some y⟩ nodes statics p sbox.synthesize : Prog F C rnd _) (forgeGadget4 k depth root leaf ⟨index, none⟩ nodes statics p sbox.synthesize) := by
  unfold Bp.forgeGadget4
  refine .bind (.forN' MerkleState.Same ⟨rfl, .rfl', rfl, rfl⟩ fun i hi a b h => .forN' MerkleState.Same h fun j _ a b h => .guarded h fun a b h => levelSame4 _ _ _ _ _ _ _ h) ?_
  intro a b h
  rw [h.terms]
  exact .bind (.con .rfl') fun _ _ _ => .conScalar h.prev _

theorem Prog.Same.forgeGadget8 {RC : C → C' → Prop} (k depth : ℕ) (root : F) (leaf index : Var) (y : F) (nodes : List Var) (z : Var) (p : PoseidonParams F) (sbox : SboxType) :
    Prog.Same RC (fun _ _ => True) (forgeGadget8 k depth root leaf ⟨index, some y⟩ nodes z p sbox.synthesize : Prog F C rnd _) (forgeGadget8 k depth root leaf ⟨index, none⟩ nodes z p sbox.synthesize) := by
  unfold Bp.forgeGadget8
  refine .bind (.forN' MerkleState.Same ⟨rfl, .rfl', rfl, rfl⟩ fun i hi a b h => .guarded h fun a b h => levelSame8 _ _ _ _ _ _ _ h) ?_
  intro a b h
  rw [h.terms]
  exact .bind (.con .rfl') fun _ _ _ => .conScalar h.prev _

theorem PC.forgeGadget4 {pd : Option ℕ} {sbox : SboxType} (hs : sbox ≠ .inverse) {p : PoseidonParams F} (hw : p.width ≠ 0) {depth m : ℕ} (hm : m ≤ 4 * getByteSize depth 4) (k : ℕ) (root : F) (leaf : Var)
    (index : Alloc F) {nodes : List Var} (hn : nodes.length = 3 * m) (statics : List Var) :
    PC pd (forgeGadget4 k depth root leaf index nodes statics p sbox.synthesize : Prog F C rnd _) (m * gates4 p sbox) := by
  unfold Bp.forgeGadget4
  have hL : ∀ b (st : MerkleState F), 4 - 1 ≤ st.nodes.length →
      PCQ pd (merkleLevel4 b (statics.map LC.ofVar) p sbox.synthesize st : Prog F C rnd _) (gates4 p sbox) fun st' => st'.nodes.length = st.nodes.length - (4 - 1) :=
    fun b st _ => levelPCQ4 b _ p hw hs st
  refine PCQ.pc (Q := fun _ => True) ?_
  refine (PCQ.bind (k := m * gates4 p sbox) (l := 0) (Q := fun _ => True) ?_ fun st _ => (PC.bind (k := 0) (l := 0) (PC.con _) fun _ => PC.conScalar _ _).q).congr (Nat.add_zero _)
  have hmono : Monotone fun i => levelGates (gates4 p sbox) m (4 * i) := fun a b h => levelGates_mono _ _ (by omega)
  refine ((PCQ.forN (fun i st => st.nodes.length = (4 - 1) * (m - 4 * i)) hmono _ _ (by simpa using hn) ?_).mono fun _ _ => True.intro).congr ?_
  · intro i _ st h
    have hmono' : Monotone fun j => levelGates (gates4 p sbox) m (4 * i + j) := fun a b h => levelGates_mono _ _ (by omega)
    exact PCQ.forN (fun j st => st.nodes.length = (4 - 1) * (m - (4 * i + j))) hmono' 4 st h fun j _ st h => PCQ.guarded (by norm_num) (hL _) h
  · simp only [levelGates, Nat.min_eq_right hm]; simp

theorem PC.forgeGadget8 {pd : Option ℕ} {sbox : SboxType} (hs : sbox ≠ .inverse) {p : PoseidonParams F} (hw : p.width ≠ 0) {depth m : ℕ} (hm : m ≤ depth) (k : ℕ) (root : F) (leaf : Var)
    (index : Alloc F) {nodes : List Var} (hn : nodes.length = 7 * m) (z : Var) :
    PC pd (forgeGadget8 k depth root leaf index nodes z p sbox.synthesize : Prog F C rnd _) (m * gates8 p sbox) := by
  unfold Bp.forgeGadget8
  have hL : ∀ b (st : MerkleState F), 8 - 1 ≤ st.nodes.length →
      PCQ pd (merkleLevel8 b (LC.ofVar z) p sbox.synthesize st : Prog F C rnd _) (gates8 p sbox) fun st' => st'.nodes.length = st.nodes.length - (8 - 1) :=
    fun b st _ => levelPCQ8 b _ p hw hs st
  refine PCQ.pc (Q := fun _ => True) ?_
  refine (PCQ.bind (k := m * gates8 p sbox) (l := 0) (Q := fun _ => True) ?_ fun st _ => (PC.bind (k := 0) (l := 0) (PC.con _) fun _ => PC.conScalar _ _).q).congr (Nat.add_zero _)
  refine ((PCQ.forN (fun k st => st.nodes.length = (8 - 1) * (m - k)) (levelGates_mono (gates8 p sbox) m) _ _ (by simpa using hn) ?_).mono fun _ _ => True.intro).congr ?_
  · exact fun k _ st h => PCQ.guarded (by norm_num) (hL _) h
  · simp only [levelGates, Nat.min_eq_right hm]; simp

end lemmas

theorem order_cast : ((IntRep.order F : ℕ) : F) = 0 := by
  have h0 : IntRep.rep (0 : F) = 0 := by
    have := IntRep.rep_cast (F := F) 0 (lt_of_le_of_lt (Nat.zero_le _) (IntRep.rep_lt (0 : F)))
    rwa [Nat.cast_zero] at this
  have hlt := IntRep.rep_lt ((IntRep.order F : ℕ) : F)
  have hc := IntRep.cast_rep ((IntRep.order F : ℕ) : F)
  generalize IntRep.rep ((IntRep.order F : ℕ) : F) = r at hlt hc
  by_cases hr : r = 0
  · rw [← hc, hr, Nat.cast_zero]
  · have e : ((IntRep.order F - r : ℕ) : F) = 0 := by rw [Nat.cast_sub hlt.le, hc, sub_self]
    have := IntRep.rep_cast (F := F) (IntRep.order F - r) (by omega)
    rw [e, h0] at this
    omega

/-- Positions beyond the order are never written. -/
theorem written_beyond {N k : ℕ} (hk : IntRep.order F ≤ k) (h : History F) : written N h k = 0 := by
  unfold written
  rw [List.find?_eq_none.mpr]
  intro w _
  have h1 := IntRep.rep_lt w.1
  have h2 := Nat.mod_le (IntRep.rep w.1) N
  simp only [decide_eq_true_eq]
  omega

section forge
variable {env env' : Env F G}

/-- The statements of C57: `v 0` is what the tree with this history holds at the index `v 1` — the value last written there, or 0. -/
def HoldsAt (depth A : ℕ) (hist : History F) (v : ℕ → F) : Prop := v 0 = written (A ^ depth) hist (IntRep.rep (v 1))

/-- **C57** what holds: below the root of a reachable tree with at most as many positions as the field has elements, the committed leaf is what the tree holds at the committed index — or the
statement exhibits a collision with a child list of the tree.  Missing: deeper trees, where it is false (`c57_denies_written_4`, `c57_denies_written_8`). -/
theorem c57_holds_at_partial (T : TreeOps F) (p : PoseidonParams F) (hp : p.Valid) (depth : ℕ) (hT : T.IsTree p depth) (ho : T.arity ^ depth ≤ IntRep.order F) (db0 : HashDb (List F)) (hist : History F)
    (hc : T.CollisionFree depth hist) (t : SparseTree F) (db : HashDb (List F)) (hrun : runHistory T depth db0 hist = .ok (t, db)) (env : Env F G) (g h : G)
    (dv : List G → Drv (Verifier F G) Unit) (hdv : (T = tree4 p ∧ dv = verifyInclusion4 env t.root depth p .quint g h) ∨ (T = tree8 p ∧ dv = verifyInclusion8 env t.root depth p .quint g h)) :
    SoundForExactly (2 + (T.arity - 1) * depth) [0] [0] dv fun v => IntRep.rep (v 1) < T.arity ^ depth ∧ (HoldsAt depth T.arity hist v ∨
      ∃ a ∈ merkleHashed T.digest ((digitsOf T.arity depth (IntRep.rep (v 1))).zip (nodesAt (T.arity - 1) depth 2 v)) (v 0),
        ∃ b ∈ childLists T.digest T.arity depth (written (T.arity ^ depth) hist), a ≠ b ∧ T.digest a = T.digest b) := by
  intro coms s s' hl hd
  obtain ⟨a, b, c⟩ := c41_c42_tree_sound T p hp depth hT db0 hist hc t db hrun env g h dv hdv coms s s' hl hd
  refine ⟨a, b, fun σ h1 h2 h3 => ?_⟩
  obtain ⟨j, hj, -, e, q⟩ := c σ h1 h2 h3
  have e := e ho
  subst e
  exact ⟨hj, q⟩

/-- Any path: the forger's pair is complete for every position `k` of the tree. -/
theorem forge4_honest (hO : env.oracle = env'.oracle) (k : ℕ) (leaf root : F) (merkleProof : List (List F)) (depth : ℕ)
    (hl : merkleProof.length = depth) (hn : ∀ s ∈ merkleProof, s.length = 3) (p : PoseidonParams F) (hp : p.Valid) (hw : p.width = 5) (sbox : SboxType) (hs : sbox ≠ .inverse)
    (hi : k < 4 ^ depth) (hr : merkleRoot (hasher4 p sbox).digest ((digitsOf 4 depth k).zip merkleProof) leaf = root) (g h : G) (r0 r1 : F) (coins : ℕ → F)
    (randomness : Option (List F)) (rng : Option (ℕ → F)) (hrand : RandsFrom 2 randomness rng [r0, r1]) (pd : Option ℕ) :
    HonestPair env env' pd (depth * gates4 p sbox) ([(leaf, r0), ((k : F), r1)] ++ merkleProof.flatten.mapIdx fun i x => (x, coins i))
      (forgeInclusion4 env k leaf randomness merkleProof root depth p sbox rng coins) (verifyInclusion4 env' root depth p sbox g h) [(0, 0)] := by
  subst hl
  have hfl := flatten_length merkleProof hn
  have hm := levels4 merkleProof.length
  refine inclusion_honest env env' hO pd g h leaf (k : F) r0 r1 merkleProof coins (call := fun l i ns zs => forgeGadget4 k merkleProof.length root l i ns zs p sbox.synthesize) ?_ ?_ ?_ randomness rng hrand
  · intro q hq l i ns z h1 h2 h3 h4
    refine PS.forgeGadget4 hq hs hp hw h4 hm h1 h2 h3 (by rw [h3.length_eq, hfl]) hi ?_
    rw [groups_flatten _ hn, hr]
  · exact fun l i ns z => Prog.Same.forgeGadget4 k _ root l i (k : F) ns [z] p sbox
  · exact fun l i ns z hns => PC.forgeGadget4 hs (by omega) hm k root l _ (by rw [hns, hfl]) [z]

theorem forge8_honest (hO : env.oracle = env'.oracle) (k : ℕ) (leaf root : F) (merkleProof : List (List F)) (depth : ℕ)
    (hl : merkleProof.length = depth) (hn : ∀ s ∈ merkleProof, s.length = 7) (p : PoseidonParams F) (hp : p.Valid) (hw : p.width = 9) (sbox : SboxType) (hs : sbox ≠ .inverse)
    (hi : k < 8 ^ depth) (hr : merkleRoot (hasher8 p sbox).digest ((digitsOf 8 depth k).zip merkleProof) leaf = root) (g h : G) (r0 r1 : F) (coins : ℕ → F)
    (randomness : Option (List F)) (rng : Option (ℕ → F)) (hrand : RandsFrom 2 randomness rng [r0, r1]) (pd : Option ℕ) :
    HonestPair env env' pd (depth * gates8 p sbox) ([(leaf, r0), ((k : F), r1)] ++ merkleProof.flatten.mapIdx fun i x => (x, coins i))
      (forgeInclusion8 env k leaf randomness merkleProof root depth p sbox rng coins) (verifyInclusion8 env' root depth p sbox g h) [(0, 0)] := by
  subst hl
  have hfl := flatten_length merkleProof hn
  refine inclusion_honest env env' hO pd g h leaf (k : F) r0 r1 merkleProof coins (call := forgeCall8 k root merkleProof.length p sbox.synthesize) ?_ ?_ ?_ randomness rng hrand
  · intro q hq l i ns z h1 h2 h3 h4
    refine PS.forgeGadget8 hq hs hp hw h4 le_rfl h1 h2 h3 (by rw [h3.length_eq, hfl]) hi ?_
    rw [groups_flatten _ hn, hr]
  · exact fun l i ns z => Prog.Same.forgeGadget8 k _ root l i (k : F) ns z p sbox
  · exact fun l i ns z hns => PC.forgeGadget8 hs (by omega) le_rfl k root l _ (by rw [hns, hfl]) z

/-- **C57** fails (4-ary, deep trees): take any reachable tree, and any index `i` such that position `order + i` exists.  `get` returns what was last written to `i`; but a prover following the path
of position `order + i` gets a proof accepted that the leaf at index `i` is 0. -/
theorem c57_denies_written_4 (hO : env.oracle = env'.oracle) (p : PoseidonParams F) (hp : p.Valid) (hw : p.width = 5) (depth : ℕ) (hd : depth ≤ 4 * ByteRep.modBytes F) (db0 : HashDb (List F))
    (hist : History F) (hc : (tree4 p).CollisionFree depth hist) (t : SparseTree F) (db : HashDb (List F)) (hrun : runHistory (tree4 p) depth db0 hist = .ok (t, db)) (i : F)
    (hi : IntRep.order F + IntRep.rep i < 4 ^ depth) (g h : G) (r0 r1 : F) (coins : ℕ → F) (randomness : Option (List F)) (rng : Option (ℕ → F)) (hrand : RandsFrom 2 randomness rng [r0, r1])
    (pd : Option ℕ) :
    ∃ nodes, (nodes.length = depth ∧ ∀ s ∈ nodes, s.length = 3) ∧ t.get (tree4 p) i none db = .ok (written (4 ^ depth) hist (IntRep.rep i), none) ∧
      HonestPair env env' pd (depth * gates4 p .quint) ([(0, r0), (i, r1)] ++ nodes.flatten.mapIdx fun i x => (x, coins i))
        (forgeInclusion4 env (IntRep.order F + IntRep.rep i) 0 randomness nodes t.root depth p .quint rng coins) (verifyInclusion4 env' t.root depth p .quint g h) [(0, 0)] := by
  have hT : (tree4 p).IsTree p depth := .inl ⟨rfl, hw, hd⟩
  obtain ⟨db', er, k⟩ := run_ok hp hT db0 hist hc
  rw [hrun] at er
  injection er with er; injection er with e1 e2
  subst e1 e2
  have hg := get_ok (T := tree4 p) (t := ⟨depth, rootOf _ _ _ (written ((tree4 p).arity ^ depth) hist)⟩) (c := written ((tree4 p).arity ^ depth) hist) (isTree_total hp hT).2 rfl (k hist List.prefix_rfl) i none
  have hmod : IntRep.rep i % (tree4 p).arity ^ depth = IntRep.rep i := Nat.mod_eq_of_lt (lt_of_le_of_lt (Nat.le_add_left _ _) hi)
  rw [hmod] at hg
  refine ⟨sides (tree4 p).digest 4 depth (written (4 ^ depth) hist) (IntRep.order F + IntRep.rep i), ⟨sides_length .., sides_node_length _ (by norm_num) _ _ _⟩, hg, ?_⟩
  have hcast : ((IntRep.order F + IntRep.rep i : ℕ) : F) = i := by rw [Nat.cast_add, order_cast, zero_add, IntRep.cast_rep]
  have := forge4_honest hO (IntRep.order F + IntRep.rep i) 0 (rootOf (tree4 p).digest 4 depth (written (4 ^ depth) hist))
    (sides (tree4 p).digest 4 depth (written (4 ^ depth) hist) (IntRep.order F + IntRep.rep i)) depth (sides_length ..) (sides_node_length _ (by norm_num) _ _ _) p hp hw .quint (by decide) hi
    (by rw [← merkleRoot_sides (by norm_num) (j := IntRep.order F + IntRep.rep i), Nat.mod_eq_of_lt hi, written_beyond (Nat.le_add_right _ _)]; rfl) g h r0 r1 coins randomness rng hrand pd
  rw [hcast] at this
  exact this

/-- **C57** fails (8-ary, deep trees). -/
theorem c57_denies_written_8 (hO : env.oracle = env'.oracle) (p : PoseidonParams F) (hp : p.Valid) (hw : p.width = 9) (depth : ℕ) (hd : 3 * depth ≤ 8 * ByteRep.modBytes F) (db0 : HashDb (List F))
    (hist : History F) (hc : (tree8 p).CollisionFree depth hist) (t : SparseTree F) (db : HashDb (List F)) (hrun : runHistory (tree8 p) depth db0 hist = .ok (t, db)) (i : F)
    (hi : IntRep.order F + IntRep.rep i < 8 ^ depth) (g h : G) (r0 r1 : F) (coins : ℕ → F) (randomness : Option (List F)) (rng : Option (ℕ → F)) (hrand : RandsFrom 2 randomness rng [r0, r1])
    (pd : Option ℕ) :
    ∃ nodes, (nodes.length = depth ∧ ∀ s ∈ nodes, s.length = 7) ∧ t.get (tree8 p) i none db = .ok (written (8 ^ depth) hist (IntRep.rep i), none) ∧
      HonestPair env env' pd (depth * gates8 p .quint) ([(0, r0), (i, r1)] ++ nodes.flatten.mapIdx fun i x => (x, coins i))
        (forgeInclusion8 env (IntRep.order F + IntRep.rep i) 0 randomness nodes t.root depth p .quint rng coins) (verifyInclusion8 env' t.root depth p .quint g h) [(0, 0)] := by
  have hT : (tree8 p).IsTree p depth := .inr ⟨rfl, hw, hd⟩
  obtain ⟨db', er, k⟩ := run_ok hp hT db0 hist hc
  rw [hrun] at er
  injection er with er; injection er with e1 e2
  subst e1 e2
  have hg := get_ok (T := tree8 p) (t := ⟨depth, rootOf _ _ _ (written ((tree8 p).arity ^ depth) hist)⟩) (c := written ((tree8 p).arity ^ depth) hist) (isTree_total hp hT).2 rfl (k hist List.prefix_rfl) i none
  have hmod : IntRep.rep i % (tree8 p).arity ^ depth = IntRep.rep i := Nat.mod_eq_of_lt (lt_of_le_of_lt (Nat.le_add_left _ _) hi)
  rw [hmod] at hg
  refine ⟨sides (tree8 p).digest 8 depth (written (8 ^ depth) hist) (IntRep.order F + IntRep.rep i), ⟨sides_length .., sides_node_length _ (by norm_num) _ _ _⟩, hg, ?_⟩
  have hcast : ((IntRep.order F + IntRep.rep i : ℕ) : F) = i := by rw [Nat.cast_add, order_cast, zero_add, IntRep.cast_rep]
  have := forge8_honest hO (IntRep.order F + IntRep.rep i) 0 (rootOf (tree8 p).digest 8 depth (written (8 ^ depth) hist))
    (sides (tree8 p).digest 8 depth (written (8 ^ depth) hist) (IntRep.order F + IntRep.rep i)) depth (sides_length ..) (sides_node_length _ (by norm_num) _ _ _) p hp hw .quint (by decide) hi
    (by rw [← merkleRoot_sides (by norm_num) (j := IntRep.order F + IntRep.rep i), Nat.mod_eq_of_lt hi, written_beyond (Nat.le_add_right _ _)]; rfl) g h r0 r1 coins randomness rng hrand pd
  rw [hcast] at this
  exact this

/-- **C57** fails, end to end: the forged 4-ary proof is accepted. -/
theorem c57_end_to_end_4 [DecidableEq G] (hO : env.oracle = env'.oracle) (h0 : ∀ l, env.oracle l ≠ 0) (p : PoseidonParams F) (hp : p.Valid) (hw : p.width = 5) (depth : ℕ)
    (hd : depth ≤ 4 * ByteRep.modBytes F) (db0 : HashDb (List F)) (hist : History F) (hc : (tree4 p).CollisionFree depth hist) (t : SparseTree F) (db : HashDb (List F))
    (hrun : runHistory (tree4 p) depth db0 hist = .ok (t, db)) (i : F) (hi : IntRep.order F + IntRep.rep i < 4 ^ depth) (g h : G) (r0 r1 : F) (coins : ℕ → F) (randomness : Option (List F))
    (rng : Option (ℕ → F)) (hrand : RandsFrom 2 randomness rng [r0, r1]) (hsz : nextPowerOfTwo (depth * gates4 p .quint) < 2 ^ 32) (hb : 1 < depth * gates4 p .quint ∨ env'.batchInvert [] = .ok ([], 1)) :
    ∃ nodes, EndToEnd env env' (depth * gates4 p .quint) ([(0, r0), (i, r1)] ++ nodes.flatten.mapIdx fun i x => (x, coins i))
        (forgeInclusion4 env (IntRep.order F + IntRep.rep i) 0 randomness nodes t.root depth p .quint rng coins) (verifyInclusion4 env' t.root depth p .quint g h) := by
  obtain ⟨nodes, -, -, h3⟩ := c57_denies_written_4 hO p hp hw depth hd db0 hist hc t db hrun i hi g h r0 r1 coins randomness rng hrand none
  exact ⟨nodes, h3.endToEnd hO h0 hsz hb⟩

/-- **C57** fails, as the negation of the statement that holds for small trees: if something other than 0 was written to `i`, then the statement about all `depth` levels does not imply that the leaf
is what the tree holds at the index. -/
theorem c57_not_enforced_4 (hO : env.oracle = env'.oracle) (p : PoseidonParams F) (hp : p.Valid) (hw : p.width = 5) (depth : ℕ) (hd : depth ≤ 4 * ByteRep.modBytes F) (db0 : HashDb (List F))
    (hist : History F) (hc : (tree4 p).CollisionFree depth hist) (t : SparseTree F) (db : HashDb (List F)) (hrun : runHistory (tree4 p) depth db0 hist = .ok (t, db)) (i : F)
    (hi : IntRep.order F + IntRep.rep i < 4 ^ depth) (hne : written (4 ^ depth) hist (IntRep.rep i) ≠ 0) (g h : G) :
    ¬ SoundForExactly (2 + 3 * depth) [0] [0] (verifyInclusion4 env' t.root depth p .quint g h) (HoldsAt depth 4 hist) := by
  obtain ⟨nodes, ⟨hl, hn⟩, -, h2⟩ := c57_denies_written_4 hO p hp hw depth hd db0 hist hc t db hrun i hi g h 0 0 (fun _ => 0) (some [0, 0]) none (.inl rfl) none
  have := h2.not_soundExactly hO (points := [0]) (R := HoldsAt depth 4 hist) (by simpa [HoldsAt] using hne.symm)
  have e : (([(0, 0), (i, 0)] : List (F × F)) ++ nodes.flatten.mapIdx fun _ x => (x, 0)).length = 2 + 3 * depth := by
    rw [List.length_append, List.length_mapIdx, flatten_length nodes hn, hl]; rfl
  rwa [e] at this

/-- **C57** fails for the 8-ary verifier. -/
theorem c57_not_enforced_8 (hO : env.oracle = env'.oracle) (p : PoseidonParams F) (hp : p.Valid) (hw : p.width = 9) (depth : ℕ) (hd : 3 * depth ≤ 8 * ByteRep.modBytes F) (db0 : HashDb (List F))
    (hist : History F) (hc : (tree8 p).CollisionFree depth hist) (t : SparseTree F) (db : HashDb (List F)) (hrun : runHistory (tree8 p) depth db0 hist = .ok (t, db)) (i : F)
    (hi : IntRep.order F + IntRep.rep i < 8 ^ depth) (hne : written (8 ^ depth) hist (IntRep.rep i) ≠ 0) (g h : G) :
    ¬ SoundForExactly (2 + 7 * depth) [0] [0] (verifyInclusion8 env' t.root depth p .quint g h) (HoldsAt depth 8 hist) := by
  obtain ⟨nodes, ⟨hl, hn⟩, -, h2⟩ := c57_denies_written_8 hO p hp hw depth hd db0 hist hc t db hrun i hi g h 0 0 (fun _ => 0) (some [0, 0]) none (.inl rfl) none
  have := h2.not_soundExactly hO (points := [0]) (R := HoldsAt depth 8 hist) (by simpa [HoldsAt] using hne.symm)
  have e : (([(0, 0), (i, 0)] : List (F × F)) ++ nodes.flatten.mapIdx fun _ x => (x, 0)).length = 2 + 7 * depth := by
    rw [List.length_append, List.length_mapIdx, flatten_length nodes hn, hl]; rfl
  rwa [e] at this

end forge

end Bp
