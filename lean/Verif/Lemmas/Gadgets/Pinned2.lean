import Verif.Lemmas.Gadgets.Pinned
import Verif.Lemmas.Gadgets.Randomizer

set_option linter.unusedSectionVars false
set_option linter.unusedSimpArgs false

/-! # The committed values are determined by the wires: Merkle trees -/

namespace Bp
variable {F G : Type} [Field F] [AddCommGroup G] [Module F G]
variable {C : Type} {rnd : Bool} {α β : Type}
variable {env : Env F G} {σ σ' : Assignment F}

theorem VA.allocBit (hw : Wires σ σ') (b : Option ℕ) : VA env σ σ' (allocBit b : Prog F C rnd _) fun q => AgreeV σ σ' q.1 ∧ AgreeV σ σ' q.2 := by
  unfold Bp.allocBit
  refine VA.bind (VA.allocMul hw _) ?_
  rintro ⟨v, w, o⟩ ⟨h1, h2, -⟩
  exact VA.bind (VA.con _) fun _ _ => VA.bind (VA.con _) fun _ _ => VA.pure ⟨h1, h2⟩

/-- What one level has to guarantee. -/
def LevelVA (env : Env F G) (σ σ' : Assignment F) (A : ℕ) (level : MerkleState F → Prog F C rnd (MerkleState F)) : Prop :=
  ∀ st rest popped, st.nodes = rest ++ popped → popped.length = A - 1 → VA env σ σ' (level st) fun st' => st'.nodes = rest ∧ Agree σ σ' st.prev ∧ (∀ v ∈ popped, AgreeV σ σ' v) ∧
    ∃ ts, st'.terms = st.terms ++ ts ∧ Agree σ σ' (LC.ofTerms ts)

theorem levelVA4 (hw : Wires σ σ') (synth : LC F → F → Prog F C rnd Var) (p : PoseidonParams F) (statics : List (LC F)) (bits : Option (ℕ × ℕ)) :
    LevelVA env σ σ' 4 (merkleLevel4 bits statics p synth) := by
  intro st rest popped hn hl
  unfold merkleLevel4
  refine VA.bind (VA.allocBit hw _) ?_
  rintro ⟨b0, b0_1⟩ ⟨h0, -⟩
  refine VA.bind (VA.allocBit hw _) ?_
  rintro ⟨b1, b1_1⟩ ⟨h1, -⟩
  simp only [popNodes_eq hn hl]
  refine VA.bind (VA.pure (Q := fun q => q = (rest, popped)) rfl) ?_
  rintro _ rfl
  obtain ⟨N1, N2, N3, rfl⟩ := length3 hl
  refine VA.bind (VA.select4 hw _ _ _ _ _ _ _ _) fun ls hls => VA.bind VA.any fun l _ => VA.bind VA.any fun l' _ => VA.pure ?_
  simp only [List.forall_mem_cons, List.not_mem_nil, false_imp_iff, implies_true, and_true] at hls ⊢
  refine ⟨trivial, hls.1, ⟨hls.2.1.ofVar, hls.2.2.1.ofVar, hls.2.2.2.ofVar⟩, [(b1, 2 * st.exp), (b0, st.exp)], by simp, ?_⟩
  have h0 : σ.val b0 = σ'.val b0 := h0
  have h1 : σ.val b1 = σ'.val b1 := h1
  simp only [Agree, LC.value_cons, LC.value_nil, h0, h1]

theorem levelVA8 (hw : Wires σ σ') (synth : LC F → F → Prog F C rnd Var) (p : PoseidonParams F) (z : LC F) (bits : Option (ℕ × ℕ × ℕ)) :
    LevelVA env σ σ' 8 (merkleLevel8 bits z p synth) := by
  intro st rest popped hn hl
  unfold merkleLevel8
  refine VA.bind (VA.allocBit hw _) ?_
  rintro ⟨b0, b0_1⟩ ⟨h0, -⟩
  refine VA.bind (VA.allocBit hw _) ?_
  rintro ⟨b1, b1_1⟩ ⟨h1, -⟩
  refine VA.bind (VA.allocBit hw _) ?_
  rintro ⟨b2, b2_1⟩ ⟨h2, -⟩
  simp only [popNodes_eq hn hl]
  refine VA.bind (VA.pure (Q := fun q => q = (rest, popped)) rfl) ?_
  rintro _ rfl
  obtain ⟨N1, N2, N3, N4, N5, N6, N7, rfl⟩ := length7 hl
  refine VA.bind (VA.select8 hw _ _ _ _ _ _ _ _ _ _ _ _ _ _) fun ls hls => VA.bind VA.any fun l _ => VA.bind VA.any fun l' _ => VA.pure ?_
  simp only [List.forall_mem_cons, List.not_mem_nil, false_imp_iff, implies_true, and_true] at hls ⊢
  obtain ⟨g0, g1, g2, g3, g4, g5, g6, g7⟩ := hls
  refine ⟨trivial, g0, ⟨g1.ofVar, g2.ofVar, g3.ofVar, g4.ofVar, g5.ofVar, g6.ofVar, g7.ofVar⟩, [(b0, st.exp), (b1, 2 * st.exp), (b2, 4 * st.exp)], by simp, ?_⟩
  have h0 : σ.val b0 = σ'.val b0 := h0
  have h1 : σ.val b1 = σ'.val b1 := h1
  have h2 : σ.val b2 = σ'.val b2 := h2
  simp only [Agree, LC.value_cons, LC.value_nil, h0, h1, h2]

/-- After `k` iterations: the nodes used so far agree. -/
structure AInv (σ σ' : Assignment F) (A m : ℕ) (ns : List Var) (leaf idx : Var) (k : ℕ) (st : MerkleState F) : Prop where
  nodes : st.nodes = ns.take ((A - 1) * (m - k))
  used : ∀ v ∈ ns.drop ((A - 1) * (m - k)), AgreeV σ σ' v
  prev : st.prev = LC.ofVar leaf ∨ AgreeV σ σ' leaf
  terms : ∃ ts, st.terms = (idx, (-1 : F)) :: ts ∧ Agree σ σ' (LC.ofTerms ts)

theorem VA.guarded {A m : ℕ} (hA : 2 ≤ A) {ns : List Var} (hn : ns.length = (A - 1) * m) {leaf idx : Var} {level : MerkleState F → Prog F C rnd (MerkleState F)} (hL : LevelVA env σ σ' A level)
    {k : ℕ} {st : MerkleState F} (h : AInv σ σ' A m ns leaf idx k st) : VA env σ σ' (guarded level st) (AInv σ σ' A m ns leaf idx (k + 1)) := by
  unfold Bp.guarded
  by_cases hk : k < m
  · have hpos : 0 < (A - 1) * (m - k) := Nat.mul_pos (by omega) (by omega)
    have hle : (A - 1) * (m - k) ≤ ns.length := by rw [hn]; exact Nat.mul_le_mul_left _ (by omega)
    rw [if_neg (by rw [h.nodes, List.isEmpty_iff_length_eq_zero, List.length_take]; omega)]
    have e := take_popped (n := A - 1) hk ns
    have hx : (A - 1) * (m - (k + 1)) + (A - 1) = (A - 1) * (m - k) := by rw [← Nat.mul_succ]; congr 1; omega
    have hpl : ((ns.drop ((A - 1) * (m - (k + 1)))).take (A - 1)).length = A - 1 := by
      rw [List.length_take, List.length_drop]
      omega
    refine (hL st _ _ (h.nodes.trans e) hpl).mono ?_
    rintro st' ⟨h1, h2, h3, ts, h4, h5⟩
    obtain ⟨us, u1, u2⟩ := h.terms
    refine ⟨h1, fun v hv => ?_, .inr ?_, us ++ ts, by rw [h4, u1]; rfl, ?_⟩
    · rw [← List.take_append_drop (A - 1) (ns.drop ((A - 1) * (m - (k + 1)))), List.mem_append, List.drop_drop, hx] at hv
      exact hv.elim (h3 v) (h.used v)
    · rcases h.prev with e | e
      · rw [e] at h2; exact h2.ofVar
      · exact e
    · rw [Agree, LC.value_ofTerms, LC.value_ofTerms] at u2 h5 ⊢
      rw [List.map_append, List.map_append, List.sum_append, List.sum_append, u2, h5]
  · have h0 : m - k = 0 := by omega
    have h0' : m - (k + 1) = 0 := by omega
    rw [if_pos (by rw [h.nodes, h0]; simp)]
    refine VA.pure ⟨by rw [h.nodes, h0, h0'], ?_, h.prev, h.terms⟩
    have := h.used
    rw [h0] at this
    rwa [h0']

theorem AInv.init {A m : ℕ} {ns : List Var} (hn : ns.length = (A - 1) * m) (leaf idx : Var) : AInv σ σ' A m ns leaf idx 0 ⟨ns, LC.ofVar leaf, [(idx, -1)], 1⟩ :=
  ⟨by simp [← hn], by simp [← hn], .inl rfl, [], rfl, rfl⟩

/-- The end of the gadgets. -/
theorem AInv.finish {A m : ℕ} {ns : List Var} {leaf idx : Var} {k : ℕ} (hk : m ≤ k) {st : MerkleState F} (h : AInv σ σ' A m ns leaf idx k st) (root : F) :
    VA env σ σ' (do Prog.con (LC.ofTerms st.terms); constrainLcWithScalar st.prev root : Prog F C rnd Unit) fun _ => AgreeV σ σ' leaf ∧ AgreeV σ σ' idx ∧ ∀ v ∈ ns, AgreeV σ σ' v := by
  refine VA.bind (VA.con _) fun _ h1 => (VA.conScalar _ _).mono fun _ h2 => ⟨?_, ?_, ?_⟩
  · rcases h.prev with e | e
    · rw [e, LC.value_ofVar, LC.value_ofVar] at h2
      exact h2.1.trans h2.2.symm
    · exact e
  · obtain ⟨ts, e, ht⟩ := h.terms
    rw [e, LC.value_cons, LC.value_cons] at h1
    rw [Agree] at ht
    simp only at h1
    show σ.val idx = σ'.val idx
    linear_combination ht - h1.1 + h1.2
  · have := h.used
    rwa [show m - k = 0 by omega, Nat.mul_zero, List.drop_zero] at this

section trees
variable [ByteRep F]

theorem VA.merkleGadget4 (hw : Wires σ σ') (synth : LC F → F → Prog F C rnd Var) (p : PoseidonParams F) (depth : ℕ) (root : F) (leaf : Var) (index : Alloc F) (nodes statics : List Var)
    (hn : nodes.length = 3 * depth) (hd : depth ≤ 4 * getByteSize depth 4) :
    VA env σ σ' (merkleGadget4 depth root leaf index nodes statics p synth : Prog F C rnd _) fun _ => AgreeV σ σ' leaf ∧ AgreeV σ σ' index.var ∧ ∀ v ∈ nodes, AgreeV σ σ' v := by
  rw [merkleGadget4_eq]
  have hL : ∀ i j, LevelVA env σ σ' 4 (iter4 index.assignment i j (statics.map LC.ofVar) p synth) := fun i j st rest popped h1 h2 =>
    VA.bind VA.any fun bits _ => levelVA4 hw synth p _ bits st rest popped h1 h2
  refine VA.bind (VA.forN (fun i st => AInv σ σ' 4 depth nodes leaf index.var (4 * i) st) _ _ (AInv.init hn leaf index.var) ?_) ?_
  · intro i _ st h
    exact VA.forN (fun j st => AInv σ σ' 4 depth nodes leaf index.var (4 * i + j) st) _ _ h fun j _ st h => VA.guarded (A := 4) (by norm_num) hn (hL i j) h
  · exact fun st h => h.finish hd root

theorem VA.merkleGadget8 (hw : Wires σ σ') (synth : LC F → F → Prog F C rnd Var) (p : PoseidonParams F) (depth : ℕ) (root : F) (leaf : Var) (index : Alloc F) (nodes : List Var) (z : Var)
    (hn : nodes.length = 7 * depth) :
    VA env σ σ' (merkleGadget8 depth root leaf index nodes z p synth : Prog F C rnd _) fun _ => AgreeV σ σ' leaf ∧ AgreeV σ σ' index.var ∧ ∀ v ∈ nodes, AgreeV σ σ' v := by
  rw [merkleGadget8_eq]
  refine VA.bind VA.any fun octets _ => ?_
  have hL : ∀ k, LevelVA env σ σ' 8 (iter8 octets k (LC.ofVar z) p synth) := fun k st rest popped h1 h2 =>
    VA.bind VA.any fun bits _ => levelVA8 hw synth p _ bits st rest popped h1 h2
  refine VA.bind (VA.forN (fun k st => AInv σ σ' 8 depth nodes leaf index.var k st) _ _ (AInv.init hn leaf index.var) ?_) ?_
  · exact fun k _ st h => VA.guarded (A := 8) (by norm_num) hn (hL k) h
  · exact fun st h => h.finish (le_refl _) root

/-! ## Randomizer -/

theorem VA.hash4 (hw : Wires σ σ') {sbox : SboxType} (hs : sbox ≠ .inverse) (p : PoseidonParams F) (hp : p.fullRoundsBeginning ≠ 0) (ls statics : List (LC F)) :
    VA env σ σ' (poseidonHash4Constraints ls statics p sbox.synthesize : Prog F C rnd _) (fun _ => ∀ l ∈ ls, Agree σ σ' l) := by
  unfold poseidonHash4Constraints
  split
  · exact VA.panic
  split
  · exact VA.panic
  cases statics with
  | nil => exact VA.panic
  | cons s rest => exact (VA.hashC hw hs p hp _).mono fun _ h l hl => h l (by simp [hl])

theorem VA.origPath (hw : Wires σ σ') {sbox : SboxType} (hs : sbox ≠ .inverse) (p : PoseidonParams F) (hp : p.fullRoundsBeginning ≠ 0) (statics : List (LC F)) :
    ∀ (path : List ℕ) (nodes : List Var) (cur : LC F), nodes.length = 3 * path.length →
      VA env σ σ' (origPath statics p sbox.synthesize path nodes cur : Prog F C rnd _) fun _ => (path ≠ [] → Agree σ σ' cur) ∧ ∀ v ∈ nodes, AgreeV σ σ' v
  | [], nodes, cur, hl => VA.know ⟨fun h => absurd rfl h, by rw [List.length_nil, Nat.mul_zero, List.length_eq_zero_iff] at hl; simp [hl]⟩
  | pos :: path, nodes, cur, hl => by
    rw [List.length_cons] at hl
    unfold Bp.origPath
    have hsplit := (List.take_append_drop (3 * path.length) nodes).symm
    rw [popNodes_eq hsplit (by rw [List.length_drop]; omega)]
    refine VA.bind (VA.pure (Q := fun q => q = (nodes.take (3 * path.length), nodes.drop (3 * path.length))) rfl) ?_
    rintro _ rfl
    refine VA.bind (VA.left (VS.ofRes _)) fun proof hpr => VA.bind (VA.hash4 hw hs p hp proof statics) fun h hh => ?_
    refine (VA.origPath hw hs p hp statics path _ h (by rw [List.length_take]; omega)).mono ?_
    rintro _ ⟨-, h2⟩
    unfold vecInsert at hpr
    split at hpr
    swap
    · cases hpr
    next hle =>
    injection hpr with hpr
    subst hpr
    have hm : ∀ x, x = cur ∨ x ∈ (nodes.drop (3 * path.length)).map LC.ofVar → Agree σ σ' x := fun x hx =>
      hh x ((List.mem_insertIdx (by simpa using hle)).mpr hx)
    refine ⟨fun _ => hm cur (.inl rfl), fun v hv => ?_⟩
    rw [hsplit, List.mem_append] at hv
    rcases hv with hv | hv
    · exact h2 v hv
    · exact (hm (LC.ofVar v) (.inr (List.mem_map_of_mem hv))).ofVar

theorem VA.origLoop (hw : Wires σ σ') (hg : σ.Gates) (hg' : σ'.Gates) {sbox : SboxType} (hs : sbox ≠ .inverse) (p : PoseidonParams F) (hp : p.fullRoundsBeginning ≠ 0) {z : LC F} (hz : z.value σ = 0) (hz' : z.value σ' = 0)
    {depth : ℕ} (hd : depth ≠ 0) {newRoot : F} {db : HashDb (List F)} {root : Var} : ∀ (is : List F) (vs : List Var) (proofs : List (List Var)) (m : NodeMap F), is.length = vs.length → is.length = proofs.length →
      (∀ ns ∈ proofs, ns.length = 3 * depth) → VA env σ σ' (origLoop depth root newRoot db [z] p sbox.synthesize is vs proofs m : Prog F C rnd _) fun m' =>
        (∀ v ∈ vs, AgreeV σ σ' v) ∧ (∀ ns ∈ proofs, ∀ v ∈ ns, AgreeV σ σ' v) ∧ (is ≠ [] → AgreeV σ σ' root) ∧ (is = [] → m' = m)
  | [], [], [], m, _, _, _ => by unfold Bp.origLoop; exact VA.pure ⟨by simp, by simp, fun h => absurd rfl h, fun _ => rfl⟩
  | x :: is, v :: vs, ns :: proofs, m, h1, h2, h3 => by
    have hns := h3 ns (by simp)
    unfold Bp.origLoop
    refine VA.bind (VA.left (VS.ofRes _)) fun path hpath => ?_
    have e := getBase4Repr_eq hpath
    have hl : ns.length = 3 * path.reverse.length := by rw [hns, e]; simp [digitsOf_length]
    have hne : path.reverse ≠ [] := fun h => hd (by have := congrArg List.length h; rw [e] at this; simpa [digitsOf_length] using this)
    refine VA.bind ((VA.origPath hw hs p hp [z] path.reverse ns (LC.ofVar v) hl).and ((VA.left (VS.origPath hg hs p hz _ ns (LC.ofVar v) hl)).and (VA.right (VS.origPath hg' hs p hz' _ ns (LC.ofVar v) hl)))) ?_
    rintro l ⟨⟨a1, a2⟩, b1, b2⟩
    have a1 := (a1 hne).ofVar
    have hl : Agree σ σ' l := by
      rw [Agree, b1, b2, LC.value_ofVar, LC.value_ofVar, show σ.val v = σ'.val v from a1, List.map_congr_left (f := σ.val) (g := σ'.val) a2]
    refine VA.bind (VA.con _) fun _ hc => VA.bind VA.any fun m' _ => ?_
    refine (VA.origLoop hw hg hg' hs p hp hz hz' hd is vs proofs m' (by simpa using h1) (by simpa using h2) fun ns h => h3 ns (by simp [h])).mono ?_
    rintro m2 ⟨c1, c2, -, -⟩
    refine ⟨List.forall_mem_cons.mpr ⟨a1, c1⟩, List.forall_mem_cons.mpr ⟨a2, c2⟩, fun _ => ?_, fun h => by cases h⟩
    rw [LC.value_sub, LC.value_sub, LC.value_ofVar, LC.value_ofVar] at hc
    rw [Agree] at hl
    show σ.val root = σ'.val root
    linear_combination hl - hc.1 + hc.2
  | [], _ :: _, _, _, h1, _, _ => by simp at h1
  | [], [], _ :: _, _, _, h2, _ => by simp at h2
  | _ :: _, [], _, _, h1, _, _ => by simp at h1
  | _ :: _, _ :: _, [], _, _, h2, _ => by simp at h2

theorem VA.randomizerGadget (hw : Wires σ σ') (hg : σ.Gates) (hg' : σ'.Gates) {sbox : SboxType} (hs : sbox ≠ .inverse) (p : PoseidonParams F) (hp : p.fullRoundsBeginning ≠ 0) {z : Var} (hz : σ.val z = 0) (hz' : σ'.val z = 0)
    {depth : ℕ} (hd : depth ≠ 0) {t : SparseTree F} {db : HashDb (List F)} {root : Var} (is : List F) (vs : List Var) (proofs : List (List Var)) (hpl : is.length = proofs.length) (hns : ∀ ns ∈ proofs, ns.length = 3 * depth) :
    VA env σ σ' (randomizerGadget depth root t db is vs proofs [z] p sbox.synthesize : Prog F C rnd _) fun _ =>
      AgreeV σ σ' root ∧ (∀ v ∈ vs, AgreeV σ σ' v) ∧ ∀ ns ∈ proofs, ∀ v ∈ ns, AgreeV σ σ' v := by
  unfold Bp.randomizerGadget
  split
  · exact VA.panic
  split
  · exact VA.panic
  next hdep hl =>
  refine VA.bind (VA.origLoop hw hg hg' hs p hp (by rw [LC.value_ofVar, hz]) (by rw [LC.value_ofVar, hz']) hd is vs proofs _ (by simpa using hl) hpl hns) ?_
  rintro m1 ⟨h1, h2, h3, h4⟩
  by_cases hi : is = []
  · subst hi
    rw [h4 rfl]
    refine VA.bind (VA.left (Q := fun m2 => m2 = (NodeMap.mk []).insert [] (LC.ofScalar t.root)) (by unfold Bp.updateLoop4; exact VS.pure rfl)) ?_
    rintro m2 rfl
    refine VA.bind (VA.left (VS.ofRes _)) fun r hr => (VA.con _).mono fun _ hc => ⟨?_, h1, h2⟩
    have hr := NodeMap.index_ok.mp hr
    rw [NodeMap.get?_insert, if_pos rfl] at hr
    cases hr
    rw [LC.value_sub, LC.value_sub, LC.value_ofVar, LC.value_ofVar, LC.value_ofScalar, LC.value_ofScalar] at hc
    show σ.val root = σ'.val root
    linear_combination hc.2 - hc.1
  · exact VA.know ⟨h3 hi, h1, h2⟩

end trees

end Bp
