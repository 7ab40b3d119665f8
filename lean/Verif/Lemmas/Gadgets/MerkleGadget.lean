import Verif.Lemmas.Gadgets.MerkleLevel

set_option linter.unusedSectionVars false
set_option linter.unusedSimpArgs false

/-! # The Merkle inclusion gadgets -/

namespace Bp
variable {F G : Type} [Field F] [AddCommGroup G] [Module F G]
variable {C C' : Type} {rnd : Bool} {α β : Type}
variable {env : Env F G} {σ : Assignment F} {onSpec : C → Prover F G → Prover F G}

/-! ## Hashing -/

theorem hasher4_total {p : PoseidonParams F} (sbox : SboxType) (hp : p.Valid) (hw : p.width = 5) : (hasher4 p sbox).Total := by
  intro xs hx
  have hx4 : xs.length = 4 := hx
  have : ∃ y, (hasher4 p sbox).hash xs = .ok y := by
    simp only [hasher4, poseidonHash4, if_neg (not_not.mpr hx4)]
    exact hashOf_defined _ hp (by omega) (by simp [hx4, hw])
  obtain ⟨y, hy⟩ := this
  rw [TreeOps.digest, hy]

theorem hasher8_total {p : PoseidonParams F} (sbox : SboxType) (hp : p.Valid) (hw : p.width = 9) : (hasher8 p sbox).Total := by
  intro xs hx
  have hx8 : xs.length = 8 := hx
  have : ∃ y, (hasher8 p sbox).hash xs = .ok y := by
    simp only [hasher8, poseidonHash8, if_neg (not_not.mpr hx8)]
    exact hashOf_defined _ hp (by omega) (by simp [hx8, hw])
  obtain ⟨y, hy⟩ := this
  rw [TreeOps.digest, hy]

theorem VS.hash4 (hg : σ.Gates) {sbox : SboxType} (hs : sbox ≠ .inverse) (p : PoseidonParams F) {z : LC F} (hz : z.value σ = 0) (ls : List (LC F)) :
    VS env σ (poseidonHash4Constraints ls [z] p sbox.synthesize : Prog F C rnd _) fun l => l.value σ = (hasher4 p sbox).digest (ls.map (LC.value σ)) := by
  unfold poseidonHash4Constraints
  split
  · exact VS.panic
  rename_i h4
  split
  · exact VS.panic
  rename_i hw
  simp only [List.append_nil, List.cons_append]
  refine (VS.hash (f := fun x => .ok (sbox.apply x)) (VS.sbox hg hs) p (by simp at hw; omega) _).mono fun l hl => ?_
  rw [List.map_cons, hz] at hl
  simp only [TreeOps.digest, hasher4, poseidonHash4, List.length_map, if_neg h4, hashOf, zeroConst, Nat.cast_zero, hl]

theorem VS.hash8 (hg : σ.Gates) {sbox : SboxType} (hs : sbox ≠ .inverse) (p : PoseidonParams F) {z : LC F} (hz : z.value σ = 0) (ls : List (LC F)) :
    VS env σ (poseidonHash8Constraints ls z p sbox.synthesize : Prog F C rnd _) fun l => l.value σ = (hasher8 p sbox).digest (ls.map (LC.value σ)) := by
  unfold poseidonHash8Constraints
  split
  · exact VS.panic
  rename_i h8
  by_cases hw : p.width = 9
  · refine (VS.hash (f := fun x => .ok (sbox.apply x)) (VS.sbox hg hs) p (by omega) _).mono fun l hl => ?_
    rw [List.map_cons, hz] at hl
    simp only [TreeOps.digest, hasher8, poseidonHash8, List.length_map, if_neg h8, hashOf, zeroConst, Nat.cast_zero, hl]
  · obtain ⟨w, hw⟩ := hashConstraints_panic (C := C) (rnd := rnd) sbox.synthesize p (z :: ls) (by simp at h8; simp; omega)
    rw [hw]; exact VS.panic

theorem PS.hash4 {sbox : SboxType} (hs : sbox ≠ .inverse) {p : PoseidonParams F} (hp : p.Valid) (hw : p.width = 5) {q : Prover F G} (hg : q.Good) {z : LC F} (hz : q.Has z 0) {ls : List (LC F)}
    {xs : List F} (hl : xs.length = 4) (hf : List.Forall₂ q.Has ls xs) :
    PS env onSpec q (poseidonHash4Constraints ls [z] p sbox.synthesize : Prog F C rnd _) fun l q' => q.Next q' ∧ q'.Has l ((hasher4 p sbox).digest xs) := by
  unfold poseidonHash4Constraints
  rw [if_neg (by rw [hf.length_eq, hl]; simp), if_neg (by simp; omega)]
  simp only [List.append_nil, List.cons_append]
  refine PS.hash (synthOk_sbox hs q.pending) hg rfl (.cons hz hf) ?_
  have := hasher4_total sbox hp hw xs hl
  simpa only [hasher4, poseidonHash4, if_neg (not_not.mpr hl), hashOf, zeroConst, Nat.cast_zero] using this

theorem PS.hash8 {sbox : SboxType} (hs : sbox ≠ .inverse) {p : PoseidonParams F} (hp : p.Valid) (hw : p.width = 9) {q : Prover F G} (hg : q.Good) {z : LC F} (hz : q.Has z 0) {ls : List (LC F)}
    {xs : List F} (hl : xs.length = 8) (hf : List.Forall₂ q.Has ls xs) :
    PS env onSpec q (poseidonHash8Constraints ls z p sbox.synthesize : Prog F C rnd _) fun l q' => q.Next q' ∧ q'.Has l ((hasher8 p sbox).digest xs) := by
  unfold poseidonHash8Constraints
  rw [if_neg (by rw [hf.length_eq, hl]; simp)]
  refine PS.hash (synthOk_sbox hs q.pending) hg rfl (.cons hz hf) ?_
  have := hasher8_total sbox hp hw xs hl
  simpa only [hasher8, poseidonHash8, if_neg (not_not.mpr hl), hashOf, zeroConst, Nat.cast_zero] using this

theorem Prog.Same.hash4 {RC : C → C' → Prop} (sbox : SboxType) (p : PoseidonParams F) (zs : List (LC F)) {ls ls' : List (LC F)} (hf : List.Forall₂ LC.Equiv ls ls') :
    Prog.Same RC LC.Equiv (poseidonHash4Constraints ls zs p sbox.synthesize : Prog F C rnd _) (poseidonHash4Constraints ls' zs p sbox.synthesize) := by
  unfold poseidonHash4Constraints
  rw [hf.length_eq]
  split
  · exact .panic
  split
  · exact .panic
  cases zs with
  | nil => exact .panic
  | cons z zs => exact .hash (synthSame_sbox sbox) p (.cons .rfl' (List.rel_append hf (List.forall₂_same.mpr fun _ _ => .rfl')))

theorem Prog.Same.hash8 {RC : C → C' → Prop} (sbox : SboxType) (p : PoseidonParams F) (z : LC F) {ls ls' : List (LC F)} (hf : List.Forall₂ LC.Equiv ls ls') :
    Prog.Same RC LC.Equiv (poseidonHash8Constraints ls z p sbox.synthesize : Prog F C rnd _) (poseidonHash8Constraints ls' z p sbox.synthesize) := by
  unfold poseidonHash8Constraints
  rw [hf.length_eq]
  split
  · exact .panic
  · exact .hash (synthSame_sbox sbox) p (.cons .rfl' hf)

theorem PC.hash4 {pd : Option ℕ} {sbox : SboxType} (h : sbox ≠ .inverse) (p : PoseidonParams F) (hw : p.width ≠ 0) (zs ls : List (LC F)) :
    PC pd (poseidonHash4Constraints ls zs p sbox.synthesize : Prog F C rnd _) (permGates sbox.gates p) := by
  unfold poseidonHash4Constraints
  split
  · exact PC.panic _ _
  split
  · exact PC.panic _ _
  cases zs with
  | nil => exact PC.panic _ _
  | cons z zs => exact PC.hash (PC.sbox (.inl h)) p hw _

theorem PC.hash8 {pd : Option ℕ} {sbox : SboxType} (h : sbox ≠ .inverse) (p : PoseidonParams F) (hw : p.width ≠ 0) (z : LC F) (ls : List (LC F)) :
    PC pd (poseidonHash8Constraints ls z p sbox.synthesize : Prog F C rnd _) (permGates sbox.gates p) := by
  unfold poseidonHash8Constraints
  split
  · exact PC.panic _ _
  · exact PC.hash (PC.sbox (.inl h)) p hw _

/-! ## Levels -/

theorem VS.forall {ι : Sort*} {c : Prog F C rnd α} {Q : ι → α → Prop} (h : ∀ i, VS env σ c (Q i)) : VS env σ c fun a => ∀ i, Q i a :=
  fun onSpec ho s a s' hr hsat i => h i onSpec ho s a s' hr hsat

theorem VS.forall₃ {ι κ μ : Sort*} {c : Prog F C rnd α} {Q : ι → κ → μ → α → Prop} (h : ∀ i j k, VS env σ c (Q i j k)) : VS env σ c fun a => ∀ i j k, Q i j k a :=
  fun onSpec ho s a s' hr hsat i j k => h i j k onSpec ho s a s' hr hsat

theorem VS.trivial {c : Prog F C rnd α} : VS env σ c fun _ => True := fun _ _ _ _ _ _ _ => True.intro

theorem VS.panic_bind {w : String} {f : α → Prog F C rnd β} {Q : β → Prop} : VS env σ (Prog.panic w >>= f) Q := VS.bind (Q := fun _ => False) VS.panic fun _ h => h.elim

theorem popNodes_eq {n : ℕ} {nodes rest popped : List Var} (h : nodes = rest ++ popped) (hl : popped.length = n) : (popNodes n nodes : Prog F C rnd _) = pure (rest, popped) := by
  unfold popNodes
  rw [if_neg (by rw [h, List.length_append]; omega)]
  have : nodes.length - n = rest.length := by rw [h, List.length_append]; omega
  rw [this, h, List.take_left, List.drop_left]

theorem length3 {xs : List α} (h : xs.length = 3) : ∃ a b c, xs = [a, b, c] := by
  match xs, h with
  | [a, b, c], _ => exact ⟨a, b, c, rfl⟩

theorem length7 {xs : List α} (h : xs.length = 7) : ∃ a b c d e f g, xs = [a, b, c, d, e, f, g] := by
  match xs, h with
  | [a, b, c, d, e, f, g], _ => exact ⟨a, b, c, d, e, f, g, rfl⟩

/-- The value of a bit and of its complement. -/
theorem bit_cases {b b' : Var} (h : (σ.val b = 0 ∧ σ.val b' = 1) ∨ (σ.val b = 1 ∧ σ.val b' = 0)) : ∃ d : ℕ, d < 2 ∧ σ.val b = d ∧ σ.val b' = 1 - σ.val b := by
  rcases h with ⟨h, h'⟩ | ⟨h, h'⟩
  · exact ⟨0, by omega, by simp [h], by simp [h, h']⟩
  · exact ⟨1, by omega, by simp [h], by simp [h, h']⟩

theorem levelVS4 (hg : σ.Gates) {sbox : SboxType} (hs : sbox ≠ .inverse) (p : PoseidonParams F) {z : LC F} (hz : z.value σ = 0) (bits : Option (ℕ × ℕ)) :
    LevelVS env σ (hasher4 p sbox).digest 4 (merkleLevel4 bits [z] p sbox.synthesize : MerkleState F → Prog F C rnd _) := by
  refine ⟨fun st rest popped hn hl => ?_, fun st hn => ?_⟩
  swap
  · unfold merkleLevel4
    refine VS.bind VS.trivial fun _ _ => VS.bind VS.trivial fun _ _ => ?_
    simp only [popNodes, if_pos hn]
    exact VS.panic_bind
  unfold merkleLevel4
  refine VS.bind (VS.allocBit hg _) ?_
  rintro ⟨b0, b0_1⟩ hb0
  refine VS.bind (VS.allocBit hg _) ?_
  rintro ⟨b1, b1_1⟩ hb1
  obtain ⟨d0, hd0, e0, e0'⟩ := bit_cases hb0
  obtain ⟨d1, hd1, e1, e1'⟩ := bit_cases hb1
  simp only [popNodes_eq hn hl]
  refine VS.bind (VS.pure (Q := fun q => q = (rest, popped)) rfl) ?_
  rintro _ rfl
  obtain ⟨N1, N2, N3, rfl⟩ := length3 hl
  refine VS.bind (VS.select4 hg e0' e1' _ _ _ _) fun ls hls => VS.bind (VS.hash4 hg hs p hz ls) fun l hl => VS.bind (VS.simp l) fun l' hl' => VS.pure ?_
  refine ⟨rfl, by simp, 2 * d1 + d0, by omega, ?_, ?_⟩
  · simp only [LC.termsVal_append, LC.termsVal_cons, LC.termsVal_nil, e0, e1]
    push_cast; ring
  · rw [hl', hl, hls, e0, e1, sel4_insert _ _ _ _ hd0 hd1]
    simp [LC.value_ofVar]

theorem levelVS8 (hg : σ.Gates) {sbox : SboxType} (hs : sbox ≠ .inverse) (p : PoseidonParams F) {z : LC F} (hz : z.value σ = 0) (bits : Option (ℕ × ℕ × ℕ)) :
    LevelVS env σ (hasher8 p sbox).digest 8 (merkleLevel8 bits z p sbox.synthesize : MerkleState F → Prog F C rnd _) := by
  refine ⟨fun st rest popped hn hl => ?_, fun st hn => ?_⟩
  swap
  · unfold merkleLevel8
    refine VS.bind VS.trivial fun _ _ => VS.bind VS.trivial fun _ _ => VS.bind VS.trivial fun _ _ => ?_
    simp only [popNodes, if_pos hn]
    exact VS.panic_bind
  unfold merkleLevel8
  refine VS.bind (VS.allocBit hg _) ?_
  rintro ⟨b0, b0_1⟩ hb0
  refine VS.bind (VS.allocBit hg _) ?_
  rintro ⟨b1, b1_1⟩ hb1
  refine VS.bind (VS.allocBit hg _) ?_
  rintro ⟨b2, b2_1⟩ hb2
  obtain ⟨d0, hd0, e0, e0'⟩ := bit_cases hb0
  obtain ⟨d1, hd1, e1, e1'⟩ := bit_cases hb1
  obtain ⟨d2, hd2, e2, e2'⟩ := bit_cases hb2
  simp only [popNodes_eq hn hl]
  refine VS.bind (VS.pure (Q := fun q => q = (rest, popped)) rfl) ?_
  rintro _ rfl
  obtain ⟨N1, N2, N3, N4, N5, N6, N7, rfl⟩ := length7 hl
  refine VS.bind (VS.select8 hg e0' e1' e2' _ _ _ _ _ _ _ _) fun ls hls => VS.bind (VS.hash8 hg hs p hz ls) fun l hl => VS.bind (VS.simp l) fun l' hl' => VS.pure ?_
  refine ⟨rfl, by simp, d0 + 2 * d1 + 4 * d2, by omega, ?_, ?_⟩
  · simp only [LC.termsVal_append, LC.termsVal_cons, LC.termsVal_nil, e0, e1, e2]
    push_cast; ring
  · rw [hl', hl, hls, e0, e1, e2, sel8_insert _ _ _ _ _ _ _ _ hd0 hd1 hd2]
    simp [LC.value_ofVar]

theorem levelPS4 {p0 : Prover F G} (hg0 : p0.Good) {sbox : SboxType} (hs : sbox ≠ .inverse) {pp : PoseidonParams F} (hp : pp.Valid) (hw : pp.width = 5) {z : LC F} (hz : p0.Has z 0) {d0 d1 d : ℕ}
    (hd0 : d0 < 2) (hd1 : d1 < 2) (hd : d = 2 * d1 + d0) :
    LevelPS env onSpec p0 (hasher4 pp sbox).digest 4 d (merkleLevel4 (some (d0, d1)) [z] pp sbox.synthesize : MerkleState F → Prog F C rnd _) := by
  intro st rest popped xs x y p n0 hn hf hl hx hy
  unfold merkleLevel4
  have hg := n0.good
  refine PS.bind (PS.allocBit hg hd0) ?_
  rintro ⟨b0, b0_1⟩ p1 ⟨n1, hb0, hb0'⟩
  refine PS.bind (PS.allocBit n1.good hd1) ?_
  rintro ⟨b1, b1_1⟩ p2 ⟨n2, hb1, hb1'⟩
  have n12 := n1.trans n2
  rw [popNodes_eq hn (by rw [hf.length_eq, hl])]
  refine PS.bind (PS.pure (Q := fun q p' => q = (rest, popped) ∧ p' = p2) ⟨rfl, rfl⟩) ?_
  rintro _ _ ⟨rfl, rfl⟩
  obtain ⟨N1, N2, N3, rfl⟩ := length3 (by rw [hf.length_eq, hl])
  obtain ⟨x1, x2, x3, rfl⟩ := length3 hl
  simp only [List.forall₂_cons, List.forall₂_nil_left_iff, and_true] at hf
  obtain ⟨h1, h2, h3⟩ := hf
  have c0 := hb0.next n1.good n2
  have c0' := hb0'.next n1.good n2
  refine PS.bind (PS.select4 n2.good (.ofVar c0) (.ofVar c0') (.ofVar hb1) (.ofVar hb1') (hx.next hg n12) (.ofVar (h1.next hg n12)) (.ofVar (h2.next hg n12)) (.ofVar (h3.next hg n12))) ?_
  rintro ls p3 ⟨n3, hls⟩
  rw [sel4_insert _ _ _ _ hd0 hd1, ← hd] at hls
  have n13 := n12.trans n3
  refine PS.bind (PS.hash4 hs hp hw n3.good (hz.next hg0 (n0.trans n13)) (by rw [List.length_insertIdx, if_pos (by simp; omega)]; rfl) hls) ?_
  rintro l p4 ⟨n4, h4⟩
  refine PS.bind (PS.simp n4.good h4) ?_
  rintro l' p5 ⟨n5, h5⟩
  have n25 := (n3.trans n4).trans n5
  refine PS.pure ⟨n12.trans n25, rfl, by simp, ?_, h5⟩
  refine ((((hy.next hg n12).next n2.good n25).snoc (hb1.next n2.good n25)).snoc (c0.next n2.good n25)).congr ?_
  rw [hd]; push_cast; ring

theorem levelPS8 {p0 : Prover F G} (hg0 : p0.Good) {sbox : SboxType} (hs : sbox ≠ .inverse) {pp : PoseidonParams F} (hp : pp.Valid) (hw : pp.width = 9) {z : LC F} (hz : p0.Has z 0) {d0 d1 d2 d : ℕ}
    (hd0 : d0 < 2) (hd1 : d1 < 2) (hd2 : d2 < 2) (hd : d = d0 + 2 * d1 + 4 * d2) :
    LevelPS env onSpec p0 (hasher8 pp sbox).digest 8 d (merkleLevel8 (some (d0, d1, d2)) z pp sbox.synthesize : MerkleState F → Prog F C rnd _) := by
  intro st rest popped xs x y p n0 hn hf hl hx hy
  unfold merkleLevel8
  have hg := n0.good
  refine PS.bind (PS.allocBit hg hd0) ?_
  rintro ⟨b0, b0_1⟩ p1 ⟨n1, hb0, hb0'⟩
  refine PS.bind (PS.allocBit n1.good hd1) ?_
  rintro ⟨b1, b1_1⟩ p2 ⟨n2, hb1, hb1'⟩
  refine PS.bind (PS.allocBit n2.good hd2) ?_
  rintro ⟨b2, b2_1⟩ p3 ⟨n3, hb2, hb2'⟩
  have n23 := n2.trans n3
  have n13 := n1.trans n23
  rw [popNodes_eq hn (by rw [hf.length_eq, hl])]
  refine PS.bind (PS.pure (Q := fun q p' => q = (rest, popped) ∧ p' = p3) ⟨rfl, rfl⟩) ?_
  rintro _ _ ⟨rfl, rfl⟩
  obtain ⟨N1, N2, N3, N4, N5, N6, N7, rfl⟩ := length7 (by rw [hf.length_eq, hl])
  obtain ⟨x1, x2, x3, x4, x5, x6, x7, rfl⟩ := length7 hl
  simp only [List.forall₂_cons, List.forall₂_nil_left_iff, and_true] at hf
  obtain ⟨h1, h2, h3, h4, h5, h6, h7⟩ := hf
  have c0 := hb0.next n1.good n23
  have c0' := hb0'.next n1.good n23
  have c1 := hb1.next n2.good n3
  have c1' := hb1'.next n2.good n3
  refine PS.bind (PS.select8 n3.good (.ofVar c0) (.ofVar c0') (.ofVar c1) (.ofVar c1') (.ofVar hb2) (.ofVar hb2') (hx.next hg n13) (.ofVar (h1.next hg n13)) (.ofVar (h2.next hg n13))
    (.ofVar (h3.next hg n13)) (.ofVar (h4.next hg n13)) (.ofVar (h5.next hg n13)) (.ofVar (h6.next hg n13)) (.ofVar (h7.next hg n13))) ?_
  rintro ls p4 ⟨n4, hls⟩
  rw [sel8_insert _ _ _ _ _ _ _ _ hd0 hd1 hd2, ← hd] at hls
  have n14 := n13.trans n4
  refine PS.bind (PS.hash8 hs hp hw n4.good (hz.next hg0 (n0.trans n14)) (by rw [List.length_insertIdx, if_pos (by simp; omega)]; rfl) hls) ?_
  rintro l p5 ⟨n5, h5⟩
  refine PS.bind (PS.simp n5.good h5) ?_
  rintro l' p6 ⟨n6, h6⟩
  have n36 := (n4.trans n5).trans n6
  refine PS.pure ⟨n13.trans n36, rfl, by simp, ?_, h6⟩
  refine (((((hy.next hg n13).next n3.good n36).snoc (c0.next n3.good n36)).snoc (c1.next n3.good n36)).snoc (hb2.next n3.good n36)).congr ?_
  rw [hd]; push_cast; ring

theorem Prog.Same.popNodes {RC : C → C' → Prop} (n : ℕ) (nodes : List Var) : Prog.Same RC Eq (popNodes n nodes : Prog F C rnd _) (popNodes n nodes) := by
  unfold Bp.popNodes
  split
  · exact .panic
  · exact .pure rfl

theorem levelSame4 {RC : C → C' → Prop} (bits : ℕ × ℕ) (bits' : Option (ℕ × ℕ)) (zs : List (LC F)) (p : PoseidonParams F) (sbox : SboxType) (a b : MerkleState F) (h : a.Same b) :
    Prog.Same RC MerkleState.Same (merkleLevel4 (some bits) zs p sbox.synthesize a : Prog F C rnd _) (merkleLevel4 bits' zs p sbox.synthesize b) := by
  unfold merkleLevel4
  refine .bind (.allocBit _ _) ?_
  rintro ⟨b0, b0_1⟩ _ rfl
  refine .bind (.allocBit _ _) ?_
  rintro ⟨b1, b1_1⟩ _ rfl
  rw [h.nodes, h.terms, h.exp]
  refine .bind (.popNodes 3 _) ?_
  rintro ⟨rest, popped⟩ _ rfl
  simp only
  split
  · exact .bind (.select4 _ _ _ _ h.prev _ _ _) fun _ _ hl => .bind (.hash4 sbox p _ hl) fun _ _ hl => .bind (.simp hl) fun _ _ hl => .pure ⟨rfl, hl, rfl, rfl⟩
  · exact .panic

theorem levelSame8 {RC : C → C' → Prop} (bits : ℕ × ℕ × ℕ) (bits' : Option (ℕ × ℕ × ℕ)) (z : LC F) (p : PoseidonParams F) (sbox : SboxType) (a b : MerkleState F) (h : a.Same b) :
    Prog.Same RC MerkleState.Same (merkleLevel8 (some bits) z p sbox.synthesize a : Prog F C rnd _) (merkleLevel8 bits' z p sbox.synthesize b) := by
  unfold merkleLevel8
  refine .bind (.allocBit _ _) ?_
  rintro ⟨b0, b0_1⟩ _ rfl
  refine .bind (.allocBit _ _) ?_
  rintro ⟨b1, b1_1⟩ _ rfl
  refine .bind (.allocBit _ _) ?_
  rintro ⟨b2, b2_1⟩ _ rfl
  rw [h.nodes, h.terms, h.exp]
  refine .bind (.popNodes 7 _) ?_
  rintro ⟨rest, popped⟩ _ rfl
  simp only
  split
  · exact .bind (.select8 _ _ _ _ _ _ h.prev _ _ _ _ _ _ _) fun _ _ hl => .bind (.hash8 sbox p _ hl) fun _ _ hl => .bind (.simp hl) fun _ _ hl => .pure ⟨rfl, hl, rfl, rfl⟩
  · exact .panic

theorem PCQ.popNodes {pd : Option ℕ} (n : ℕ) (nodes : List Var) : PCQ pd (popNodes n nodes : Prog F C rnd _) 0 fun q => q.1.length = nodes.length - n := by
  unfold Bp.popNodes
  split
  · exact PCQ.panic _ _ _
  · refine PCQ.pure ?_
    simp

/-- Gates per level. -/
def gates4 (p : PoseidonParams F) (sbox : SboxType) : ℕ := 13 + permGates sbox.gates p
/-- Gates per level. -/
def gates8 (p : PoseidonParams F) (sbox : SboxType) : ℕ := 34 + permGates sbox.gates p

theorem levelPCQ4 {pd : Option ℕ} (bits : Option (ℕ × ℕ)) (zs : List (LC F)) (p : PoseidonParams F) (hw : p.width ≠ 0) {sbox : SboxType} (hs : sbox ≠ .inverse) (st : MerkleState F) :
    PCQ pd (merkleLevel4 bits zs p sbox.synthesize st : Prog F C rnd _) (gates4 p sbox) fun st' => st'.nodes.length = st.nodes.length - 3 := by
  unfold merkleLevel4
  refine PCQ.congr (k := 1 + (1 + (0 + (11 + (permGates sbox.gates p + (0 + 0)))))) ?_ (by unfold gates4; omega)
  refine PCQ.bind (PC.allocBit _).q ?_
  rintro ⟨b0, b0_1⟩ -
  refine PCQ.bind (PC.allocBit _).q ?_
  rintro ⟨b1, b1_1⟩ -
  refine PCQ.bind (PCQ.popNodes 3 _) ?_
  rintro ⟨rest, popped⟩ hr
  simp only
  split
  · exact PCQ.bind (PC.select4 _ _ _ _ _ _ _ _).q fun _ _ => PCQ.bind (PC.hash4 hs p hw _ _).q fun _ _ => PCQ.bind (PC.simp _).q fun _ _ => PCQ.pure hr
  · exact PCQ.panic _ _ _

theorem levelPCQ8 {pd : Option ℕ} (bits : Option (ℕ × ℕ × ℕ)) (z : LC F) (p : PoseidonParams F) (hw : p.width ≠ 0) {sbox : SboxType} (hs : sbox ≠ .inverse) (st : MerkleState F) :
    PCQ pd (merkleLevel8 bits z p sbox.synthesize st : Prog F C rnd _) (gates8 p sbox) fun st' => st'.nodes.length = st.nodes.length - 7 := by
  unfold merkleLevel8
  refine PCQ.congr (k := 1 + (1 + (1 + (0 + (31 + (permGates sbox.gates p + (0 + 0))))))) ?_ (by unfold gates8; omega)
  refine PCQ.bind (PC.allocBit _).q ?_
  rintro ⟨b0, b0_1⟩ -
  refine PCQ.bind (PC.allocBit _).q ?_
  rintro ⟨b1, b1_1⟩ -
  refine PCQ.bind (PC.allocBit _).q ?_
  rintro ⟨b2, b2_1⟩ -
  refine PCQ.bind (PCQ.popNodes 7 _) ?_
  rintro ⟨rest, popped⟩ hr
  simp only
  split
  · exact PCQ.bind (PC.select8 _ _ _ _ _ _ _ _ _ _ _ _ _ _).q fun _ _ => PCQ.bind (PC.hash8 hs p hw _ _).q fun _ _ => PCQ.bind (PC.simp _).q fun _ _ => PCQ.pure hr
  · exact PCQ.panic _ _ _

/-! ## Digits -/

theorem digit4 (x i j : ℕ) (hj : j < 4) : x / 4 ^ (4 * i + j) % 4 = 2 * ((x / 256 ^ i % 256) >>> (2 * j + 1) % 2) + (x / 256 ^ i % 256) >>> (2 * j) % 2 := by
  have : x / 4 ^ (4 * i + j) = x / 256 ^ i / 4 ^ j := by rw [pow_add, pow_mul, Nat.div_div_eq_div_mul]; norm_num
  rw [this]
  generalize x / 256 ^ i = y
  simp only [Nat.shiftRight_eq_div_pow]
  interval_cases j <;> norm_num <;> omega

theorem digit8 {d : ℕ} (hd : d < 8) : d = d >>> 0 % 2 + 2 * (d >>> 1 % 2) + 4 * (d >>> 2 % 2) := by
  simp only [Nat.shiftRight_eq_div_pow]
  norm_num; omega

section digits
variable [ByteRep F]

/-- One iteration of the 4-ary loops. -/
def iter4 (x : Option F) (i j : ℕ) (statics : List (LC F)) (p : PoseidonParams F) (synth : LC F → F → Prog F C rnd Var) (st : MerkleState F) : Prog F C rnd (MerkleState F) := do
  let bits ← indexBits4 x i j
  merkleLevel4 bits statics p synth st

/-- One iteration of the 8-ary loop. -/
def iter8 (octets : Option (List ℕ)) (k : ℕ) (z : LC F) (p : PoseidonParams F) (synth : LC F → F → Prog F C rnd Var) (st : MerkleState F) : Prog F C rnd (MerkleState F) := do
  let bits ← octetBits octets k
  merkleLevel8 bits z p synth st

theorem merkleGadget4_eq (depth : ℕ) (root : F) (leaf : Var) (index : Alloc F) (nodes statics : List Var) (p : PoseidonParams F) (synth : LC F → F → Prog F C rnd Var) :
    merkleGadget4 depth root leaf index nodes statics p synth = (do
      let st ← Prog.forN (getByteSize depth 4) ⟨nodes, LC.ofVar leaf, [(index.var, (-1 : F))], (1 : F)⟩ fun i st =>
        Prog.forN 4 st fun j => guarded (iter4 index.assignment i j (statics.map LC.ofVar) p synth)
      Prog.con (LC.ofTerms st.terms)
      constrainLcWithScalar st.prev root) := rfl

theorem merkleGadget8_eq (depth : ℕ) (root : F) (leaf : Var) (index : Alloc F) (nodes : List Var) (z : Var) (p : PoseidonParams F) (synth : LC F → F → Prog F C rnd Var) :
    merkleGadget8 depth root leaf index nodes z p synth = (do
      let octets ← indexOctets index.assignment depth
      let st ← Prog.forN depth ⟨nodes, LC.ofVar leaf, [(index.var, (-1 : F))], (1 : F)⟩ fun k =>
        guarded (iter8 octets k (LC.ofVar z) p synth)
      Prog.con (LC.ofTerms st.terms)
      constrainLcWithScalar st.prev root) := rfl

/-- The statement enforced by the gadgets, over the nodes they are given. -/
def PathTo (T : TreeOps F) (m : ℕ) (root leaf idx : F) (vals : List F) : Prop :=
  ∃ path : List ℕ, path.length = m ∧ (∀ d ∈ path, d < T.arity) ∧ idx = (Nat.ofDigits T.arity path.reverse : ℕ) ∧ merkleRoot T.digest (path.zip (groups (T.arity - 1) m vals)) leaf = root

theorem MInv.pathTo {T : TreeOps F} {m : ℕ} {pre nodes : List Var} {leaf idx root : F} {k : ℕ} {st : MerkleState F} (h : MInv σ T.digest T.arity m pre nodes leaf idx k st)
    (h1 : LC.termsVal σ st.terms = 0) (h2 : st.prev.value σ = root) :
    (m < k → pre = []) ∧ PathTo T (min k m) root leaf idx ((nodes.map σ.val).drop ((T.arity - 1) * (m - k))) := by
  obtain ⟨ds, e1, e2, e3, e4⟩ := h.path
  exact ⟨h.rest, ds, e1, e2, (sub_eq_zero.mp (e3.symm.trans h1)).symm, e4.symm.trans h2⟩

/-- What the gadgets with `L` iterations enforce, over whatever nodes they are given. -/
def Enforced (T : TreeOps F) (L : ℕ) (σ : Assignment F) (root : F) (leaf idx : Var) (nodes : List Var) : Prop :=
  ∀ m pre ns, nodes = pre ++ ns → pre.length < T.arity - 1 → ns.length = (T.arity - 1) * m →
    (m < L → pre = []) ∧ PathTo T (min L m) root (σ.val leaf) (σ.val idx) ((ns.map σ.val).drop ((T.arity - 1) * (m - L)))

theorem VS.merkleGadget4 (hg : σ.Gates) {sbox : SboxType} (hs : sbox ≠ .inverse) (p : PoseidonParams F) {z : Var} (hz : σ.val z = 0) (depth : ℕ) (root : F)
    (leaf : Var) (index : Alloc F) (nodes : List Var) :
    VS env σ (merkleGadget4 depth root leaf index nodes [z] p sbox.synthesize : Prog F C rnd _) fun _ => Enforced (hasher4 p sbox) (4 * getByteSize depth 4) σ root leaf index.var nodes := by
  refine VS.forall₃ fun m pre ns => VS.forall fun e => VS.forall fun hpre => VS.forall fun hn => ?_
  subst e
  rw [merkleGadget4_eq]
  have hL : ∀ i j, LevelVS env σ (hasher4 p sbox).digest 4 (iter4 index.assignment i j [LC.ofVar z] p sbox.synthesize : MerkleState F → Prog F C rnd _) := fun i j =>
    ⟨fun st rest popped h1 h2 => VS.bind VS.trivial fun bits _ => (levelVS4 hg hs p (by rw [LC.value_ofVar, hz]) bits).1 st rest popped h1 h2,
     fun st h1 => VS.bind VS.trivial fun bits _ => (levelVS4 hg hs p (z := LC.ofVar z) (by rw [LC.value_ofVar, hz]) bits).2 st h1⟩
  refine VS.bind (VS.forN (fun i st => MInv σ (hasher4 p sbox).digest 4 m pre ns (σ.val leaf) (σ.val index.var) (4 * i) st) _ _ (MInv.init _ 4 m pre ns hn leaf index.var) ?_) ?_
  · intro i _ st h
    exact VS.forN (fun j st => MInv σ (hasher4 p sbox).digest 4 m pre ns (σ.val leaf) (σ.val index.var) (4 * i + j) st) _ _ h fun j _ st h => VS.guarded (A := 4) (by norm_num) hpre hn (hL i j) h
  · intro st h
    refine VS.bind (VS.con _) fun _ h1 => (VS.conScalar _ _).mono fun _ h2 => ?_
    rw [LC.value_ofTerms] at h1
    exact h.pathTo (T := hasher4 p sbox) h1 h2

theorem VS.merkleGadget8 (hg : σ.Gates) {sbox : SboxType} (hs : sbox ≠ .inverse) (p : PoseidonParams F) {z : Var} (hz : σ.val z = 0) (depth : ℕ) (root : F)
    (leaf : Var) (index : Alloc F) (nodes : List Var) :
    VS env σ (merkleGadget8 depth root leaf index nodes z p sbox.synthesize : Prog F C rnd _) fun _ => Enforced (hasher8 p sbox) depth σ root leaf index.var nodes := by
  refine VS.forall₃ fun m pre ns => VS.forall fun e => VS.forall fun hpre => VS.forall fun hn => ?_
  subst e
  rw [merkleGadget8_eq]
  refine VS.bind VS.trivial fun octets _ => ?_
  have hL : ∀ k, LevelVS env σ (hasher8 p sbox).digest 8 (iter8 octets k (LC.ofVar z) p sbox.synthesize : MerkleState F → Prog F C rnd _) := fun k =>
    ⟨fun st rest popped h1 h2 => VS.bind VS.trivial fun bits _ => (levelVS8 hg hs p (by rw [LC.value_ofVar, hz]) bits).1 st rest popped h1 h2,
     fun st h1 => VS.bind VS.trivial fun bits _ => (levelVS8 hg hs p (z := LC.ofVar z) (by rw [LC.value_ofVar, hz]) bits).2 st h1⟩
  refine VS.bind (VS.forN (fun k st => MInv σ (hasher8 p sbox).digest 8 m pre ns (σ.val leaf) (σ.val index.var) k st) _ _ (MInv.init _ 8 m pre ns hn leaf index.var) ?_) ?_
  · exact fun k _ st h => VS.guarded (A := 8) (by norm_num) hpre hn (hL k) h
  · intro st h
    refine VS.bind (VS.con _) fun _ h1 => (VS.conScalar _ _).mono fun _ h2 => ?_
    rw [LC.value_ofTerms] at h1
    exact h.pathTo (T := hasher8 p sbox) h1 h2

theorem PInv.final {p0 : Prover F G} {T : TreeOps F} {m : ℕ} {nodes : List Var} {vals : List F} {leaf idxF : F} {k : ℕ} (hk : m ≤ k) {st : MerkleState F} {p : Prover F G} {root : F}
    (hi : IntRep.rep idxF < T.arity ^ m) (hr : merkleRoot T.digest ((digitsOf T.arity m (IntRep.rep idxF)).zip (groups (T.arity - 1) m vals)) leaf = root)
    (h : PInv p0 T.digest T.arity m nodes vals leaf idxF (IntRep.rep idxF) k st p) : p.Has (LC.ofTerms st.terms) 0 ∧ p.Has st.prev root := by
  obtain ⟨-, -, -, h1, h2⟩ := h
  rw [Nat.min_eq_right hk] at h1 h2
  rw [Nat.sub_eq_zero_of_le hk, Nat.mul_zero, List.drop_zero, hr] at h2
  exact ⟨h1.congr (by rw [Nat.mod_eq_of_lt hi, IntRep.cast_rep, sub_self]), h2⟩

theorem PS.merkleGadget4 {p0 : Prover F G} (hg : p0.Good) {sbox : SboxType} (hs : sbox ≠ .inverse) {pp : PoseidonParams F} (hp : pp.Valid) (hw : pp.width = 5) {z leaf : Var} (hz : p0.HasV z 0)
    {depth m : ℕ} (hm : m ≤ 4 * getByteSize depth 4) (hd : getByteSize depth 4 ≤ ByteRep.modBytes F) {root x y : F} (hx : p0.HasV leaf x) {index : Var} (hy : p0.HasV index y)
    {nodes : List Var} {vals : List F} (hv : List.Forall₂ p0.HasV nodes vals) (hn : nodes.length = 3 * m) (hi : IntRep.rep y < 4 ^ m)
    (hr : merkleRoot (hasher4 pp sbox).digest ((digitsOf 4 m (IntRep.rep y)).zip (groups 3 m vals)) x = root) :
    PS env onSpec p0 (merkleGadget4 depth root leaf ⟨index, some y⟩ nodes [z] pp sbox.synthesize : Prog F C rnd _) fun _ p' => p0.Next p' := by
  rw [merkleGadget4_eq]
  have hL : ∀ i j, j < 4 → i < ByteRep.modBytes F →
      LevelPS env onSpec p0 (hasher4 pp sbox).digest 4 (IntRep.rep y / 4 ^ (4 * i + j) % 4) (iter4 (some y) i j [LC.ofVar z] pp sbox.synthesize : MerkleState F → Prog F C rnd _) := by
    intro i j hj hi
    have : (iter4 (some y) i j [LC.ofVar z] pp sbox.synthesize : MerkleState F → Prog F C rnd _) =
        merkleLevel4 (some ((IntRep.rep y / 256 ^ i % 256) >>> (2 * j) % 2, (IntRep.rep y / 256 ^ i % 256) >>> (2 * j + 1) % 2)) [LC.ofVar z] pp sbox.synthesize := by
      funext st
      simp only [iter4, indexBits4, if_pos hi]; rfl
    rw [this]
    exact levelPS4 hg hs hp hw (.ofVar hz) (Nat.mod_lt _ (by norm_num)) (Nat.mod_lt _ (by norm_num)) (digit4 _ _ _ hj)
  refine PS.bind (PS.forN (fun i st p => PInv p0 (hasher4 pp sbox).digest 4 m nodes vals x y (IntRep.rep y) (4 * i) st p) _ _ _ (PInv.init hg _ 4 m hn vals hx hy _) ?_) ?_
  · intro i hi st p h
    exact PS.forN (fun j st p => PInv p0 (hasher4 pp sbox).digest 4 m nodes vals x y (IntRep.rep y) (4 * i + j) st p) _ _ _ h fun j hj st p h =>
      PS.guarded hg (by norm_num) hv hn (fun _ => hL i j hj (by omega)) h
  · intro st p h
    obtain ⟨h1, h2⟩ := PInv.final (T := hasher4 pp sbox) hm hi hr h
    refine PS.bind (PS.con h.next.good h1) ?_
    rintro _ p1 n1
    exact (PS.conScalar n1.good (h2.next h.next.good n1)).mono fun _ p2 n2 => (h.next.trans n1).trans n2

theorem PS.merkleGadget8 {p0 : Prover F G} (hg : p0.Good) {sbox : SboxType} (hs : sbox ≠ .inverse) {pp : PoseidonParams F} (hp : pp.Valid) (hw : pp.width = 9) {z leaf : Var} (hz : p0.HasV z 0)
    {depth m : ℕ} (hm : m ≤ depth) (hd : getByteSize depth 8 ≤ ByteRep.modBytes F) {root x y : F} (hx : p0.HasV leaf x) {index : Var} (hy : p0.HasV index y)
    {nodes : List Var} {vals : List F} (hv : List.Forall₂ p0.HasV nodes vals) (hn : nodes.length = 7 * m) (hi : IntRep.rep y < 8 ^ m)
    (hr : merkleRoot (hasher8 pp sbox).digest ((digitsOf 8 m (IntRep.rep y)).zip (groups 7 m vals)) x = root) :
    PS env onSpec p0 (merkleGadget8 depth root leaf ⟨index, some y⟩ nodes z pp sbox.synthesize : Prog F C rnd _) fun _ p' => p0.Next p' := by
  rw [merkleGadget8_eq]
  have e8 : getBase8Repr y depth = .ok (digitsOf 8 depth (IntRep.rep y)) := getBaseRepr_ok hd
  have ho : (indexOctets (some y) depth : Prog F C rnd _) = Pure.pure (some ((List.range depth).map fun e => IntRep.rep y / 8 ^ e % 8)) := by
    simp only [indexOctets, e8, digitsOf_eq, List.reverse_reverse]
  rw [ho]
  refine PS.bind (PS.pure (Q := fun o p' => o = some ((List.range depth).map fun e => IntRep.rep y / 8 ^ e % 8) ∧ p' = p0) ⟨rfl, rfl⟩) ?_
  rintro _ p1 ⟨rfl, e⟩
  rw [e]
  have hL : ∀ k, k < depth → LevelPS env onSpec p0 (hasher8 pp sbox).digest 8 (IntRep.rep y / 8 ^ k % 8)
      (iter8 (some ((List.range depth).map fun e => IntRep.rep y / 8 ^ e % 8)) k (LC.ofVar z) pp sbox.synthesize : MerkleState F → Prog F C rnd _) := by
    intro k hk
    have : (iter8 (some ((List.range depth).map fun e => IntRep.rep y / 8 ^ e % 8)) k (LC.ofVar z) pp sbox.synthesize : MerkleState F → Prog F C rnd _) =
        merkleLevel8 (some ((IntRep.rep y / 8 ^ k % 8) >>> 0 % 2, (IntRep.rep y / 8 ^ k % 8) >>> 1 % 2, (IntRep.rep y / 8 ^ k % 8) >>> 2 % 2)) (LC.ofVar z) pp sbox.synthesize := by
      funext st
      have hk' : ((List.range depth).map fun e => IntRep.rep y / 8 ^ e % 8)[k]? = some (IntRep.rep y / 8 ^ k % 8) := by simp [hk]
      simp only [iter8, octetBits, Prog.index, hk']; rfl
    rw [this]
    exact levelPS8 hg hs hp hw (.ofVar hz) (Nat.mod_lt _ (by norm_num)) (Nat.mod_lt _ (by norm_num)) (Nat.mod_lt _ (by norm_num)) (digit8 (Nat.mod_lt _ (by norm_num)))
  refine PS.bind (PS.forN (fun k st p => PInv p0 (hasher8 pp sbox).digest 8 m nodes vals x y (IntRep.rep y) k st p) _ _ _ (PInv.init hg _ 8 m hn vals hx hy _) ?_) ?_
  · exact fun k hk st p h => PS.guarded hg (by norm_num) hv hn (fun _ => hL k hk) h
  · intro st p h
    obtain ⟨h1, h2⟩ := PInv.final (T := hasher8 pp sbox) hm hi hr h
    refine PS.bind (PS.con h.next.good h1) ?_
    rintro _ p1 n1
    exact (PS.conScalar n1.good (h2.next h.next.good n1)).mono fun _ p2 n2 => (h.next.trans n1).trans n2

theorem Prog.Same.merkleGadget4 {RC : C → C' → Prop} {depth : ℕ} (hd : getByteSize depth 4 ≤ ByteRep.modBytes F) (root : F) (leaf index : Var) (y : F) (nodes statics : List Var)
    (p : PoseidonParams F) (sbox : SboxType) :
    Prog.Same RC (fun _ _ => True) (merkleGadget4 depth root leaf ⟨index, some y⟩ nodes statics p sbox.synthesize : Prog F C rnd _) (merkleGadget4 depth root leaf ⟨index, none⟩ nodes statics p sbox.synthesize) := by
  rw [merkleGadget4_eq, merkleGadget4_eq]
  refine .bind (.forN' MerkleState.Same ⟨rfl, .rfl', rfl, rfl⟩ fun i hi a b h => .forN' MerkleState.Same h fun j _ a b h => .guarded h fun a b h => ?_) ?_
  · unfold iter4
    simp only [indexBits4, if_pos (show i < ByteRep.modBytes F by omega)]
    exact levelSame4 _ _ _ _ _ _ _ h
  · intro a b h
    rw [h.terms]
    exact .bind (.con .rfl') fun _ _ _ => .conScalar h.prev _

theorem Prog.Same.merkleGadget8 {RC : C → C' → Prop} {depth : ℕ} (hd : getByteSize depth 8 ≤ ByteRep.modBytes F) (root : F) (leaf index : Var) (y : F) (nodes : List Var) (z : Var)
    (p : PoseidonParams F) (sbox : SboxType) :
    Prog.Same RC (fun _ _ => True) (merkleGadget8 depth root leaf ⟨index, some y⟩ nodes z p sbox.synthesize : Prog F C rnd _) (merkleGadget8 depth root leaf ⟨index, none⟩ nodes z p sbox.synthesize) := by
  rw [merkleGadget8_eq, merkleGadget8_eq]
  have e8 : getBase8Repr y depth = .ok (digitsOf 8 depth (IntRep.rep y)) := getBaseRepr_ok hd
  simp only [indexOctets, e8]
  refine .bind (RA := fun a b => a = some (digitsOf 8 depth (IntRep.rep y)).reverse ∧ b = none) (.pure ⟨rfl, rfl⟩) ?_
  rintro _ _ ⟨rfl, rfl⟩
  refine .bind (.forN' MerkleState.Same ⟨rfl, .rfl', rfl, rfl⟩ fun k hk a b h => .guarded h fun a b h => ?_) ?_
  · unfold iter8
    have hk' : (digitsOf 8 depth (IntRep.rep y)).reverse[k]? = some (IntRep.rep y / 8 ^ k % 8) := by simp [digitsOf_eq, hk]
    simp only [octetBits, Prog.index, hk']
    exact levelSame8 _ _ _ _ _ _ _ h
  · intro a b h
    rw [h.terms]
    exact .bind (.con .rfl') fun _ _ _ => .conScalar h.prev _

theorem PC.merkleGadget4 {pd : Option ℕ} {sbox : SboxType} (hs : sbox ≠ .inverse) {p : PoseidonParams F} (hw : p.width ≠ 0) {depth m : ℕ} (hm : m ≤ 4 * getByteSize depth 4) (root : F) (leaf : Var)
    (index : Alloc F) {nodes : List Var} (hn : nodes.length = 3 * m) (statics : List Var) :
    PC pd (merkleGadget4 depth root leaf index nodes statics p sbox.synthesize : Prog F C rnd _) (m * gates4 p sbox) := by
  rw [merkleGadget4_eq]
  have hi : ∀ i j, PC pd (indexBits4 index.assignment i j : Prog F C rnd _) 0 := by
    intro i j
    unfold indexBits4
    split
    · exact PC.pure _
    · split
      · exact PC.pure _
      · exact PC.panic _ _
  have hL : ∀ i j (st : MerkleState F), 4 - 1 ≤ st.nodes.length →
      PCQ pd (iter4 index.assignment i j (statics.map LC.ofVar) p sbox.synthesize st : Prog F C rnd _) (gates4 p sbox) fun st' => st'.nodes.length = st.nodes.length - (4 - 1) :=
    fun i j st _ => (PCQ.bind (hi i j).q fun bits _ => levelPCQ4 bits _ p hw hs st).congr (Nat.zero_add _)
  refine PCQ.pc (Q := fun _ => True) ?_
  refine (PCQ.bind (k := m * gates4 p sbox) (l := 0) (Q := fun _ => True) ?_ fun st _ => (PC.bind (k := 0) (l := 0) (PC.con _) fun _ => PC.conScalar _ _).q).congr (Nat.add_zero _)
  have hmono : Monotone fun i => levelGates (gates4 p sbox) m (4 * i) := fun a b h => levelGates_mono _ _ (by omega)
  refine ((PCQ.forN (fun i st => st.nodes.length = (4 - 1) * (m - 4 * i)) hmono _ _ (by simpa using hn) ?_).mono fun _ _ => True.intro).congr ?_
  · intro i _ st h
    have hmono' : Monotone fun j => levelGates (gates4 p sbox) m (4 * i + j) := fun a b h => levelGates_mono _ _ (by omega)
    exact PCQ.forN (fun j st => st.nodes.length = (4 - 1) * (m - (4 * i + j))) hmono' 4 st h fun j _ st h => PCQ.guarded (by norm_num) (hL i j) h
  · simp only [levelGates, Nat.min_eq_right hm]; simp

theorem PC.merkleGadget8 {pd : Option ℕ} {sbox : SboxType} (hs : sbox ≠ .inverse) {p : PoseidonParams F} (hw : p.width ≠ 0) {depth m : ℕ} (hm : m ≤ depth) (root : F) (leaf : Var)
    (index : Alloc F) {nodes : List Var} (hn : nodes.length = 7 * m) (z : Var) :
    PC pd (merkleGadget8 depth root leaf index nodes z p sbox.synthesize : Prog F C rnd _) (m * gates8 p sbox) := by
  rw [merkleGadget8_eq]
  have ho : PC pd (indexOctets index.assignment depth : Prog F C rnd _) 0 := by
    unfold indexOctets
    split
    · exact PC.pure _
    · split
      · exact PC.pure _
      · exact PC.panic _ _
      · exact PC.err _ _
  refine (PC.bind (k := 0) (l := m * gates8 p sbox) ho fun octets => ?_).congr (Nat.zero_add _)
  have hi : ∀ k, PC pd (octetBits octets k : Prog F C rnd _) 0 := by
    intro k
    unfold octetBits
    split
    · exact PC.pure _
    · exact (PC.bind (k := 0) (l := 0) (PC.index _ _) fun _ => PC.pure _)
  have hL : ∀ k (st : MerkleState F), 8 - 1 ≤ st.nodes.length →
      PCQ pd (iter8 octets k (LC.ofVar z) p sbox.synthesize st : Prog F C rnd _) (gates8 p sbox) fun st' => st'.nodes.length = st.nodes.length - (8 - 1) :=
    fun k st _ => (PCQ.bind (hi k).q fun bits _ => levelPCQ8 bits _ p hw hs st).congr (Nat.zero_add _)
  refine PCQ.pc (Q := fun _ => True) ?_
  refine (PCQ.bind (k := m * gates8 p sbox) (l := 0) (Q := fun _ => True) ?_ fun st _ => (PC.bind (k := 0) (l := 0) (PC.con _) fun _ => PC.conScalar _ _).q).congr (Nat.add_zero _)
  refine ((PCQ.forN (fun k st => st.nodes.length = (8 - 1) * (m - k)) (levelGates_mono (gates8 p sbox) m) _ _ (by simpa using hn) ?_).mono fun _ _ => True.intro).congr ?_
  · exact fun k _ st h => PCQ.guarded (by norm_num) (hL k) h
  · simp only [levelGates, Nat.min_eq_right hm]; simp

end digits

/-! ## Entry points -/

theorem range_map_split {α : Type} (f : ℕ → α) (a b : ℕ) : (List.range (a + b)).map f = (List.range a).map f ++ (List.range b).map fun i => f (a + i) := by
  rw [List.range_add, List.map_append, List.map_map]; rfl

theorem drop_range_map {α : Type} (f : ℕ → α) (n k : ℕ) : ((List.range n).map f).drop k = (List.range (n - k)).map fun i => f (k + i) := by
  apply List.ext_getElem <;> simp

theorem Enforced.included {T : TreeOps F} (hA : 2 ≤ T.arity) {L : ℕ} {σ : Assignment F} {root : F} {leaf idx : Var} {n off : ℕ} {v : ℕ → F} (h0 : σ.val leaf = v 0) (h1 : σ.val idx = v 1)
    (hv : ∀ i, σ.committed (off + i) = v (2 + i)) (h : Enforced T L σ root leaf idx ((List.range n).map fun i => Var.committed (off + i))) :
    (n / (T.arity - 1) < L → T.arity - 1 ∣ n) ∧
      IncludedFrom T (min L (n / (T.arity - 1))) (2 + n - (T.arity - 1) * min L (n / (T.arity - 1))) root v := by
  have hn := Nat.mod_add_div n (T.arity - 1)
  have hr := Nat.mod_lt n (show 0 < T.arity - 1 by omega)
  generalize hm : n / (T.arity - 1) = m at *
  generalize hr' : n % (T.arity - 1) = r at *
  obtain ⟨k1, path, k2, k3, k4, k5⟩ := h m _ _ (by conv_lhs => rw [← hn, range_map_split]) (by simpa using hr) (by simp)
  refine ⟨fun hl => Nat.dvd_of_mod_eq_zero ?_, path, k2, k3, by rw [← h1, k4], ?_⟩
  · have := k1 hl
    rw [List.map_eq_nil_iff, List.range_eq_nil] at this
    rw [hr', this]
  · rw [← groups_nodesAt, ← h0, ← k5]
    congr 3
    rw [List.map_map, drop_range_map]
    have e1 : (T.arity - 1) * m - (T.arity - 1) * (m - L) = (T.arity - 1) * min L m := by rw [← Nat.mul_sub]; congr 1; omega
    have e2 : (T.arity - 1) * (m - L) + (T.arity - 1) * min L m = (T.arity - 1) * m := by rw [← Nat.mul_add]; congr 1; omega
    rw [e1]
    apply List.map_congr_left
    intro i _
    simp only [Function.comp, Assignment.val]
    rw [show off + (r + ((T.arity - 1) * (m - L) + i)) = off + (r + (T.arity - 1) * (m - L) + i) by omega, hv]
    congr 1
    omega

/-- Soundness of the generic entry point. -/
theorem inclusion_sound (env : Env F G) (g h : G) (T : TreeOps F) (hA : 2 ≤ T.arity) (L : ℕ) (root : F) {call : Var → Alloc F → List Var → List Var → Prog1 F Unit}
    (hc : ∀ σ : Assignment F, σ.Gates → ∀ leaf index nodes z, σ.val z = 0 → VS env σ (call leaf index nodes [z]) fun _ => Enforced T L σ root leaf index.var nodes) (n : ℕ) :
    SoundForExactly (2 + n) [0] [0] (verifyInclusion env g h call) (fun v => (n / (T.arity - 1) < L → T.arity - 1 ∣ n) ∧
      IncludedFrom T (min L (n / (T.arity - 1))) (2 + n - (T.arity - 1) * min L (n / (T.arity - 1))) root v) := by
  intro coms s s' hl hd
  match coms, hl, hd with
  | [], hl, _ => simp at hl; omega
  | [_], hl, _ => simp at hl; omega
  | cL :: cI :: ns, hl, hd =>
  simp only [List.length_cons] at hl
  have hn : ns.length = n := by omega
  simp only [verifyInclusion] at hd
  obtain ⟨vars, s1, h1, hd⟩ := Drv.bind_ok.mp hd
  rw [Verifier.commits_ok] at h1
  obtain ⟨rfl, rfl⟩ := h1
  obtain ⟨vs, s2, h2, hd⟩ := Drv.bind_ok.mp hd
  rw [Verifier.commits_ok] at h2
  obtain ⟨rfl, rfl⟩ := h2
  obtain ⟨st, s3, h3, hd⟩ := Drv.bind_ok.mp hd
  rw [allocateStaticsForVerifier_one, Verifier.commits_ok] at h3
  obtain ⟨rfl, rfl⟩ := h3
  simp only [List.length_cons, List.length_nil, List.length_append, Nat.zero_add, List.range_one, List.map_cons, List.map_nil, Nat.add_zero, Nat.reduceAdd,
    show List.range 2 = [0, 1] from rfl] at hd
  obtain ⟨a1, a2, a3⟩ := Verifier.gadget_sound hd
  refine ⟨a1, by rw [a2]; simp, fun σ hg hsat hst => ?_⟩
  have h0 := hst 0 0 rfl
  rw [Nat.add_zero, ← hn, ← Nat.add_assoc] at h0
  refine a3 (Q := fun _ => _) ((hc σ hg _ _ _ _ (by simpa [Assignment.val] using h0)).mono fun _ hx => ?_) hsat
  rw [hn] at hx
  exact hx.included hA (v := fun i => σ.committed (s.V.length + i)) rfl rfl (fun i => by simp only [Nat.add_assoc])

/-- Completeness of the generic entry point. -/
theorem inclusion_honest (env env' : Env F G) (hO : env.oracle = env'.oracle) (pd : Option ℕ) (g h : G) {k : ℕ} {call : Var → Alloc F → List Var → List Var → Prog1 F Unit}
    (leaf leafIndex r0 r1 : F) (merkleProof : List (List F)) (coins : ℕ → F)
    (h1 : ∀ (p : Prover F G), p.Good → ∀ l i ns z, p.HasV l leaf → p.HasV i leafIndex → List.Forall₂ p.HasV ns merkleProof.flatten → p.HasV z 0 →
      PS env (fun cb p => p.specify cb) p (call l ⟨i, some leafIndex⟩ ns [z]) fun _ p' => p.Next p')
    (h2 : ∀ l i ns z, Prog1.Same (fun _ _ => True) (call l ⟨i, some leafIndex⟩ ns [z]) (call l ⟨i, none⟩ ns [z]))
    (h3 : ∀ l i ns z, ns.length = merkleProof.flatten.length → PC pd (call l ⟨i, some leafIndex⟩ ns [z]) k)
    (randomness : Option (List F)) (rng : Option (ℕ → F)) (hrand : randomness = some [r0, r1] ∨ ∃ g, randomness = none ∧ rng = some g ∧ [r0, r1] = (List.range 2).map g) :
    HonestPair env env' pd k ([(leaf, r0), (leafIndex, r1)] ++ merkleProof.flatten.mapIdx fun i x => (x, coins i)) (proveInclusion env leaf leafIndex randomness merkleProof rng coins call)
      (verifyInclusion env' g h call) [(0, 0)] := by
  intro q s J hp
  have hck : checkRandomness randomness rng = .ok () := checkRandomness_ok (by rcases hrand with h | ⟨g, h1, h2, -⟩ <;> simp [*])
  have hbl : pickBlindings randomness rng 2 = .ok [r0, r1] := by
    rcases hrand with h | ⟨g, h1, h2, h3⟩
    · rw [h]; rfl
    · rw [h1, h2, h3]; rfl
  obtain ⟨cs, p1, s1, c1, c2, J1, hp1, hl1, e1, o1, hf⟩ := J.commitAll hO [(leaf, r0), (leafIndex, r1)]
  obtain ⟨ns, p2, s2, n1, n2, J2, hp2, hl2, e2, o2, hf2⟩ := J1.commitAll hO (merkleProof.flatten.mapIdx fun i x => (x, coins i))
  obtain ⟨ds, p3, s3, d1, d2, J3, hp3, hl3, e3, o3, hf3⟩ := J2.commitAll hO [((0 : F), (0 : F))]
  obtain ⟨⟨cL, vL⟩, ⟨cI, vI⟩, rfl⟩ : ∃ x y, cs = [x, y] := List.length_eq_two.mp (by simpa using hf.length_eq)
  obtain ⟨⟨cz, vz⟩, rfl⟩ : ∃ x, ds = [x] := List.length_eq_one_iff.mp (by simpa using hf3.length_eq)
  have hfst : (merkleProof.flatten.mapIdx fun i x => (x, coins i)).map Prod.fst = merkleProof.flatten := by
    apply List.ext_getElem <;> simp
  rw [hfst] at hf2
  simp only [List.map_cons, List.map_nil, List.forall₂_cons, List.forall₂_nil_left_iff, and_true] at hf hf3
  have k12 : ∀ {v x}, p1.HasV v x → p3.HasV v x := fun hx => (hx.ext J1.good.wf e2).ext J2.good.wf e3
  have hfn : List.Forall₂ p3.HasV (ns.map Prod.snd) merkleProof.flatten := hf2.imp fun _ _ hx => hx.ext J2.good.wf e3
  have hps := h1 p3 J3.good vL vI (ns.map Prod.snd) vz (k12 hf.1) (k12 hf.2) hfn hf3
  have hpc : PC p3.pending (call vL ⟨vI, some leafIndex⟩ (ns.map Prod.snd) [vz]) k := by
    rw [hp3, hp2, hp1, hp]
    exact h3 _ _ _ _ hfn.length_eq
  obtain ⟨⟨⟩, ⟨⟩, p4, s4, g1, g2, J4, -, -, n4, hp4, hl4⟩ := J3.gadget hO hps (fun _ _ h => h) (h2 _ _ _ _) hpc
  refine ⟨([(cL, vL), (cI, vI)] ++ ns).map Prod.fst, p4, s4, ?_, ?_, J4, by rw [hp4, hp3, hp2, hp1, hp], by rw [hl4, hl3, hl2, hl1], ?_⟩
  · unfold proveInclusion
    refine Drv.bind_ok.mpr ⟨(), q, Drv.lift_ok.mpr ⟨hck, rfl⟩, Drv.bind_ok.mpr ⟨[r0, r1], q, Drv.lift_ok.mpr ⟨hbl, rfl⟩,
      Drv.bind_ok.mpr ⟨_, p1, c1, Drv.bind_ok.mpr ⟨ns, p2, n1, Drv.bind_ok.mpr ⟨[vz], p3, ?_, Drv.bind_ok.mpr ⟨(), p4, g1, rfl⟩⟩⟩⟩⟩⟩
    unfold allocateStaticsForProver
    refine Drv.bind_ok.mpr ⟨[(cz, vz)], p3, ?_, rfl⟩
    simpa [staticValues, zeroConst] using d1
  · simp only [List.map_append, List.map_cons, List.map_nil, List.cons_append, List.nil_append, verifyInclusion]
    refine Drv.bind_ok.mpr ⟨_, s1, c2, Drv.bind_ok.mpr ⟨_, s2, n2, Drv.bind_ok.mpr ⟨[vz], s3, ?_, g2⟩⟩⟩
    rw [allocateStaticsForVerifier_one]
    have hcz := o3.points
    simp only [List.map_cons, List.map_nil, zero_smul, add_zero, List.cons.injEq, and_true] at hcz
    simp only [List.map_cons, List.map_nil, hcz] at d2
    exact d2
  · rw [List.map_append]
    exact ((o1.trans o2).statics o3).next n4

end Bp
