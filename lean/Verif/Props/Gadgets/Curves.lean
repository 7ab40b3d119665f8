import Verif.Lemmas.Curves
import Verif.Lemmas.Bls
import Verif.Lemmas.Gadgets.MdsTables
import Verif.Props.Gadgets.PoseidonInj

set_option linter.unusedSectionVars false
set_option linter.unusedSimpArgs false

/-! # C69: Poseidon with the tables of each curve -/

namespace Bp

/-- C69: the group orders are prime, so the scalars are a field. -/
theorem c69_orders (c : Curve) (hc : c ∈ Curve.all) : c.order.Prime := by
  simp only [Curve.all, List.mem_cons, List.not_mem_nil, or_false] at hc
  rcases hc with rfl | rfl | rfl | rfl
  · exact blsOrder_prime
  · exact bn254Order_prime
  · exact ed25519Order_prime
  · exact secp256k1Order_prime

/-- The default feature has the parameters of C51. -/
example (w fb fe pr : ℕ) : @Curve.params Curve.bls381 (inferInstanceAs (Fact blsOrder.Prime)) w fb fe pr = PoseidonParams.bls w fb fe pr := by
  unfold Curve.params PoseidonParams.bls
  have h1 : (fun w => (Curve.bls381.rounds w).map fun (n : ℕ) => (n : Fr)) = roundConstsBls := by
    funext w
    simp only [Curve.bls381, roundConstsBls]
  have h2 : (fun w => (Curve.bls381.mds w).map fun row => row.map fun (n : ℕ) => (n : Fr)) = mdsEntriesBls := by
    funext w
    simp only [Curve.bls381, mdsEntriesBls]
  rw [← h1, ← h2]
  rfl

/-- The shape of the tables. -/
theorem curve_tables {c : Curve} (hc : c ∈ Curve.all) {w : ℕ} (hw : w = 3 ∨ w = 5 ∨ w = 9) (hs : w = 5 ∨ c ≠ .secp256k1) :
    (c.mds w).length = w ∧ (∀ row ∈ c.mds w, row.length = w) ∧ minorsOk c.order w (columnsN w (c.mds w)) = true ∧
      (c.rounds w).length = (if w = 3 then 63 else if w = 5 then 64 else 65) * w := by
  simp only [Curve.all, List.mem_cons, List.not_mem_nil, or_false] at hc
  rcases hc with rfl | rfl | rfl | rfl
  · rcases hw with rfl | rfl | rfl
    · exact ⟨rfl, by decide +kernel, mds_bls381_3, by decide +kernel⟩
    · exact ⟨rfl, by decide +kernel, mds_bls381_5, by decide +kernel⟩
    · exact ⟨rfl, by decide +kernel, mds_bls381_9, by decide +kernel⟩
  · rcases hw with rfl | rfl | rfl
    · exact ⟨rfl, by decide +kernel, mds_bn254_3, by decide +kernel⟩
    · exact ⟨rfl, by decide +kernel, mds_bn254_5, by decide +kernel⟩
    · exact ⟨rfl, by decide +kernel, mds_bn254_9, by decide +kernel⟩
  · rcases hw with rfl | rfl | rfl
    · exact ⟨rfl, by decide +kernel, mds_ed25519_3, by decide +kernel⟩
    · exact ⟨rfl, by decide +kernel, mds_ed25519_5, by decide +kernel⟩
    · exact ⟨rfl, by decide +kernel, mds_ed25519_9, by decide +kernel⟩
  · rcases hs with rfl | h
    · exact ⟨rfl, by decide +kernel, mds_secp256k1_5, by decide +kernel⟩
    · exact absurd rfl h

/-- With secp256k1 there is only the width 5. -/
theorem curve_width {c : Curve} {w : ℕ} (hw : w = 3 ∨ w = 5 ∨ w = 9) (h : (c.mds w).length = w) : w = 5 ∨ c ≠ .secp256k1 := by
  by_cases h5 : w = 5
  · exact .inl h5
  · right
    rintro rfl
    have : (Curve.secp256k1.mds w).length = 0 := by simp [Curve.secp256k1, h5]
    omega

/-- C69: which parameter sets can be built. -/
theorem c69_params (c : Curve) (hc : c ∈ Curve.all) [Fact c.order.Prime] (w fb fe pr : ℕ) :
    (∃ p, c.params w fb fe pr = .ok p) ↔ (w = 3 ∧ fb + pr + fe ≤ 63 ∧ c ≠ .secp256k1) ∨ (w = 5 ∧ fb + pr + fe ≤ 64) ∨ (w = 9 ∧ fb + pr + fe ≤ 65 ∧ c ≠ .secp256k1) := by
  constructor
  · rintro ⟨p, hp⟩
    have h := poseidonParams_new_valid hp
    have hk := h.1.keys
    have hr := h.1.rows
    obtain ⟨-, h1, h2, h3, h4, h5, h6, h7⟩ := h
    rw [h6, h1, List.length_map] at hr
    have hs := curve_width h5 hr
    have hl := (curve_tables hc h5 hs).2.2.2
    rw [h7, h1, h2, h3, h4, List.length_take, List.length_map, hl] at hk
    rcases h5 with rfl | rfl | rfl
    · left
      simp only [if_true] at hk
      exact ⟨rfl, by omega, hs.resolve_left (by decide)⟩
    · right; left
      simp only [if_true, if_neg (show ¬ (5 : ℕ) = 3 by decide)] at hk
      exact ⟨rfl, by omega⟩
    · right; right
      simp only [if_neg (show ¬ (9 : ℕ) = 3 by decide), if_neg (show ¬ (9 : ℕ) = 5 by decide)] at hk
      exact ⟨rfl, by omega, hs.resolve_left (by decide)⟩
  · intro h
    have key : ∀ w, (w = 3 ∨ w = 5 ∨ w = 9) → (w = 5 ∨ c ≠ .secp256k1) → fb + pr + fe ≤ (if w = 3 then 63 else if w = 5 then 64 else 65) → ∃ p, c.params w fb fe pr = .ok p := by
      intro w hw hs hn
      obtain ⟨c1, c2, -, c4⟩ := curve_tables hc hw hs
      unfold Curve.params PoseidonParams.new genRoundKeys genMds
      rw [if_neg (by omega), if_neg (by rw [List.length_map, c4, not_lt]; exact Nat.mul_le_mul_right w hn), if_neg (by
        push Not
        refine ⟨by rw [List.length_map, c1], fun row hr => ?_⟩
        obtain ⟨r, hr', rfl⟩ := List.mem_map.mp hr
        rw [List.length_map, c2 r hr'])]
      exact ⟨_, rfl⟩
    rcases h with ⟨rfl, h, hs⟩ | ⟨rfl, h⟩ | ⟨rfl, h, hs⟩
    · exact key 3 (by simp) (.inr hs) (by simpa using h)
    · exact key 5 (by simp) (.inl rfl) (by simpa using h)
    · exact key 9 (by simp) (.inr hs) (by simpa using h)

theorem curve_branch {c : Curve} (hc : c ∈ Curve.all) [Fact c.order.Prime] {w fb fe pr : ℕ} {p : PoseidonParams (ZMod c.order)} (hp : c.params w fb fe pr = .ok p) {xs ys : List (ZMod c.order)}
    (hx : xs.length = w) (hy : ys.length = w) (hne : xs ≠ ys) : w + 1 ≤ differences xs ys + differences (linearVals p.mds xs) (linearVals p.mds ys) := by
  obtain ⟨hv, h1, -, -, -, h5, h6, -⟩ := poseidonParams_new_valid hp
  have hr := hv.rows
  rw [h6, h1, List.length_map] at hr
  obtain ⟨c1, c2, c3, -⟩ := curve_tables hc h5 (curve_width h5 hr)
  rw [h6]
  exact branch_number c1 c2 c3 hx hy hne

/-- C69: the mixing matrices of all curves and widths spread changes as far as is possible: states that differ in `d` places differ after the linear layer in at least `width + 1 - d`. -/
theorem c69_mds (c : Curve) (hc : c ∈ Curve.all) [Fact c.order.Prime] (w fb fe pr : ℕ) (p : PoseidonParams (ZMod c.order)) (hp : c.params w fb fe pr = .ok p) (xs ys : List (ZMod c.order))
    (hx : xs.length = w) (hy : ys.length = w) (hne : xs ≠ ys) :
    ∃ xs' ys', linearLayer p.mds xs = .ok xs' ∧ linearLayer p.mds ys = .ok ys' ∧ xs'.length = w ∧ ys'.length = w ∧ w + 1 ≤ differences xs ys + differences xs' ys' := by
  obtain ⟨hv, h1, -⟩ := poseidonParams_new_valid hp
  refine ⟨_, _, linearLayer_eq hv.rows hv.cols (hx.trans h1.symm), linearLayer_eq hv.rows hv.cols (hy.trans h1.symm), by rw [linearVals_length, hx], by rw [linearVals_length, hy], curve_branch hc hp hx hy hne⟩

theorem curve_linear_inj {c : Curve} (hc : c ∈ Curve.all) [Fact c.order.Prime] {w fb fe pr : ℕ} {p : PoseidonParams (ZMod c.order)} (hp : c.params w fb fe pr = .ok p) :
    ∀ xs ys : List (ZMod c.order), xs.length = p.width → ys.length = p.width → linearVals p.mds xs = linearVals p.mds ys → xs = ys := by
  intro xs ys hx hy h
  obtain ⟨-, h1, -⟩ := poseidonParams_new_valid hp
  rw [h1] at hx hy
  by_contra hne
  have hb := curve_branch hc hp hx hy hne
  have h0 : ∀ l : List (ZMod c.order), differences l l = 0 := by
    intro l
    rw [differences_sub, List.zipWith_self, List.countP_eq_zero]
    intro a ha
    obtain ⟨b, -, rfl⟩ := List.mem_map.mp ha
    simp
  have h2 : differences xs ys ≤ w := by
    rw [differences]
    exact List.countP_le_length.trans (by simp [hx, hy])
  rw [h, h0] at hb
  omega

theorem curve_quint_inj {c : Curve} (hc : c ∈ Curve.all) [Fact c.order.Prime] : Function.Injective (SboxType.quint.apply : ZMod c.order → ZMod c.order) := by
  simp only [Curve.all, List.mem_cons, List.not_mem_nil, or_false] at hc
  rcases hc with rfl | rfl | rfl | rfl
  · exact quint_inj_of (e := 20974350070050476191779096203274386335076221000211055129041463479975432473805) (k := 2) (by decide +kernel)
  · exact quint_inj_of (e := 10078865238609499370964482485339040345855747762042851649417027318499342129569) (k := 3) (by decide +kernel)
  · exact quint_inj_of (e := 4342203346399357328383911937825796544514269815627944563601170562971272550593) (k := 3) (by decide +kernel)
  · exact quint_inj_of (e := 92633671389852956338856788006950326282270051423259923506084130513214529195469) (k := 4) (by decide +kernel)

/-- C69: with the tables of any curve the permutation with the quint or inverse S-box is a bijection of the states of the right width. -/
theorem c69_bijective (c : Curve) (hc : c ∈ Curve.all) [Fact c.order.Prime] (w fb fe pr : ℕ) (p : PoseidonParams (ZMod c.order)) (hp : c.params w fb fe pr = .ok p) (sbox : SboxType) (hs : sbox ≠ .cube) :
    (∀ xs : List (ZMod c.order), xs.length = w → ∃ ys, poseidonPermutation p sbox xs = .ok ys ∧ ys.length = w) ∧
    (∀ xs xs' ys, poseidonPermutation p sbox xs = .ok ys → poseidonPermutation p sbox xs' = .ok ys → xs = xs') ∧
    (∀ ys : List (ZMod c.order), ys.length = w → ∃ xs, xs.length = w ∧ poseidonPermutation p sbox xs = .ok ys) := by
  obtain ⟨hv, h1, -⟩ := poseidonParams_new_valid hp
  have hf : Function.Injective (sbox.apply : ZMod c.order → ZMod c.order) := by
    cases sbox with
    | cube => exact absurd rfl hs
    | inverse => exact inverse_injective
    | quint => exact curve_quint_inj hc
  have hinj : ∀ xs xs' ys, poseidonPermutation p sbox xs = .ok ys → poseidonPermutation p sbox xs' = .ok ys → xs = xs' := fun xs xs' ys a b => perm_inj hf hv (curve_linear_inj hc hp) a b
  have hdef : ∀ xs : List (ZMod c.order), xs.length = w → ∃ ys, poseidonPermutation p sbox xs = .ok ys ∧ ys.length = w := by
    intro xs hx
    obtain ⟨a, b⟩ := permWith_eq sbox.apply hv (hx.trans h1.symm)
    exact ⟨_, a, b.trans h1⟩
  refine ⟨hdef, hinj, ?_⟩
  let step : List.Vector (ZMod c.order) w → List.Vector (ZMod c.order) w := fun v => ⟨(hdef v.1 v.2).choose, (hdef v.1 v.2).choose_spec.2⟩
  have hstep : ∀ v, poseidonPermutation p sbox v.1 = .ok (step v).1 := fun v => (hdef v.1 v.2).choose_spec.1
  have hsi : Function.Injective step := by
    intro v v' h
    apply Subtype.ext
    have a := hstep v
    rw [h] at a
    exact hinj _ _ _ a (hstep v')
  intro ys hy
  have : NeZero c.order := ⟨(Fact.out : c.order.Prime).ne_zero⟩
  obtain ⟨v, hv'⟩ := Finite.surjective_of_injective hsi ⟨ys, hy⟩
  exact ⟨v.1, v.2, by rw [hstep v, hv']⟩

theorem curve_root {c : Curve} (hc : c ∈ Curve.all) : ∃ ω : ZMod c.order, ω ^ 3 = 1 ∧ ω ≠ 1 := by
  simp only [Curve.all, List.mem_cons, List.not_mem_nil, or_false] at hc
  rcases hc with rfl | rfl | rfl | rfl
  · exact ⟨omega3, omega3_cube, omega3_ne_one⟩
  · exact ⟨((0x252364824000000126cd8900000000024908fffffffffffcf9fffffffffffff6 : ℕ) : ZMod _), by decide +kernel, by decide +kernel⟩
  · exact ⟨((0x378d9ddc674005feb08f579fb8841ae471dd911c6cce91e158687e51e07e223 : ℕ) : ZMod _), by decide +kernel, by decide +kernel⟩
  · exact ⟨((0xac9c52b33fa3cf1f5ad9e3fd77ed9ba4a880b9fc8ec739c2e0cfc810b51283ce : ℕ) : ZMod _), by decide +kernel, by decide +kernel⟩

/-- C69: no curve makes the cube S-box injective: with the tables of any curve, changing any one element `x` of the state (round key `k`) to `ω(x + k) - k`, with a third root of unity `ω ≠ 1`, does not change the
output; so every 2:1 hash with cubes has a second preimage. -/
theorem c69_cube (c : Curve) (hc : c ∈ Curve.all) [Fact c.order.Prime] :
    ∃ ω : ZMod c.order, ω ≠ 1 ∧ ω ^ 3 = 1 ∧ ∀ (w fb fe pr : ℕ) (p : PoseidonParams (ZMod c.order)), c.params w fb fe pr = .ok p → fb ≠ 0 → ∀ (xs : List (ZMod c.order)), xs.length = w → ∀ (i : ℕ),
      poseidonPermutation p .cube (xs.set i (ω * (xs.getD i 0 + p.roundKeys.getD i 0) - p.roundKeys.getD i 0)) = poseidonPermutation p .cube xs := by
  obtain ⟨ω, h3, h1⟩ := curve_root hc
  refine ⟨ω, h1, h3, fun w fb fe pr p hp hfb xs hx i => ?_⟩
  obtain ⟨hv, hw, h2, -⟩ := poseidonParams_new_valid hp
  exact cube_collision h3 hv (by rw [h2]; exact hfb) xs (hx.trans hw.symm) i

/-! ## Where the matrices come from -/

/-- C69: the matrices for bls381, ed25519 and secp256k1 are Cauchy matrices in the scalar field of their curve. -/
theorem c69_cauchy (c : Curve) (hc : c ∈ Curve.all) (hb : c ≠ .bn254) (w : ℕ) (hw : w = 3 ∨ w = 5 ∨ w = 9) (hs : w = 5 ∨ c ≠ .secp256k1) (i j : ℕ) (hi : i < w) (hj : j < w) :
    ((c.mds w).getD i []).getD j 0 * (i + j + w) % c.order = 1 := by
  simp only [Curve.all, List.mem_cons, List.not_mem_nil, or_false] at hc
  rcases hc with rfl | rfl | rfl | rfl
  · have h : ∀ w ∈ [3, 5, 9], ∀ i < w, ∀ j < w, ((Curve.bls381.mds w).getD i []).getD j 0 * (i + j + w) % Curve.bls381.order = 1 := by decide +kernel
    exact h w (by simpa using hw) i hi j hj
  · exact absurd rfl hb
  · have h : ∀ w ∈ [3, 5, 9], ∀ i < w, ∀ j < w, ((Curve.ed25519.mds w).getD i []).getD j 0 * (i + j + w) % Curve.ed25519.order = 1 := by decide +kernel
    exact h w (by simpa using hw) i hi j hj
  · have h : ∀ i < 5, ∀ j < 5, ((Curve.secp256k1.mds 5).getD i []).getD j 0 * (i + j + 5) % Curve.secp256k1.order = 1 := by decide +kernel
    rcases hs with rfl | hs
    · exact h i hi j hj
    · exact absurd rfl hs

/-- The order of the curve alt_bn128 (Ethereum's "bn254"), which is not amcl's BN254. -/
def altBn128Order : ℕ := 21888242871839275222246405745257275088548364400416034343698204186575808495617

/-- C69: the tables for bn254 were made for another curve: the matrices are the Cauchy matrices modulo alt_bn128's order, while modulo the order of amcl's BN254, with which they are used, no entry is
right. -/
theorem c69_bn254_other_field (w : ℕ) (hw : w = 3 ∨ w = 5 ∨ w = 9) (i j : ℕ) (hi : i < w) (hj : j < w) :
    ((Curve.bn254.mds w).getD i []).getD j 0 * (i + j + w) % altBn128Order = 1 ∧ ((Curve.bn254.mds w).getD i []).getD j 0 * (i + j + w) % Curve.bn254.order ≠ 1 := by
  have h : ∀ w ∈ [3, 5, 9], ∀ i < w, ∀ j < w,
      ((Curve.bn254.mds w).getD i []).getD j 0 * (i + j + w) % altBn128Order = 1 ∧ ((Curve.bn254.mds w).getD i []).getD j 0 * (i + j + w) % Curve.bn254.order ≠ 1 := by decide +kernel
  exact h w (by simpa using hw) i hi j hj

/-- C69: some of the numbers for bn254 are not even below the order of amcl's BN254, for every width; for the other curves all are below. -/
theorem c69_reduced (w : ℕ) (hw : w = 3 ∨ w = 5 ∨ w = 9) :
    (∀ c ∈ Curve.all, c ≠ .bn254 → (∀ row ∈ c.mds w, ∀ x ∈ row, x < c.order) ∧ ∀ x ∈ c.rounds w, x < c.order) ∧
      (∃ row ∈ Curve.bn254.mds w, ∃ x ∈ row, Curve.bn254.order ≤ x) ∧ ∃ x ∈ Curve.bn254.rounds w, Curve.bn254.order ≤ x := by
  refine ⟨fun c hc hb => ?_, ?_, ?_⟩
  · simp only [Curve.all, List.mem_cons, List.not_mem_nil, or_false] at hc
    rcases hc with rfl | rfl | rfl | rfl
    · have h : ∀ w ∈ [3, 5, 9], (∀ row ∈ Curve.bls381.mds w, ∀ x ∈ row, x < Curve.bls381.order) ∧ ∀ x ∈ Curve.bls381.rounds w, x < Curve.bls381.order := by decide +kernel
      exact h w (by simpa using hw)
    · exact absurd rfl hb
    · have h : ∀ w ∈ [3, 5, 9], (∀ row ∈ Curve.ed25519.mds w, ∀ x ∈ row, x < Curve.ed25519.order) ∧ ∀ x ∈ Curve.ed25519.rounds w, x < Curve.ed25519.order := by decide +kernel
      exact h w (by simpa using hw)
    · have h : ∀ w ∈ [3, 5, 9], (∀ row ∈ Curve.secp256k1.mds w, ∀ x ∈ row, x < Curve.secp256k1.order) ∧ ∀ x ∈ Curve.secp256k1.rounds w, x < Curve.secp256k1.order := by decide +kernel
      exact h w (by simpa using hw)
  · have h : ∀ w ∈ [3, 5, 9], ∃ row ∈ Curve.bn254.mds w, ∃ x ∈ row, Curve.bn254.order ≤ x := by decide +kernel
    exact h w (by simpa using hw)
  · have h : ∀ w ∈ [3, 5, 9], ∃ x ∈ Curve.bn254.rounds w, Curve.bn254.order ≤ x := by decide +kernel
    exact h w (by simpa using hw)

/-- bn254, width 9: the parameters exist, and two states that differ in one place only differ everywhere after the linear layer. -/
example : ∃ _ : Fact Curve.bn254.order.Prime, ∃ p xs' ys', Curve.bn254.params 9 4 4 57 = .ok p ∧ linearLayer p.mds [0, 0, 0, 0, 0, 0, 0, 0, 0] = .ok xs' ∧ linearLayer p.mds [0, 0, 0, 7, 0, 0, 0, 0, 0] = .ok ys' ∧
    9 ≤ differences xs' ys' := by
  have hc : Curve.bn254 ∈ Curve.all := by simp [Curve.all]
  have hd : differences ([0, 0, 0, 0, 0, 0, 0, 0, 0] : List (ZMod Curve.bn254.order)) [0, 0, 0, 7, 0, 0, 0, 0, 0] = 1 := by decide +kernel
  have hne : ([0, 0, 0, 0, 0, 0, 0, 0, 0] : List (ZMod Curve.bn254.order)) ≠ [0, 0, 0, 7, 0, 0, 0, 0, 0] := by decide +kernel
  have : Fact Curve.bn254.order.Prime := ⟨c69_orders _ hc⟩
  obtain ⟨p, hp⟩ := (c69_params _ hc 9 4 4 57).mpr (.inr (.inr ⟨rfl, by omega, fun h => by
    have : Curve.bn254.order = Curve.secp256k1.order := by rw [h]
    exact absurd this (by decide +kernel)⟩))
  obtain ⟨xs', ys', h1, h2, -, -, h3⟩ := c69_mds _ hc 9 4 4 57 p hp [0, 0, 0, 0, 0, 0, 0, 0, 0] [0, 0, 0, 7, 0, 0, 0, 0, 0] rfl rfl hne
  exact ⟨inferInstance, p, xs', ys', hp, h1, h2, Nat.le_of_add_le_add_left (a := 1) (h3.trans (Nat.add_le_add_right hd.le _))⟩

/-- secp256k1, width 5. -/
example : ∃ _ : Fact Curve.secp256k1.order.Prime, ∃ p, Curve.secp256k1.params 5 4 4 56 = .ok p := by
  have hc : Curve.secp256k1 ∈ Curve.all := by simp [Curve.all]
  have : Fact Curve.secp256k1.order.Prime := ⟨c69_orders _ hc⟩
  exact ⟨inferInstance, (c69_params _ hc 5 4 4 56).mpr (.inr (.inl ⟨rfl, by omega⟩))⟩

/-- ed25519, width 3, and without width 3 for secp256k1. -/
example : (∃ _ : Fact Curve.ed25519.order.Prime, ∃ p, Curve.ed25519.params 3 4 4 55 = .ok p) ∧ ∃ _ : Fact Curve.secp256k1.order.Prime, ¬ ∃ p, Curve.secp256k1.params 3 4 4 55 = .ok p := by
  have hc : Curve.ed25519 ∈ Curve.all := by simp [Curve.all]
  have hc' : Curve.secp256k1 ∈ Curve.all := by simp [Curve.all]
  have : Fact Curve.ed25519.order.Prime := ⟨c69_orders _ hc⟩
  have : Fact Curve.secp256k1.order.Prime := ⟨c69_orders _ hc'⟩
  refine ⟨⟨inferInstance, (c69_params _ hc 3 4 4 55).mpr (.inl ⟨rfl, by omega, fun h => ?_⟩)⟩, inferInstance, fun h => ?_⟩
  · have : Curve.ed25519.order = Curve.secp256k1.order := by rw [h]
    exact absurd this (by decide +kernel)
  · have := (c69_params _ hc' 3 4 4 55).mp h
    simp at this

end Bp
