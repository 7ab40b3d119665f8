import Verif.Lemmas.Gadgets.PoseidonInj

set_option linter.unusedSectionVars false
set_option linter.unusedSimpArgs false

/-! # C51, C52: the Poseidon permutation with the shipped parameters -/

namespace Bp

/-- C51: the shipped matrices are the Cauchy matrices with entries 1/(i+j+width). -/
theorem c51_cauchy (w : ℕ) (hw : w = 3 ∨ w = 5 ∨ w = 9) :
    (mdsEntriesBls w).length = w ∧ (∀ row ∈ mdsEntriesBls w, row.length = w) ∧ ∀ i < w, ∀ j < w, mdsEntry (mdsEntriesBls w) i j * ((i + j + w : ℕ) : Fr) = 1 := by
  rcases hw with rfl | rfl | rfl
  · exact ⟨rfl, by decide +kernel, by decide +kernel⟩
  · exact ⟨rfl, by decide +kernel, by decide +kernel⟩
  · exact ⟨rfl, by decide +kernel, by decide +kernel⟩

/-- C51: which parameter sets the shipped tables allow, and that these are well formed. -/
theorem c51_params (w fb fe pr : ℕ) :
    (∃ p, PoseidonParams.bls w fb fe pr = .ok p) ↔ (w = 3 ∧ fb + pr + fe ≤ 63) ∨ (w = 5 ∧ fb + pr + fe ≤ 64) ∨ (w = 9 ∧ fb + pr + fe ≤ 65) := by
  have l3 : (roundConstsBls 3).length = 189 := by decide +kernel
  have l5 : (roundConstsBls 5).length = 320 := by decide +kernel
  have l9 : (roundConstsBls 9).length = 585 := by decide +kernel
  constructor
  · rintro ⟨p, hp⟩
    have h := poseidonParams_new_valid hp
    have hk := h.1.keys
    obtain ⟨-, h1, h2, h3, h4, h5, -, h7⟩ := h
    rw [h7, h1, h2, h3, h4, List.length_take] at hk
    rcases h5 with rfl | rfl | rfl
    · rw [l3] at hk; omega
    · rw [l5] at hk; omega
    · rw [l9] at hk; omega
  · intro h
    have key : ∀ w n, (roundConstsBls w).length = n → (w = 3 ∨ w = 5 ∨ w = 9) → (fb + pr + fe) * w ≤ n → ∃ p, PoseidonParams.bls w fb fe pr = .ok p := by
      intro w n hl hw hn
      obtain ⟨c1, c2, -⟩ := c51_cauchy w hw
      unfold PoseidonParams.bls PoseidonParams.new genRoundKeys genMds
      rw [if_neg (by omega), if_neg (by omega), if_neg (by push Not; exact ⟨c1, c2⟩)]
      exact ⟨_, rfl⟩
    rcases h with ⟨rfl, h⟩ | ⟨rfl, h⟩ | ⟨rfl, h⟩
    · exact key 3 _ l3 (by simp) (by omega)
    · exact key 5 _ l5 (by simp) (by omega)
    · exact key 9 _ l9 (by simp) (by omega)

theorem bls_linear_inj {w fb fe pr : ℕ} {p : PoseidonParams Fr} (hp : PoseidonParams.bls w fb fe pr = .ok p) :
    ∀ xs ys : List Fr, xs.length = p.width → ys.length = p.width → linearVals p.mds xs = linearVals p.mds ys → xs = ys := by
  obtain ⟨-, h1, -, -, -, h5, h6, -⟩ := poseidonParams_new_valid hp
  rw [h1, h6]
  rcases h5 with rfl | rfl | rfl
  · exact linearVals_inj _ mds_inv3
  · exact linearVals_inj _ mds_inv5
  · exact linearVals_inj _ mds_inv9

/-- C51: with the shipped matrices and round constants (any numbers of rounds the tables allow), the permutation with the quint or inverse S-box is a bijection of the states of the right width. -/
theorem c51_bijective (w fb fe pr : ℕ) (p : PoseidonParams Fr) (hp : PoseidonParams.bls w fb fe pr = .ok p) (sbox : SboxType) (hs : sbox ≠ .cube) :
    (∀ xs : List Fr, xs.length = w → ∃ ys, poseidonPermutation p sbox xs = .ok ys ∧ ys.length = w) ∧
    (∀ xs xs' ys, poseidonPermutation p sbox xs = .ok ys → poseidonPermutation p sbox xs' = .ok ys → xs = xs') ∧
    (∀ ys : List Fr, ys.length = w → ∃ xs, xs.length = w ∧ poseidonPermutation p sbox xs = .ok ys) := by
  obtain ⟨hv, h1, -⟩ := poseidonParams_new_valid hp
  have hf : Function.Injective (sbox.apply : Fr → Fr) := by
    cases sbox with
    | cube => exact absurd rfl hs
    | inverse => exact inverse_injective
    | quint => exact quint_injective
  have hinj : ∀ xs xs' ys, poseidonPermutation p sbox xs = .ok ys → poseidonPermutation p sbox xs' = .ok ys → xs = xs' := fun xs xs' ys a b => perm_inj hf hv (bls_linear_inj hp) a b
  have hdef : ∀ xs : List Fr, xs.length = w → ∃ ys, poseidonPermutation p sbox xs = .ok ys ∧ ys.length = w := by
    intro xs hx
    obtain ⟨a, b⟩ := permWith_eq sbox.apply hv (hx.trans h1.symm)
    exact ⟨_, a, b.trans h1⟩
  refine ⟨hdef, hinj, ?_⟩
  -- an injective map of a finite set to itself is surjective
  let step : List.Vector Fr w → List.Vector Fr w := fun v => ⟨(hdef v.1 v.2).choose, (hdef v.1 v.2).choose_spec.2⟩
  have hstep : ∀ v, poseidonPermutation p sbox v.1 = .ok (step v).1 := fun v => (hdef v.1 v.2).choose_spec.1
  have hsi : Function.Injective step := by
    intro v v' h
    apply Subtype.ext
    have a := hstep v
    rw [h] at a
    exact hinj _ _ _ a (hstep v')
  intro ys hy
  obtain ⟨v, hv'⟩ := Finite.surjective_of_injective hsi ⟨ys, hy⟩
  exact ⟨v.1, v.2, by rw [hstep v, hv']⟩

/-- C51: the same injectivity for every list of round keys of the right length. -/
theorem c51_injective_any_keys (w fb fe pr : ℕ) (p : PoseidonParams Fr) (hp : PoseidonParams.bls w fb fe pr = .ok p) (keys : List Fr) (hk : keys.length = p.roundKeys.length) (sbox : SboxType)
    (hs : sbox ≠ .cube) (xs xs' ys : List Fr) (h1 : poseidonPermutation { p with roundKeys := keys } sbox xs = .ok ys)
    (h2 : poseidonPermutation { p with roundKeys := keys } sbox xs' = .ok ys) : xs = xs' := by
  obtain ⟨hv, -⟩ := poseidonParams_new_valid hp
  have hf : Function.Injective (sbox.apply : Fr → Fr) := by
    cases sbox with
    | cube => exact absurd rfl hs
    | inverse => exact inverse_injective
    | quint => exact quint_injective
  exact perm_inj hf (p := { p with roundKeys := keys }) ⟨hk.trans hv.keys, hv.rows, hv.cols, hv.pos⟩ (fun xs ys a b c => bls_linear_inj hp xs ys a b c) h1 h2

/-- The parameters used in the crate's tests: width 3, 4 + 4 full and 55 partial rounds. -/
example : ∃ p, PoseidonParams.bls 3 4 4 55 = .ok p := (c51_params 3 4 4 55).mpr (by omega)
/-- Width 9. -/
example : ∃ p, PoseidonParams.bls 9 4 4 57 = .ok p := (c51_params 9 4 4 57).mpr (by omega)

/-! ## C52 -/

/-- A primitive third root of unity of the scalar field. -/
def omega3 : Fr := 0xac45a4010001a40200000000ffffffff

theorem omega3_cube : omega3 ^ 3 = 1 := by decide +kernel
theorem omega3_ne_one : omega3 ≠ 1 := by decide +kernel

theorem cube_omega (x : Fr) : SboxType.cube.apply (omega3 * x) = SboxType.cube.apply x := by
  have := omega3_cube
  simp only [SboxType.apply]
  linear_combination (x ^ 3) * this

theorem sboxVals_set (ks : List Fr) : ∀ (xs : List Fr) (i : ℕ), sboxVals SboxType.cube.apply ks (xs.set i (omega3 * (xs.getD i 0 + ks.getD i 0) - ks.getD i 0)) = sboxVals SboxType.cube.apply ks xs := by
  induction ks with
  | nil => intro xs i; simp [sboxVals]
  | cons k ks ih =>
    intro xs i
    cases xs with
    | nil => simp
    | cons x xs =>
      cases i with
      | zero => simp [sboxVals, cube_omega]
      | succ i =>
        have := ih xs i
        simp only [sboxVals] at this ⊢
        simp only [List.set_cons_succ, List.getD_cons_succ, List.zipWith_cons_cons, this]

/-- C52 is false: with the cube S-box and any well-formed parameters over the default scalar field that begin with a full round, changing any one state element `x` with round key `k` to
`ω(x + k) - k` does not change the output.  (`ω` is a primitive third root of unity; the new element differs unless `x + k = 0`.) -/
theorem c52_collision (p : PoseidonParams Fr) (hv : p.Valid) (hfb : p.fullRoundsBeginning ≠ 0) (xs : List Fr) (hx : xs.length = p.width) (i : ℕ) :
    poseidonPermutation p .cube (xs.set i (omega3 * (xs.getD i 0 + p.roundKeys.getD i 0) - p.roundKeys.getD i 0)) = poseidonPermutation p .cube xs := by
  unfold poseidonPermutation
  rw [(permWith_eq _ hv (by simpa using hx)).1, (permWith_eq _ hv hx).1]
  obtain ⟨n, hn⟩ := Nat.exists_eq_succ_of_ne_zero hfb
  have hn' : p.fullRoundsBeginning = n + 1 := hn
  congr 1
  simp only [permVals, hn', roundsVals, sboxVals_set]

/-- C52 is false: the permutation with the cube S-box and shipped parameters is never injective. -/
theorem c52_not_injective (w fb fe pr : ℕ) (p : PoseidonParams Fr) (hp : PoseidonParams.bls w fb fe pr = .ok p) (hfb : fb ≠ 0) :
    ∃ xs xs' ys : List Fr, xs ≠ xs' ∧ poseidonPermutation p .cube xs = .ok ys ∧ poseidonPermutation p .cube xs' = .ok ys := by
  obtain ⟨hv, h1, h2, -⟩ := poseidonParams_new_valid hp
  set k := p.roundKeys.getD 0 0 with hk
  set xs : List Fr := (1 - k) :: List.replicate (p.width - 1) 0 with hxs
  have hx : xs.length = p.width := by have := hv.pos; simp [hxs]; omega
  have := c52_collision p hv (by omega) xs hx 0
  refine ⟨xs, _, _, ?_, (permWith_eq _ hv hx).1, this.trans (permWith_eq _ hv hx).1⟩
  rw [hxs]
  simp only [List.set_cons_zero, List.getD_cons_zero, ne_eq, List.cons.injEq, and_true]
  rw [← hk]
  intro h
  exact omega3_ne_one (by linear_combination -h)

/-- C52 is false, for the hashes: with the cube S-box every 2:1 hash has an explicit second preimage (unless `x` is minus the round key). -/
theorem c52_hash_collision (fb fe pr : ℕ) (p : PoseidonParams Fr) (hp : PoseidonParams.bls 3 fb fe pr = .ok p) (hfb : fb ≠ 0) (x y : Fr) (hx : x + p.roundKeys.getD 1 0 ≠ 0) :
    ∃ x', x' ≠ x ∧ poseidonHash2 x' y p .cube = poseidonHash2 x y p .cube := by
  obtain ⟨hv, h1, h2, -⟩ := poseidonParams_new_valid hp
  refine ⟨omega3 * (x + p.roundKeys.getD 1 0) - p.roundKeys.getD 1 0, ?_, ?_⟩
  · intro h
    have : (omega3 - 1) * (x + p.roundKeys.getD 1 0) = 0 := by linear_combination h
    rcases mul_eq_zero.mp this with h | h
    · exact omega3_ne_one (sub_eq_zero.mp h)
    · exact hx h
  · have := c52_collision p hv (by omega) [(zeroConst : Fr), x, y] (by rw [h1]; rfl) 1
    simp only [List.set_cons_succ, List.set_cons_zero, List.getD_cons_succ, List.getD_cons_zero] at this
    unfold poseidonHash2 hashOf hashWith
    unfold poseidonPermutation at this
    rw [this]

/-- The hypothesis is met for the parameters of the crate's tests and `x = 1`. -/
example : ∃ p x', PoseidonParams.bls 3 4 4 55 = .ok p ∧ x' ≠ 1 ∧ poseidonHash2 x' 2 p .cube = poseidonHash2 1 2 p .cube := by
  obtain ⟨p, hp⟩ := (c51_params 3 4 4 55).mpr (by omega)
  obtain ⟨-, -, -, -, -, -, -, h7⟩ := poseidonParams_new_valid hp
  obtain ⟨x', h1, h2⟩ := c52_hash_collision 4 4 55 p hp (by simp) 1 2 (by rw [h7]; decide +kernel)
  exact ⟨p, x', hp, h1, h2⟩

end Bp
