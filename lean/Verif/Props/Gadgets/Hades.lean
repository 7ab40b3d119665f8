import Verif.Lemmas.Gadgets.Hades
import Verif.Props.Gadgets.Poseidon
import Verif.Props.Gadgets.Mimc
import Verif.Props.Gadgets.Curves
import Verif.Spec.Merkle

set_option linter.unusedSectionVars false
set_option linter.unusedSimpArgs false

/-! # C90: the hash functions are the published ones -/

namespace Bp
section
variable {F : Type} [Field F]

/-- **C90**: `Poseidon_permutation` is the HADES permutation with the given constants, matrix and numbers of rounds. -/
theorem c90_permutation {p : PoseidonParams F} (hv : p.Valid) (sbox : SboxType) (s : Fin p.width → F) :
    poseidonPermutation p sbox (List.ofFn s) = .ok (List.ofFn ((p.hades p.width).permute sbox.power s)) := by
  have h := (permWith_eq sbox.apply hv (xs := List.ofFn s) (by simp)).1
  rw [permVals_ofFn sbox.apply hv, show sbox.apply = (sbox.power : F → F) from funext sbox.apply_eq_power] at h
  rw [poseidonPermutation]
  simpa only [sbox.apply_eq_power] using h

/-- The hash of any number of inputs. -/
theorem hashOf_hades {p : PoseidonParams F} (hv : p.Valid) (sbox : SboxType) {n : ℕ} (hw : p.width = n + 2) (s : Fin (n + 1) → F) :
    hashOf p sbox ((zeroConst : F) :: List.ofFn s) = .ok ((p.hades (n + 2)).hash sbox.power s) := by
  obtain ⟨w, fb, fe, pr, ks, mds⟩ := p
  simp only at hw
  subst hw
  have h := c90_permutation hv sbox (Fin.cons 0 s)
  rw [List.ofFn_cons] at h
  unfold hashOf hashWith
  unfold poseidonPermutation at h
  simp only [zeroConst, Nat.cast_zero]
  rw [h]
  exact idx_get.mpr (by rw [List.getElem?_ofFn]; rfl)

/-- **C90**: `Poseidon_hash_2`. -/
theorem c90_hash_2 {p : PoseidonParams F} (hv : p.Valid) (hw : p.width = 3) (sbox : SboxType) (x y : F) :
    poseidonHash2 x y p sbox = .ok ((p.hades 3).hash sbox.power ![x, y]) :=
  hashOf_hades hv sbox hw ![x, y]

/-- **C90**: `Poseidon_hash_4`. -/
theorem c90_hash_4 {p : PoseidonParams F} (hv : p.Valid) (hw : p.width = 5) (sbox : SboxType) (s : Fin 4 → F) :
    poseidonHash4 (List.ofFn s) p sbox = .ok ((p.hades 5).hash sbox.power s) := by
  rw [poseidonHash4, if_neg (by simp)]
  exact hashOf_hades hv sbox hw s

/-- **C90**: `Poseidon_hash_8`. -/
theorem c90_hash_8 {p : PoseidonParams F} (hv : p.Valid) (hw : p.width = 9) (sbox : SboxType) (s : Fin 8 → F) :
    poseidonHash8 (List.ofFn s) p sbox = .ok ((p.hades 9).hash sbox.power s) := by
  rw [poseidonHash8, if_neg (by simp)]
  exact hashOf_hades hv sbox hw s

/-- **C90**: the digests in the trees, of which the theorems about trees and inclusion speak. -/
theorem c90_digest {p : PoseidonParams F} (hv : p.Valid) :
    (p.width = 5 → ∀ s : Fin 4 → F, (tree4 p).digest (List.ofFn s) = (p.hades 5).hash (fun x => x ^ 5) s ∧ ∀ sbox, (hasher4 p sbox).digest (List.ofFn s) = (p.hades 5).hash sbox.power s) ∧
      (p.width = 9 → ∀ s : Fin 8 → F, (tree8 p).digest (List.ofFn s) = (p.hades 9).hash (fun x => x ^ 5) s ∧ ∀ sbox, (hasher8 p sbox).digest (List.ofFn s) = (p.hades 9).hash sbox.power s) := by
  refine ⟨fun hw s => ⟨?_, fun sbox => ?_⟩, fun hw s => ⟨?_, fun sbox => ?_⟩⟩
  · unfold TreeOps.digest tree4; simp only; rw [c90_hash_4 hv hw]; rfl
  · unfold TreeOps.digest hasher4; simp only; rw [c90_hash_4 hv hw]
  · unfold TreeOps.digest tree8; simp only; rw [c90_hash_8 hv hw]; rfl
  · unfold TreeOps.digest hasher8; simp only; rw [c90_hash_8 hv hw]

theorem mimcLoop_feistel : ∀ (cs : List F) (x y : F), mimcLoop x y cs = (mimcFeistel cs x y).1
  | [], _, _ => rfl
  | c :: cs, x, y => by
    rw [mimcLoop, mimcLoop_feistel cs, mimcFeistel, mimcFeistel, List.foldl_cons]
    congr 3
    ring

/-- **C90**: `mimc` is the left half of the Feistel network. -/
theorem c90_mimc (x y : F) (constants : List F) : mimc x y constants constants.length = .ok (mimcFeistel constants x y).1 := by
  rw [mimc, if_neg (by simp), mimcLoop_feistel]

end

section
variable {F G : Type} [Field F] [AddCommGroup G] [Module F G]

/-- **C90**: what the verifying functions for preimages show, in terms of the published hash. -/
theorem c90_preimage_2 (env : Env F G) (output : F) {p : PoseidonParams F} (hv : p.Valid) (hw : p.width = 3) (sbox : SboxType) (hs : sbox ≠ .inverse) (g h : G) :
    SoundForWith 2 [0] [(0 : F) • g + (0 : F) • h] (verifyPoseidon2 env output p sbox g h) (fun v => (p.hades 3).hash sbox.power ![v 0, v 1] = output) := by
  have := c35_sound_2 (env := env) output p sbox hs g h
  simpa only [c90_hash_2 hv hw, Except.ok.injEq] using this

/-- **C90**: four inputs. -/
theorem c90_preimage_4 (env : Env F G) (output : F) {p : PoseidonParams F} (hv : p.Valid) (hw : p.width = 5) (sbox : SboxType) (hs : sbox ≠ .inverse) (g h : G) :
    SoundForWith 4 [0] [(0 : F) • g + (0 : F) • h] (verifyPoseidon4 env output p sbox g h) (fun v => (p.hades 5).hash sbox.power (fun i => v i) = output) := by
  have := c35_sound_4 (env := env) output p sbox hs g h
  have e : ∀ v : ℕ → F, [v 0, v 1, v 2, v 3] = List.ofFn fun i : Fin 4 => v i := fun _ => rfl
  simpa only [e, c90_hash_4 hv hw, Except.ok.injEq] using this

/-- **C90**: eight inputs. -/
theorem c90_preimage_8 (env : Env F G) (output : F) {p : PoseidonParams F} (hv : p.Valid) (hw : p.width = 9) (sbox : SboxType) (hs : sbox ≠ .inverse) (g h : G) :
    SoundForWith 8 [0] [(0 : F) • g + (0 : F) • h] (verifyPoseidon8 env output p sbox g h) (fun v => (p.hades 9).hash sbox.power (fun i => v i) = output) := by
  have := c35_sound_8 (env := env) output p sbox hs g h
  have e : ∀ v : ℕ → F, [v 0, v 1, v 2, v 3, v 4, v 5, v 6, v 7] = List.ofFn fun i : Fin 8 => v i := fun _ => rfl
  simpa only [e, c90_hash_8 hv hw, Except.ok.injEq] using this

/-- **C90**: preimages of MiMC. -/
theorem c90_preimage_mimc (env : Env F G) (image : F) (constants : List F) :
    SoundFor 2 (verifyMimcPreimage env image constants constants.length) (fun v => (mimcFeistel constants (v 0) (v 1)).1 = image) := by
  have := c32_sound_exact env image constants constants.length rfl
  simpa only [c90_mimc, Except.ok.injEq] using this

end

/-- **C90**: with the tables of the crate: the round constants are taken from the table in order, and the matrix is the Cauchy matrix with entries `1 / (i + j + width)` (but for the feature `bn254`, see C69). -/
theorem c90_tables (c : Curve) (hc : c ∈ Curve.all) [Fact c.order.Prime] {w fb fe pr : ℕ} {p : PoseidonParams (ZMod c.order)} (hp : c.params w fb fe pr = .ok p) :
    p.Valid ∧ p.width = w ∧ ((p.hades w).fullFirst, (p.hades w).partials, (p.hades w).fullLast) = (fb, pr, fe) ∧
      (∀ r < fb + pr + fe, ∀ i : Fin w, (p.hades w).key r i = ((c.rounds w).getD (r * w + i) 0 : ZMod c.order)) ∧
      (c ≠ .bn254 → (p.hades w).mds = Matrix.of fun i j : Fin w => ((i + j + w : ℕ) : ZMod c.order)⁻¹) := by
  obtain ⟨hv, h1, h2, h3, h4, h5, h6, h7⟩ := poseidonParams_new_valid hp
  refine ⟨hv, h1, ?_, fun r hr i => ?_, fun hb => ?_⟩
  · show (p.fullRoundsBeginning, p.partialRounds, p.fullRoundsEnd) = _
    rw [h2, h3, h4]
  · show p.roundKeys.getD (r * w + i) 0 = _
    have hlt : r * w + i < (fb + pr + fe) * w := by
      have : (r + 1) * w ≤ (fb + pr + fe) * w := Nat.mul_le_mul_right w hr
      have e : (r + 1) * w = r * w + w := by ring
      have := i.2
      omega
    rw [h7, List.getD_eq_getElem?_getD, List.getElem?_take, if_pos hlt, List.getElem?_map, List.getD_eq_getElem?_getD]
    rcases (c.rounds w)[r * w + i.val]? with _ | x
    · simp
    · simp
  · have hr := hv.rows
    rw [h6, h1, List.length_map] at hr
    have hs := curve_width h5 hr
    funext i j
    show (p.mds.getD i []).getD j 0 = _
    have hcau := c69_cauchy c hc hb w h5 hs i j i.2 j.2
    have e : (p.mds.getD i []).getD j 0 = ((((c.mds w).getD i []).getD j 0 : ℕ) : ZMod c.order) := by
      rw [h6]
      simp only [List.getD_eq_getElem?_getD, List.getElem?_map]
      rcases (c.mds w)[i.val]? with _ | row
      · simp
      · simp only [Option.map_some, Option.getD_some, List.getElem?_map]
        rcases row[j.val]? with _ | x
        · simp
        · simp
    rw [e]
    apply eq_inv_of_mul_eq_one_left
    have hone : (((((c.mds w).getD i []).getD j 0 * (i + j + w)) % c.order : ℕ) : ZMod c.order) = 1 := by rw [hcau, Nat.cast_one]
    rw [ZMod.natCast_mod] at hone
    push_cast at hone ⊢
    exact hone

/-- The parameters of the crate's tests, with the tables of the default curve (the order is prime, `c69_orders`). -/
example [Fact Curve.bls381.order.Prime] : ∃ p, Curve.bls381.params (width := 3) (fullB := 4) (fullE := 4) (partialR := 55) = .ok p ∧ p.Valid ∧ p.width = 3 ∧
    (p.hades 3).mds = Matrix.of fun i j : Fin 3 => ((i + j + 3 : ℕ) : ZMod Curve.bls381.order)⁻¹ := by
  obtain ⟨p, hp⟩ := (c69_params .bls381 (by simp [Curve.all]) 3 4 4 55).mpr (.inl ⟨rfl, by decide, by intro h; exact absurd (congrArg Curve.modBytes h) (by decide)⟩)
  obtain ⟨h1, h2, -, -, h3⟩ := c90_tables .bls381 (by simp [Curve.all]) hp
  exact ⟨p, hp, h1, h2, h3 (by intro h; exact absurd (congrArg Curve.modBytes h) (by decide))⟩

/-- A computation by hand: with the parameters `demoParams` (keys 1 to 9) the state (0, 1, 2) is (1, 3, 5) after the first addition of constants. -/
example : ∀ i, (![0, 1, 2] : Fin 3 → Fr) i + (demoParams.hades 3).key 0 i = ![1, 3, 5] i := by decide +kernel
example : poseidonHash2 1 2 demoParams .quint = .ok ((demoParams.hades 3).hash (fun x => x ^ 5) ![1, 2]) := c90_hash_2 demoParams_valid rfl .quint 1 2
example : poseidonHash4 [1, 2, 3, 4] demoParams5 .cube = .ok ((demoParams5.hades 5).hash (fun x => x ^ 3) ![1, 2, 3, 4]) := c90_hash_4 demoParams5_valid rfl .cube ![1, 2, 3, 4]
example : mimcFeistel [1, 2] (3 : Z101) 4 = (7, 68) := by decide +kernel

end Bp
