import Verif.Spec.Mimc
import Verif.Props.Gadgets.Mimc
import Mathlib.Algebra.Polynomial.Roots
import Mathlib.Algebra.Polynomial.Monic

/-! # C85: MiMC as it is used here is not one-way -/

namespace Bp
variable {F G : Type} [Field F] [AddCommGroup G] [Module F G]
open Polynomial

/-- Forwards after backwards. -/
theorem mimc_back (constants : List F) (image last : F) :
    mimcLoop (mimcBack constants image last).1 (mimcBack constants image last).2 constants = image ∧ mimcLast (mimcBack constants image last).1 (mimcBack constants image last).2 constants = last := by
  induction constants with
  | nil => exact ⟨rfl, rfl⟩
  | cons c cs ih =>
    have e : mimcBack (c :: cs) image last = ((mimcBack cs image last).2, (mimcBack cs image last).1 - ((mimcBack cs image last).2 + c) ^ 3) := rfl
    rw [e]
    simp only [mimcLoop, mimcLast]
    rw [show ((mimcBack cs image last).2 + c) ^ 2 * ((mimcBack cs image last).2 + c) + ((mimcBack cs image last).1 - ((mimcBack cs image last).2 + c) ^ 3) = (mimcBack cs image last).1 by ring,
      show ((mimcBack cs image last).2 + c) ^ 3 + ((mimcBack cs image last).1 - ((mimcBack cs image last).2 + c) ^ 3) = (mimcBack cs image last).1 by ring]
    exact ih

/-- Backwards after forwards. -/
theorem mimc_forth (constants : List F) (x y : F) : mimcBack constants (mimcLoop x y constants) (mimcLast x y constants) = (x, y) := by
  induction constants generalizing x y with
  | nil => rfl
  | cons c cs ih =>
    have e : mimcBack (c :: cs) (mimcLoop x y (c :: cs)) (mimcLast x y (c :: cs)) = mimcStepBack c (mimcBack cs (mimcLoop x y (c :: cs)) (mimcLast x y (c :: cs))) := rfl
    rw [e]
    simp only [mimcLoop, mimcLast]
    rw [show (x + c) ^ 2 * (x + c) + y = (x + c) ^ 3 + y by ring, ih]
    simp [mimcStepBack]

/-- **C85**, the negation: from any image, with as many constants as rounds, preimages are computed by one backward run of the rounds, one for each value of the other half. -/
theorem c85_invert (constants : List F) (image last : F) : mimc (mimcBack constants image last).1 (mimcBack constants image last).2 constants constants.length = .ok image := by
  unfold mimc
  rw [if_neg (by simp), (mimc_back constants image last).1]

/-- **C85**: these are all preimages, each once. -/
theorem c85_all (constants : List F) (image x y : F) : mimc x y constants constants.length = .ok image ↔ ∃! last, mimcBack constants image last = (x, y) := by
  constructor
  · intro h
    have h : mimcLoop x y constants = image := by
      unfold mimc at h
      rw [if_neg (by simp)] at h
      exact Except.ok.inj h
    refine ⟨mimcLast x y constants, by simp only [← h]; exact mimc_forth constants x y, fun l hl => ?_⟩
    have := (mimc_back constants image l).2
    rw [hl] at this
    exact this.symm
  · rintro ⟨l, hl, -⟩
    have := c85_invert constants image l
    rw [hl] at this
    exact this

/-- **C85**: to any input there are others with the same image: as many as the field has elements. -/
theorem c85_collisions (constants : List F) (x y : F) (last : F) (hne : last ≠ mimcLast x y constants) :
    mimcBack constants (mimcLoop x y constants) last ≠ (x, y) ∧
      mimc (mimcBack constants (mimcLoop x y constants) last).1 (mimcBack constants (mimcLoop x y constants) last).2 constants constants.length = mimc x y constants constants.length := by
  refine ⟨fun h => hne ?_, by rw [c85_invert, mimc, if_neg (by simp)]⟩
  have := (mimc_back constants (mimcLoop x y constants) last).2
  rw [h] at this
  exact this.symm

/-- **C85**, for the proofs: whoever knows nothing but the image, gets a proof of "knowledge" of its preimage accepted, with the crate's own prover. -/
theorem c85_anyone [DecidableEq G] (env env' : Env F G) (hO : env.oracle = env'.oracle) (h0 : ∀ l, env.oracle l ≠ 0) (image last : F) (constants : List F)
    (hsz : nextPowerOfTwo (2 * constants.length) < 2 ^ 32) (hb : 1 < 2 * constants.length ∨ env'.batchInvert [] = .ok ([], 1)) (r1 r2 : F) :
    EndToEnd env env' (2 * constants.length) [((mimcBack constants image last).1, r1), ((mimcBack constants image last).2, r2)]
      (proveMimcPreimage env [(mimcBack constants image last).1, (mimcBack constants image last).2] (some [r1, r2]) image constants constants.length none) (verifyMimcPreimage env' image constants constants.length) :=
  c32_end_to_end env env' hO h0 _ _ image constants constants.length (c85_invert constants image last) hsz hb r1 r2 _ _ (.inl rfl)

/-- The image as a polynomial in the first input. -/
noncomputable def mimcPoly : F[X] → F[X] → List F → F[X]
  | xl, _, [] => xl
  | xl, xr, c :: cs => mimcPoly ((xl + C c) ^ 2 * (xl + C c) + xr) xl cs

theorem mimcPoly_eval (x : F) (constants : List F) (p q : F[X]) : (mimcPoly p q constants).eval x = mimcLoop (p.eval x) (q.eval x) constants := by
  induction constants generalizing p q with
  | nil => rfl
  | cons c cs ih => simp only [mimcPoly, mimcLoop]; rw [ih]; simp

theorem mimcPoly_monic (constants : List F) (p q : F[X]) (hp : p.Monic) (h1 : 0 < p.natDegree) (hq : q.degree < p.degree) :
    (mimcPoly p q constants).Monic ∧ (mimcPoly p q constants).natDegree = p.natDegree * 3 ^ constants.length := by
  induction constants generalizing p q with
  | nil => exact ⟨hp, by simp [mimcPoly]⟩
  | cons c cs ih =>
    have hp0 : p ≠ 0 := hp.ne_zero
    have hd : (0 : WithBot ℕ) < p.degree := natDegree_pos_iff_degree_pos.mp h1
    have hc : (C c).degree < p.degree := lt_of_le_of_lt degree_C_le hd
    have hr : (p + C c).Monic := hp.add_of_left hc
    have hrd : (p + C c).natDegree = p.natDegree := natDegree_add_eq_left_of_degree_lt hc
    have hm : ((p + C c) ^ 2 * (p + C c)).Monic := (hr.pow 2).mul hr
    have hmd : ((p + C c) ^ 2 * (p + C c)).natDegree = 3 * p.natDegree := by
      rw [(hr.pow 2).natDegree_mul hr, hr.natDegree_pow, hrd]; ring
    have hlt : p.degree < ((p + C c) ^ 2 * (p + C c)).degree := by
      rw [degree_eq_natDegree hp0, degree_eq_natDegree hm.ne_zero, hmd]
      exact_mod_cast (by omega : p.natDegree < 3 * p.natDegree)
    have hq' := lt_trans hq hlt
    have hs : ((p + C c) ^ 2 * (p + C c) + q).Monic := hm.add_of_left hq'
    have hsd : ((p + C c) ^ 2 * (p + C c) + q).natDegree = 3 * p.natDegree := by rw [natDegree_add_eq_left_of_degree_lt hq', hmd]
    obtain ⟨a, b⟩ := ih ((p + C c) ^ 2 * (p + C c) + q) p hs (by omega) (by
      rw [degree_eq_natDegree hp0, degree_eq_natDegree hs.ne_zero, hsd]
      exact_mod_cast (by omega : p.natDegree < 3 * p.natDegree))
    refine ⟨a, ?_⟩
    simp only [mimcPoly]
    rw [b, hsd, List.length_cons, pow_succ]
    ring

/-- **C85**, what is left of it: when the second input is prescribed (as in a sponge, where it is fixed), an image has at most `3 ^ rounds` preimages; most of the preimages computed backwards do not have the prescribed second input. -/
theorem c85_prescribed_partial (constants : List F) (y image : F) : Set.ncard {x : F | mimc x y constants constants.length = .ok image} ≤ 3 ^ constants.length := by
  classical
  have hX : (X : F[X]).natDegree = 1 := natDegree_X
  obtain ⟨a, b⟩ := mimcPoly_monic constants (X : F[X]) (C y) monic_X (by rw [hX]; exact one_pos) (by rw [degree_X]; exact lt_of_le_of_lt degree_C_le (by norm_num))
  rw [hX, one_mul] at b
  have hpos : (0 : WithBot ℕ) < (mimcPoly X (C y) constants).degree := natDegree_pos_iff_degree_pos.mp (by rw [b]; positivity)
  have hlt : (C image).degree < (mimcPoly X (C y) constants).degree := lt_of_le_of_lt degree_C_le hpos
  have hne : mimcPoly X (C y) constants - C image ≠ 0 := fun h => by
    rw [sub_eq_zero] at h
    rw [h] at hlt
    exact lt_irrefl _ hlt
  have hdeg : (mimcPoly X (C y) constants - C image).natDegree ≤ 3 ^ constants.length := by
    refine le_trans (natDegree_sub_le _ _) ?_
    rw [b, natDegree_C]
    exact max_le le_rfl (Nat.zero_le _)
  calc Set.ncard {x : F | mimc x y constants constants.length = .ok image}
      ≤ Set.ncard (((mimcPoly X (C y) constants - C image).roots.toFinset : Finset F) : Set F) := Set.ncard_le_ncard (fun x hx => by
          have hx : mimcLoop x y constants = image := by
            have hx : mimc x y constants constants.length = .ok image := hx
            unfold mimc at hx
            rw [if_neg (by simp)] at hx
            exact Except.ok.inj hx
          simp only [Finset.mem_coe, Multiset.mem_toFinset]
          rw [mem_roots hne, IsRoot, eval_sub, mimcPoly_eval, eval_X, eval_C, eval_C, hx, _root_.sub_self]) (Finset.finite_toSet _)
    _ = (mimcPoly X (C y) constants - C image).roots.toFinset.card := Set.ncard_coe_finset _
    _ ≤ Multiset.card (mimcPoly X (C y) constants - C image).roots := Multiset.toFinset_card_le _
    _ ≤ (mimcPoly X (C y) constants - C image).natDegree := card_roots' _
    _ ≤ 3 ^ constants.length := hdeg

/-! ## Cases -/

/-- The image of 1 and 2 under three rounds, inverted with the other half chosen as 0: another preimage. -/
example : mimcLoop (1 : Z101) 2 [5, 6, 7] = 54 := by decide +kernel
example : mimcBack [5, 6, 7] (54 : Z101) 0 ≠ (1, 2) ∧ mimc (mimcBack [5, 6, 7] (54 : Z101) 0).1 (mimcBack [5, 6, 7] (54 : Z101) 0).2 [5, 6, 7] 3 = .ok 54 := by decide +kernel

/-- Whoever knows only that the image is 54 over the field of the curve gets a proof accepted. -/
example : EndToEnd demoEnv demoEnv 6 [((mimcBack [5, 6, 7] (54 : Fr) 0).1, 3), ((mimcBack [5, 6, 7] (54 : Fr) 0).2, 4)]
    (proveMimcPreimage demoEnv [(mimcBack [5, 6, 7] (54 : Fr) 0).1, (mimcBack [5, 6, 7] (54 : Fr) 0).2] (some [3, 4]) 54 [5, 6, 7] 3 none) (verifyMimcPreimage demoEnv 54 [5, 6, 7] 3) :=
  c85_anyone demoEnv demoEnv rfl demoEnv_ne_zero 54 0 [5, 6, 7] (by decide +kernel) (.inl (by simp)) 3 4

end Bp
