import Verif.Spec.Ipp
import Verif.Lemmas.VecPoly
import Mathlib.Tactic.FieldSimp

set_option linter.unusedSectionVars false
set_option linter.unusedSimpArgs false

namespace Bp
variable {F G : Type} [Field F] [AddCommGroup G] [SMul F G]
open Finset

/-! ## Bilinearity -/

section WithModule
variable {F G : Type} [Field F] [AddCommGroup G] [Module F G]
theorem msm_map_mul (x : F) (a : List F) (g : List G) : msm (a.map (x * ·)) g = x • msm a g := by
  induction a generalizing g with
  | nil => simp
  | cons y a ih => cases g with
    | nil => simp
    | cons p g => simp only [List.map_cons, msm_cons, ih, smul_add, mul_smul]
end WithModule

section WithModule
variable {F G : Type} [Field F] [AddCommGroup G] [Module F G]
theorem msm_map_neg (a : List F) (g : List G) : msm (a.map (fun u => -u)) g = - msm a g := by
  induction a generalizing g with
  | nil => simp
  | cons y a ih => cases g with
    | nil => simp
    | cons p g => simp only [List.map_cons, msm_cons, ih, neg_smul, neg_add]
end WithModule

section WithModule
variable {F G : Type} [Field F] [AddCommGroup G] [Module F G]
theorem msm_foldScalars (x y : F) {a b : List F} {g : List G} (h : a.length = b.length) (hg : a.length = g.length) :
    msm (foldScalars x y a b) g = x • msm a g + y • msm b g := by
  induction a generalizing b g with
  | nil => cases b <;> simp [foldScalars] at h ⊢
  | cons p a ih =>
    rcases b with _ | ⟨q, b⟩
    · simp at h
    rcases g with _ | ⟨v, g⟩
    · simp at hg
    have := ih (b := b) (g := g) (by simpa using h) (by simpa using hg)
    simp only [foldScalars] at this
    simp only [foldScalars, List.zipWith_cons_cons, msm_cons, this]
    module
end WithModule

section WithModule
variable {F G : Type} [Field F] [AddCommGroup G] [Module F G]
theorem msm_foldPoints (x y : F) {a : List F} {g g' : List G} (h : a.length = g.length) (h' : a.length = g'.length) :
    msm a (foldPoints x y g g') = x • msm a g + y • msm a g' := by
  induction a generalizing g g' with
  | nil => simp [foldPoints]
  | cons p a ih =>
    rcases g with _ | ⟨v, g⟩
    · simp at h
    rcases g' with _ | ⟨w, g'⟩
    · simp at h'
    have := ih (g := g) (g' := g') (by simpa using h) (by simpa using h')
    simp only [foldPoints] at this
    simp only [foldPoints, List.zipWith_cons_cons, msm_cons, this]
    module
end WithModule

theorem dot_foldScalars_left (x y : F) {a b c : List F} (h : a.length = b.length) (hc : a.length = c.length) :
    dot (foldScalars x y a b) c = x * dot a c + y * dot b c := by
  induction a generalizing b c with
  | nil => cases b <;> simp [foldScalars] at h ⊢
  | cons p a ih =>
    rcases b with _ | ⟨q, b⟩
    · simp at h
    rcases c with _ | ⟨v, g⟩
    · simp at hc
    have := ih (b := b) (c := g) (by simpa using h) (by simpa using hc)
    simp only [foldScalars] at this
    simp only [foldScalars, List.zipWith_cons_cons, dot_cons, this]
    ring

theorem dot_comm (a b : List F) : dot a b = dot b a := by
  induction a generalizing b with
  | nil => simp
  | cons x a ih => cases b with
    | nil => simp
    | cons y b => simp only [dot_cons, ih b]; ring

@[simp] theorem length_foldScalars (x y : F) (a b : List F) : (foldScalars x y a b).length = min a.length b.length := by simp [foldScalars]
@[simp] theorem length_foldPoints (x y : F) (a b : List G) : (foldPoints x y a b).length = min a.length b.length := by simp [foldPoints]
@[simp] theorem length_scaled (f : List F) (a : List G) : (scaled f a).length = min f.length a.length := by simp [scaled]

section WithModule
variable {F G : Type} [Field F] [AddCommGroup G] [Module F G]
/-- One round. -/
theorem ipp_round (Q : G) {m : ℕ} {aL aR bL bR : List F} {GL GR HL HR : List G} (u : F) (hu : u ≠ 0)
    (h1 : aL.length = m) (h2 : aR.length = m) (h3 : bL.length = m) (h4 : bR.length = m)
    (h5 : GL.length = m) (h6 : GR.length = m) (h7 : HL.length = m) (h8 : HR.length = m) :
    ippCommit Q (foldPoints u⁻¹ u GL GR) (foldPoints u u⁻¹ HL HR) (foldScalars u u⁻¹ aL aR) (foldScalars u⁻¹ u bL bR) =
      ippCommit Q (GL ++ GR) (HL ++ HR) (aL ++ aR) (bL ++ bR) +
      (u * u) • ippCommit Q GR HL aL bR + (u⁻¹ * u⁻¹) • ippCommit Q GL HR aR bL := by
  have huu : u * u⁻¹ = 1 := mul_inv_cancel₀ hu
  unfold ippCommit
  rw [msm_foldPoints _ _ (by simp [*]) (by simp [*]), msm_foldPoints _ _ (by simp [*]) (by simp [*]),
    msm_foldScalars _ _ (by simp [*]) (by simp [*]), msm_foldScalars _ _ (by simp [*]) (by simp [*]),
    msm_foldScalars _ _ (by simp [*]) (by simp [*]), msm_foldScalars _ _ (by simp [*]) (by simp [*]),
    dot_foldScalars_left _ _ (by simp [*]) (by simp [*]), dot_comm aL (foldScalars _ _ _ _), dot_comm aR (foldScalars _ _ _ _),
    dot_foldScalars_left _ _ (by simp [*]) (by simp [*]), dot_foldScalars_left _ _ (by simp [*]) (by simp [*]),
    msm_append (by omega), msm_append (by omega), dot_append (by omega),
    dot_comm bL aL, dot_comm bR aL, dot_comm bL aR, dot_comm bR aR]
  linear_combination (norm := module) huu • (msm aL GL + msm aR GR + msm bL HL + msm bR HR + (dot aL bL + dot aR bR) • Q)
end WithModule

/-! ## The `s` vector -/

/-- Recursive form of the coefficients. -/
def sVec : List F → List F
  | [] => [1]
  | u :: us => (sVec us).map (u⁻¹ * ·) ++ (sVec us).map (u * ·)

@[simp] theorem length_sVec (us : List F) : (sVec us).length = 2 ^ us.length := by
  induction us with
  | nil => rfl
  | cons u us ih => simp [sVec, ih, pow_succ]; ring

theorem foldCoeff_cons_lo (u : F) (us : List F) {i : ℕ} (hi : i < 2 ^ us.length) : foldCoeff (u :: us) i = u⁻¹ * foldCoeff us i := by
  unfold foldCoeff
  rw [List.length_cons, prod_range_succ', mul_comm]
  congr 1
  · simp [Nat.testBit_lt_two_pow hi]
  · apply prod_congr rfl
    intro j _
    simp only [List.getD_cons_succ, show us.length + 1 - 1 - (j + 1) = us.length - 1 - j by omega]

theorem foldCoeff_cons_hi (u : F) (us : List F) {i : ℕ} (hi : i < 2 ^ us.length) :
    foldCoeff (u :: us) (2 ^ us.length + i) = u * foldCoeff us i := by
  unfold foldCoeff
  rw [List.length_cons, prod_range_succ', mul_comm]
  congr 1
  · simp [Nat.testBit_two_pow_add_eq, Nat.testBit_lt_two_pow hi]
  · apply prod_congr rfl
    intro j hj
    have := mem_range.mp hj
    simp only [List.getD_cons_succ, show us.length + 1 - 1 - (j + 1) = us.length - 1 - j by omega]
    rw [Nat.testBit_two_pow_add_gt (by omega)]

theorem sVec_getD (us : List F) : ∀ {i : ℕ}, i < 2 ^ us.length → (sVec us).getD i 0 = foldCoeff us i := by
  induction us with
  | nil => intro i hi; simp at hi; subst hi; simp [sVec, foldCoeff]
  | cons u us ih =>
    intro i hi
    simp only [List.length_cons, pow_succ] at hi
    rw [sVec, getD_append]
    simp only [List.length_map, length_sVec]
    have key : ∀ (x : F) j, j < 2 ^ us.length → ((sVec us).map (x * ·)).getD j 0 = x * foldCoeff us j := by
      intro x j hj
      rw [← ih hj]
      simp [List.getD_eq_getElem?_getD, List.getElem?_eq_getElem (show j < (sVec us).length by simpa using hj)]
    split
    · rename_i h; rw [key _ _ h, foldCoeff_cons_lo _ _ h]
    · rename_i h
      obtain ⟨j, rfl⟩ := Nat.exists_eq_add_of_le (not_lt.mp h)
      rw [Nat.add_sub_cancel_left, key _ _ (by omega), foldCoeff_cons_hi _ _ (by omega)]

theorem sVec_eq (us : List F) : sVec us = (List.range (2 ^ us.length)).map (foldCoeff us) := by
  refine ext_getD 0 (by simp) (by simp) (n := 2 ^ us.length) fun i hi => ?_
  rw [sVec_getD us hi, getD_map_range, if_pos hi]

/-- Complementing the bits inverts the coefficient. -/
theorem foldCoeff_compl (us : List F) {i : ℕ} (hi : i < 2 ^ us.length) :
    foldCoeff us (2 ^ us.length - 1 - i) = (foldCoeff us i)⁻¹ := by
  unfold foldCoeff
  rw [← prod_inv_distrib]
  apply prod_congr rfl
  intro j hj
  have hj := mem_range.mp hj
  rw [show 2 ^ us.length - 1 - i = 2 ^ us.length - (i + 1) by omega, Nat.testBit_two_pow_sub_succ hi]
  have : us.length - 1 - j < us.length := by omega
  cases h : i.testBit (us.length - 1 - j) <;> simp [this]

theorem foldCoeff_inv (us : List F) (i : ℕ) : foldCoeff (us.map (·⁻¹)) i = (foldCoeff us i)⁻¹ := by
  unfold foldCoeff
  rw [← prod_inv_distrib, List.length_map]
  apply prod_congr rfl
  intro j hj
  have hj := mem_range.mp hj
  have : (us.map (·⁻¹)).getD j 0 = (us.getD j 0)⁻¹ := by
    simp [List.getD_eq_getElem?_getD, List.getElem?_eq_getElem hj]
  rw [this]
  split <;> simp

theorem getD_reverse {α} (xs : List α) {i : ℕ} (d : α) (h : i < xs.length) : xs.reverse.getD i d = xs.getD (xs.length - 1 - i) d := by
  simp [List.getD_eq_getElem?_getD, List.getElem?_reverse h]

theorem sVec_reverse (us : List F) : (sVec us).reverse = sVec (us.map (·⁻¹)) := by
  refine ext_getD 0 (by simp) (by simp) (n := 2 ^ us.length) fun i hi => ?_
  rw [getD_reverse _ _ (by simpa using hi), length_sVec, sVec_getD _ (by omega), sVec_getD _ (by simpa using hi), foldCoeff_inv,
    foldCoeff_compl us hi]

theorem foldCoeff_zero (us : List F) : foldCoeff us 0 = us.prod⁻¹ := by
  induction us with
  | nil => simp [foldCoeff]
  | cons u us ih => rw [foldCoeff_cons_lo _ _ (Nat.two_pow_pos _), ih, List.prod_cons, mul_inv]

/-- The recurrence used by the code. -/
theorem foldCoeff_step (us : List F) (h0 : ∀ u ∈ us, u ≠ 0) {i : ℕ} (hi0 : 0 < i) (hi : i < 2 ^ us.length) :
    foldCoeff us i = foldCoeff us (i - 2 ^ Nat.log 2 i) * (us.getD (us.length - 1 - Nat.log 2 i) 0 * us.getD (us.length - 1 - Nat.log 2 i) 0) := by
  obtain ⟨l, hl⟩ : ∃ l, l = Nat.log 2 i := ⟨_, rfl⟩
  rw [← hl]
  have hle : 2 ^ l ≤ i := by rw [hl]; exact Nat.pow_log_le_self 2 (by omega)
  have hlt : i < 2 ^ (l + 1) := by rw [hl]; exact Nat.lt_pow_succ_log_self (by omega) i
  have hlk : l < us.length := by
    rw [← Nat.pow_lt_pow_iff_right (a := 2) (by omega)]; omega
  have hmod : i - 2 ^ l = i % 2 ^ l := by
    rw [pow_succ] at hlt
    rw [Nat.mod_eq_sub_mod hle, Nat.mod_eq_of_lt (by omega)]
  have hbit : i.testBit l = true := by
    obtain ⟨j, rfl⟩ := Nat.exists_eq_add_of_le hle
    rw [pow_succ] at hlt
    rw [Nat.testBit_two_pow_add_eq, Nat.testBit_lt_two_pow (by omega)]; rfl
  unfold foldCoeff
  rw [← mul_prod_erase _ _ (show us.length - 1 - l ∈ range us.length from mem_range.mpr (by omega)),
    ← mul_prod_erase _ (fun j => if (i - 2 ^ l).testBit (us.length - 1 - j) then us.getD j 0 else (us.getD j 0)⁻¹) (show us.length - 1 - l ∈ range us.length from mem_range.mpr (by omega))]
  have e1 : us.length - 1 - (us.length - 1 - l) = l := by omega
  have hne : us.getD (us.length - 1 - l) 0 ≠ 0 := by
    have : us.length - 1 - l < us.length := by omega
    rw [List.getD_eq_getElem?_getD, List.getElem?_eq_getElem this]
    exact h0 _ (List.getElem_mem _)
  have hrest : ∀ j ∈ (range us.length).erase (us.length - 1 - l),
      (if i.testBit (us.length - 1 - j) then us.getD j 0 else (us.getD j 0)⁻¹) =
      (if (i - 2 ^ l).testBit (us.length - 1 - j) then us.getD j 0 else (us.getD j 0)⁻¹) := by
    intro j hj
    have hj1 := ne_of_mem_erase hj
    have hj2 := mem_range.mp (mem_of_mem_erase hj)
    have : (i - 2 ^ l).testBit (us.length - 1 - j) = i.testBit (us.length - 1 - j) := by
      rw [hmod, Nat.testBit_mod_two_pow]
      by_cases hc : us.length - 1 - j < l
      · simp [hc]
      · have : i < 2 ^ (us.length - 1 - j) := lt_of_lt_of_le hlt (Nat.pow_le_pow_right (by omega) (by omega))
        simp [hc, Nat.testBit_lt_two_pow this]
    rw [this]
  rw [prod_congr rfl hrest]
  simp only [e1, hbit, hmod, Nat.testBit_mod_two_pow, if_true, lt_irrefl, decide_false, Bool.false_and, Bool.false_eq_true, if_false]
  field_simp

theorem sLoop_ok (us : List F) (h0 : ∀ u ∈ us, u ≠ 0) :
    sLoop us.length (us.map (fun u => u * u)) us.prod⁻¹ (2 ^ us.length) = .ok (sVec us) := by
  rw [sVec_eq]
  unfold sLoop
  have : ∀ m, m + 1 ≤ 2 ^ us.length → (List.range' 1 m).foldlM (fun s i => do
    let lgI := Nat.log 2 i
    let k := 2 ^ lgI
    let u ← idx (us.map (fun u => u * u)) ((us.length - 1) - lgI)
    let si ← idx s (i - k)
    return s ++ [si * u]) [us.prod⁻¹] = (.ok ((List.range (m + 1)).map (foldCoeff us)) : Res (List F)) := by
    intro m
    induction m with
    | zero => intro _; simp [foldCoeff_zero, pure, Except.pure]
    | succ m ih =>
      intro hm
      rw [List.range'_1_concat, List.foldlM_append, ih (by omega)]
      simp only [List.foldlM_cons, List.foldlM_nil, bind, Except.bind, pure, Except.pure]
      have hlk : Nat.log 2 (1 + m) < us.length := by
        rw [← Nat.pow_lt_pow_iff_right (a := 2) (by omega)]
        exact lt_of_le_of_lt (Nat.pow_log_le_self 2 (by omega)) (by omega)
      have hpos : 0 < 2 ^ Nat.log 2 (1 + m) := Nat.two_pow_pos _
      rw [idx_lt 0 (by simp; omega), idx_lt 0 (by simp; omega)]
      rw [List.range_succ (n := m + 1), List.map_append, getD_map_range, if_pos (by omega)]
      congr 3
      have := foldCoeff_step us h0 (i := m + 1) (by omega) (by omega)
      simp only [List.map_cons, List.map_nil]
      rw [this, add_comm 1 m]
      congr 1
      have hx : us.length - 1 - Nat.log 2 (m + 1) < us.length := by omega
      simp [List.getD_eq_getElem?_getD, List.getElem?_eq_getElem hx]
  have h1 := this (2 ^ us.length - 1) (by have : 0 < 2 ^ us.length := Nat.two_pow_pos _
                                          omega)
  rw [Nat.sub_add_cancel (by have : 0 < 2 ^ us.length := Nat.two_pow_pos _
                             omega)] at h1
  exact h1

theorem ippScalars_ok (env : Env F G) (us : List F) (h0 : ∀ u ∈ us, u ≠ 0) (hb : us ≠ [] ∨ env.batchInvert [] = .ok ([], 1)) :
    ippScalars env us.length us (2 ^ us.length) = .ok (us.map (fun u => u * u), us.map (fun u => u⁻¹ * u⁻¹), sVec us) := by
  have hbi : env.batchInvert us = .ok (us.map (fun x => x⁻¹), us.prod⁻¹) := by
    by_cases h : us = []
    · subst h; simpa using hb
    · exact env.batchInvert_spec us h h0
  unfold ippScalars
  rw [hbi]
  simp only [bind, Except.bind]
  rw [mapM_range_ok _ (fun i => (us.getD i 0)⁻¹ * (us.getD i 0)⁻¹)]
  · simp only [sLoop_ok us h0, pure, Except.pure]
    congr 3
    refine ext_getD 0 (by simp) (by simp) (n := us.length) fun i hi => ?_
    rw [getD_map_range, if_pos hi]
    simp [List.getD_eq_getElem?_getD, List.getElem?_eq_getElem hi]
  · intro i hi
    rw [idx_lt 0 (by simpa using hi)]
    have : (us.map (fun x => x⁻¹)).getD i 0 = (us.getD i 0)⁻¹ := by
      simp [List.getD_eq_getElem?_getD, List.getElem?_eq_getElem hi]
    simp only [this, pure, Except.pure]

theorem length_ippChallenges (O : Oracle F G) (ps : List (G × G)) : ∀ t : Transcript F G, (ippChallenges O t ps).1.length = ps.length := by
  induction ps with
  | nil => intro t; rfl
  | cons p ps ih => intro t; simp [ippChallenges, ih]

/-! ## Folding the generators -/

section WithModule
variable {F G : Type} [Field F] [AddCommGroup G] [Module F G]
theorem msm_sVec_cons (u : F) (us : List F) (Gs : List G) (h : Gs.length = 2 ^ (us.length + 1)) :
    msm (sVec (u :: us)) Gs = msm (sVec us) (foldPoints u⁻¹ u (Gs.take (2 ^ us.length)) (Gs.drop (2 ^ us.length))) := by
  rw [pow_succ] at h
  have hl : (Gs.take (2 ^ us.length)).length = 2 ^ us.length := by simp; omega
  have hr : (Gs.drop (2 ^ us.length)).length = 2 ^ us.length := by simp; omega
  conv_lhs => rw [← List.take_append_drop (2 ^ us.length) Gs]
  rw [sVec, msm_append (by rw [hl]; simp), msm_map_mul, msm_map_mul, msm_foldPoints _ _ (by rw [hl]; simp) (by rw [hr]; simp)]
end WithModule

section WithModule
variable {F G : Type} [Field F] [AddCommGroup G] [Module F G]
theorem msm_sVec (us : List F) : ∀ (Gs : List G), Gs.length = 2 ^ us.length → msm (sVec us) Gs = foldAll us Gs := by
  induction us with
  | nil =>
    intro Gs h
    match Gs, h with
    | [g], _ => simp [sVec, foldAll]
  | cons u us ih =>
    intro Gs h
    simp only [List.length_cons] at h
    rw [msm_sVec_cons u us Gs h, foldAll, ih]
    rw [pow_succ] at h
    simp; omega
end WithModule

/-! ## Completeness -/

/-- The right-hand side of the verifier's equation. -/
def ippExpected (Q : G) (us : List F) (Gs Hs L R : List G) (a b : F) : G :=
  (a * b) • Q + a • msm (sVec us) Gs + b • msm (sVec us).reverse Hs
    - msm (us.map (fun u => u * u)) L - msm (us.map (fun u => u⁻¹ * u⁻¹)) R

theorem take_drop_len {α} {xs : List α} {k : ℕ} (h : xs.length = 2 ^ (k + 1)) :
    (xs.take (2 ^ (k + 1) / 2)).length = 2 ^ k ∧ (xs.drop (2 ^ (k + 1) / 2)).length = 2 ^ k ∧ 2 ^ (k + 1) / 2 = 2 ^ k := by
  have : 2 ^ (k + 1) / 2 = 2 ^ k := by rw [pow_succ]; omega
  refine ⟨?_, ?_, this⟩ <;> simp [h, this] <;> rw [pow_succ] <;> omega

theorem ippCommit_single (Q : G) (Gs Hs : List G) (a b : List F) (h : a.length = Gs.length) (h' : b.length = Hs.length) :
    msm (a ++ b ++ [dot a b]) (Gs ++ Hs ++ [Q]) = ippCommit Q Gs Hs a b := by
  rw [msm_append (by simp [h, h']), msm_append h]
  simp [ippCommit]

section WithModule
variable {F G : Type} [Field F] [AddCommGroup G] [Module F G]
theorem ippExpected_cons (Q : G) (u : F) (us : List F) (Gs Hs L R : List G) (L0 R0 : G) (a b : F)
    (hG : Gs.length = 2 ^ (us.length + 1)) (hH : Hs.length = 2 ^ (us.length + 1)) :
    ippExpected Q (u :: us) Gs Hs (L0 :: L) (R0 :: R) a b =
      ippExpected Q us (foldPoints u⁻¹ u (Gs.take (2 ^ us.length)) (Gs.drop (2 ^ us.length)))
        (foldPoints u u⁻¹ (Hs.take (2 ^ us.length)) (Hs.drop (2 ^ us.length))) L R a b
      - (u * u) • L0 - (u⁻¹ * u⁻¹) • R0 := by
  unfold ippExpected
  rw [msm_sVec_cons _ _ _ hG, sVec_reverse, sVec_reverse, List.map_cons, msm_sVec_cons _ _ _ (by simpa using hH)]
  simp only [List.map_cons, msm_cons, inv_inv, List.length_map]
  abel
end WithModule

section WithModule
variable {F G : Type} [Field F] [AddCommGroup G] [Module F G]
theorem ippLoop_complete (O : Oracle F G) (Q : G) (k : ℕ) : ∀ (t : Transcript F G) (Gs Hs : List G) (a b : List F) (Ls Rs : List G),
    Gs.length = 2 ^ k → Hs.length = 2 ^ k → a.length = 2 ^ k → b.length = 2 ^ k →
    ∃ L R a' b', L.length = k ∧ R.length = k ∧
      ippLoop O Q (2 ^ k) t Gs Hs a b Ls Rs = .ok (⟨Ls ++ L, Rs ++ R, a', b'⟩, (ippChallenges O t (L.zip R)).2) ∧
      ((∀ u ∈ (ippChallenges O t (L.zip R)).1, u ≠ 0) →
        ippExpected Q (ippChallenges O t (L.zip R)).1 Gs Hs L R a' b' = ippCommit Q Gs Hs a b) := by
  induction k with
  | zero =>
    intro t Gs Hs a b Ls Rs h1 h2 h3 h4
    obtain ⟨g, rfl⟩ := List.length_eq_one_iff.mp h1
    obtain ⟨h, rfl⟩ := List.length_eq_one_iff.mp h2
    obtain ⟨x, rfl⟩ := List.length_eq_one_iff.mp h3
    obtain ⟨y, rfl⟩ := List.length_eq_one_iff.mp h4
    refine ⟨[], [], x, y, rfl, rfl, ?_, ?_⟩
    · rw [ippLoop]; simp [idx, bind, Except.bind, pure, Except.pure, ippChallenges]
    · intro _; simp [ippChallenges, ippExpected, ippCommit, sVec]; abel
  | succ k ih =>
    intro t Gs Hs a b Ls Rs h1 h2 h3 h4
    have hn : ¬ 2 ^ (k + 1) ≤ 1 := by rw [pow_succ]; have : 0 < 2 ^ k := Nat.two_pow_pos _
                                      omega
    obtain ⟨g1, g2, hk⟩ := take_drop_len h1
    obtain ⟨p1, p2, -⟩ := take_drop_len h2
    obtain ⟨a1, a2, -⟩ := take_drop_len h3
    obtain ⟨b1, b2, -⟩ := take_drop_len h4
    rw [hk] at g1 g2 p1 p2 a1 a2 b1 b2
    rw [ippLoop, if_neg hn, hk]
    simp only
    rw [innerProduct_ok (by omega), innerProduct_ok (by omega)]
    simp only [bind, Except.bind]
    rw [multiScalarMul_ok (by simp only [List.length_append, List.length_singleton]; omega),
      multiScalarMul_ok (by simp only [List.length_append, List.length_singleton]; omega)]
    simp only
    rw [ippCommit_single Q _ _ _ _ (by omega) (by omega), ippCommit_single Q _ _ _ _ (by omega) (by omega)]
    obtain ⟨L0, hL0⟩ : ∃ x, x = ippCommit Q (Gs.drop (2 ^ k)) (Hs.take (2 ^ k)) (a.take (2 ^ k)) (b.drop (2 ^ k)) := ⟨_, rfl⟩
    obtain ⟨R0, hR0⟩ : ∃ x, x = ippCommit Q (Gs.take (2 ^ k)) (Hs.drop (2 ^ k)) (a.drop (2 ^ k)) (b.take (2 ^ k)) := ⟨_, rfl⟩
    rw [← hL0, ← hR0]
    simp only [Transcript.challengeScalar]
    obtain ⟨t', ht'⟩ : ∃ t', t' = ((t.commitPoint "L" L0).commitPoint "R" R0) ++ [TEvent.challenge "u"] := ⟨_, rfl⟩
    rw [← ht']
    obtain ⟨u, hu⟩ : ∃ u, u = O t' := ⟨_, rfl⟩
    rw [← hu]
    obtain ⟨L, R, a', b', hL, hR, hrun, hexp⟩ := ih t' (foldPoints u⁻¹ u (Gs.take (2 ^ k)) (Gs.drop (2 ^ k)))
      (foldPoints u u⁻¹ (Hs.take (2 ^ k)) (Hs.drop (2 ^ k))) (foldScalars u u⁻¹ (a.take (2 ^ k)) (a.drop (2 ^ k)))
      (foldScalars u⁻¹ u (b.take (2 ^ k)) (b.drop (2 ^ k))) (Ls ++ [L0]) (Rs ++ [R0])
      (by simp only [length_foldPoints, g1, g2, min_self]) (by simp only [length_foldPoints, p1, p2, min_self])
      (by simp only [length_foldScalars, a1, a2, min_self]) (by simp only [length_foldScalars, b1, b2, min_self])
    have hch : ippChallenges O t ((L0 :: L).zip (R0 :: R)) = (u :: (ippChallenges O t' (L.zip R)).1, (ippChallenges O t' (L.zip R)).2) := by
      simp only [List.zip_cons_cons, ippChallenges, Transcript.challengeScalar, ← ht', ← hu]
    refine ⟨L0 :: L, R0 :: R, a', b', by simp [hL], by simp [hR], ?_, ?_⟩
    · rw [hrun, hch]; simp
    · rw [hch]
      intro hall
      have hu0 : u ≠ 0 := hall u (by simp)
      have hlen : (ippChallenges O t' (L.zip R)).1.length = k := by rw [length_ippChallenges]; simp [hL, hR]
      rw [ippExpected_cons _ _ _ _ _ _ _ _ _ _ _ (by rw [hlen, h1]) (by rw [hlen, h2]), hlen,
        hexp (fun v hv => hall v (by simp [hv])), ipp_round Q u hu0 a1 a2 b1 b2 g1 g2 p1 p2]
      simp only [List.take_append_drop]
      rw [← hL0, ← hR0]; abel
end WithModule

end Bp
