import Verif.Spec.Soundness
import Verif.Lemmas.Verify
import Mathlib.Tactic.FieldSimp
import Mathlib.Tactic.LinearCombination
import Mathlib.Tactic.Module

/-! # Extraction for the inner-product argument -/

set_option linter.unusedSectionVars false

namespace Bp
variable {F G : Type} [Field F] [AddCommGroup G] [Module F G]
open Finset

section solve
variable {M : Type} [AddCommGroup M] [Module F M]

theorem solve_aux {c0 c1 c2 s0 s1 s2 : F} {L P R X0 X1 X2 : M} (x0 : X0 = s0 • L + P + s0⁻¹ • R) (x1 : X1 = s1 • L + P + s1⁻¹ • R) (x2 : X2 = s2 • L + P + s2⁻¹ • R) :
    c0 • X0 + c1 • X1 + c2 • X2 = (c0 * s0 + c1 * s1 + c2 * s2) • L + (c0 + c1 + c2) • P + (c0 * s0⁻¹ + c1 * s1⁻¹ + c2 * s2⁻¹) • R := by
  subst x0 x1 x2
  module

variable {s : Fin 3 → F} {X : Fin 3 → M} {L P R : M} (h0 : ∀ i, s i ≠ 0) (hd : ∀ i j, i ≠ j → s i ≠ s j) (hX : ∀ i, X i = s i • L + P + (s i)⁻¹ • R)
include h0 hd hX

theorem solveL_eq : solveL s X = L := by
  have a0 := h0 0; have a1 := h0 1; have a2 := h0 2
  have b01 := sub_ne_zero.mpr (hd 0 1 (by decide)); have b02 := sub_ne_zero.mpr (hd 0 2 (by decide)); have b12 := sub_ne_zero.mpr (hd 1 2 (by decide))
  have b10 := sub_ne_zero.mpr (hd 1 0 (by decide)); have b20 := sub_ne_zero.mpr (hd 2 0 (by decide)); have b21 := sub_ne_zero.mpr (hd 2 1 (by decide))
  rw [solveL, solve_aux (hX 0) (hX 1) (hX 2)]
  generalize s 0 = p at *; generalize s 1 = q at *; generalize s 2 = r at *
  rw [show p / ((p - q) * (p - r)) * p + q / ((q - p) * (q - r)) * q + r / ((r - p) * (r - q)) * r = 1 by
      rw [show q - p = -(p - q) by ring, show r - p = -(p - r) by ring, show r - q = -(q - r) by ring]; field_simp; ring,
    show p / ((p - q) * (p - r)) + q / ((q - p) * (q - r)) + r / ((r - p) * (r - q)) = 0 by
      rw [show q - p = -(p - q) by ring, show r - p = -(p - r) by ring, show r - q = -(q - r) by ring]; field_simp; ring,
    show p / ((p - q) * (p - r)) * p⁻¹ + q / ((q - p) * (q - r)) * q⁻¹ + r / ((r - p) * (r - q)) * r⁻¹ = 0 by
      rw [show q - p = -(p - q) by ring, show r - p = -(p - r) by ring, show r - q = -(q - r) by ring]; field_simp; ring]
  simp

theorem solveP_eq : solveP s X = P := by
  have a0 := h0 0; have a1 := h0 1; have a2 := h0 2
  have b01 := sub_ne_zero.mpr (hd 0 1 (by decide)); have b02 := sub_ne_zero.mpr (hd 0 2 (by decide)); have b12 := sub_ne_zero.mpr (hd 1 2 (by decide))
  rw [solveP, solve_aux (hX 0) (hX 1) (hX 2)]
  generalize s 0 = p at *; generalize s 1 = q at *; generalize s 2 = r at *
  rw [show -(q + r) * p / ((p - q) * (p - r)) * p + -(p + r) * q / ((q - p) * (q - r)) * q + -(p + q) * r / ((r - p) * (r - q)) * r = 0 by
      rw [show q - p = -(p - q) by ring, show r - p = -(p - r) by ring, show r - q = -(q - r) by ring]; field_simp; ring,
    show -(q + r) * p / ((p - q) * (p - r)) + -(p + r) * q / ((q - p) * (q - r)) + -(p + q) * r / ((r - p) * (r - q)) = 1 by
      rw [show q - p = -(p - q) by ring, show r - p = -(p - r) by ring, show r - q = -(q - r) by ring]; field_simp; ring,
    show -(q + r) * p / ((p - q) * (p - r)) * p⁻¹ + -(p + r) * q / ((q - p) * (q - r)) * q⁻¹ + -(p + q) * r / ((r - p) * (r - q)) * r⁻¹ = 0 by
      rw [show q - p = -(p - q) by ring, show r - p = -(p - r) by ring, show r - q = -(q - r) by ring]; field_simp; ring]
  simp

theorem solveR_eq : solveR s X = R := by
  have a0 := h0 0; have a1 := h0 1; have a2 := h0 2
  have b01 := sub_ne_zero.mpr (hd 0 1 (by decide)); have b02 := sub_ne_zero.mpr (hd 0 2 (by decide)); have b12 := sub_ne_zero.mpr (hd 1 2 (by decide))
  rw [solveR, solve_aux (hX 0) (hX 1) (hX 2)]
  generalize s 0 = p at *; generalize s 1 = q at *; generalize s 2 = r at *
  rw [show q * r * p / ((p - q) * (p - r)) * p + p * r * q / ((q - p) * (q - r)) * q + p * q * r / ((r - p) * (r - q)) * r = 0 by
      rw [show q - p = -(p - q) by ring, show r - p = -(p - r) by ring, show r - q = -(q - r) by ring]; field_simp; ring,
    show q * r * p / ((p - q) * (p - r)) + p * r * q / ((q - p) * (q - r)) + p * q * r / ((r - p) * (r - q)) = 0 by
      rw [show q - p = -(p - q) by ring, show r - p = -(p - r) by ring, show r - q = -(q - r) by ring]; field_simp; ring,
    show q * r * p / ((p - q) * (p - r)) * p⁻¹ + p * r * q / ((q - p) * (q - r)) * q⁻¹ + p * q * r / ((r - p) * (r - q)) * r⁻¹ = 1 by
      rw [show q - p = -(p - q) by ring, show r - p = -(p - r) by ring, show r - q = -(q - r) by ring]; field_simp; ring]
  simp

end solve

/-- A cubic in `s` with four different roots. -/
theorem cubic_zero {s : Fin 4 → F} (hd : ∀ i j, i ≠ j → s i ≠ s j) {a b c d : F} (h : ∀ i, a * s i ^ 3 + b * s i ^ 2 + c * s i + d = 0) : a = 0 ∧ b = 0 ∧ c = 0 ∧ d = 0 := by
  have b01 := sub_ne_zero.mpr (hd 0 1 (by decide)); have b02 := sub_ne_zero.mpr (hd 0 2 (by decide)); have b12 := sub_ne_zero.mpr (hd 1 2 (by decide))
  have b03 := sub_ne_zero.mpr (hd 0 3 (by decide)); have b13 := sub_ne_zero.mpr (hd 1 3 (by decide)); have b23 := sub_ne_zero.mpr (hd 2 3 (by decide))
  have e0 := h 0; have e1 := h 1; have e2 := h 2; have e3 := h 3
  generalize s 0 = p at *; generalize s 1 = q at *; generalize s 2 = r at *; generalize s 3 = t at *
  have f01 : a * (p ^ 2 + p * q + q ^ 2) + b * (p + q) + c = 0 := by
    have : (p - q) * (a * (p ^ 2 + p * q + q ^ 2) + b * (p + q) + c) = 0 := by linear_combination e0 - e1
    exact (mul_eq_zero.mp this).resolve_left b01
  have f02 : a * (p ^ 2 + p * r + r ^ 2) + b * (p + r) + c = 0 := by
    have : (p - r) * (a * (p ^ 2 + p * r + r ^ 2) + b * (p + r) + c) = 0 := by linear_combination e0 - e2
    exact (mul_eq_zero.mp this).resolve_left b02
  have f03 : a * (p ^ 2 + p * t + t ^ 2) + b * (p + t) + c = 0 := by
    have : (p - t) * (a * (p ^ 2 + p * t + t ^ 2) + b * (p + t) + c) = 0 := by linear_combination e0 - e3
    exact (mul_eq_zero.mp this).resolve_left b03
  have g12 : a * (p + q + r) + b = 0 := by
    have : (q - r) * (a * (p + q + r) + b) = 0 := by linear_combination f01 - f02
    exact (mul_eq_zero.mp this).resolve_left b12
  have g13 : a * (p + q + t) + b = 0 := by
    have : (q - t) * (a * (p + q + t) + b) = 0 := by linear_combination f01 - f03
    exact (mul_eq_zero.mp this).resolve_left b13
  have ha : a = 0 := by
    have : (r - t) * a = 0 := by linear_combination g12 - g13
    exact (mul_eq_zero.mp this).resolve_left b23
  subst ha
  have hb : b = 0 := by linear_combination g12
  subst hb
  have hc : c = 0 := by linear_combination f01
  subst hc
  exact ⟨rfl, rfl, rfl, by linear_combination e0⟩

/-! ## Values of combinations, with generators as functions -/

/-- `IppRep.value` with generator functions. -/
def repVal (n : ℕ) (Q : G) (g h : ℕ → G) (ρ : IppRep F) : G := ∑ i ∈ range n, ρ.1 i • g i + ∑ i ∈ range n, ρ.2.1 i • h i + ρ.2.2 • Q

theorem IppRep.value_eq (n : ℕ) (Q : G) (Gs Hs : List G) (ρ : IppRep F) : ρ.value n Q Gs Hs = repVal n Q (fun i => Gs.getD i 0) (fun i => Hs.getD i 0) ρ := rfl

theorem repVal_add (n : ℕ) (Q : G) (g h : ℕ → G) (ρ σ : IppRep F) : repVal n Q g h (ρ + σ) = repVal n Q g h ρ + repVal n Q g h σ := by
  simp only [repVal, Prod.fst_add, Prod.snd_add, Pi.add_apply, add_smul, Finset.sum_add_distrib]; abel

theorem repVal_smul (n : ℕ) (Q : G) (g h : ℕ → G) (c : F) (ρ : IppRep F) : repVal n Q g h (c • ρ) = c • repVal n Q g h ρ := by
  simp only [repVal, Prod.smul_fst, Prod.smul_snd, Pi.smul_apply, smul_assoc, smul_add, Finset.smul_sum]

theorem repVal_sub (n : ℕ) (Q : G) (g h : ℕ → G) (ρ σ : IppRep F) : repVal n Q g h (ρ - σ) = repVal n Q g h ρ - repVal n Q g h σ := by
  rw [show ρ - σ = ρ + (-1 : F) • σ by module, repVal_add, repVal_smul]; module

theorem repVal_solveL (n : ℕ) (Q : G) (g h : ℕ → G) (s : Fin 3 → F) (X : Fin 3 → IppRep F) : repVal n Q g h (solveL s X) = solveL s fun i => repVal n Q g h (X i) := by
  simp only [solveL, repVal_add, repVal_smul]
theorem repVal_solveP (n : ℕ) (Q : G) (g h : ℕ → G) (s : Fin 3 → F) (X : Fin 3 → IppRep F) : repVal n Q g h (solveP s X) = solveP s fun i => repVal n Q g h (X i) := by
  simp only [solveP, repVal_add, repVal_smul]
theorem repVal_solveR (n : ℕ) (Q : G) (g h : ℕ → G) (s : Fin 3 → F) (X : Fin 3 → IppRep F) : repVal n Q g h (solveR s X) = solveR s fun i => repVal n Q g h (X i) := by
  simp only [solveR, repVal_add, repVal_smul]

/-- The generators of the next round. -/
def foldG (m : ℕ) (u : F) (g : ℕ → G) (i : ℕ) : G := u⁻¹ • g i + u • g (m + i)

theorem sum_two_halves {M : Type} [AddCommMonoid M] (m : ℕ) (f : ℕ → M) : ∑ i ∈ range (2 * m), f i = ∑ i ∈ range m, f i + ∑ i ∈ range m, f (m + i) := by
  rw [two_mul, Finset.sum_range_add]

theorem repVal_back (m : ℕ) (Q : G) (g h : ℕ → G) (u : F) (ρ : IppRep F) : repVal (2 * m) Q g h (ρ.back m u) = repVal m Q (foldG m u g) (foldG m u⁻¹ h) ρ := by
  simp only [repVal, sum_two_halves, IppRep.back, foldG, inv_inv, smul_add, Finset.sum_add_distrib, smul_smul]
  have e : ∀ i ∈ range m, (if i < m then (u⁻¹ * ρ.1 i) else u * ρ.1 (i - m)) • g i = (ρ.1 i * u⁻¹) • g i := fun i hi => by rw [if_pos (Finset.mem_range.mp hi), mul_comm]
  have e2 : ∀ i ∈ range m, (if m + i < m then (u⁻¹ * ρ.1 (m + i)) else u * ρ.1 (m + i - m)) • g (m + i) = (ρ.1 i * u) • g (m + i) := fun i _ => by
    rw [if_neg (by omega), Nat.add_sub_cancel_left, mul_comm]
  have e3 : ∀ i ∈ range m, (if i < m then (u * ρ.2.1 i) else u⁻¹ * ρ.2.1 (i - m)) • h i = (ρ.2.1 i * u) • h i := fun i hi => by rw [if_pos (Finset.mem_range.mp hi), mul_comm]
  have e4 : ∀ i ∈ range m, (if m + i < m then (u * ρ.2.1 (m + i)) else u⁻¹ * ρ.2.1 (m + i - m)) • h (m + i) = (ρ.2.1 i * u⁻¹) • h (m + i) := fun i _ => by
    rw [if_neg (by omega), Nat.add_sub_cancel_left, mul_comm]
  rw [Finset.sum_congr rfl e, Finset.sum_congr rfl e2, Finset.sum_congr rfl e3, Finset.sum_congr rfl e4]

theorem back_trivial {m : ℕ} {u : F} (hu : u ≠ 0) {ρ : IppRep F} (h : (ρ.back m u).Trivial (2 * m)) : ρ.Trivial m := by
  obtain ⟨h1, h2, h3⟩ := h
  refine ⟨fun i hi => ?_, fun i hi => ?_, h3⟩
  · have := h1 i (by omega)
    simp only [IppRep.back, if_pos hi] at this
    exact (mul_eq_zero.mp this).resolve_left (inv_ne_zero hu)
  · have := h2 i (by omega)
    simp only [IppRep.back, if_pos hi] at this
    exact (mul_eq_zero.mp this).resolve_left hu

/-! ## Accepting paths -/

/-- The verifier's equation, with generator functions. -/
def PathEq (k : ℕ) (Q : G) (g h : ℕ → G) (P : G) (Ls Rs : List G) (us : List F) (a b : F) : Prop :=
  P + msm (us.map (fun u => u * u)) Ls + msm (us.map (fun u => u⁻¹ * u⁻¹)) Rs =
    a • ∑ i ∈ range (2 ^ k), foldCoeff us i • g i + b • ∑ i ∈ range (2 ^ k), foldCoeff (us.map (·⁻¹)) i • h i + (a * b) • Q

theorem msm_cons' (a : F) (as : List F) (g : G) (gs : List G) : msm (a :: as) (g :: gs) = a • g + msm as gs := by simp [msm]

theorem sum_foldCoeff_cons {k : ℕ} (u : F) (us : List F) (hl : us.length = k) (g : ℕ → G) :
    ∑ i ∈ range (2 ^ (k + 1)), foldCoeff (u :: us) i • g i = ∑ i ∈ range (2 ^ k), foldCoeff us i • foldG (2 ^ k) u g i := by
  subst hl
  rw [pow_succ', sum_two_halves]
  simp only [foldG, smul_add, Finset.sum_add_distrib, smul_smul]
  congr 1
  · exact Finset.sum_congr rfl fun i hi => by rw [foldCoeff_cons_lo u us (Finset.mem_range.mp hi), mul_comm]
  · refine Finset.sum_congr rfl fun i hi => ?_
    have := foldCoeff_cons_hi u us (Finset.mem_range.mp hi)
    rw [this, mul_comm]

theorem PathEq.cons {k : ℕ} {Q : G} {g h : ℕ → G} {P L R : G} {Ls Rs : List G} {u : F} {us : List F} (hl : us.length = k) {a b : F} (hp : PathEq (k + 1) Q g h P (L :: Ls) (R :: Rs) (u :: us) a b) :
    PathEq k Q (foldG (2 ^ k) u g) (foldG (2 ^ k) u⁻¹ h) (u ^ 2 • L + P + (u ^ 2)⁻¹ • R) Ls Rs us a b := by
  unfold PathEq at hp ⊢
  rw [List.map_cons, List.map_cons, List.map_cons, msm_cons', msm_cons', sum_foldCoeff_cons u us hl, sum_foldCoeff_cons u⁻¹ _ (by simpa using hl)] at hp
  rw [← hp, show (u ^ 2)⁻¹ = u⁻¹ * u⁻¹ by rw [pow_two, mul_inv], pow_two]
  abel

theorem IppTree.Path.length {t : IppTree F G} {Ls Rs : List G} {us : List F} {a b : F} (hp : t.Path Ls Rs us a b) : ∀ {k : ℕ}, t.Full k → Ls.length = k ∧ Rs.length = k ∧ us.length = k ∧ ∀ u ∈ us, u ≠ 0 := by
  induction hp with
  | leaf a b => intro k hf; cases k with
    | zero => simp
    | succ k => exact hf.elim
  | node i hp ih => intro k hf; cases k with
    | zero => exact hf.elim
    | succ k =>
      obtain ⟨h1, h2, h3⟩ := hf
      obtain ⟨i1, i2, i3, i4⟩ := ih (h3 i)
      refine ⟨by simp [i1], by simp [i2], by simp [i3], ?_⟩
      intro x hx
      rcases List.mem_cons.mp hx with rfl | hx
      · exact h1 i
      · exact i4 x hx

/-- All branches satisfy the equation. -/
def IppTree.Accepted (t : IppTree F G) (k : ℕ) (Q : G) (g h : ℕ → G) (P : G) : Prop := ∀ Ls Rs us a b, t.Path Ls Rs us a b → PathEq k Q g h P Ls Rs us a b

theorem IppTree.Accepted.next {k : ℕ} {Q : G} {g h : ℕ → G} {P L R : G} {u : Fin 4 → F} {next : Fin 4 → IppTree F G} (hf : (IppTree.node L R u next).Full (k + 1))
    (hacc : (IppTree.node L R u next).Accepted (k + 1) Q g h P) (i : Fin 4) :
    (next i).Accepted k Q (foldG (2 ^ k) (u i) g) (foldG (2 ^ k) (u i)⁻¹ h) (u i ^ 2 • L + P + (u i ^ 2)⁻¹ • R) :=
  fun _ _ _ _ _ hp => (hacc _ _ _ _ _ (.node i hp)).cons (hp.length (hf.2.2 i)).2.2.1

theorem sq3_ne_zero {u : Fin 4 → F} (h : ∀ i, u i ≠ 0) (i : Fin 3) : sq3 u i ≠ 0 := pow_ne_zero 2 (h _)
theorem sq3_ne {u : Fin 4 → F} (h : ∀ i j, i ≠ j → u i ^ 2 ≠ u j ^ 2) (i j : Fin 3) (hij : i ≠ j) : sq3 u i ≠ sq3 u j := h _ _ fun e => hij (Fin.castSucc_injective _ e)

/-- The extracted coefficients represent the commitment. -/
theorem extract_value (Q : G) : ∀ (k : ℕ) (t : IppTree F G) (g h : ℕ → G) (P : G), t.Full k → t.Accepted k Q g h P → P = repVal (2 ^ k) Q g h (t.extract k)
  | 0, .leaf a b, g, h, P, _, hacc => by
    have := hacc _ _ _ _ _ (.leaf a b)
    simp only [PathEq, List.map_nil, msm, List.zipWith_nil_left, List.sum_nil, add_zero, pow_zero, range_one, sum_singleton, foldCoeff, List.length_nil, range_zero, prod_empty, one_smul] at this
    simp [repVal, IppTree.extract, this]
  | k + 1, .node L R u next, g, h, P, hf, hacc => by
    have ih := fun i => extract_value Q k (next i) _ _ _ (hf.2.2 i) (hacc.next hf i)
    rw [IppTree.extract, repVal_solveP]
    simp only [pow_succ' 2 k, repVal_back, ← ih]
    exact (solveP_eq (sq3_ne_zero hf.1) (sq3_ne hf.2.1) (fun i => rfl)).symm
  | 0, .node _ _ _ _, _, _, _, hf, _ => hf.elim
  | k + 1, .leaf _ _, _, _, _, hf, _ => hf.elim

/-- The scalar part of a round: if the coefficients of `L`, `P`, `R` predict those of all four next rounds, and there the product is right, it is right for `P`. -/
theorem round_scalar {m : ℕ} {u : Fin 4 → F} (h0 : ∀ i, u i ≠ 0) (hd : ∀ i j, i ≠ j → u i ^ 2 ≠ u j ^ 2) {l p r : IppRep F} {x : Fin 4 → IppRep F}
    (heq : ∀ i, (u i ^ 2 • l + p + (u i ^ 2)⁻¹ • r - (x i).back m (u i)).Trivial (2 * m)) (hx : ∀ i, (x i).2.2 = ∑ j ∈ range m, (x i).1 j * (x i).2.1 j) :
    p.2.2 = ∑ j ∈ range (2 * m), p.1 j * p.2.1 j := by
  have hA : ∀ j < m, ∀ i, (x i).1 j = u i * p.1 j + (u i)⁻¹ * p.1 (m + j) := by
    intro j hj
    have e1 : ∀ i, u i ^ 2 * l.1 j + p.1 j + (u i ^ 2)⁻¹ * r.1 j - (u i)⁻¹ * (x i).1 j = 0 := fun i => by
      have := (heq i).1 j (by omega)
      simpa [IppRep.back, hj] using this
    have e2 : ∀ i, u i ^ 2 * l.1 (m + j) + p.1 (m + j) + (u i ^ 2)⁻¹ * r.1 (m + j) - u i * (x i).1 j = 0 := fun i => by
      have := (heq i).1 (m + j) (by omega)
      simpa [IppRep.back] using this
    obtain ⟨c1, c2, c3, c4⟩ := cubic_zero (s := fun i => u i ^ 2) hd (a := l.1 j) (b := p.1 j - l.1 (m + j)) (c := r.1 j - p.1 (m + j)) (d := - r.1 (m + j)) fun i => by
      have hu := h0 i
      have f1 := e1 i; have f2 := e2 i
      field_simp at f1 f2
      linear_combination u i ^ 2 * f1 - f2
    intro i
    have hu := h0 i
    have f1 := e1 i
    rw [c1] at f1
    field_simp at f1 ⊢
    linear_combination -f1 + c3
  have hB : ∀ j < m, ∀ i, (x i).2.1 j = (u i)⁻¹ * p.2.1 j + u i * p.2.1 (m + j) := by
    intro j hj
    have e1 : ∀ i, u i ^ 2 * l.2.1 j + p.2.1 j + (u i ^ 2)⁻¹ * r.2.1 j - u i * (x i).2.1 j = 0 := fun i => by
      have := (heq i).2.1 j (by omega)
      simpa [IppRep.back, hj] using this
    have e2 : ∀ i, u i ^ 2 * l.2.1 (m + j) + p.2.1 (m + j) + (u i ^ 2)⁻¹ * r.2.1 (m + j) - (u i)⁻¹ * (x i).2.1 j = 0 := fun i => by
      have := (heq i).2.1 (m + j) (by omega)
      simpa [IppRep.back] using this
    obtain ⟨c1, c2, c3, c4⟩ := cubic_zero (s := fun i => u i ^ 2) hd (a := l.2.1 (m + j)) (b := p.2.1 (m + j) - l.2.1 j) (c := r.2.1 (m + j) - p.2.1 j) (d := - r.2.1 j) fun i => by
      have hu := h0 i
      have f1 := e1 i; have f2 := e2 i
      field_simp at f1 f2
      linear_combination u i ^ 2 * f2 - f1
    intro i
    have hu := h0 i
    have f2 := e2 i
    rw [c1] at f2
    field_simp at f2 ⊢
    linear_combination -f2 + c3
  have hC : ∀ i, u i ^ 2 * l.2.2 + p.2.2 + (u i ^ 2)⁻¹ * r.2.2 = (x i).2.2 := fun i => by
    have := (heq i).2.2
    simpa [IppRep.back, sub_eq_zero] using this
  set D := ∑ j ∈ range m, p.1 j * p.2.1 j + ∑ j ∈ range m, p.1 (m + j) * p.2.1 (m + j) with hD
  set E := ∑ j ∈ range m, p.1 j * p.2.1 (m + j)
  set E' := ∑ j ∈ range m, p.1 (m + j) * p.2.1 j
  have hS : ∀ i, (x i).2.2 = D + u i ^ 2 * E + (u i ^ 2)⁻¹ * E' := by
    intro i
    rw [hx i, hD]
    simp only [E, E', Finset.mul_sum, ← Finset.sum_add_distrib]
    refine Finset.sum_congr rfl fun j hj => ?_
    have hj := Finset.mem_range.mp hj
    have hu := h0 i
    rw [hA j hj i, hB j hj i]
    field_simp
    ring
  obtain ⟨-, -, c3, -⟩ := cubic_zero (s := fun i => u i ^ 2) hd (a := 0) (b := l.2.2 - E) (c := p.2.2 - D) (d := r.2.2 - E') fun i => by
    have hu := h0 i
    have f1 := hC i
    rw [hS i] at f1
    field_simp at f1
    linear_combination f1
  rw [sum_two_halves, ← hD]
  exact sub_eq_zero.mp c3

/-- If no candidate relation is a non-trivial one, the extracted witness is right. -/
theorem extract_product (Q : G) : ∀ (k : ℕ) (t : IppTree F G) (g h : ℕ → G) (P : G), t.Full k → t.Accepted k Q g h P →
    (∀ ρ ∈ t.relations k, repVal (2 ^ k) Q g h ρ = 0 → ρ.Trivial (2 ^ k)) → (t.extract k).2.2 = ∑ j ∈ range (2 ^ k), (t.extract k).1 j * (t.extract k).2.1 j
  | 0, .leaf a b, g, h, P, _, _, _ => by simp [IppTree.extract]
  | k + 1, .node L R u next, g, h, P, hf, hacc, hno => by
    have hval := fun i => extract_value Q k (next i) _ _ _ (hf.2.2 i) (hacc.next hf i)
    have hprod := fun i => extract_product Q k (next i) _ _ _ (hf.2.2 i) (hacc.next hf i) fun ρ hρ h0 => by
      refine back_trivial (hf.1 i) ?_
      rw [← pow_succ']
      refine hno _ ?_ ?_
      · rw [IppTree.relations]
        exact List.mem_append_right _ (List.mem_flatMap.mpr ⟨i, List.mem_finRange i, List.mem_map.mpr ⟨ρ, hρ, rfl⟩⟩)
      · rw [pow_succ', repVal_back]; exact h0
    have h3 := sq3_ne_zero hf.1
    have h4 := sq3_ne hf.2.1
    rw [IppTree.extract, pow_succ' 2 k]
    refine round_scalar (x := fun i => (next i).extract k) hf.1 hf.2.1 (l := solveL (sq3 u) fun i => ((next i.castSucc).extract k).back (2 ^ k) (u i.castSucc))
      (r := solveR (sq3 u) fun i => ((next i.castSucc).extract k).back (2 ^ k) (u i.castSucc)) (fun i => ?_) hprod
    rw [← pow_succ']
    refine hno _ ?_ ?_
    · rw [IppTree.relations]
      exact List.mem_append_left _ (List.mem_map.mpr ⟨i, List.mem_finRange i, rfl⟩)
    · rw [repVal_sub, repVal_add, repVal_add, repVal_smul, repVal_smul, repVal_solveL, repVal_solveP, repVal_solveR]
      simp only [pow_succ' 2 k, repVal_back, ← hval]
      have hX : ∀ j : Fin 3, (fun j : Fin 3 => u j.castSucc ^ 2 • L + P + (u j.castSucc ^ 2)⁻¹ • R) j = sq3 u j • L + P + (sq3 u j)⁻¹ • R := fun _ => rfl
      rw [solveL_eq h3 h4 hX, solveP_eq h3 h4 hX, solveR_eq h3 h4 hX, sub_self]
  | 0, .node _ _ _ _, _, _, _, hf, _, _ => hf.elim
  | k + 1, .leaf _ _, _, _, _, hf, _, _ => hf.elim

end Bp
