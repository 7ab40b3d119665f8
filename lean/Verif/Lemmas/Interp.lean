import Verif.Spec.Soundness2
import Mathlib.LinearAlgebra.Lagrange

/-! # Interpolation -/

namespace Bp
variable {F : Type} [Field F]
open Finset Polynomial

theorem lagrangeCoeff_eq {n : ℕ} (x : Fin n → F) (i : Fin n) (js : List (Fin n)) (e : ℕ) :
    lagrangeCoeff x i js e = ((js.filter (· ≠ i)).map fun j => Lagrange.basisDivisor (x i) (x j)).prod.coeff e := by
  induction js generalizing e with
  | nil => simp [lagrangeCoeff, coeff_one]
  | cons j js ih =>
    rw [lagrangeCoeff]
    by_cases hj : j = i
    · rw [if_pos hj, ih]; simp [hj]
    · rw [if_neg hj, List.filter_cons_of_pos (by simpa using hj), List.map_cons, List.prod_cons, Lagrange.basisDivisor, mul_assoc, coeff_C_mul, sub_mul, coeff_sub, coeff_C_mul, ih, ih]
      cases e with
      | zero => simp [div_eq_inv_mul]
      | succ e => simp [div_eq_inv_mul, coeff_X_mul]

theorem lagrangeCoeff_basis {n : ℕ} (x : Fin n → F) (i : Fin n) (e : ℕ) : lagrangeCoeff x i (List.finRange n) e = (Lagrange.basis univ x i).coeff e := by
  rw [lagrangeCoeff_eq, Lagrange.basis]
  congr 1
  have hn : ((List.finRange n).filter (· ≠ i)).Nodup := (List.nodup_finRange n).filter _
  rw [← List.prod_toFinset _ hn]
  refine Finset.prod_congr ?_ fun _ _ => rfl
  ext j; simp

theorem interp_pow {n : ℕ} {x : Fin n → F} (hx : ∀ i j, i ≠ j → x i ≠ x j) {p : ℕ} (hp : p < n) (e : ℕ) :
    ∑ i, lagrangeCoeff x i (List.finRange n) e * x i ^ p = if e = p then 1 else 0 := by
  have hinj : Set.InjOn x (univ : Finset (Fin n)) := fun i _ j _ h => by by_contra hn; exact hx i j hn h
  have := Lagrange.eq_interpolate (f := (X : F[X]) ^ p) hinj (by rw [degree_X_pow, Finset.card_univ, Fintype.card_fin]; exact_mod_cast hp)
  have := congrArg (coeff · e) this
  simp only [Lagrange.interpolate_apply, finset_sum_coeff, coeff_C_mul, eval_pow, eval_X, coeff_X_pow] at this
  rw [this]
  exact Finset.sum_congr rfl fun i _ => by rw [lagrangeCoeff_basis, mul_comm]

variable {M M' : Type} [AddCommGroup M] [Module F M] [AddCommGroup M'] [Module F M']

/-- Interpolation finds the coefficients. -/
theorem interp_eq {n : ℕ} {x : Fin n → F} (hx : ∀ i j, i ≠ j → x i ≠ x j) {X : Fin n → M} {c : ℕ → M} (hX : ∀ i, X i = ∑ p ∈ range n, x i ^ p • c p) {e : ℕ} (he : e < n) : interp x X e = c e := by
  unfold interp
  simp only [hX, Finset.smul_sum, smul_smul]
  rw [Finset.sum_comm]
  simp only [← Finset.sum_smul]
  rw [Finset.sum_congr rfl fun p hp => by rw [interp_pow hx (Finset.mem_range.mp hp)]]
  simp [he]

theorem map_interp (f : M →ₗ[F] M') {n : ℕ} (x : Fin n → F) (X : Fin n → M) (e : ℕ) : f (interp x X e) = interp x (fun i => f (X i)) e := by
  simp [interp, map_sum]

theorem interp_add {n : ℕ} (x : Fin n → F) (X Y : Fin n → M) (e : ℕ) : interp x (fun i => X i + Y i) e = interp x X e + interp x Y e := by
  simp [interp, Finset.sum_add_distrib]

theorem interp_smul_const {n : ℕ} (x : Fin n → F) (X : Fin n → F) (g : M) (e : ℕ) : interp x (fun i => X i • g) e = interp x X e • g := by
  simp [interp, Finset.sum_smul, smul_smul]

theorem interp_neg {n : ℕ} (x : Fin n → F) (X : Fin n → M) (e : ℕ) : interp x (fun i => - X i) e = - interp x X e := by
  simp [interp]

/-- A sum of polynomials. -/
theorem interp_sum {n N : ℕ} {x : Fin n → F} (hx : ∀ i j, i ≠ j → x i ≠ x j) {X : Fin n → F} {c : ℕ → ℕ → F} (hX : ∀ i, X i = ∑ j ∈ range N, ∑ p ∈ range n, x i ^ p * c j p) {e : ℕ} (he : e < n) :
    interp x X e = ∑ j ∈ range N, c j e := by
  refine interp_eq hx (c := fun p => ∑ j ∈ range N, c j p) (fun i => ?_) he
  rw [hX, Finset.sum_comm]
  simp [Finset.mul_sum]

end Bp
