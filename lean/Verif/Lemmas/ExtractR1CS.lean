import Verif.Lemmas.Interp
import Verif.Lemmas.Extract
import Verif.Lemmas.Flatten
import Mathlib.LinearAlgebra.Prod

/-! # Extraction for the R1CS argument -/

set_option linter.unusedSectionVars false

namespace Bp
variable {F G : Type} [Field F] [AddCommGroup G] [Module F G]
open Finset

/-! ## Values -/

/-- `GenRep.value` as a linear map, with generator functions. -/
def genVal (n : ℕ) (g h : G) (Gs Hs : ℕ → G) : GenRep F →ₗ[F] G where
  toFun ρ := ∑ i ∈ range n, ρ.1 i • Gs i + ∑ i ∈ range n, ρ.2.1 i • Hs i + ρ.2.2.1 • g + ρ.2.2.2 • h
  map_add' ρ σ := by simp only [Prod.fst_add, Prod.snd_add, Pi.add_apply, add_smul, Finset.sum_add_distrib]; abel
  map_smul' c ρ := by simp only [Prod.smul_fst, Prod.smul_snd, Pi.smul_apply, smul_assoc, smul_add, Finset.smul_sum, RingHom.id_apply]

theorem genVal_apply (n : ℕ) (g h : G) (Gs Hs : ℕ → G) (ρ : GenRep F) :
    genVal n g h Gs Hs ρ = ∑ i ∈ range n, ρ.1 i • Gs i + ∑ i ∈ range n, ρ.2.1 i • Hs i + ρ.2.2.1 • g + ρ.2.2.2 • h := rfl

theorem GenRep.value_eq (n : ℕ) (g h : G) (Gs Hs : List G) (ρ : GenRep F) : ρ.value n g h Gs Hs = genVal n g h (fun i => Gs.getD i 0) (fun i => Hs.getD i 0) ρ := rfl

theorem genVal_lift (n n1 : ℕ) (y u w : F) (g h : G) (Gs Hs : ℕ → G) (ρ : IppRep F) :
    genVal n g h Gs Hs (ρ.lift n1 y u w) = repVal n (w • g) (fun i => ufac n1 u i • Gs i) (fun i => (vpow y⁻¹ i * ufac n1 u i) • Hs i) ρ := by
  simp only [genVal_apply, repVal, IppRep.lift, smul_smul, zero_smul, add_zero]
  congr 1
  · congr 1 <;> exact Finset.sum_congr rfl fun i _ => by rw [mul_comm]
  · rw [mul_comm]

theorem ufac_ne_zero {n1 : ℕ} {u : F} (hu : u ≠ 0) (i : ℕ) : ufac n1 u i ≠ 0 := by unfold ufac; split <;> simp [hu]

theorem lift_trivial {n n1 : ℕ} {y u w : F} (hy : y ≠ 0) (hu : u ≠ 0) (hw : w ≠ 0) {ρ : IppRep F} (h : (ρ.lift n1 y u w).Trivial n) : ρ.Trivial n := by
  obtain ⟨h1, h2, h3, -⟩ := h
  refine ⟨fun i hi => (mul_eq_zero.mp (h1 i hi)).resolve_left (ufac_ne_zero hu i), fun i hi => ?_, (mul_eq_zero.mp h3).resolve_left hw⟩
  exact (mul_eq_zero.mp (h2 i hi)).resolve_left (mul_ne_zero (vpow_inv_ne_zero hy _) (ufac_ne_zero hu i))

theorem lift_sub (n1 : ℕ) (y u w : F) (ρ σ : IppRep F) : (ρ - σ).lift n1 y u w = ρ.lift n1 y u w - σ.lift n1 y u w := by
  simp only [IppRep.lift, Prod.fst_sub, Prod.snd_sub, Pi.sub_apply, mul_sub]
  ext <;> simp

/-! ## One challenge `x` -/

section oneX
variable {n1 k : ℕ} {y u : F} {f : XFork F G} {g h : G} {Gs Hs : ℕ → G} {P : G}

/-- What is extracted from either inner-product tree represents the commitment to the left and right vectors. -/
theorem lr_value (e : Fin 2) (hf : (f.ipp e).Full k)
    (hacc : (f.ipp e).Accepted k (f.w e • g) (fun i => ufac n1 u i • Gs i) (fun i => (vpow y⁻¹ i * ufac n1 u i) • Hs i) (P + (f.w e * f.t_x) • g)) :
    genVal (2 ^ k) g h Gs Hs (f.lr n1 k y u e) = P := by
  have := extract_value _ k _ _ _ _ hf hacc
  rw [XFork.lr, lift_sub, map_sub, genVal_lift, genVal_lift, ← this]
  simp [repVal, smul_smul, mul_comm]

/-- Without non-trivial relations, `t_x` is the inner product of the extracted vectors. -/
theorem lr_product (hy : y ≠ 0) (hu : u ≠ 0) (hw : ∀ e, f.w e ≠ 0) (hwd : f.w 0 ≠ f.w 1) (hf : ∀ e, (f.ipp e).Full k)
    (hacc : ∀ e, (f.ipp e).Accepted k (f.w e • g) (fun i => ufac n1 u i • Gs i) (fun i => (vpow y⁻¹ i * ufac n1 u i) • Hs i) (P + (f.w e * f.t_x) • g))
    (h1 : ∀ e, ∀ ρ ∈ (f.ipp e).relations k, genVal (2 ^ k) g h Gs Hs (ρ.lift n1 y u (f.w e)) = 0 → (ρ.lift n1 y u (f.w e)).Trivial (2 ^ k))
    (h2 : genVal (2 ^ k) g h Gs Hs (f.lr n1 k y u 0 - f.lr n1 k y u 1) = 0 → (f.lr n1 k y u 0 - f.lr n1 k y u 1).Trivial (2 ^ k)) :
    f.t_x = ∑ i ∈ range (2 ^ k), ((f.ipp 0).extract k).1 i * ((f.ipp 0).extract k).2.1 i := by
  have hp := fun e => extract_product _ k (f.ipp e) _ _ _ (hf e) (hacc e) fun ρ hρ h0 => lift_trivial hy hu (hw e) (h1 e ρ hρ (by rw [genVal_lift]; exact h0))
  obtain ⟨t1, t2, t3, -⟩ := h2 (by rw [map_sub, lr_value 0 (hf 0) (hacc 0), lr_value 1 (hf 1) (hacc 1), sub_self])
  have e1 : ∀ i < 2 ^ k, ((f.ipp 0).extract k).1 i = ((f.ipp 1).extract k).1 i := fun i hi => by
    have := t1 i hi
    simp only [XFork.lr, IppRep.lift, Prod.fst_sub, Pi.sub_apply, ← mul_sub] at this
    simpa [sub_eq_zero, ufac_ne_zero hu] using this
  have e2 : ∀ i < 2 ^ k, ((f.ipp 0).extract k).2.1 i = ((f.ipp 1).extract k).2.1 i := fun i hi => by
    have := t2 i hi
    simp only [XFork.lr, IppRep.lift, Prod.fst_sub, Prod.snd_sub, Pi.sub_apply, ← mul_sub] at this
    simpa [sub_eq_zero, ufac_ne_zero hu, vpow_inv_ne_zero hy] using this
  have e3 : f.w 0 * (((f.ipp 0).extract k).2.2 - f.t_x) - f.w 1 * (((f.ipp 1).extract k).2.2 - f.t_x) = 0 := t3
  have e4 : ((f.ipp 1).extract k).2.2 = ((f.ipp 0).extract k).2.2 := by
    rw [hp 0, hp 1]
    exact Finset.sum_congr rfl fun i hi => by rw [e1 i (Finset.mem_range.mp hi), e2 i (Finset.mem_range.mp hi)]
  rw [e4, ← sub_mul] at e3
  rw [← hp 0]
  exact (sub_eq_zero.mp ((mul_eq_zero.mp e3).resolve_left (sub_ne_zero.mpr hwd))).symm

/-- The wires part. -/
theorem wires_value {wt : Weights F} {Q : G} (hlr : genVal (2 ^ k) g h Gs Hs (f.lr n1 k y u 0) = Q - f.e_blinding • h
      + ∑ i ∈ range (2 ^ k), (ufac n1 u i * (f.x * (vpow y⁻¹ i * wt.wR.getD i 0))) • Gs i
      + ∑ i ∈ range (2 ^ k), (ufac n1 u i * (vpow y⁻¹ i * (f.x * wt.wL.getD i 0 + wt.wO.getD i 0) - 1)) • Hs i) :
    genVal (2 ^ k) g h Gs Hs (f.wires n1 k y u wt) = Q := by
  rw [XFork.wires, map_sub, hlr, genVal_apply, XFork.pub]
  simp only [zero_smul, neg_smul]
  abel

end oneX

/-! ## One challenge `u` -/

section oneU
variable {n1 k : ℕ} {y : F} {f : UFork F G} {g h : G} {Gs Hs : ℕ → G} {wt : Weights F}

theorem extract3_value {A O S : G} (hx0 : ∀ d, (f.xs d).x ≠ 0) (hxd : ∀ d d', d ≠ d' → (f.xs d).x ≠ (f.xs d').x)
    (hv : ∀ d, genVal (2 ^ k) g h Gs Hs ((f.xs d).wires n1 k y f.u wt) = (f.xs d).x • A + (f.xs d).x ^ 2 • O + (f.xs d).x ^ 3 • S) (e : ℕ) (he : e < 3) :
    genVal (2 ^ k) g h Gs Hs (f.extract n1 k y wt e) = if e = 0 then A else if e = 1 then O else S := by
  rw [UFork.extract, map_interp]
  refine interp_eq (c := fun e => if e = 0 then A else if e = 1 then O else S) (fun i j hij => hxd _ _ fun h => hij (Fin.castLE_injective _ h)) (fun d => ?_) he
  have := hx0 (d.castLE (by decide))
  rw [map_smul, hv]
  simp only [Finset.sum_range_succ, Finset.sum_range_zero, smul_add, smul_smul]
  generalize (f.xs (d.castLE _)).x = x at *
  rw [inv_mul_cancel₀ this, show x⁻¹ * x ^ 2 = x by field_simp, show x⁻¹ * x ^ 3 = x ^ 2 by field_simp]
  simp

/-- The coefficient of `x²` of `t`. -/
theorem t2_eq (hy : y ≠ 0) (hu : f.u ≠ 0) (hx0 : ∀ d, (f.xs d).x ≠ 0) (hxd : ∀ d d', d ≠ d' → (f.xs d).x ≠ (f.xs d').x) {A O S : GenRep F}
    (htriv : ∀ d, ((f.xs d).x • A + (f.xs d).x ^ 2 • O + (f.xs d).x ^ 3 • S - (f.xs d).wires n1 k y f.u wt).Trivial (2 ^ k))
    (ht : ∀ d, (f.xs d).t_x = ∑ i ∈ range (2 ^ k), (((f.xs d).ipp 0).extract k).1 i * (((f.xs d).ipp 0).extract k).2.1 i) :
    f.t2 = ∑ i ∈ range (2 ^ k), (((ufac n1 f.u i)⁻¹ * A.1 i + vpow y⁻¹ i * wt.wR.getD i 0) * (wt.wL.getD i 0 + y ^ i * (ufac n1 f.u i)⁻¹ * A.2.1 i)
      + (ufac n1 f.u i)⁻¹ * O.1 i * (wt.wO.getD i 0 - y ^ i)) := by
  set v : ℕ → F := fun i => (ufac n1 f.u i)⁻¹ with hv
  set l1 : ℕ → F := fun i => v i * A.1 i + vpow y⁻¹ i * wt.wR.getD i 0 with hl1
  set l2 : ℕ → F := fun i => v i * O.1 i with hl2
  set l3 : ℕ → F := fun i => v i * S.1 i with hl3
  set r0 : ℕ → F := fun i => wt.wO.getD i 0 - y ^ i with hr0
  set r1 : ℕ → F := fun i => wt.wL.getD i 0 + y ^ i * v i * A.2.1 i with hr1
  set r2 : ℕ → F := fun i => y ^ i * v i * O.2.1 i with hr2
  set r3 : ℕ → F := fun i => y ^ i * v i * S.2.1 i with hr3
  have hl : ∀ d, ∀ i < 2 ^ k, (((f.xs d).ipp 0).extract k).1 i = (f.xs d).x * l1 i + (f.xs d).x ^ 2 * l2 i + (f.xs d).x ^ 3 * l3 i := by
    intro d i hi
    have := (htriv d).1 i hi
    simp only [XFork.wires, XFork.lr, XFork.pub, IppRep.lift, Prod.fst_sub, Prod.fst_add, Prod.smul_fst, Pi.sub_apply, Pi.add_apply, Pi.smul_apply, smul_eq_mul, Pi.zero_apply, sub_zero] at this
    have h0 := ufac_ne_zero (n1 := n1) hu i
    simp only [hl1, hl2, hl3, hv]
    generalize ufac n1 f.u i = φ at *
    generalize vpow y⁻¹ i * wt.wR.getD i 0 = ω at *
    field_simp
    linear_combination -this
  have hr : ∀ d, ∀ i < 2 ^ k, (((f.xs d).ipp 0).extract k).2.1 i = r0 i + (f.xs d).x * r1 i + (f.xs d).x ^ 2 * r2 i + (f.xs d).x ^ 3 * r3 i := by
    intro d i hi
    have := (htriv d).2.1 i hi
    simp only [XFork.wires, XFork.lr, XFork.pub, IppRep.lift, Prod.fst_sub, Prod.fst_add, Prod.snd_sub, Prod.snd_add, Prod.smul_fst, Prod.smul_snd, Pi.sub_apply, Pi.add_apply, Pi.smul_apply,
      smul_eq_mul, Pi.zero_apply, sub_zero] at this
    have h0 := ufac_ne_zero (n1 := n1) hu i
    have hyi := pow_ne_zero i hy
    simp only [hr0, hr1, hr2, hr3, hv]
    rw [vpow_inv hy, inv_pow] at this
    generalize ufac n1 f.u i = φ at *
    generalize y ^ i = Y at *
    field_simp at this ⊢
    linear_combination -this
  rw [UFork.t2]
  refine (interp_sum (N := 2 ^ k) (c := fun i p => if p = 0 then l1 i * r0 i else if p = 1 then l1 i * r1 i + l2 i * r0 i else if p = 2 then l1 i * r2 i + l2 i * r1 i + l3 i * r0 i
    else if p = 3 then l1 i * r3 i + l2 i * r2 i + l3 i * r1 i else if p = 4 then l2 i * r3 i + l3 i * r2 i else l3 i * r3 i) hxd (fun d => ?_) (by decide)).trans ?_
  · rw [ht d, Finset.mul_sum]
    refine Finset.sum_congr rfl fun i hi => ?_
    rw [hl d i (Finset.mem_range.mp hi), hr d i (Finset.mem_range.mp hi)]
    have := hx0 d
    simp only [Finset.sum_range_succ, Finset.sum_range_zero]
    simp
    field_simp
    ring
  · rfl

/-- The commitment that `t2` and its blinding open. -/
theorem t2_commit {D T1 T3 T4 T5 T6 : G} (hx0 : ∀ d, (f.xs d).x ≠ 0) (hxd : ∀ d d', d ≠ d' → (f.xs d).x ≠ (f.xs d').x)
    (hp : ∀ d, (f.xs d).t_x • g + (f.xs d).t_x_blinding • h = (f.xs d).x • T1 + (f.xs d).x ^ 2 • D + (f.xs d).x ^ 3 • T3 + (f.xs d).x ^ 4 • T4 + (f.xs d).x ^ 5 • T5 + (f.xs d).x ^ 6 • T6) :
    D = f.t2 • g + f.tau2 • h := by
  rw [UFork.t2, UFork.tau2, ← interp_smul_const, ← interp_smul_const, ← interp_add]
  refine (interp_eq (c := fun p => if p = 0 then T1 else if p = 1 then D else if p = 2 then T3 else if p = 3 then T4 else if p = 4 then T5 else T6) hxd (fun d => ?_) (show 1 < 6 by decide)).symm
  have := hx0 d
  rw [mul_smul, mul_smul, ← smul_add, hp]
  simp only [Finset.sum_range_succ, Finset.sum_range_zero, smul_add, smul_smul]
  generalize (f.xs d).x = x at *
  rw [inv_mul_cancel₀ this, show x⁻¹ * x ^ 2 = x by field_simp, show x⁻¹ * x ^ 3 = x ^ 2 by field_simp, show x⁻¹ * x ^ 4 = x ^ 3 by field_simp, show x⁻¹ * x ^ 5 = x ^ 4 by field_simp,
    show x⁻¹ * x ^ 6 = x ^ 5 by field_simp]
  simp

end oneU

/-! ## All challenges `u` -/

/-- The part of `t2` that does not depend on `u`. -/
theorem u_const {N n1 : ℕ} {y : F} {wt : Weights F} {us : Fin 5 → F} (h0 : ∀ c, us c ≠ 0) (hd : ∀ c c', c ≠ c' → us c ≠ us c') {t : F} {P1 P2 O1 O2 : GenRep F}
    (h : ∀ c, t = ∑ i ∈ range N, (((ufac n1 (us c) i)⁻¹ * (P1.1 i + us c * P2.1 i) + vpow y⁻¹ i * wt.wR.getD i 0) * (wt.wL.getD i 0 + y ^ i * (ufac n1 (us c) i)⁻¹ * (P1.2.1 i + us c * P2.2.1 i))
      + (ufac n1 (us c) i)⁻¹ * (O1.1 i + us c * O2.1 i) * (wt.wO.getD i 0 - y ^ i))) :
    t = ∑ i ∈ range N, (((if i < n1 then P1.1 i else P2.1 i) + vpow y⁻¹ i * wt.wR.getD i 0) * (wt.wL.getD i 0 + y ^ i * (if i < n1 then P1.2.1 i else P2.2.1 i))
      + (if i < n1 then O1.1 i else O2.1 i) * (wt.wO.getD i 0 - y ^ i)) := by
  have e1 : interp us (fun c => us c ^ 2 * t) 2 = t := by
    refine interp_eq (c := fun p => if p = 2 then t else 0) hd (fun c => ?_) (by decide)
    simp
  rw [← e1]
  refine (interp_sum (N := N) (c := fun i p =>
    let α := vpow y⁻¹ i * wt.wR.getD i 0; let β := wt.wL.getD i 0; let γ := wt.wO.getD i 0 - y ^ i
    if i < n1 then (if p = 2 then (P1.1 i + α) * (β + y ^ i * P1.2.1 i) + O1.1 i * γ else
      if p = 3 then (P1.1 i + α) * (y ^ i * P2.2.1 i) + P2.1 i * (β + y ^ i * P1.2.1 i) + O2.1 i * γ else if p = 4 then P2.1 i * (y ^ i * P2.2.1 i) else 0)
    else (if p = 2 then (P2.1 i + α) * (β + y ^ i * P2.2.1 i) + O2.1 i * γ else
      if p = 1 then (P2.1 i + α) * (y ^ i * P1.2.1 i) + P1.1 i * (β + y ^ i * P2.2.1 i) + O1.1 i * γ else if p = 0 then P1.1 i * (y ^ i * P1.2.1 i) else 0)) hd (fun c => ?_) (by decide)).trans ?_
  · rw [h c, Finset.mul_sum]
    refine Finset.sum_congr rfl fun i _ => ?_
    have := h0 c
    by_cases hi : i < n1
    · simp only [Finset.sum_range_succ, Finset.sum_range_zero, hi, ufac, if_true]
      simp
      ring
    · simp only [Finset.sum_range_succ, Finset.sum_range_zero, hi, ufac, if_false]
      generalize vpow y⁻¹ i * wt.wR.getD i 0 = α
      simp
      field_simp
      ring
  · refine Finset.sum_congr rfl fun i _ => ?_
    by_cases hi : i < n1 <;> simp [hi]

/-! ## Constraints about commitments -/

/-- The coefficient of committed variable `j`. -/
def LC.coeffV (j : ℕ) (l : LC F) : F := (l.terms.map fun t => if t.1 = .committed j then t.2 else 0).sum

/-- The same assignment without committed values. -/
def Assignment.noV (σ : Assignment F) : Assignment F := { σ with committed := fun _ => 0 }

theorem term_split {σ : Assignment F} {n m : ℕ} {t : Var × F} (ht : t.1.InRange n m) (v : ℕ → F) :
    t.2 * ({ σ with committed := v } : Assignment F).val t.1 = t.2 * σ.noV.val t.1 + ∑ j ∈ range m, (if t.1 = .committed j then t.2 else 0) * v j := by
  rcases t with ⟨x, c⟩
  cases x <;> simp_all [Assignment.val, Assignment.noV, Var.InRange]

theorem LC.value_split {σ : Assignment F} {n m : ℕ} {l : LC F} (hl : ∀ t ∈ l.terms, t.1.InRange n m) (v : ℕ → F) :
    l.value { σ with committed := v } = l.value σ.noV + ∑ j ∈ range m, l.coeffV j * v j := by
  unfold LC.value LC.coeffV
  generalize l.terms = ts at *
  induction ts with
  | nil => simp
  | cons t ts ih =>
    simp only [List.map_cons, List.sum_cons, add_mul, Finset.sum_add_distrib]
    rw [ih fun t ht => hl t (List.mem_cons_of_mem _ ht), term_split (hl t List.mem_cons_self)]
    ring

theorem LC.commitment_split {σ : Assignment F} {n : ℕ} {l : LC F} {g : G} {V : List G} (hl : ∀ t ∈ l.terms, t.1.InRange n V.length) :
    l.commitment σ g V = l.value σ.noV • g + ∑ j ∈ range V.length, l.coeffV j • V.getD j 0 := by
  unfold LC.value LC.coeffV LC.commitment
  generalize l.terms = ts at *
  induction ts with
  | nil => simp
  | cons t ts ih =>
    simp only [List.map_cons, List.sum_cons, add_smul, Finset.sum_add_distrib]
    rw [ih fun t ht => hl t (List.mem_cons_of_mem _ ht)]
    have : t.2 • σ.commit g V t.1 = (t.2 * σ.noV.val t.1) • g + ∑ j ∈ range V.length, (if t.1 = .committed j then t.2 else 0) • V.getD j 0 := by
      have h := hl t List.mem_cons_self
      rcases t with ⟨x, c⟩
      cases x <;> simp_all [Assignment.commit, Assignment.val, Assignment.noV, Var.InRange, ite_smul, smul_smul]
    rw [this]
    abel

/-- The flattened constraints, with commitments in place of committed values. -/
theorem residual_commit {s : Verifier F G} {z : F} {wt : Weights F} (hw : s.flattenedConstraints z = .ok wt) (σ : Assignment F) (g : G) :
    (∑ i ∈ range s.numVars, wt.wL.getD i 0 * σ.left i + ∑ i ∈ range s.numVars, wt.wR.getD i 0 * σ.right i + ∑ i ∈ range s.numVars, wt.wO.getD i 0 * σ.out i - wt.wc) • g
      - ∑ j ∈ range s.V.length, wt.wV.getD j 0 • s.V.getD j 0 = ∑ q : Fin s.constraints.length, z ^ (q.val + 1) • (s.constraints[q.val]).commitment σ g s.V := by
  obtain ⟨hin, -, hres⟩ := Verifier.flattened_ok hw
  have hin' : ∀ q : Fin s.constraints.length, ∀ t ∈ (s.constraints[q.val]).terms, t.1.InRange s.numVars s.V.length := fun q => hin _ (List.getElem_mem _)
  have e0 : ∑ i ∈ range s.numVars, wt.wL.getD i 0 * σ.left i + ∑ i ∈ range s.numVars, wt.wR.getD i 0 * σ.right i + ∑ i ∈ range s.numVars, wt.wO.getD i 0 * σ.out i - wt.wc
      = ∑ q : Fin s.constraints.length, z ^ (q.val + 1) * (s.constraints[q.val]).value σ.noV := by
    have := hres σ.noV
    simpa [Weights.residual, zCombination, Assignment.noV] using this
  have e1 : ∀ j < s.V.length, - wt.wV.getD j 0 = ∑ q : Fin s.constraints.length, z ^ (q.val + 1) * (s.constraints[q.val]).coeffV j := by
    intro j hj
    have h1 := hres { σ with committed := fun i => if i = j then 1 else 0 }
    have h0 := hres σ.noV
    unfold zCombination at h1 h0
    have hs : ∀ q : Fin s.constraints.length, (s.constraints[q.val]).value { σ with committed := fun i => if i = j then 1 else 0 } = (s.constraints[q.val]).value σ.noV + (s.constraints[q.val]).coeffV j :=
      fun q => by rw [LC.value_split (hin' q)]; simp [hj]
    simp only [hs, mul_add, Finset.sum_add_distrib] at h1
    rw [← h0] at h1
    simp only [Weights.residual, Assignment.noV, mul_ite, mul_one, mul_zero, Finset.sum_const_zero, Finset.sum_ite_eq', Finset.mem_range, hj, if_true] at h1
    linear_combination h1
  rw [e0, Finset.sum_smul]
  simp only [LC.commitment_split (hin' _), smul_add, Finset.sum_add_distrib, Finset.smul_sum, smul_smul]
  rw [sub_eq_add_neg]
  congr 1
  rw [Finset.sum_comm, ← Finset.sum_neg_distrib]
  refine Finset.sum_congr rfl fun j hj => ?_
  rw [← neg_smul, e1 j (Finset.mem_range.mp hj), Finset.sum_smul]

end Bp
