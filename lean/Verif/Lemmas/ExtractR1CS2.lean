import Verif.Lemmas.ExtractR1CS

/-! # Extraction for the R1CS argument: the whole tree -/

set_option linter.unusedSectionVars false

namespace Bp
variable {F G : Type} [Field F] [AddCommGroup G] [Module F G]
open Finset

namespace R1CSTree
variable {k q : ℕ} {n1 : ℕ} {W : F → Weights F} {t : R1CSTree F G k q}

section mem
variable (n1 W t) (a : Fin (2 ^ k)) (b : Fin (q + 1)) (c : Fin 5) (d : Fin 6) (e : Fin 2)

theorem mem_gate : ((0 : ℕ → F), (0 : ℕ → F), ∑ i ∈ range (2 ^ k), (t.ys a).y ^ i * (t.left n1 W i * t.right n1 W i - t.out n1 W i),
    interp (fun b => ((t.ys a).zs b).z) (fun b => (((t.ys a).zs b).us 0).tau2) 0) ∈ t.relations n1 W :=
  List.mem_flatMap.mpr ⟨a, List.mem_finRange a, List.mem_append_left _ (List.mem_singleton.mpr rfl)⟩

theorem mem_bc {ρ : GenRep F} (h : ρ ∈ (
      let f := ((t.ys a).zs b).us c
      [((0 : ℕ → F), (0 : ℕ → F), f.t2 - (((t.ys a).zs b).us 0).t2, f.tau2 - (((t.ys a).zs b).us 0).tau2)] ++
      [t.phase1 n1 W 0 + f.u • t.phase2 n1 W 0 - f.extract n1 k (t.ys a).y (W ((t.ys a).zs b).z) 0,
       t.phase1 n1 W 1 + f.u • t.phase2 n1 W 1 - f.extract n1 k (t.ys a).y (W ((t.ys a).zs b).z) 1] ++
      (List.finRange 6).flatMap fun d =>
        let p := f.xs d
        [p.x • f.extract n1 k (t.ys a).y (W ((t.ys a).zs b).z) 0 + p.x ^ 2 • f.extract n1 k (t.ys a).y (W ((t.ys a).zs b).z) 1
            + p.x ^ 3 • f.extract n1 k (t.ys a).y (W ((t.ys a).zs b).z) 2 - p.wires n1 k (t.ys a).y f.u (W ((t.ys a).zs b).z),
         p.lr n1 k (t.ys a).y f.u 0 - p.lr n1 k (t.ys a).y f.u 1] ++
        (List.finRange 2).flatMap fun e => ((p.ipp e).relations k).map (IppRep.lift n1 (t.ys a).y f.u (p.w e)))) : ρ ∈ t.relations n1 W :=
  List.mem_flatMap.mpr ⟨a, List.mem_finRange a, List.mem_append_right _ (List.mem_flatMap.mpr ⟨b, List.mem_finRange b, List.mem_flatMap.mpr ⟨c, List.mem_finRange c, h⟩⟩)⟩

theorem mem_t2 : ((0 : ℕ → F), (0 : ℕ → F), (((t.ys a).zs b).us c).t2 - (((t.ys a).zs b).us 0).t2, (((t.ys a).zs b).us c).tau2 - (((t.ys a).zs b).us 0).tau2) ∈ t.relations n1 W :=
  t.mem_bc n1 W a b c (List.mem_append_left _ (List.mem_append_left _ (List.mem_singleton.mpr rfl)))
theorem mem_in : t.phase1 n1 W 0 + (((t.ys a).zs b).us c).u • t.phase2 n1 W 0 - (((t.ys a).zs b).us c).extract n1 k (t.ys a).y (W ((t.ys a).zs b).z) 0 ∈ t.relations n1 W :=
  t.mem_bc n1 W a b c (List.mem_append_left _ (List.mem_append_right _ List.mem_cons_self))
theorem mem_out : t.phase1 n1 W 1 + (((t.ys a).zs b).us c).u • t.phase2 n1 W 1 - (((t.ys a).zs b).us c).extract n1 k (t.ys a).y (W ((t.ys a).zs b).z) 1 ∈ t.relations n1 W :=
  t.mem_bc n1 W a b c (List.mem_append_left _ (List.mem_append_right _ (List.mem_cons_of_mem _ List.mem_cons_self)))
theorem mem_x : ((((t.ys a).zs b).us c).xs d).x • (((t.ys a).zs b).us c).extract n1 k (t.ys a).y (W ((t.ys a).zs b).z) 0
    + ((((t.ys a).zs b).us c).xs d).x ^ 2 • (((t.ys a).zs b).us c).extract n1 k (t.ys a).y (W ((t.ys a).zs b).z) 1
    + ((((t.ys a).zs b).us c).xs d).x ^ 3 • (((t.ys a).zs b).us c).extract n1 k (t.ys a).y (W ((t.ys a).zs b).z) 2
    - ((((t.ys a).zs b).us c).xs d).wires n1 k (t.ys a).y (((t.ys a).zs b).us c).u (W ((t.ys a).zs b).z) ∈ t.relations n1 W :=
  t.mem_bc n1 W a b c (List.mem_append_right _ (List.mem_flatMap.mpr ⟨d, List.mem_finRange d, List.mem_append_left _ List.mem_cons_self⟩))
theorem mem_lr : ((((t.ys a).zs b).us c).xs d).lr n1 k (t.ys a).y (((t.ys a).zs b).us c).u 0 - ((((t.ys a).zs b).us c).xs d).lr n1 k (t.ys a).y (((t.ys a).zs b).us c).u 1 ∈ t.relations n1 W :=
  t.mem_bc n1 W a b c (List.mem_append_right _ (List.mem_flatMap.mpr ⟨d, List.mem_finRange d, List.mem_append_left _ (List.mem_cons_of_mem _ List.mem_cons_self)⟩))
theorem mem_ipp {ρ : IppRep F} (hρ : ρ ∈ (((((t.ys a).zs b).us c).xs d).ipp e).relations k) :
    ρ.lift n1 (t.ys a).y (((t.ys a).zs b).us c).u (((((t.ys a).zs b).us c).xs d).w e) ∈ t.relations n1 W :=
  t.mem_bc n1 W a b c (List.mem_append_right _ (List.mem_flatMap.mpr ⟨d, List.mem_finRange d, List.mem_append_right _ (List.mem_flatMap.mpr ⟨e, List.mem_finRange e, List.mem_map.mpr ⟨ρ, hρ, rfl⟩⟩)⟩))
end mem

/-! ## Accepted trees -/

/-- `A_I1 + u A_I2` and so on. -/
def comb3 (t : R1CSTree F G k q) (x u : F) : G := x • (t.A_I1 + u • t.A_I2) + x ^ 2 • (t.A_O1 + u • t.A_O2) + x ^ 3 • (t.S1 + u • t.S2)

/-- The inner-product equations hold on all branches. -/
def IppOk (t : R1CSTree F G k q) (n1 : ℕ) (W : F → Weights F) (g h : G) (Gs Hs : ℕ → G) : Prop :=
  ∀ a b c d e, let y := (t.ys a).y; let wt := W ((t.ys a).zs b).z; let u := (((t.ys a).zs b).us c).u; let f := (((t.ys a).zs b).us c).xs d
    (f.ipp e).Accepted k (f.w e • g) (fun i => ufac n1 u i • Gs i) (fun i => (vpow y⁻¹ i * ufac n1 u i) • Hs i)
      ((t.comb3 f.x u - f.e_blinding • h
      + ∑ i ∈ range (2 ^ k), (ufac n1 u i * (f.x * (vpow y⁻¹ i * wt.wR.getD i 0))) • Gs i
      + ∑ i ∈ range (2 ^ k), (ufac n1 u i * (vpow y⁻¹ i * (f.x * wt.wL.getD i 0 + wt.wO.getD i 0) - 1)) • Hs i) + (f.w e * f.t_x) • g)

/-- The polynomial-commitment equations hold on all branches. -/
def PolyOk (t : R1CSTree F G k q) (W : F → Weights F) (n : ℕ) (V : List G) (g h : G) : Prop :=
  ∀ a b c d, let wt := W ((t.ys a).zs b).z; let f := (((t.ys a).zs b).us c).xs d; let p := (t.ys a).zs b
    f.t_x • g + f.t_x_blinding • h = f.x • p.T_1 + f.x ^ 2 • (∑ j ∈ range V.length, wt.wV.getD j 0 • V.getD j 0 + (wt.wc + delta wt (t.ys a).y n) • g)
      + f.x ^ 3 • p.T_3 + f.x ^ 4 • p.T_4 + f.x ^ 5 • p.T_5 + f.x ^ 6 • p.T_6

section extract
variable {g h : G} {Gs Hs : ℕ → G} (hf : t.Full) (hi : t.IppOk n1 W g h Gs Hs)
include hf hi

theorem wires_val (a : Fin (2 ^ k)) (b : Fin (q + 1)) (c : Fin 5) (d : Fin 6) :
    genVal (2 ^ k) g h Gs Hs (((((t.ys a).zs b).us c).xs d).wires n1 k (t.ys a).y (((t.ys a).zs b).us c).u (W ((t.ys a).zs b).z)) = t.comb3 ((((t.ys a).zs b).us c).xs d).x (((t.ys a).zs b).us c).u :=
  wires_value (lr_value 0 (hf.ipp a b c d 0) (hi a b c d 0))

theorem extract_val (a : Fin (2 ^ k)) (b : Fin (q + 1)) (c : Fin 5) (e : ℕ) (he : e < 3) :
    genVal (2 ^ k) g h Gs Hs ((((t.ys a).zs b).us c).extract n1 k (t.ys a).y (W ((t.ys a).zs b).z) e) =
      if e = 0 then t.A_I1 + (((t.ys a).zs b).us c).u • t.A_I2 else if e = 1 then t.A_O1 + (((t.ys a).zs b).us c).u • t.A_O2 else t.S1 + (((t.ys a).zs b).us c).u • t.S2 :=
  extract3_value (hf.x0 a b c) (hf.xd a b c) (fun d => t.wires_val hf hi a b c d) e he

theorem phase_val (e : ℕ) (he : e < 3) : genVal (2 ^ k) g h Gs Hs (t.phase1 n1 W e) = (if e = 0 then t.A_I1 else if e = 1 then t.A_O1 else t.S1) ∧
    genVal (2 ^ k) g h Gs Hs (t.phase2 n1 W e) = (if e = 0 then t.A_I2 else if e = 1 then t.A_O2 else t.S2) := by
  have hX : ∀ c : Fin 2, genVal (2 ^ k) g h Gs Hs ((t.z₀.us (c.castLE (by decide))).extract n1 k t.y₀.y (W t.z₀.z) e) = ∑ p ∈ range 2, (t.z₀.us (c.castLE (by decide))).u ^ p •
      (if p = 0 then (if e = 0 then t.A_I1 else if e = 1 then t.A_O1 else t.S1) else (if e = 0 then t.A_I2 else if e = 1 then t.A_O2 else t.S2)) := by
    intro c
    have := t.extract_val hf hi ⟨0, Nat.two_pow_pos k⟩ 0 (c.castLE (by decide)) e he
    refine Eq.trans this ?_
    simp only [Finset.sum_range_succ, Finset.sum_range_zero, pow_zero, pow_one, one_smul, zero_add, if_true, one_ne_zero, if_false]
    split
    · rfl
    · split <;> rfl
  have hd : ∀ i j : Fin 2, i ≠ j → (t.z₀.us (i.castLE (by decide))).u ≠ (t.z₀.us (j.castLE (by decide))).u := fun i j hij => hf.ud _ _ _ _ fun h => hij (Fin.castLE_injective _ h)
  constructor
  · rw [phase1, map_interp]
    exact interp_eq (c := fun p => if p = 0 then (if e = 0 then t.A_I1 else if e = 1 then t.A_O1 else t.S1) else (if e = 0 then t.A_I2 else if e = 1 then t.A_O2 else t.S2)) hd hX (show 0 < 2 by decide)
  · rw [phase2, map_interp]
    exact interp_eq (c := fun p => if p = 0 then (if e = 0 then t.A_I1 else if e = 1 then t.A_O1 else t.S1) else (if e = 0 then t.A_I2 else if e = 1 then t.A_O2 else t.S2)) hd hX (show 1 < 2 by decide)

variable (hno : ∀ ρ ∈ t.relations n1 W, genVal (2 ^ k) g h Gs Hs ρ = 0 → ρ.Trivial (2 ^ k))
include hno

theorem in_eq (a : Fin (2 ^ k)) (b : Fin (q + 1)) (c : Fin 5) :
    (t.phase1 n1 W 0 + (((t.ys a).zs b).us c).u • t.phase2 n1 W 0 - (((t.ys a).zs b).us c).extract n1 k (t.ys a).y (W ((t.ys a).zs b).z) 0).Trivial (2 ^ k) := by
  refine hno _ (t.mem_in n1 W a b c) ?_
  rw [map_sub, map_add, map_smul, (t.phase_val hf hi 0 (by decide)).1, (t.phase_val hf hi 0 (by decide)).2, t.extract_val hf hi a b c 0 (by decide)]
  simp

theorem out_eq (a : Fin (2 ^ k)) (b : Fin (q + 1)) (c : Fin 5) :
    (t.phase1 n1 W 1 + (((t.ys a).zs b).us c).u • t.phase2 n1 W 1 - (((t.ys a).zs b).us c).extract n1 k (t.ys a).y (W ((t.ys a).zs b).z) 1).Trivial (2 ^ k) := by
  refine hno _ (t.mem_out n1 W a b c) ?_
  rw [map_sub, map_add, map_smul, (t.phase_val hf hi 1 (by decide)).1, (t.phase_val hf hi 1 (by decide)).2, t.extract_val hf hi a b c 1 (by decide)]
  simp

theorem x_eq (a : Fin (2 ^ k)) (b : Fin (q + 1)) (c : Fin 5) (d : Fin 6) :
    (((((t.ys a).zs b).us c).xs d).x • (((t.ys a).zs b).us c).extract n1 k (t.ys a).y (W ((t.ys a).zs b).z) 0
    + ((((t.ys a).zs b).us c).xs d).x ^ 2 • (((t.ys a).zs b).us c).extract n1 k (t.ys a).y (W ((t.ys a).zs b).z) 1
    + ((((t.ys a).zs b).us c).xs d).x ^ 3 • (((t.ys a).zs b).us c).extract n1 k (t.ys a).y (W ((t.ys a).zs b).z) 2
    - ((((t.ys a).zs b).us c).xs d).wires n1 k (t.ys a).y (((t.ys a).zs b).us c).u (W ((t.ys a).zs b).z)).Trivial (2 ^ k) := by
  refine hno _ (t.mem_x n1 W a b c d) ?_
  rw [map_sub, map_add, map_add, map_smul, map_smul, map_smul, t.extract_val hf hi a b c 0 (by decide), t.extract_val hf hi a b c 1 (by decide), t.extract_val hf hi a b c 2 (by decide),
    t.wires_val hf hi a b c d]
  simp [comb3]

theorem tx_eq (a : Fin (2 ^ k)) (b : Fin (q + 1)) (c : Fin 5) (d : Fin 6) : ((((t.ys a).zs b).us c).xs d).t_x =
    ∑ i ∈ range (2 ^ k), (((((t.ys a).zs b).us c).xs d).ipp 0 |>.extract k).1 i * (((((t.ys a).zs b).us c).xs d).ipp 0 |>.extract k).2.1 i :=
  lr_product (h := h) (hf.y0 a) (hf.u0 a b c) (hf.w0 a b c d) (hf.wd a b c d) (hf.ipp a b c d) (hi a b c d) (fun e _ hρ => hno _ (t.mem_ipp n1 W a b c d e hρ)) (hno _ (t.mem_lr n1 W a b c d))

variable {n : ℕ} {V : List G} (hp : t.PolyOk W n V g h)
include hp

omit hi hno in
theorem t2_val (a : Fin (2 ^ k)) (b : Fin (q + 1)) (c : Fin 5) :
    ∑ j ∈ range V.length, (W ((t.ys a).zs b).z).wV.getD j 0 • V.getD j 0 + ((W ((t.ys a).zs b).z).wc + delta (W ((t.ys a).zs b).z) (t.ys a).y n) • g =
      (((t.ys a).zs b).us c).t2 • g + (((t.ys a).zs b).us c).tau2 • h := t2_commit (hf.x0 a b c) (hf.xd a b c) (hp a b c)

theorem t2_scalar (a : Fin (2 ^ k)) (b : Fin (q + 1)) : let wt := W ((t.ys a).zs b).z; let y := (t.ys a).y
    (((t.ys a).zs b).us 0).t2 = ∑ i ∈ range (2 ^ k), ((t.left n1 W i + vpow y⁻¹ i * wt.wR.getD i 0) * (wt.wL.getD i 0 + y ^ i * t.right n1 W i) + t.out n1 W i * (wt.wO.getD i 0 - y ^ i)) := by
  refine u_const (hf.u0 a b) (hf.ud a b) fun c => ?_
  have hc : (((t.ys a).zs b).us 0).t2 = (((t.ys a).zs b).us c).t2 := by
    obtain ⟨-, -, h1, -⟩ := hno _ (t.mem_t2 n1 W a b c) (by
      have e1 := t.t2_val hf hp a b c
      have e2 := t.t2_val hf hp a b 0
      rw [genVal_apply]
      simp only [Pi.zero_apply, zero_smul, Finset.sum_const_zero, zero_add, sub_smul]
      rw [e2] at e1
      rw [sub_add_sub_comm, e1, sub_self])
    exact (sub_eq_zero.mp h1).symm
  rw [hc, t2_eq (hf.y0 a) (hf.u0 a b c) (hf.x0 a b c) (hf.xd a b c) (t.x_eq hf hi hno a b c) (t.tx_eq hf hi hno a b c)]
  refine Finset.sum_congr rfl fun i hir => ?_
  have hir := Finset.mem_range.mp hir
  have i1 := (t.in_eq hf hi hno a b c).1 i hir
  have i2 := (t.in_eq hf hi hno a b c).2.1 i hir
  have i3 := (t.out_eq hf hi hno a b c).1 i hir
  simp only [Prod.fst_sub, Prod.fst_add, Prod.smul_fst, Prod.snd_sub, Prod.snd_add, Prod.smul_snd, Pi.sub_apply, Pi.add_apply, Pi.smul_apply, smul_eq_mul, sub_eq_zero] at i1 i2 i3
  rw [← i1, ← i2, ← i3]

end extract

theorem sum_range_zero_tail {n N : ℕ} (hn : n ≤ N) {f : ℕ → F} (h : ∀ i, n ≤ i → f i = 0) : ∑ i ∈ range N, f i = ∑ i ∈ range n, f i := by
  symm
  refine Finset.sum_subset (fun i hi => Finset.mem_range.mpr (lt_of_lt_of_le (Finset.mem_range.mp hi) hn)) fun i _ hi => h i ?_
  simpa using hi

/-- The whole extraction: without non-trivial relations, the gates hold and every constraint is a commitment to zero. -/
theorem extract_all {g h : G} {Gs Hs : ℕ → G} (s2 : Verifier F G) (hn : s2.numVars ≤ 2 ^ k) (hq : s2.constraints.length = q) (hf : t.Full)
    (hw : ∀ a b, s2.flattenedConstraints ((t.ys a).zs b).z = .ok (W ((t.ys a).zs b).z)) (hi : t.IppOk n1 W g h Gs Hs) (hp : t.PolyOk W s2.numVars s2.V g h)
    (hno : ∀ ρ ∈ t.relations n1 W, genVal (2 ^ k) g h Gs Hs ρ = 0 → ρ.Trivial (2 ^ k)) (v : ℕ → F) :
    (∀ i < 2 ^ k, t.out n1 W i = t.left n1 W i * t.right n1 W i) ∧
    ∀ j (hj : j < s2.constraints.length), (s2.constraints[j]).commitment (t.assignment n1 W s2.numVars v) g s2.V = t.blinding j • h := by
  subst hq
  set γ : Fin (2 ^ k) → F := fun a => ∑ i ∈ range (2 ^ k), (t.ys a).y ^ i * (t.left n1 W i * t.right n1 W i - t.out n1 W i) with hγ
  set K : ℕ → G := fun j => (s2.constraints.getD j ⟨[]⟩).commitment (t.assignment n1 W s2.numVars v) g s2.V with hK
  have key : ∀ a b, - (((t.ys a).zs b).us 0).tau2 • h = ∑ p ∈ range (s2.constraints.length + 1), ((t.ys a).zs b).z ^ p • (if p = 0 then γ a • g else K (p - 1)) := by
    intro a b
    set wt := W ((t.ys a).zs b).z with hwt
    set y := (t.ys a).y with hyy
    have hy : y ≠ 0 := hf.y0 a
    have h1 := t.t2_val hf hp a b 0
    have h2 := t.t2_scalar hf hi hno hp a b
    have h3 := residual_commit (hw a b) (t.assignment n1 W s2.numVars v) g
    obtain ⟨-, hlen, -⟩ := Verifier.flattened_ok (hw a b)
    simp only at h2
    rw [← hwt, ← hyy] at h2
    rw [← hwt] at h1 h3 hlen
    have gL : ∀ i, s2.numVars ≤ i → wt.wL.getD i 0 = 0 := fun i hi => by rw [List.getD_eq_getElem?_getD, List.getElem?_eq_none (by rw [hlen.L]; exact hi)]; rfl
    have gR : ∀ i, s2.numVars ≤ i → wt.wR.getD i 0 = 0 := fun i hi => by rw [List.getD_eq_getElem?_getD, List.getElem?_eq_none (by rw [hlen.R]; exact hi)]; rfl
    have gO : ∀ i, s2.numVars ≤ i → wt.wO.getD i 0 = 0 := fun i hi => by rw [List.getD_eq_getElem?_getD, List.getElem?_eq_none (by rw [hlen.O]; exact hi)]; rfl
    have h4 : (((t.ys a).zs b).us 0).t2 = delta wt y s2.numVars + γ a + (∑ i ∈ range s2.numVars, wt.wL.getD i 0 * (t.assignment n1 W s2.numVars v).left i
        + ∑ i ∈ range s2.numVars, wt.wR.getD i 0 * (t.assignment n1 W s2.numVars v).right i + ∑ i ∈ range s2.numVars, wt.wO.getD i 0 * (t.assignment n1 W s2.numVars v).out i) := by
      have q1 : delta wt y s2.numVars = ∑ i ∈ range (2 ^ k), vpow y⁻¹ i * wt.wR.getD i 0 * wt.wL.getD i 0 := (sum_range_zero_tail hn fun i hi => by rw [gL i hi, mul_zero]).symm
      have q2 : ∑ i ∈ range s2.numVars, wt.wL.getD i 0 * (t.assignment n1 W s2.numVars v).left i = ∑ i ∈ range (2 ^ k), wt.wL.getD i 0 * t.left n1 W i := by
        rw [sum_range_zero_tail hn fun i hi => by rw [gL i hi, zero_mul]]
        exact Finset.sum_congr rfl fun i hi => by rw [assignment]; simp only; rw [if_pos (Finset.mem_range.mp hi)]
      have q3 : ∑ i ∈ range s2.numVars, wt.wR.getD i 0 * (t.assignment n1 W s2.numVars v).right i = ∑ i ∈ range (2 ^ k), wt.wR.getD i 0 * t.right n1 W i := by
        rw [sum_range_zero_tail hn fun i hi => by rw [gR i hi, zero_mul]]
        exact Finset.sum_congr rfl fun i hi => by rw [assignment]; simp only; rw [if_pos (Finset.mem_range.mp hi)]
      have q4 : ∑ i ∈ range s2.numVars, wt.wO.getD i 0 * (t.assignment n1 W s2.numVars v).out i = ∑ i ∈ range (2 ^ k), wt.wO.getD i 0 * t.out n1 W i := by
        rw [sum_range_zero_tail hn fun i hi => by rw [gO i hi, zero_mul]]
        exact Finset.sum_congr rfl fun i hi => by rw [assignment]; simp only; rw [if_pos (Finset.mem_range.mp hi)]
      rw [h2, q1, q2, q3, q4, hγ]
      simp only [← Finset.sum_add_distrib]
      refine Finset.sum_congr rfl fun i _ => ?_
      rw [← hyy, vpow_inv hy, inv_pow]
      have := pow_ne_zero i hy
      generalize y ^ i = Y at *
      field_simp
      ring
    rw [Finset.sum_range_succ']
    simp only [pow_zero, one_smul, if_true, Nat.add_sub_cancel, Nat.succ_ne_zero, if_false]
    rw [Finset.sum_range]
    have h5 : ∑ q : Fin s2.constraints.length, ((t.ys a).zs b).z ^ (q.val + 1) • K q.val = ∑ q : Fin s2.constraints.length, ((t.ys a).zs b).z ^ (q.val + 1) • (s2.constraints[q.val]).commitment (t.assignment n1 W s2.numVars v) g s2.V :=
      Finset.sum_congr rfl fun q _ => by rw [hK]; simp only; rw [List.getD_eq_getElem?_getD, List.getElem?_eq_getElem q.isLt, Option.getD_some]
    rw [h5, ← h3]
    rw [h4] at h1
    rw [eq_sub_of_add_eq h1]
    module
  have hz : ∀ a, ∀ e < s2.constraints.length + 1, - interp (fun b => ((t.ys a).zs b).z) (fun b => (((t.ys a).zs b).us 0).tau2) e • h = if e = 0 then γ a • g else K (e - 1) := by
    intro a e he
    have := interp_eq (c := fun p => if p = 0 then γ a • g else K (p - 1)) (hf.zd a) (key a) he
    rw [interp_smul_const, interp_neg] at this
    exact this
  have hγ0 : ∀ a, γ a = 0 := by
    intro a
    have h1 := hz a 0 (by omega)
    obtain ⟨-, -, h2, -⟩ := hno _ (t.mem_gate n1 W a) (by
      rw [genVal_apply]
      simp only [Pi.zero_apply, zero_smul, Finset.sum_const_zero, zero_add]
      simp only [if_true] at h1
      have : γ a = ∑ i ∈ range (2 ^ k), (t.ys a).y ^ i * (t.left n1 W i * t.right n1 W i - t.out n1 W i) := rfl
      rw [← this, ← h1, neg_smul, neg_add_cancel])
    exact h2
  refine ⟨fun i hi => ?_, fun j hj => ?_⟩
  · have := interp_eq (x := fun a => (t.ys a).y) (X := fun _ => (0 : F)) (c := fun i => t.left n1 W i * t.right n1 W i - t.out n1 W i) hf.yd (fun a => (hγ0 a).symm) hi
    rw [show interp (fun a => (t.ys a).y) (fun _ => (0 : F)) i = 0 by simp [interp]] at this
    exact (sub_eq_zero.mp this.symm).symm
  · have := hz ⟨0, Nat.two_pow_pos k⟩ (j + 1) (by omega)
    simp only [Nat.add_one_ne_zero, if_false, Nat.add_sub_cancel] at this
    rw [blinding]
    refine Eq.trans ?_ this.symm
    rw [hK]
    simp only
    rw [List.getD_eq_getElem?_getD, List.getElem?_eq_getElem hj, Option.getD_some]

end R1CSTree

end Bp
