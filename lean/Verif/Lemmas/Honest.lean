import Verif.Lemmas.Prove
import Verif.Props.Flatten
import Verif.Props.CS
import Verif.Props.Ipp

set_option linter.unusedSectionVars false
set_option linter.unusedSimpArgs false

namespace Bp
variable {F G : Type} [Field F] [AddCommGroup G] [Module F G]
open Finset

theorem getD_take {α} (xs : List α) (n i : ℕ) (d : α) (h : i < n) : (xs.take n).getD i d = xs.getD i d := by
  simp [List.getD_eq_getElem?_getD, List.getElem?_take, h]

theorem getD_drop' {α} (xs : List α) (n i : ℕ) (d : α) : (xs.drop n).getD i d = xs.getD (n + i) d := by
  simp [List.getD_eq_getElem?_getD, List.getElem?_drop]

/-- First-phase plus `u` times second-phase commitment is one commitment over all generators. -/
theorem msm_split (a : List F) (Gs : List G) (n1 N : ℕ) (u : F) (h1 : n1 ≤ a.length) (hN : a.length ≤ N) (hG : N ≤ Gs.length) :
    msm (a.take n1) (Gs.take n1) + u • msm (a.drop n1) ((Gs.drop n1).take (a.length - n1)) =
      ∑ i ∈ range N, (ufac n1 u i * a.getD i 0) • (Gs.take N).getD i 0 := by
  have e : ∑ i ∈ range N, (ufac n1 u i * a.getD i 0) • (Gs.take N).getD i 0 =
      ∑ i ∈ range a.length, (ufac n1 u i * a.getD i 0) • Gs.getD i 0 := by
    obtain ⟨m, rfl⟩ := Nat.exists_eq_add_of_le hN
    rw [sum_range_add]
    have : ∑ x ∈ range m, (ufac n1 u (a.length + x) * a.getD (a.length + x) 0) • (Gs.take (a.length + m)).getD (a.length + x) 0 = 0 := by
      apply sum_eq_zero
      intro i _
      rw [getD_ge a 0 (by omega), mul_zero, zero_smul]
    rw [this, add_zero]
    apply sum_congr rfl
    intro i hi
    rw [getD_take _ _ _ _ (by have := mem_range.mp hi; omega)]
  rw [e]
  obtain ⟨m, hm⟩ := Nat.exists_eq_add_of_le h1
  rw [hm, Nat.add_sub_cancel_left, sum_range_add, msm_eq_sum (n := n1) (by simp; omega) (by simp; omega), msm_eq_sum (n := m) (by simp; omega) (by simp; omega), smul_sum]
  congr 1
  · apply sum_congr rfl
    intro i hi
    have hi := mem_range.mp hi
    rw [getD_take _ _ _ _ hi, getD_take _ _ _ _ hi, ufac, if_pos hi, one_mul]
  · apply sum_congr rfl
    intro i hi
    have hi := mem_range.mp hi
    rw [getD_take _ _ _ _ hi, getD_drop', getD_drop', ufac, if_neg (by omega), mul_smul]

/-- The commitments of the verifier combine to a Pedersen commitment of the combination. -/
theorem sum_commit (w v b : List F) (g h : G) (m : ℕ) (hw : w.length = m) (hv : v.length = m) (hb : b.length = m) :
    ∑ j ∈ range (List.zipWith (commitScalar g h) v b).length, w.getD j 0 • (List.zipWith (commitScalar g h) v b).getD j 0 =
      dot w v • g + dot w b • h := by
  rw [dot_eq_sum hw hv, dot_eq_sum hw hb, sum_smul, sum_smul, ← sum_add_distrib]
  have : (List.zipWith (commitScalar g h) v b).length = m := by simp [hv, hb]
  rw [this]
  apply sum_congr rfl
  intro i hi
  have hi := mem_range.mp hi
  rw [getD_zipWith _ _ _ _ _ 0 0 (by omega) (by omega), commitScalar, smul_add, mul_smul, mul_smul]

/-- The quadratic coefficient of the product polynomial. -/
theorem sip_t2 (p : Prover F G) (hw : p.WF) (w : Weights F) (m : ℕ) (hl : w.Len p.aL.length m) (y : F) (hy : y ≠ 0) (sL sR : List F) :
    ((hlp p w y sL p.aL.length).sip (hrp p w y sR p.aL.length)).t2 =
      ∑ i ∈ range p.aL.length, w.wL.getD i 0 * p.assignment.left i + ∑ i ∈ range p.aL.length, w.wR.getD i 0 * p.assignment.right i +
        ∑ i ∈ range p.aL.length, w.wO.getD i 0 * p.assignment.out i + delta w y p.aL.length := by
  simp only [VecPoly3.sip, hlp, hrp, delta]
  rw [dot_eq_sum (n := p.aL.length) (by simp) (by simp), dot_eq_sum (n := p.aL.length) (by simp) (by simp), ← sum_add_distrib, ← sum_add_distrib,
    ← sum_add_distrib, ← sum_add_distrib]
  apply sum_congr rfl
  intro i hi
  have hi := mem_range.mp hi
  simp only [getD_map_range, hi, if_true, Prover.assignment]
  rw [hw.gates i]
  have : vpow y⁻¹ i * y ^ i = 1 := by rw [vpow_inv hy, ← mul_pow, inv_mul_cancel₀ hy, one_pow]
  linear_combination (w.wR.getD i 0 * p.aR.getD i 0) * this

/-- Honest polynomial check: it is the violation of the combined constraints. -/
theorem Honest.polyCheck_eq {env : Env F G} {p p2 : Prover F G} {c : Coins F} {Gs Hs : List G} {k : ℕ} {ch : Chals F} {wp : Weights F}
    {lp rp : VecPoly3 F} {pr : R1CSProof F G} {t' : Transcript F G} (H : Honest env p p2 c Gs Hs k ch wp lp rp pr t') (hw2 : p2.WF) (s2 : Verifier F G)
    (hst : InStep p2 s2) (wt : Weights F) (hwt : s2.flattenedConstraints ch.z = .ok wt) (hL : wt.wL = wp.wL) (hR : wt.wR = wp.wR)
    (hO : wt.wO = wp.wO) (hV : wt.wV = wp.wV) (hy : ch.y ≠ 0) :
    polyCheck s2.V pr p2.g p2.h wt s2.numVars ch = -((ch.x ^ 2 * zCombination ch.z s2.constraints p2.assignment) • p2.g) := by
  have hl := Prover.flattened_len H.hwp
  have hres := (Verifier.flattened_ok hwt).2.2 p2.assignment
  have hVl : s2.V.length = p2.v.length := by rw [hst.V]; simp [hw2.lenB]
  have ht2 := sip_t2 p2 hw2 wp _ hl ch.y hy (randomVec c.sL1 p.aL.length ++ randomVec c.sL2 (p2.aL.length - p.aL.length))
    (randomVec c.sR1 p.aL.length ++ randomVec c.sR2 (p2.aL.length - p.aL.length))
  rw [← H.hlp, ← H.hrp] at ht2
  have hd : delta wt ch.y s2.numVars = delta wp ch.y p2.aL.length := by simp only [delta, hL, hR, hst.num]
  have hsum := sum_commit wp.wV p2.v p2.vBlinding p2.g p2.h _ hl.V rfl hw2.lenB
  rw [← hst.V] at hsum
  have hdot : ∑ j ∈ range s2.V.length, wt.wV.getD j 0 * p2.assignment.committed j = dot wp.wV p2.v := by
    rw [hVl, dot_eq_sum hl.V rfl, hV]; rfl
  unfold Weights.residual at hres
  rw [hdot, hL, hR, hO, hst.num] at hres
  unfold polyCheck
  rw [hd, hV, hsum, H.hT_1, H.hT_3, H.hT_4, H.hT_5, H.hT_6, H.ht_x, H.ht_x_blinding, ← hres]
  simp only [Poly6.eval, commitScalar]
  generalize lp.sip rp = tp at ht2 ⊢
  obtain ⟨t1, t2, t3, t4, t5, t6⟩ := tp
  simp only at ht2 ⊢
  subst ht2
  module

end Bp

namespace Bp
variable {F G : Type} [Field F] [AddCommGroup G] [Module F G]
open Finset

theorem getD_hlvec (lp : VecPoly3 F) (x : F) (n pad i : ℕ) : (hlvec lp x n pad).getD i 0 =
    if i < n then lp.c0.getD i 0 + x * (lp.c1.getD i 0 + x * (lp.c2.getD i 0 + x * lp.c3.getD i 0)) else 0 := by
  rw [hlvec, getD_append, getD_map_range, getD_replicate, ite_self]
  simp only [List.length_map, List.length_range]
  split <;> rfl

theorem getD_hrvec (rp : VecPoly3 F) (x y : F) (n N i : ℕ) (hi : i < N) : (hrvec rp x y n (N - n)).getD i 0 =
    if i < n then rp.c0.getD i 0 + x * (rp.c1.getD i 0 + x * (rp.c2.getD i 0 + x * rp.c3.getD i 0)) else -(y ^ i) := by
  rw [hrvec, getD_append, getD_map_range, getD_map_range]
  simp only [List.length_map, List.length_range]
  split
  · rfl
  · rename_i h
    rw [if_pos (by omega), show n + (i - n) = i by omega]

/-- The inner product of the two vectors is the value of the product polynomial. -/
theorem dot_hvec (lp rp : VecPoly3 F) (x y : F) (n N : ℕ) (hn : n ≤ N) (h1 : lp.c1.length = n)
    (h2 : lp.c2.length = n) (h3 : lp.c3.length = n) (k0 : rp.c0.length = n) (k1 : rp.c1.length = n) (k3 : rp.c3.length = n)
    (hl : ∀ i, i < n → lp.c0.getD i 0 = 0) (hr : ∀ i, i < n → rp.c2.getD i 0 = 0) :
    dot (hlvec lp x n (N - n)) (hrvec rp x y n (N - n)) = (lp.sip rp).eval x := by
  rw [← VecPoly3.sip_eval lp rp h1 h2 h3 k0 k1 k3 hl hr x, dot_eq_sum (length_hlvec lp x n N hn) (length_hrvec rp x y n N hn)]
  obtain ⟨m, rfl⟩ := Nat.exists_eq_add_of_le hn
  rw [sum_range_add]
  have : ∑ i ∈ range m, (hlvec lp x n (n + m - n)).getD (n + i) 0 * (hrvec rp x y n (n + m - n)).getD (n + i) 0 = 0 := by
    apply sum_eq_zero
    intro i _
    rw [getD_hlvec, if_neg (by omega), zero_mul]
  rw [this, add_zero]
  apply sum_congr rfl
  intro i hi
  have hi := mem_range.mp hi
  rw [getD_hlvec, getD_hrvec _ _ _ _ _ _ (by omega), if_pos hi, if_pos hi]

/-- Honest inner-product statement: the verifier's point is the commitment to the prover's vectors. -/
theorem Honest.ippPoint_eq {env : Env F G} {p p2 : Prover F G} {c : Coins F} {Gs Hs : List G} {k : ℕ} {ch : Chals F} {wp : Weights F}
    {lp rp : VecPoly3 F} {pr : R1CSProof F G} {t' : Transcript F G} (H : Honest env p p2 c Gs Hs k ch wp lp rp pr t') (hw : p.WF) (hw2 : p2.WF)
    (hn1 : p.aL.length ≤ p2.aL.length) (hnN : p2.aL.length ≤ 2 ^ k) (hG : 2 ^ k ≤ Gs.length) (hH : 2 ^ k ≤ Hs.length)
    (tL : p2.aL.take p.aL.length = p.aL) (tR : p2.aR.take p.aL.length = p.aR) (tO : p2.aO.take p.aL.length = p.aO) (hh : p2.h = p.h)
    (wt : Weights F) (hL : wt.wL = wp.wL) (hR : wt.wR = wp.wR) (hO : wt.wO = wp.wO) (hy : ch.y ≠ 0) :
    ippPoint p.aL.length (2 ^ k) pr p2.h (Gs.take (2 ^ k)) (Hs.take (2 ^ k)) wt ch + (ch.w * pr.t_x) • p2.g =
      ippCommit (ch.w • p2.g) (ippG p.aL.length (2 ^ k) ch.u (Gs.take (2 ^ k))) (ippH p.aL.length (2 ^ k) ch.u ch.y (Hs.take (2 ^ k)))
        (hlvec lp ch.x p2.aL.length (2 ^ k - p2.aL.length)) (hrvec rp ch.x ch.y p2.aL.length (2 ^ k - p2.aL.length)) := by
  have hl := Prover.flattened_len H.hwp
  obtain ⟨n1, hn1e⟩ : ∃ n, n = p.aL.length := ⟨_, rfl⟩
  obtain ⟨n, hne⟩ : ∃ n, n = p2.aL.length := ⟨_, rfl⟩
  obtain ⟨N, hNe⟩ : ∃ N, N = 2 ^ k := ⟨_, rfl⟩
  obtain ⟨sL, hsL⟩ : ∃ s, s = randomVec c.sL1 p.aL.length ++ randomVec c.sL2 (p2.aL.length - p.aL.length) := ⟨_, rfl⟩
  obtain ⟨sR, hsR⟩ : ∃ s, s = randomVec c.sR1 p.aL.length ++ randomVec c.sR2 (p2.aL.length - p.aL.length) := ⟨_, rfl⟩
  have lsL : sL.length = p2.aL.length := by rw [hsL]; simp [length_randomVec]; omega
  have lsR : sR.length = p2.aL.length := by rw [hsR]; simp [length_randomVec]; omega
  have e1 := hw2.lenR
  have e2 := hw2.lenO
  have xL := msm_split p2.aL Gs p.aL.length (2 ^ k) ch.u hn1 hnN hG
  have xR := msm_split p2.aR Hs p.aL.length (2 ^ k) ch.u (by omega) (by omega) hH
  have xO := msm_split p2.aO Gs p.aL.length (2 ^ k) ch.u (by omega) (by omega) hG
  have xsL := msm_split sL Gs p.aL.length (2 ^ k) ch.u (by omega) (by omega) hG
  have xsR := msm_split sR Hs p.aL.length (2 ^ k) ch.u (by omega) (by omega) hH
  rw [lsL, hsL, List.take_left' (length_randomVec _ _), List.drop_left' (length_randomVec _ _), ← hsL] at xsL
  rw [lsR, hsR, List.take_left' (length_randomVec _ _), List.drop_left' (length_randomVec _ _), ← hsR] at xsR
  rw [tL] at xL
  rw [tR, e1] at xR
  rw [tO, e2] at xO
  have hlp' := H.hlp
  have hrp' := H.hrp
  rw [← hsL] at hlp'
  rw [← hsR] at hrp'
  have hdot := dot_hvec lp rp ch.x ch.y p2.aL.length (2 ^ k) hnN (by simp [hlp', Bp.hlp]) (by simp [hlp', Bp.hlp]) (by simp [hlp', Bp.hlp])
    (by simp [hrp', Bp.hrp]) (by simp [hrp', Bp.hrp]) (by simp [hrp', Bp.hrp])
    (fun i hi => by rw [hlp', Bp.hlp]; simp only [getD_replicate, ite_self]) (fun i hi => by rw [hrp', Bp.hrp]; simp only [getD_replicate, ite_self])
  unfold ippCommit
  rw [hdot, ← H.ht_x, ippG, ippH, msm_scaled_range _ _ _ _ (length_hlvec _ _ _ _ hnN) (by simpa using hG),
    msm_scaled_range _ _ _ _ (length_hrvec _ _ _ _ _ hnN) (by simpa using hH)]
  have cG : ∑ i ∈ range (2 ^ k), ((hlvec lp ch.x p2.aL.length (2 ^ k - p2.aL.length)).getD i 0 * ufac p.aL.length ch.u i) • (Gs.take (2 ^ k)).getD i 0 =
      ch.x • ∑ i ∈ range (2 ^ k), (ufac p.aL.length ch.u i * p2.aL.getD i 0) • (Gs.take (2 ^ k)).getD i 0 +
      ch.x ^ 2 • ∑ i ∈ range (2 ^ k), (ufac p.aL.length ch.u i * p2.aO.getD i 0) • (Gs.take (2 ^ k)).getD i 0 +
      ch.x ^ 3 • ∑ i ∈ range (2 ^ k), (ufac p.aL.length ch.u i * sL.getD i 0) • (Gs.take (2 ^ k)).getD i 0 +
      ∑ i ∈ range (2 ^ k), (ufac p.aL.length ch.u i * (ch.x * (vpow ch.y⁻¹ i * wt.wR.getD i 0))) • (Gs.take (2 ^ k)).getD i 0 := by
    simp only [smul_sum, ← sum_add_distrib]
    apply sum_congr rfl
    intro i _
    rw [getD_hlvec, hR]
    split
    · rename_i hi
      rw [hlp', Bp.hlp]
      simp only [getD_map_range, hi, if_true, getD_replicate]
      module
    · rename_i hi
      rw [getD_ge p2.aL 0 (by omega), getD_ge p2.aO 0 (by omega), getD_ge sL 0 (by omega), getD_ge wp.wR 0 (by rw [hl.R]; omega)]
      module
  have cH : ∑ i ∈ range (2 ^ k), ((hrvec rp ch.x ch.y p2.aL.length (2 ^ k - p2.aL.length)).getD i 0 * (vpow ch.y⁻¹ i * ufac p.aL.length ch.u i)) • (Hs.take (2 ^ k)).getD i 0 =
      ch.x • ∑ i ∈ range (2 ^ k), (ufac p.aL.length ch.u i * p2.aR.getD i 0) • (Hs.take (2 ^ k)).getD i 0 +
      ch.x ^ 3 • ∑ i ∈ range (2 ^ k), (ufac p.aL.length ch.u i * sR.getD i 0) • (Hs.take (2 ^ k)).getD i 0 +
      ∑ i ∈ range (2 ^ k), (ufac p.aL.length ch.u i * (vpow ch.y⁻¹ i * (ch.x * wt.wL.getD i 0 + wt.wO.getD i 0) - 1)) • (Hs.take (2 ^ k)).getD i 0 := by
    simp only [smul_sum, ← sum_add_distrib, smul_smul, ← add_smul]
    apply sum_congr rfl
    intro i hi'
    have hy1 : vpow ch.y⁻¹ i * ch.y ^ i = 1 := by rw [vpow_inv hy, ← mul_pow, inv_mul_cancel₀ hy, one_pow]
    rw [getD_hrvec _ _ _ _ _ _ (mem_range.mp hi'), hL, hO]
    congr 1
    split
    · rename_i hi
      rw [hrp', Bp.hrp]
      simp only [getD_map_range, hi, if_true, getD_replicate]
      linear_combination (ufac p.aL.length ch.u i * (ch.x * p2.aR.getD i 0 + ch.x ^ 3 * sR.getD i 0 - 1)) * hy1
    · rename_i hi
      rw [getD_ge p2.aR 0 (by omega), getD_ge sR 0 (by omega), getD_ge wp.wL 0 (by rw [hl.L]; omega), getD_ge wp.wO 0 (by rw [hl.O]; omega)]
      linear_combination (-(ufac p.aL.length ch.u i)) * hy1
  rw [cG, cH]
  unfold ippPoint ippPoint.y
  rw [← xL, ← xR, ← xO, ← xsL, ← xsR, H.hA_I1, H.hA_O1, H.hS1, H.hA_I2, H.hA_O2, H.hS2, H.he_blinding, hh]
  simp only [vecCommit]
  generalize ∑ i ∈ range (2 ^ k), (ufac p.aL.length ch.u i * (ch.x * (vpow ch.y⁻¹ i * wt.wR.getD i 0))) • (Gs.take (2 ^ k)).getD i 0 = Z1
  generalize ∑ i ∈ range (2 ^ k), (ufac p.aL.length ch.u i * (vpow ch.y⁻¹ i * (ch.x * wt.wL.getD i 0 + wt.wO.getD i 0) - 1)) • (Hs.take (2 ^ k)).getD i 0 = Z2
  module

end Bp
