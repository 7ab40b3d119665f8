import Verif.Lemmas.Matrices
import Verif.Spec.Matrices
import Verif.Props.Flatten
import Verif.Props.LinComb

/-! # C77: the weight matrices of the debug functions -/

namespace Bp
variable {F G : Type} [Field F] [AddCommGroup G] [Module F G]

open Finset

omit [AddCommGroup G] [Module F G] in
theorem rows_value {n m : ℕ} {cs : List (LC F)} (hn : Unrepeated cs) {ws : List (Weights F)} (h : weightRows n m cs = .ok ws) (σ : Assignment F) : List.Forall₂ (fun lc w => w.flip.residual n m σ = lc.value σ) cs ws := by
  have hf := weightRows_forall h
  clear h
  induction hf with
  | nil => exact .nil
  | cons h1 _ ih => exact .cons (weightRow_value (hn _ List.mem_cons_self) h1 σ) (ih fun lc hlc => hn lc (List.mem_cons_of_mem _ hlc))

/-- **C77**: `get_weight_matrices` panics exactly when a constraint has a foreign variable (both sides). -/
theorem c77_total (p : Prover F G) (s : Verifier F G) :
    ((∃ M, p.getWeightMatrices = .ok M) ↔ ∀ lc ∈ p.constraints, ∀ t ∈ lc.terms, t.1.InRange p.aL.length p.v.length) ∧
    ((∃ M, s.getWeightMatrices = .ok M) ↔ ∀ lc ∈ s.constraints, ∀ t ∈ lc.terms, t.1.InRange s.numVars s.V.length) := by
  rw [← weightRows_total, ← weightRows_total]
  unfold Prover.getWeightMatrices Verifier.getWeightMatrices
  constructor
  · cases weightRows p.aL.length p.v.length p.constraints <;> simp [bind, Except.bind, pure, Except.pure]
  · cases weightRows s.numVars s.V.length s.constraints <;> simp [bind, Except.bind, pure, Except.pure]

theorem matrices_inv {p : Prover F G} {M : Matrices F} (h : p.getWeightMatrices = .ok M) :
    ∃ ws, weightRows p.aL.length p.v.length p.constraints = .ok ws ∧ M = ⟨ws.map Weights.wL, ws.map Weights.wR, ws.map Weights.wO, ws.map Weights.wV, 0⟩ := by
  unfold Prover.getWeightMatrices at h
  cases hq : weightRows p.aL.length p.v.length p.constraints with
  | error e => rw [hq] at h; cases h
  | ok ws => rw [hq] at h; exact ⟨ws, rfl, (Except.ok.inj h).symm⟩

theorem vmatrices_inv {s : Verifier F G} {M : Matrices F} (h : s.getWeightMatrices = .ok M) :
    ∃ ws, weightRows s.numVars s.V.length s.constraints = .ok ws ∧ M = ⟨ws.map Weights.wL, ws.map Weights.wR, ws.map Weights.wO, ws.map Weights.wV, (ws.map Weights.wc).sum⟩ := by
  unfold Verifier.getWeightMatrices at h
  cases hq : weightRows s.numVars s.V.length s.constraints with
  | error e => rw [hq] at h; cases h
  | ok ws => rw [hq] at h; exact ⟨ws, rfl, (Except.ok.inj h).symm⟩

/-- **C77**: without repeated variables, row `r` of the verifier's matrices is constraint `r`, up to a constant; the constants add up to `-wc`. -/
theorem c77_rows (s : Verifier F G) (hn : Unrepeated s.constraints) (M : Matrices F) (h : s.getWeightMatrices = .ok M) :
    ∃ consts : List F, consts.length = s.constraints.length ∧ M.wc = -consts.sum ∧ ∀ (r : ℕ) lc, s.constraints[r]? = some lc → ∀ σ, M.row s.numVars s.V.length r (consts.getD r 0) σ = lc.value σ := by
  obtain ⟨ws, hw, rfl⟩ := vmatrices_inv h
  have hlen := (weightRows_forall hw).length_eq
  refine ⟨ws.map fun w => -w.wc, by simp [hlen], ?_, fun r lc hr σ => ?_⟩
  · simp only
    clear hw h hlen
    induction ws with
    | nil => simp
    | cons w ws ih => simp only [List.map_cons, List.sum_cons, ih]; ring
  · have hv := rows_value hn hw σ
    have hr' : r < ws.length := by rw [← hlen]; exact (List.getElem?_eq_some_iff.mp hr).1
    have := (List.forall₂_iff_get.mp hv).2 r (by rw [hlen]; exact hr') hr'
    simp only [List.get_eq_getElem] at this
    rw [(List.getElem?_eq_some_iff.mp hr).2] at this
    rw [← this]
    simp only [Matrices.row, Weights.residual, Weights.flip, getD_map_neg, neg_mul, sum_neg_distrib, sub_neg_eq_add]
    simp only [List.getD_eq_getElem?_getD, List.getElem?_map, List.getElem?_eq_getElem hr', Option.map_some, Option.getD_some]
    ring

/-- **C77**: `flattened_constraints_elaborated` is `flattened_constraints`, if there are constraints and none of them has a repeated variable (the assertions at prover.rs:451-456, which are commented out in the code). -/
theorem c77_elaborated (p : Prover F G) (hn : Unrepeated p.constraints) (h0 : p.constraints ≠ []) (z : F) (w : Weights F) (h : p.flattenedConstraints z = .ok w) : p.flattenedConstraintsElaborated z = .ok w := by
  obtain ⟨w', hw', rfl⟩ := Prover.flattened_ok h
  obtain ⟨hin, hl, hr⟩ := Verifier.flattenLoop_ok z _ (Verifier.len0 _ _) hw'
  obtain ⟨ws, hws⟩ := (weightRows_total (n := p.aL.length) (m := p.v.length) p.constraints).mpr hin
  have hlen := (weightRows_forall hws).length_eq
  have hlens : ∀ w ∈ ws, w.Len p.aL.length p.v.length := by
    intro w hw
    obtain ⟨i, hi, rfl⟩ := List.getElem_of_mem hw
    have := (List.forall₂_iff_get.mp (weightRows_forall hws)).2 i (by rw [hlen]; exact hi) hi
    exact weightRow_len this
  have hc : combined ((List.range p.constraints.length).map fun i => z * z ^ i) ws p.aL.length p.v.length = w' := weights_ext (combined_len _ _ _ _) hl fun σ => by
    rw [combined_residual, dot_comb z σ (rows_value hn hws σ), hr σ, Verifier.residual0, zero_add]
  have hne : ws ≠ [] := by
    rintro rfl
    exact h0 (List.eq_nil_of_length_eq_zero hlen)
  have hk : ((List.range p.constraints.length).map fun i => z * z ^ i).length = ws.length := by simp [hlen]
  unfold Prover.flattenedConstraintsElaborated Prover.getWeightMatrices
  rw [hws]
  simp only [bind, Except.bind, pure, Except.pure, vandermonde_drop]
  rw [rowTimesMatrix_ok Weights.wL (fun w hw => (hlens w hw).L) hk hne]
  simp only
  rw [rowTimesMatrix_ok Weights.wR (fun w hw => (hlens w hw).R) hk hne]
  simp only
  rw [rowTimesMatrix_ok Weights.wO (fun w hw => (hlens w hw).O) hk hne]
  simp only
  rw [rowTimesMatrix_ok Weights.wV (fun w hw => (hlens w hw).V) (by rw [List.length_map]; exact hk) hne]
  rw [← hc]
  rfl

/-- **C77**: without constraints `flattened_constraints_elaborated` panics; `flattened_constraints` does not. -/
theorem c77_no_constraints (p : Prover F G) (h : p.constraints = []) (z : F) : (∃ m, p.flattenedConstraintsElaborated z = Res.panic m) ∧ ∃ w, p.flattenedConstraints z = .ok w := by
  constructor
  · refine ⟨"index out of bounds", ?_⟩
    unfold Prover.flattenedConstraintsElaborated Prover.getWeightMatrices
    rw [h]
    simp [weightRows, bind, Except.bind, pure, Except.pure, rowTimesMatrix, vandermonde, Res.panic]
  · unfold Prover.flattenedConstraints
    rw [h]
    exact ⟨_, rfl⟩

omit [Module F G] in
/-- **C77**: what the condition is needed for.  The constraint `x + x - 2 = 0` (with `x` the left wire of the only gate): the coefficient is 2, the matrix has 1. -/
theorem c77_repeated : ∃ (p : Prover F G) (w w' : Weights F), (∀ t ∈ p.constraints.flatMap LC.terms, t.1.InRange p.aL.length p.v.length) ∧ p.flattenedConstraints (1 : F) = .ok w ∧ p.flattenedConstraintsElaborated (1 : F) = .ok w' ∧ w.wL = [2] ∧ w'.wL = [1] := by
  let p : Prover F G := { (Prover.new 0 0 [] 0 : Prover F G) with aL := [1], aR := [1], aO := [1], constraints := [⟨[(.left 0, 1), (.left 0, 1), (.one, -2)]⟩] }
  refine ⟨p, ⟨[2], [0], [0], [], 0⟩, ⟨[1], [0], [0], [], 0⟩, ?_, ?_, ?_, rfl, rfl⟩
  · simp [p, Var.InRange]
  · simp [p, Prover.new, Prover.flattenedConstraints, Prover.flattenLoop, Prover.flattenTerm, addAt, bind, Except.bind, pure, Except.pure]
    norm_num
  · simp [p, Prover.new, Prover.flattenedConstraintsElaborated, Prover.getWeightMatrices, weightRows, weightRow, rowTerm, setAt, rowTimesMatrix, vandermonde, vpow, dot, List.range_succ, bind, Except.bind, pure, Except.pure]

/-- **C77**: constraints that have been simplified have no repeated variables (C02). -/
theorem c77_simplified (ord : List (Var × F) → List (Var × F)) (hord : ∀ l, (ord l).Perm l) (cs : List (LC F)) : Unrepeated (cs.map fun lc => lc.simplify ord) := by
  intro lc hlc
  obtain ⟨lc, -, rfl⟩ := List.mem_map.mp hlc
  exact LC.c02_simplify_nodup ord hord lc

/-- **C77**: the matrices of a prover and a verifier in step are the same. -/
theorem c77_agree (p : Prover F G) (s : Verifier F G) (h : InStep p s) (hn : Unrepeated p.constraints) (M : Matrices F) (hp : p.getWeightMatrices = .ok M) :
    ∃ M', s.getWeightMatrices = .ok M' ∧ M'.WL = M.WL ∧ M'.WR = M.WR ∧ M'.WO = M.WO ∧ M'.WV = M.WV := by
  have hV : s.V.length = p.v.length := by rw [h.V]; simp [h.lenB]
  obtain ⟨ws, hws, rfl⟩ := matrices_inv hp
  have key : ∀ {cs cs' : List (LC F)}, List.Forall₂ LC.Equiv cs cs' → Unrepeated cs → ∀ {ws}, weightRows p.aL.length p.v.length cs = .ok ws → weightRows p.aL.length p.v.length cs' = .ok ws := by
    intro cs cs' hc hn ws hw
    have hin' : ∀ lc ∈ cs', ∀ t ∈ lc.terms, t.1.InRange p.aL.length p.v.length := by
      have hin := (weightRows_total cs).mp ⟨ws, hw⟩
      clear hw
      induction hc with
      | nil => simp
      | cons hab _ ih =>
        intro lc hlc t ht
        rcases List.mem_cons.mp hlc with rfl | hlc
        · exact hin _ List.mem_cons_self t (hab.mem_iff.mpr ht)
        · exact ih (fun lc hlc => hn lc (List.mem_cons_of_mem _ hlc)) (fun lc hlc => hin lc (List.mem_cons_of_mem _ hlc)) lc hlc t ht
    obtain ⟨ws', hw'⟩ := (weightRows_total cs').mpr hin'
    rw [hw']
    have hn' : Unrepeated cs' := by
      intro lc hlc
      obtain ⟨i, hi, rfl⟩ := List.getElem_of_mem hlc
      have := (List.forall₂_iff_get.mp hc).2 i (by rw [hc.length_eq]; exact hi) hi
      exact ((List.Perm.map Prod.fst this).nodup_iff).mp (hn _ (List.get_mem _ _))
    congr 1
    have l1 := (weightRows_forall hw).length_eq
    have l2 := (weightRows_forall hw').length_eq
    refine List.ext_getElem (by rw [← l2, ← l1, hc.length_eq]) fun i h1 h2 => ?_
    have f1 := (List.forall₂_iff_get.mp (weightRows_forall hw)).2 i (by rw [l1]; exact h2) h2
    have f2 := (List.forall₂_iff_get.mp (weightRows_forall hw')).2 i (by rw [l2]; exact h1) h1
    have e := (List.forall₂_iff_get.mp hc).2 i (by rw [l1]; exact h2) (by rw [l2]; exact h1)
    have hfl : (ws'[i]).flip = (ws[i]).flip := weights_ext (weightRow_len f2).flip (weightRow_len f1).flip fun σ => by
      rw [show (ws'[i]).flip.residual p.aL.length p.v.length σ = _ from weightRow_value (hn' _ (List.get_mem _ _)) f2 σ, show (ws[i]).flip.residual p.aL.length p.v.length σ = _ from weightRow_value (hn _ (List.get_mem _ _)) f1 σ]
      exact (LC.Equiv.value e σ).symm
    have hi : ∀ w : Weights F, w.flip.flip = w := fun w => by simp [Weights.flip]
    rw [← hi ws'[i], hfl, hi]
  have hw' := key h.cons hn hws
  refine ⟨⟨ws.map Weights.wL, ws.map Weights.wR, ws.map Weights.wO, ws.map Weights.wV, (ws.map Weights.wc).sum⟩, ?_, rfl, rfl, rfl, rfl⟩
  unfold Verifier.getWeightMatrices
  rw [h.num, hV, hw']
  rfl

/-- A product of two committed values, as the gadgets make it: the matrices, and the weights for `z = 3`. -/
example : ∃ (p : Prover ℚ ℚ) (M : Matrices ℚ), p.constraints.length = 2 ∧ Unrepeated p.constraints ∧ p.getWeightMatrices = .ok M ∧ M.WL = [[-1], [0]] ∧ M.WR = [[0], [-1]] ∧ M.WV = [[1, 0], [0, 1]] ∧
    p.flattenedConstraintsElaborated 3 = .ok ⟨[-3], [-9], [0], [-3, -9], 0⟩ := by
  refine ⟨{ (Prover.new 0 0 [] 0 : Prover ℚ ℚ) with aL := [3], aR := [4], aO := [12], v := [3, 4], vBlinding := [0, 0], constraints := [⟨[(.committed 0, 1), (.left 0, -1)]⟩, ⟨[(.committed 1, 1), (.right 0, -1)]⟩] }, ⟨[[-1], [0]], [[0], [-1]], [[0], [0]], [[1, 0], [0, 1]], 0⟩,
    rfl, ?_, ?_, rfl, rfl, rfl, ?_⟩
  rotate_left
  · simp [Prover.getWeightMatrices, weightRows, weightRow, rowTerm, setAt, bind, Except.bind, pure, Except.pure, List.replicate]
  · simp [Prover.flattenedConstraintsElaborated, Prover.getWeightMatrices, weightRows, weightRow, rowTerm, setAt, rowTimesMatrix, vandermonde, vpow, dot, List.range_succ, bind, Except.bind, pure, Except.pure, List.replicate]
    norm_num
  intro lc hlc
  simp only [List.mem_cons, List.mem_nil_iff, or_false] at hlc
  rcases hlc with rfl | rfl <;> decide

end Bp
