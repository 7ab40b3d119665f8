import Verif.Lemmas.Flatten
import Mathlib.Algebra.Polynomial.Roots

/-! # C10, C11: flattening -/

set_option linter.unusedSectionVars false
set_option linter.unusedSimpArgs false

namespace Bp
variable {F G : Type} [Field F] [AddCommGroup G] [SMul F G]
open Finset

/-- C10 (verifier): the flattened weights have the right lengths and, for every assignment, their residual is the
`z`-combination of the constraint values. -/
theorem c10_verifier_flatten_exact (s : Verifier F G) (z : F) (w : Weights F) (h : s.flattenedConstraints z = .ok w) :
    w.wL.length = s.numVars ∧ w.wR.length = s.numVars ∧ w.wO.length = s.numVars ∧ w.wV.length = s.V.length ∧
    ∀ σ : Assignment F, w.residual s.numVars s.V.length σ = zCombination z s.constraints σ := by
  obtain ⟨-, hl, hr⟩ := Verifier.flattened_ok h
  exact ⟨hl.L, hl.R, hl.O, hl.V, hr⟩

/-- C10: flattening succeeds exactly when all constraints mention existing variables only (a foreign variable panics). -/
theorem c10_verifier_flatten_total (s : Verifier F G) (z : F) :
    (∃ w, s.flattenedConstraints z = .ok w) ↔ ∀ lc ∈ s.constraints, ∀ t ∈ lc.terms, t.1.InRange s.numVars s.V.length := by
  constructor
  · rintro ⟨w, h⟩; exact (Verifier.flattened_ok h).1
  · intro h; exact Verifier.flattenLoop_of_inRange z s.constraints (Verifier.len0 _ _) h

/-- C10 (prover): the same residual, with the constant terms (the value of `One`) left out: adding the constant `wc` of the
verifier's flattening gives the exact equation. -/
theorem c10_prover_flatten_exact (p : Prover F G) (z : F) (w : Weights F) (h : p.flattenedConstraints z = .ok w) :
    w.wL.length = p.aL.length ∧ w.wR.length = p.aL.length ∧ w.wO.length = p.aL.length ∧ w.wV.length = p.v.length ∧ w.wc = 0 ∧
    ∃ wc : F, ∀ σ : Assignment F, w.residual p.aL.length p.v.length σ - wc = zCombination z p.constraints σ := by
  obtain ⟨w', hw, rfl⟩ := Prover.flattened_ok h
  obtain ⟨-, hl, hr⟩ := Verifier.flattenLoop_ok z _ (Verifier.len0 _ _) hw
  refine ⟨hl.L, hl.R, hl.O, hl.V, rfl, w'.wc, fun σ => ?_⟩
  have := hr σ
  rw [Verifier.residual0, Verifier.comb_z, zero_add] at this
  rw [← this]; simp [Weights.residual]

/-- C10: prover and verifier in step compute the same weight vectors. -/
theorem c10_flatten_agree (p : Prover F G) (s : Verifier F G) (h : InStep p s) (z : F) (w : Weights F)
    (hp : p.flattenedConstraints z = .ok w) :
    ∃ w', s.flattenedConstraints z = .ok w' ∧ w'.wL = w.wL ∧ w'.wR = w.wR ∧ w'.wO = w.wO ∧ w'.wV = w.wV := by
  obtain ⟨wp, hw, rfl⟩ := Prover.flattened_ok hp
  obtain ⟨hin, hl, hr⟩ := Verifier.flattenLoop_ok z _ (Verifier.len0 _ _) hw
  have hV : s.V.length = p.v.length := by rw [h.V]; simp [h.lenB]
  have hin' : ∀ lc ∈ s.constraints, ∀ t ∈ lc.terms, t.1.InRange s.numVars s.V.length := by
    rw [h.num, hV]
    have hc := h.cons
    generalize p.constraints = cs at hc hin
    generalize s.constraints = cs' at hc ⊢
    clear hw hr hp
    induction hc with
    | nil => simp
    | cons hab _ ih =>
      intro lc hlc t ht
      rcases List.mem_cons.mp hlc with rfl | hlc
      · exact hin _ List.mem_cons_self t (hab.mem_iff.mpr ht)
      · exact ih (fun lc hlc => hin lc (List.mem_cons_of_mem _ hlc)) lc hlc t ht
  obtain ⟨w', hw'⟩ := (c10_verifier_flatten_total s z).mpr hin'
  obtain ⟨-, hl', hr'⟩ := Verifier.flattened_ok hw'
  rw [h.num, hV] at hl' hr'
  have : w' = wp := weights_ext hl' hl fun σ => by
    rw [hr', hr, Verifier.residual0, zero_add, Verifier.comb_z, zCombination_equiv z h.cons]
  subst this
  exact ⟨w', hw', rfl, rfl, rfl, rfl⟩

/-- C11: if an assignment violates at least one of the `Q` constraints, at most `Q` values of `z` make the combination vanish. -/
theorem c11_violation_survives (cs : List (LC F)) (σ : Assignment F) (hv : ¬ σ.Sat cs) :
    ∃ bad : Finset F, bad.card ≤ cs.length ∧ ∀ z, zCombination z cs σ = 0 → z ∈ bad := by
  classical
  let P : Polynomial F := ∑ q : Fin cs.length, Polynomial.C ((cs[q.val]).value σ) * Polynomial.X ^ (q.val + 1)
  have heval : ∀ z, P.eval z = zCombination z cs σ := by
    intro z
    simp only [P, Polynomial.eval_finset_sum, Polynomial.eval_mul, Polynomial.eval_C, Polynomial.eval_pow, Polynomial.eval_X, zCombination]
    exact sum_congr rfl fun q _ => mul_comm _ _
  have hdeg : P.natDegree ≤ cs.length := by
    apply Polynomial.natDegree_sum_le_of_forall_le
    intro q _
    exact (Polynomial.natDegree_C_mul_X_pow_le _ _).trans (by omega)
  have hne : P ≠ 0 := by
    intro h0
    apply hv
    intro lc hlc
    obtain ⟨i, hi, rfl⟩ := List.getElem_of_mem hlc
    have hco : P.coeff (i + 1) = (cs[i]).value σ := by
      simp only [P, Polynomial.finset_sum_coeff, Polynomial.coeff_C_mul_X_pow]
      rw [Finset.sum_eq_single (⟨i, hi⟩ : Fin cs.length)]
      · simp
      · intro b _ hb
        rw [if_neg]
        intro e
        exact hb (Fin.ext (by simp only [] at e ⊢; omega))
      · simp
    rw [← hco, h0, Polynomial.coeff_zero]
  refine ⟨P.roots.toFinset, (Multiset.toFinset_card_le _).trans ((Polynomial.card_roots' P).trans hdeg), ?_⟩
  intro z hz
  rw [Multiset.mem_toFinset, Polynomial.mem_roots hne]
  exact (heval z).trans hz

/-- C11 on the verifier's weights. -/
theorem c11_violation_survives_flatten (s : Verifier F G) (σ : Assignment F) (hv : ¬ σ.Sat s.constraints) :
    ∃ bad : Finset F, bad.card ≤ s.constraints.length ∧
      ∀ z w, s.flattenedConstraints z = .ok w → w.residual s.numVars s.V.length σ = 0 → z ∈ bad := by
  obtain ⟨bad, hc, hb⟩ := c11_violation_survives s.constraints σ hv
  refine ⟨bad, hc, fun z w hw hr => hb z ?_⟩
  rw [← (Verifier.flattened_ok hw).2.2]; exact hr

/-- Non-vacuity: a system with a repeated variable and a constant, flattened with `z = 2`. -/
example : ({ (Verifier.new [] 0 : Verifier ℚ ℚ) with
    numVars := 1, V := [0], constraints := [⟨[(.left 0, 1), (.one, 5), (.left 0, 3)]⟩, ⟨[(.committed 0, 1), (.out 0, -1)]⟩] } : Verifier ℚ ℚ).flattenedConstraints 2
    = .ok ⟨[8], [0], [-4], [-4], -10⟩ := by
  norm_num [Verifier.flattenedConstraints, Verifier.flattenLoop, Verifier.flattenTerm, addAt, Verifier.new, bind, Except.bind, pure, Except.pure,
    List.foldlM]

example : ¬ (⟨0, 0, 0, 0⟩ : Assignment ℚ).Sat [⟨[(.left 0, 1), (.one, 5), (.left 0, 3)]⟩] := by
  intro h
  have := h _ List.mem_cons_self
  norm_num [LC.value, Assignment.val] at this

end Bp
