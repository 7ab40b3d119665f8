import Verif.Spec.Flatten
import Verif.Lemmas.Lockstep
import Verif.Lemmas.Sums

set_option linter.unusedSectionVars false
set_option linter.unusedSimpArgs false

namespace Bp
variable {F G : Type} [Field F] [AddCommGroup G] [SMul F G]
open Finset

theorem addAt_ok {xs ys : List F} {i : ℕ} {d : F} (h : addAt xs i d = .ok ys) :
    i < xs.length ∧ ys = xs.set i (xs.getD i 0 + d) := by
  unfold addAt at h
  by_cases hi : i < xs.length
  · simp only [List.getElem?_eq_getElem hi, Except.ok.injEq] at h
    refine ⟨hi, ?_⟩
    rw [← h]; simp [List.getD_eq_getElem?_getD, List.getElem?_eq_getElem hi]
  · simp [List.getElem?_eq_none (not_lt.mp hi), Res.panic] at h

theorem addAt_of_lt {xs : List F} {i : ℕ} (d : F) (hi : i < xs.length) : addAt xs i d = .ok (xs.set i (xs.getD i 0 + d)) := by
  simp [addAt, List.getD_eq_getElem?_getD, List.getElem?_eq_getElem hi]

theorem sum_set (xs : List F) (i : ℕ) (d : F) (f : ℕ → F) {n : ℕ} (hn : xs.length = n) (hi : i < n) :
    ∑ j ∈ range n, (xs.set i (xs.getD i 0 + d)).getD j 0 * f j = ∑ j ∈ range n, xs.getD j 0 * f j + d * f i := by
  have : ∀ j ∈ range n, (xs.set i (xs.getD i 0 + d)).getD j 0 * f j = xs.getD j 0 * f j + if j = i then d * f i else 0 := by
    intro j _
    rw [getD_set _ _ _ _ _ (by omega)]
    by_cases h : i = j
    · subst h; simp; ring
    · simp [h, Ne.symm h]
  rw [sum_congr rfl this, sum_add_distrib, sum_ite_eq']
  simp [hi]

structure Weights.Len (w : Weights F) (n m : ℕ) : Prop where
  L : w.wL.length = n
  R : w.wR.length = n
  O : w.wO.length = n
  V : w.wV.length = m

namespace Verifier

theorem flattenTerm_ok {e : F} {w w' : Weights F} {t : Var × F} {n m : ℕ} (hl : w.Len n m)
    (h : flattenTerm e w t = .ok w') : t.1.InRange n m ∧ w'.Len n m ∧
      ∀ σ, w'.residual n m σ = w.residual n m σ + e * (t.2 * σ.val t.1) := by
  obtain ⟨v, c⟩ := t
  cases v with
  | one =>
    simp only [flattenTerm, Except.ok.injEq] at h
    subst h
    exact ⟨trivial, ⟨hl.L, hl.R, hl.O, hl.V⟩, fun σ => by simp only [Weights.residual, Assignment.val]; ring⟩
  | left i =>
    simp only [flattenTerm] at h
    rcases ha : addAt w.wL i (e * c) with x | ys
    · simp [ha, bind, Except.bind] at h
    · simp only [ha, bind, Except.bind, pure, Except.pure, Except.ok.injEq] at h
      subst h
      obtain ⟨hi, rfl⟩ := addAt_ok ha
      refine ⟨by simpa [Var.InRange, ← hl.L] using hi, ⟨by simp [hl.L], hl.R, hl.O, hl.V⟩, fun σ => ?_⟩
      simp only [Weights.residual, Assignment.val, sum_set _ _ _ _ hl.L (hl.L ▸ hi)]; ring
  | right i =>
    simp only [flattenTerm] at h
    rcases ha : addAt w.wR i (e * c) with x | ys
    · simp [ha, bind, Except.bind] at h
    · simp only [ha, bind, Except.bind, pure, Except.pure, Except.ok.injEq] at h
      subst h
      obtain ⟨hi, rfl⟩ := addAt_ok ha
      refine ⟨by simpa [Var.InRange, ← hl.R] using hi, ⟨hl.L, by simp [hl.R], hl.O, hl.V⟩, fun σ => ?_⟩
      simp only [Weights.residual, Assignment.val, sum_set _ _ _ _ hl.R (hl.R ▸ hi)]; ring
  | out i =>
    simp only [flattenTerm] at h
    rcases ha : addAt w.wO i (e * c) with x | ys
    · simp [ha, bind, Except.bind] at h
    · simp only [ha, bind, Except.bind, pure, Except.pure, Except.ok.injEq] at h
      subst h
      obtain ⟨hi, rfl⟩ := addAt_ok ha
      refine ⟨by simpa [Var.InRange, ← hl.O] using hi, ⟨hl.L, hl.R, by simp [hl.O], hl.V⟩, fun σ => ?_⟩
      simp only [Weights.residual, Assignment.val, sum_set _ _ _ _ hl.O (hl.O ▸ hi)]; ring
  | committed i =>
    simp only [flattenTerm] at h
    rcases ha : addAt w.wV i (-(e * c)) with x | ys
    · simp [ha, bind, Except.bind] at h
    · simp only [ha, bind, Except.bind, pure, Except.pure, Except.ok.injEq] at h
      subst h
      obtain ⟨hi, rfl⟩ := addAt_ok ha
      refine ⟨by simpa [Var.InRange, ← hl.V] using hi, ⟨hl.L, hl.R, hl.O, by simp [hl.V]⟩, fun σ => ?_⟩
      simp only [Weights.residual, Assignment.val, sum_set _ _ _ _ hl.V (hl.V ▸ hi)]; ring

theorem flattenTerm_of_inRange (e : F) {w : Weights F} {t : Var × F} {n m : ℕ} (hl : w.Len n m) (h : t.1.InRange n m) :
    ∃ w', flattenTerm e w t = .ok w' := by
  obtain ⟨v, c⟩ := t
  cases v <;> simp only [Var.InRange] at h <;> simp only [flattenTerm]
  · rw [addAt_of_lt _ (by rw [hl.V]; exact h)]; exact ⟨_, rfl⟩
  · rw [addAt_of_lt _ (by rw [hl.L]; exact h)]; exact ⟨_, rfl⟩
  · rw [addAt_of_lt _ (by rw [hl.R]; exact h)]; exact ⟨_, rfl⟩
  · rw [addAt_of_lt _ (by rw [hl.O]; exact h)]; exact ⟨_, rfl⟩
  · exact ⟨_, rfl⟩

theorem flattenTerms_ok {e : F} (ts : List (Var × F)) {n m : ℕ} : ∀ {w w' : Weights F}, w.Len n m →
    ts.foldlM (flattenTerm e) w = .ok w' → (∀ t ∈ ts, t.1.InRange n m) ∧ w'.Len n m ∧
      ∀ σ, w'.residual n m σ = w.residual n m σ + e * LC.termsVal σ ts := by
  induction ts with
  | nil =>
    intro w w' hl h
    simp only [List.foldlM_nil, pure, Except.pure, Except.ok.injEq] at h
    subst h
    exact ⟨by simp, hl, by simp⟩
  | cons t ts ih =>
    intro w w' hl h
    simp only [List.foldlM_cons] at h
    rcases ht : flattenTerm e w t with x | w1
    · simp [ht, bind, Except.bind] at h
    · simp only [ht, bind, Except.bind] at h
      obtain ⟨h1, h2, h3⟩ := flattenTerm_ok hl ht
      obtain ⟨h4, h5, h6⟩ := ih h2 h
      refine ⟨by simpa using ⟨h1, fun a b hab => h4 (a, b) hab⟩, h5, fun σ => ?_⟩
      rw [h6, h3, LC.termsVal_cons]; ring

theorem flattenTerms_of_inRange {e : F} (ts : List (Var × F)) {n m : ℕ} : ∀ {w : Weights F}, w.Len n m →
    (∀ t ∈ ts, t.1.InRange n m) → ∃ w', ts.foldlM (flattenTerm e) w = .ok w' := by
  induction ts with
  | nil => intro w _ _; exact ⟨w, rfl⟩
  | cons t ts ih =>
    intro w hl h
    obtain ⟨w1, h1⟩ := flattenTerm_of_inRange e hl (h t (by simp))
    obtain ⟨-, h2, -⟩ := flattenTerm_ok hl h1
    obtain ⟨w2, h3⟩ := ih h2 (fun t ht => h t (by simp [ht]))
    refine ⟨w2, ?_⟩
    simp only [List.foldlM_cons, h1, bind, Except.bind, h3]

/-- `e * Σ_q z^q * value q`. -/
def comb (z e : F) : List (LC F) → Assignment F → F
  | [], _ => 0
  | lc :: cs, σ => e * lc.value σ + comb z (e * z) cs σ

theorem flattenLoop_ok (z : F) (cs : List (LC F)) {n m : ℕ} : ∀ {e : F} {w w' : Weights F}, w.Len n m →
    flattenLoop z e cs w = .ok w' → (∀ lc ∈ cs, ∀ t ∈ lc.terms, t.1.InRange n m) ∧ w'.Len n m ∧
      ∀ σ, w'.residual n m σ = w.residual n m σ + comb z e cs σ := by
  induction cs with
  | nil =>
    intro e w w' hl h
    simp only [flattenLoop, Except.ok.injEq] at h
    subst h
    exact ⟨by simp, hl, by simp [comb]⟩
  | cons lc cs ih =>
    intro e w w' hl h
    simp only [flattenLoop] at h
    rcases ht : lc.terms.foldlM (flattenTerm e) w with x | w1
    · simp [ht, bind, Except.bind] at h
    · simp only [ht, bind, Except.bind] at h
      obtain ⟨h1, h2, h3⟩ := flattenTerms_ok _ hl ht
      obtain ⟨h4, h5, h6⟩ := ih h2 h
      refine ⟨by simpa using ⟨fun a b hab => h1 (a, b) hab, fun l hl a b hab => h4 l hl (a, b) hab⟩, h5, fun σ => ?_⟩
      rw [h6, h3, comb, LC.value_def]; ring

theorem flattenLoop_of_inRange (z : F) (cs : List (LC F)) {n m : ℕ} : ∀ {e : F} {w : Weights F}, w.Len n m →
    (∀ lc ∈ cs, ∀ t ∈ lc.terms, t.1.InRange n m) → ∃ w', flattenLoop z e cs w = .ok w' := by
  induction cs with
  | nil => intro e w _ _; exact ⟨w, rfl⟩
  | cons lc cs ih =>
    intro e w hl h
    obtain ⟨w1, h1⟩ := flattenTerms_of_inRange (e := e) lc.terms hl (h lc (by simp))
    obtain ⟨-, h2, -⟩ := flattenTerms_ok _ hl h1
    obtain ⟨w2, h3⟩ := ih (e := e * z) h2 (fun lc hlc => h lc (by simp [hlc]))
    exact ⟨w2, by simp only [flattenLoop, h1, bind, Except.bind, h3]⟩

theorem comb_eq (z : F) (cs : List (LC F)) (σ : Assignment F) : ∀ e : F,
    comb z e cs σ = ∑ q : Fin cs.length, e * z ^ q.val * (cs[q.val]).value σ := by
  induction cs with
  | nil => intro e; simp [comb]
  | cons lc cs ih =>
    intro e
    rw [comb, ih]
    simp only [List.length_cons]
    rw [Fin.sum_univ_succ]
    simp only [Fin.val_zero, pow_zero, mul_one, List.getElem_cons_zero, Fin.val_succ, List.getElem_cons_succ]
    congr 1
    apply sum_congr rfl
    intro q _
    rw [pow_succ]; ring

theorem comb_z (z : F) (cs : List (LC F)) (σ : Assignment F) : comb z z cs σ = zCombination z cs σ := by
  rw [comb_eq, zCombination]
  apply sum_congr rfl
  intro q _
  rw [pow_succ]; ring

theorem len0 (n m : ℕ) : (⟨List.replicate n 0, List.replicate n 0, List.replicate n 0, List.replicate m 0, 0⟩ : Weights F).Len n m :=
  ⟨by simp, by simp, by simp, by simp⟩

theorem residual0 (n m : ℕ) (σ : Assignment F) :
    (⟨List.replicate n 0, List.replicate n 0, List.replicate n 0, List.replicate m 0, 0⟩ : Weights F).residual n m σ = 0 := by
  simp only [Weights.residual, getD_replicate, ite_self, zero_mul, sum_const_zero, add_zero, sub_zero]

theorem flattened_ok {s : Verifier F G} {z : F} {w : Weights F} (h : s.flattenedConstraints z = .ok w) :
    (∀ lc ∈ s.constraints, ∀ t ∈ lc.terms, t.1.InRange s.numVars s.V.length) ∧ w.Len s.numVars s.V.length ∧
    ∀ σ, w.residual s.numVars s.V.length σ = zCombination z s.constraints σ := by
  obtain ⟨h1, h2, h3⟩ := flattenLoop_ok z s.constraints (len0 s.numVars s.V.length) h
  refine ⟨h1, h2, fun σ => ?_⟩
  rw [h3, residual0, comb_z, zero_add]

end Verifier

/-- The weights are determined by the residual under all assignments. -/
theorem weights_ext {w w' : Weights F} {n m : ℕ} (h : w.Len n m) (h' : w'.Len n m)
    (hr : ∀ σ, w.residual n m σ = w'.residual n m σ) : w = w' := by
  have hc : w.wc = w'.wc := by
    have := hr ⟨0, 0, 0, 0⟩
    simpa [Weights.residual] using this
  have hL : w.wL = w'.wL := by
    refine ext_getD 0 h.L h'.L fun i hi => ?_
    have := hr ⟨fun j => if j = i then 1 else 0, 0, 0, 0⟩
    simpa [Weights.residual, hc, hi] using this
  have hR : w.wR = w'.wR := by
    refine ext_getD 0 h.R h'.R fun i hi => ?_
    have := hr ⟨0, fun j => if j = i then 1 else 0, 0, 0⟩
    simpa [Weights.residual, hc, hi] using this
  have hO : w.wO = w'.wO := by
    refine ext_getD 0 h.O h'.O fun i hi => ?_
    have := hr ⟨0, 0, fun j => if j = i then 1 else 0, 0⟩
    simpa [Weights.residual, hc, hi] using this
  have hV : w.wV = w'.wV := by
    refine ext_getD 0 h.V h'.V fun i hi => ?_
    have := hr ⟨0, 0, 0, fun j => if j = i then 1 else 0⟩
    simpa [Weights.residual, hc, hi] using this
  cases w; cases w'; simp_all

theorem zCombination_equiv (z : F) {cs cs' : List (LC F)} (h : List.Forall₂ LC.Equiv cs cs') (σ : Assignment F) :
    zCombination z cs σ = zCombination z cs' σ := by
  rw [← Verifier.comb_z, ← Verifier.comb_z]
  suffices H : ∀ e, Verifier.comb z e cs σ = Verifier.comb z e cs' σ from H z
  intro e
  induction h generalizing e with
  | nil => rfl
  | cons h _ ih => simp only [Verifier.comb, h.value σ, ih]

namespace Prover

/-- The prover's flattening is the verifier's without the constant. -/
theorem flattenTerm_eq (e c : F) (w : Weights F) (t : Var × F) :
    Prover.flattenTerm e { w with wc := c } t = (Verifier.flattenTerm e w t).map (fun w' => { w' with wc := c }) := by
  obtain ⟨v, x⟩ := t
  cases v <;> simp only [Prover.flattenTerm, Verifier.flattenTerm]
  · rcases addAt w.wV _ _ with _ | _ <;> rfl
  · rcases addAt w.wL _ _ with _ | _ <;> rfl
  · rcases addAt w.wR _ _ with _ | _ <;> rfl
  · rcases addAt w.wO _ _ with _ | _ <;> rfl
  · rfl

theorem flattenTerms_eq (e c : F) (ts : List (Var × F)) (w : Weights F) :
    ts.foldlM (Prover.flattenTerm e) { w with wc := c } =
      (ts.foldlM (Verifier.flattenTerm e) w).map (fun w' => { w' with wc := c }) := by
  induction ts generalizing w with
  | nil => rfl
  | cons t ts ih =>
    simp only [List.foldlM_cons, flattenTerm_eq]
    rcases Verifier.flattenTerm e w t with _ | w1
    · rfl
    · simp only [Except.map, bind, Except.bind]; exact ih w1

theorem flattenLoop_eq (z c : F) (cs : List (LC F)) : ∀ (e : F) (w : Weights F),
    Prover.flattenLoop z e cs { w with wc := c } =
      (Verifier.flattenLoop z e cs w).map (fun w' => { w' with wc := c }) := by
  induction cs with
  | nil => intro e w; rfl
  | cons lc cs ih =>
    intro e w
    simp only [Prover.flattenLoop, Verifier.flattenLoop, flattenTerms_eq]
    rcases lc.terms.foldlM (Verifier.flattenTerm e) w with _ | w1
    · rfl
    · simp only [Except.map, bind, Except.bind]; exact ih _ w1

theorem flattened_ok {p : Prover F G} {z : F} {w : Weights F} (h : p.flattenedConstraints z = .ok w) :
    ∃ w', Verifier.flattenLoop z z p.constraints ⟨List.replicate p.aL.length 0, List.replicate p.aL.length 0, List.replicate p.aL.length 0,
        List.replicate p.v.length 0, 0⟩ = .ok w' ∧ w = { w' with wc := 0 } := by
  unfold flattenedConstraints at h
  simp only at h
  have := flattenLoop_eq z 0 p.constraints z ⟨List.replicate p.aL.length 0, List.replicate p.aL.length 0, List.replicate p.aL.length 0,
        List.replicate p.v.length 0, 0⟩
  simp only at this
  rw [this] at h
  rcases hv : Verifier.flattenLoop z z p.constraints ⟨List.replicate p.aL.length 0, List.replicate p.aL.length 0, List.replicate p.aL.length 0,
        List.replicate p.v.length 0, 0⟩ with e | w'
  · rw [hv] at h; cases h
  · rw [hv] at h
    simp only [Except.map, Except.ok.injEq] at h
    exact ⟨w', rfl, h.symm⟩

end Prover
end Bp
