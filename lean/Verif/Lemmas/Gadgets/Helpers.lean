import Verif.Model.Gadgets.Simple
import Verif.Lemmas.Gadgets.Frame
import Verif.Props.LinComb

set_option linter.unusedSectionVars false
set_option linter.unusedSimpArgs false

/-! # The helper gadgets: soundness, completeness, lock-step -/

namespace Bp
variable {F G : Type} [Field F] [AddCommGroup G] [Module F G]
variable {C C' : Type} {rnd : Bool} {env : Env F G} {σ : Assignment F} {onSpec : C → Prover F G → Prover F G}

theorem LC.Equiv.rfl' {l : LC F} : l.Equiv l := List.Perm.refl _

theorem LC.value_nil (σ : Assignment F) : (LC.ofTerms [] : LC F).value σ = 0 := rfl
theorem LC.value_cons (σ : Assignment F) (t : Var × F) (ts : List (Var × F)) :
    (LC.ofTerms (t :: ts)).value σ = t.2 * σ.val t.1 + (LC.ofTerms ts).value σ := by
  simp [LC.value_def, LC.ofTerms]
theorem LC.value_snoc (σ : Assignment F) (t : Var × F) (ts : List (Var × F)) :
    (LC.ofTerms (ts ++ [t])).value σ = (LC.ofTerms ts).value σ + t.2 * σ.val t.1 := by
  simp [LC.value_def, LC.ofTerms]

/-! ## constrain_lc_with_scalar -/

theorem VS.conScalar (lc : LC F) (x : F) : VS env σ (constrainLcWithScalar lc x : Prog F C rnd _) (fun _ => lc.value σ = x) :=
  (VS.con _).mono fun _ h => by rw [LC.value_sub, LC.value_ofScalar, sub_eq_zero] at h; exact h

theorem PS.conScalar {p : Prover F G} (h : p.Good) {lc : LC F} {x : F} (hl : p.Has lc x) :
    PS env onSpec p (constrainLcWithScalar lc x : Prog F C rnd _) (fun _ p' => p.Next p') :=
  PS.con h ((hl.sub (Prover.Has.ofScalar x)).congr (sub_self _))

theorem Prog.Same.conScalar {RC : C → C' → Prop} {l l' : LC F} (h : l.Equiv l') (x : F) :
    Prog.Same RC (fun _ _ => True) (constrainLcWithScalar l x : Prog F C rnd _) (constrainLcWithScalar l' x) :=
  .con (h.sub .rfl')

/-! ## bit_gadget -/

theorem VS.bit (hg : σ.Gates) (v : Alloc F) : VS env σ (bitGadget v : Prog F C rnd _) (fun _ => σ.val v.var = 0 ∨ σ.val v.var = 1) := by
  refine VS.bind (VS.allocMul hg _) ?_
  rintro ⟨a, b, o⟩ ho
  refine VS.bind (VS.con _) fun _ h1 => ?_
  refine VS.bind (VS.con _) fun _ h2 => ?_
  refine (VS.con _).mono fun _ h3 => ?_
  simp only [LC.value_varAdd, LC.value_varSub, LC.value_ofVar, LC.value_ofScalar, LC.value_cons, LC.value_nil] at *
  have hb : σ.val b = σ.val v.var := by linear_combination h1
  have ha : σ.val a = 1 - σ.val v.var := by linear_combination h3 - hb
  rw [ha, hb, h2] at ho
  rcases mul_eq_zero.mp ho.symm with h | h
  · right; linear_combination -h
  · left; exact h

theorem PS.bit {p : Prover F G} (h : p.Good) {v : Alloc F} {x : F} (hx : x = 0 ∨ x = 1) (hv : p.HasV v.var x) (ha : v.assignment = some x) :
    PS env onSpec p (bitGadget v : Prog F C rnd _) (fun _ p' => p.Next p') := by
  unfold bitGadget
  rw [ha]
  refine PS.bind (PS.allocMul h _ _) ?_
  rintro ⟨a, b, o⟩ p1 ⟨n1, h1, h2, h3⟩
  have hv1 := hv.next h n1
  refine PS.bind (PS.con n1.good ?_) fun _ p2 n2 => PS.bind (PS.con n2.good ?_) fun _ p3 n3 => (PS.con n3.good ?_).mono fun _ p4 n4 => ((n1.trans n2).trans n3).trans n4
  · exact (Prover.Has.varAdd h2 (Prover.Has.cons hv1 .nil)).congr (by ring)
  · exact ((Prover.Has.ofVar h3).next n1.good n2).congr (by rcases hx with rfl | rfl <;> ring)
  · exact (((Prover.Has.varAdd h1 (.varSub h2 (.ofScalar 1))).next n1.good n2).next n2.good n3).congr (by ring)

theorem Prog.Same.bit {RC : C → C' → Prop} {a b : Alloc F} (h : a.Pair b) :
    Prog.Same RC (fun _ _ => True) (bitGadget a : Prog F C rnd _) (bitGadget b) := by
  obtain ⟨hv, x, hx⟩ := h
  unfold bitGadget
  rw [hx, hv]
  refine Prog.Same.bind .allocMul ?_
  rintro ⟨a, b, o⟩ _ rfl
  exact .bind (.con .rfl') fun _ _ _ => .bind (.con .rfl') fun _ _ _ => .con .rfl'

/-! ## positive_no_gadget -/

theorem VS.positiveNo [IntRep F] (hg : σ.Gates) (v : Alloc F) (n : ℕ) :
    VS env σ (positiveNoGadget v n : Prog F C rnd _) (fun _ => ∃ m : ℕ, m < 2 ^ n ∧ σ.val v.var = (m : F)) := by
  refine VS.bind (VS.forN (fun j st => st.2 = 2 ^ j ∧ ∃ m : ℕ, m < 2 ^ j ∧ LC.termsVal σ st.1 = (m : F) - σ.val v.var) n _ ⟨by simp, 0, by simp, by simp⟩ ?_) ?_
  · rintro j _ ⟨ts, e⟩ ⟨he, m, hm, hval⟩
    refine VS.bind (VS.allocMul hg _) ?_
    rintro ⟨a, b, o⟩ ho
    refine VS.bind (VS.con _) fun _ h1 => ?_
    refine VS.bind (VS.con _) fun _ h2 => ?_
    refine VS.pure ?_
    simp only [LC.value_varAdd, LC.value_varSub, LC.value_ofVar, LC.value_ofScalar] at h1 h2 ho he hval ⊢
    have ha : σ.val a = 1 - σ.val b := by linear_combination h2
    rw [h1, ha] at ho
    refine ⟨by rw [he]; ring, ?_⟩
    rw [LC.termsVal_append, hval]
    rcases mul_eq_zero.mp ho.symm with h | h
    · refine ⟨m + 2 ^ j, by rw [pow_succ]; omega, ?_⟩
      have hb : σ.val b = 1 := by linear_combination -h
      simp only [LC.termsVal_cons, LC.termsVal_nil, hb, he]
      push_cast; ring
    · refine ⟨m, by rw [pow_succ]; omega, ?_⟩
      simp only [LC.termsVal_cons, LC.termsVal_nil, h]
      ring
  · rintro ⟨ts, e⟩ ⟨_, m, hm, hval⟩
    refine (VS.con _).mono fun _ h => ⟨m, hm, ?_⟩
    rw [LC.value_def, LC.ofTerms] at h
    simp only at hval
    rw [hval] at h
    linear_combination -h

theorem PS.positiveNo [IntRep F] {p : Prover F G} (h : p.Good) {v : Alloc F} {x : F} {n : ℕ} (hx : IntRep.rep x < 2 ^ n) (hv : p.HasV v.var x)
    (ha : v.assignment = some x) : PS env onSpec p (positiveNoGadget v n : Prog F C rnd _) (fun _ p' => p.Next p') := by
  refine PS.bind (PS.forN (fun j st p' => p.Next p' ∧ st.2 = 2 ^ j ∧ p'.Has (LC.ofTerms st.1) (((IntRep.rep x % 2 ^ j : ℕ) : F) - x)) n _ p ⟨.refl h, by simp, ?_⟩ ?_) ?_
  · exact (Prover.Has.cons hv .nil).congr (by simp [Nat.mod_one])
  · rintro j _ ⟨ts, e⟩ p1 ⟨n1, he, hl⟩
    simp only at he hl
    unfold positiveNoBody
    rw [ha]
    simp only [Option.map_some]
    have key : ∀ (a b : F), (a = 1 - b) → (b = (((IntRep.rep x >>> j) % 2 : ℕ) : F)) → a * b = 0 →
        PS env onSpec p1 (Prog.allocMul (some (a, b)) >>= fun q => match q with
          | (a, b, o) => Prog.con (LC.ofVar o) >>= fun _ => Prog.con (LC.varAdd a (LC.varSub b (LC.ofScalar 1))) >>= fun _ => Pure.pure (ts ++ [(b, e)], e + e) : Prog F C rnd _)
          (fun st p' => p.Next p' ∧ st.2 = 2 ^ (j + 1) ∧ p'.Has (LC.ofTerms st.1) (((IntRep.rep x % 2 ^ (j + 1) : ℕ) : F) - x)) := by
      intro a b hab hb h0
      refine PS.bind (PS.allocMul n1.good _ _) ?_
      rintro ⟨va, vb, vo⟩ p2 ⟨n2, h1, h2, h3⟩
      refine PS.bind (PS.con n2.good ?_) fun _ p3 n3 => PS.bind (PS.con n3.good ?_) fun _ p4 n4 => PS.pure ⟨((n1.trans n2).trans n3).trans n4, ?_, ?_⟩
      · exact (Prover.Has.ofVar h3).congr h0
      · exact ((Prover.Has.varAdd h1 (.varSub h2 (.ofScalar 1))).next n2.good n3).congr (by rw [hab]; ring)
      · simp only; rw [he]; ring
      · have hn := (n2.trans n3).trans n4
        refine ((hl.next n1.good hn).snoc ((h2.next n2.good n3).next n3.good n4)).congr ?_
        rw [Nat.mod_pow_succ, he, hb, Nat.shiftRight_eq_div_pow]
        push_cast; ring
    by_cases hbit : (IntRep.rep x >>> j) % 2 = 1
    · rw [if_pos hbit]
      exact key 0 1 (by ring) (by rw [hbit]; simp) (by ring)
    · rw [if_neg hbit]
      exact key 1 0 (by ring) (by rw [show (IntRep.rep x >>> j) % 2 = 0 by omega]; simp) (by ring)
  · rintro ⟨ts, e⟩ p1 ⟨n1, he, hl⟩
    refine (PS.con n1.good ?_).mono fun _ p2 n2 => n1.trans n2
    exact hl.congr (by rw [Nat.mod_eq_of_lt hx, IntRep.cast_rep, sub_self])

theorem Prog.Same.positiveNo [IntRep F] {RC : C → C' → Prop} {a b : Alloc F} (h : a.Pair b) (n : ℕ) :
    Prog.Same RC (fun _ _ => True) (positiveNoGadget a n : Prog F C rnd _) (positiveNoGadget b n) := by
  obtain ⟨hv, x, hx⟩ := h
  refine Prog.Same.bind (RA := Eq) (.forN Eq (by rw [hv]) ?_) ?_
  · rintro j st _ rfl
    unfold positiveNoBody
    rw [hx]
    refine Prog.Same.bind .allocMul ?_
    rintro ⟨a, b, o⟩ _ rfl
    exact .bind (.con .rfl') fun _ _ _ => .bind (.con .rfl') fun _ _ _ => .pure rfl
  · rintro st _ rfl
    exact .con .rfl'

/-! ## is_nonzero_gadget -/

theorem VS.isNonzero (hg : σ.Gates) (x xInv : Var) : VS env σ (isNonzeroGadget x xInv : Prog F C rnd _) (fun _ => σ.val x * σ.val xInv = 1) := by
  refine VS.bind (VS.mul hg _ _) ?_
  rintro ⟨_, _, o1⟩ h1
  refine VS.bind (VS.con _) fun _ h2 => ?_
  refine VS.bind (VS.mul hg _ _) ?_
  rintro ⟨_, _, o2⟩ ⟨_, _, h3⟩
  refine (VS.con _).mono fun _ h4 => ?_
  simp only [LC.value_varSub, LC.value_ofVar, LC.value_ofScalar, LC.value_ofTerms] at h3 h4
  simp only [List.map_cons, List.map_nil, List.sum_cons, List.sum_nil] at h3
  linear_combination h4 - h3

theorem PS.isNonzero {p : Prover F G} (h : p.Good) {vx vi : Var} {x i : F} (hx : p.HasV vx x) (hi : p.HasV vi i) (hxi : x * i = 1) :
    PS env onSpec p (isNonzeroGadget vx vi : Prog F C rnd _) (fun _ p' => p.Next p') := by
  refine PS.bind (PS.mul h (.ofVar hx) ((Prover.Has.ofVar Prover.Has.one).sub (.ofScalar 1))) ?_
  rintro ⟨_, _, o1⟩ p1 ⟨n1, _, _, h1⟩
  refine PS.bind (PS.con n1.good ((Prover.Has.ofVar h1).congr (by ring))) fun _ p2 n2 => ?_
  have n12 := n1.trans n2
  refine PS.bind (PS.mul n2.good (.ofVar (hx.next h n12)) (.cons (hi.next h n12) .nil)) ?_
  rintro ⟨_, _, o2⟩ p3 ⟨n3, _, _, h3⟩
  refine (PS.con n3.good ((Prover.Has.varSub h3 (.ofScalar 1)).congr ?_)).mono fun _ p4 n4 => (n12.trans n3).trans n4
  linear_combination hxi

theorem Prog.Same.isNonzero {RC : C → C' → Prop} (x i : Var) :
    Prog.Same RC (fun _ _ => True) (isNonzeroGadget x i : Prog F C rnd _) (isNonzeroGadget x i) := by
  refine Prog.Same.bind (.mul .rfl' .rfl') ?_
  rintro ⟨_, _, o⟩ _ rfl
  refine .bind (.con .rfl') fun _ _ _ => .bind (.mul .rfl' .rfl') ?_
  rintro ⟨_, _, o⟩ _ rfl
  exact .con .rfl'

/-! ## vector_sum_constraints -/

theorem VS.vectorSum (vs : List Var) (n : ℕ) : VS env σ (vectorSumConstraints vs n : Prog F C rnd _) (fun _ => (vs.map σ.val).sum = (n : F)) :=
  (VS.con _).mono fun _ h => by
    simp only [LC.value_def, LC.ofTerms, LC.termsVal_cons] at h
    have e : LC.termsVal σ (vs.map fun v => (v, (1 : F))) = (vs.map σ.val).sum := by
      simp [LC.termsVal, Function.comp_def]
    rw [e] at h
    simp only [Assignment.val] at h
    linear_combination h

theorem Prover.has_sum {p : Prover F G} : ∀ {vs : List Var} {xs : List F}, List.Forall₂ p.HasV vs xs →
    p.Has (LC.ofTerms (vs.map fun v => (v, 1))) xs.sum
  | _, _, .nil => .nil
  | _, _, .cons h hs => (Prover.Has.cons h (Prover.has_sum hs)).congr (by simp)

theorem PS.vectorSum {p : Prover F G} (h : p.Good) {vs : List Var} {xs : List F} {n : ℕ} (hv : List.Forall₂ p.HasV vs xs) (hs : xs.sum = (n : F)) :
    PS env onSpec p (vectorSumConstraints vs n : Prog F C rnd _) (fun _ p' => p.Next p') :=
  PS.con h ((Prover.Has.cons Prover.Has.one (Prover.has_sum hv)).congr (by rw [hs]; ring))

theorem Prog.Same.vectorSum {RC : C → C' → Prop} (vs : List Var) (n : ℕ) :
    Prog.Same RC (fun _ _ => True) (vectorSumConstraints vs n : Prog F C rnd _) (vectorSumConstraints vs n) := .con .rfl'

end Bp
