import Mathlib.Tactic.NormNum
import Verif.Lemmas.Gadgets.Merkle

set_option linter.unusedSectionVars false
set_option linter.unusedSimpArgs false

/-! # One level of the Merkle inclusion gadgets -/

namespace Bp
variable {F G : Type} [Field F] [AddCommGroup G] [Module F G]
variable {C C' : Type} {rnd : Bool} {α β : Type}
variable {env : Env F G} {σ : Assignment F} {onSpec : C → Prover F G → Prover F G}

theorem Prover.Has.step {p p' : Prover F G} {l : LC F} {x : F} (n : p.Next p') (hg : p.Good) (h : p.Has l x) : p'.Has l x := h.next hg n

/-- Carry a settled value forward to the current state. -/
macro "has" : tactic => `(tactic| repeat (first | assumption | (apply Prover.Has.step; assumption; assumption)))
/-- Compose the steps from the first state to the current one. -/
macro "nexts" : tactic => `(tactic| repeat (first | exact Prover.Next.refl (by assumption) | assumption | refine Prover.Next.trans ?_ (by assumption)))

theorem PS.mulK {p : Prover F G} {l r : LC F} {x y : F} (hg : p.Good) (hl : p.Has l x) (hr : p.Has r y) {f : Var × Var × Var → Prog F C rnd β} {Q : β → Prover F G → Prop}
    (k : ∀ a b v p', p.Next p' → p'.Good → p'.Has (LC.ofVar v) (x * y) → PS env onSpec p' (f (a, b, v)) Q) : PS env onSpec p (Prog.mul l r >>= f) Q := by
  refine PS.bind (PS.mul hg hl hr) ?_
  rintro ⟨a, b, v⟩ p' ⟨n, -, -, h⟩
  exact k a b v p' n n.good (.ofVar h)

theorem Prover.Has.oneMinus {p : Prover F G} {v : Var} {x : F} (h : p.Has (LC.ofVar v) x) : p.Has (Bp.oneMinus v : LC F) (1 - x) := .varSub Prover.Has.one h
theorem LC.value_oneMinus (v : Var) : (oneMinus v : LC F).value σ = 1 - σ.val v := by
  unfold oneMinus; rw [LC.value_varSub, LC.value_ofVar]; rfl

/-! ## Bits -/

theorem VS.allocBit (hg : σ.Gates) (b : Option ℕ) : VS env σ (allocBit b : Prog F C rnd _) fun q => (σ.val q.1 = 0 ∧ σ.val q.2 = 1) ∨ (σ.val q.1 = 1 ∧ σ.val q.2 = 0) := by
  refine VS.bind (VS.allocMul hg _) ?_
  rintro ⟨v, w, o⟩ h
  refine VS.bind (VS.con _) fun _ h1 => VS.bind (VS.con _) fun _ h2 => VS.pure ?_
  rw [LC.value_ofVar] at h1
  simp only [LC.value_varAdd, LC.value_varSub, LC.value_ofScalar] at h2
  simp only at h
  rw [h1] at h
  rcases mul_eq_zero.mp h.symm with h0 | h0
  · left; exact ⟨h0, by rw [h0] at h2; linear_combination h2⟩
  · right; exact ⟨by rw [h0] at h2; linear_combination h2, h0⟩

theorem PS.allocBit {p : Prover F G} (hg : p.Good) {b : ℕ} (hb : b < 2) : PS env onSpec p (allocBit (some b) : Prog F C rnd _) fun q p' => p.Next p' ∧ p'.HasV q.1 b ∧ p'.HasV q.2 (1 - b) := by
  refine PS.bind (PS.allocMul hg _ _) ?_
  rintro ⟨v, w, o⟩ p1 ⟨n1, h1, h2, h3⟩
  have hc : ((1 - b : ℕ) : F) = 1 - (b : F) := by rw [Nat.cast_sub (by omega)]; simp
  rw [hc] at h2 h3
  refine PS.bind (PS.con n1.good ((Prover.Has.ofVar h3).congr ?_)) fun _ p2 n2 => ?_
  · interval_cases b <;> simp
  refine PS.bind (PS.con n2.good ((Prover.Has.varAdd (h1.next n1.good n2) (.varSub (h2.next n1.good n2) (.ofScalar 1))).congr (by ring))) fun _ p3 n3 => PS.pure ?_
  exact ⟨(n1.trans n2).trans n3, (h1.next n1.good n2).next n2.good n3, (h2.next n1.good n2).next n2.good n3⟩

theorem Prog.Same.allocBit {RC : C → C' → Prop} (x : ℕ) (y : Option ℕ) : Prog.Same RC Eq (allocBit (some x) : Prog F C rnd _) (allocBit y) := by
  refine .bind .allocMul ?_
  rintro ⟨v, w, o⟩ _ rfl
  exact .bind (.con .rfl') fun _ _ _ => .bind (.con .rfl') fun _ _ _ => .pure rfl

theorem PC.allocBit {pd : Option ℕ} (x : Option ℕ) : PC pd (allocBit x : Prog F C rnd _) 1 := by
  refine PC.bind (k := 1) (l := 0) (PC.allocMul _) ?_
  rintro ⟨v, w, o⟩
  exact PC.bind (k := 0) (l := 0) (PC.con _) fun _ => PC.bind (k := 0) (l := 0) (PC.con _) fun _ => PC.pure _

/-! ## Selection -/

/-- What `select4` computes. -/
def sel4 (e0 e1 x x1 x2 x3 : F) : List F :=
  [(1 - e0) * (1 - e1) * x + (1 - (1 - e0) * (1 - e1)) * x1,
   x1 - (1 - (1 - e0) * (1 - e1)) * x1 + e0 * (1 - e1) * x + e1 * x2,
   x2 - e1 * x2 + (1 - e0) * e1 * x + e0 * e1 * x3,
   e0 * e1 * x + (x3 - e0 * e1 * x3)]

theorem sel4_insert (x x1 x2 x3 : F) {d0 d1 : ℕ} (h0 : d0 < 2) (h1 : d1 < 2) : sel4 (d0 : F) d1 x x1 x2 x3 = [x1, x2, x3].insertIdx (2 * d1 + d0) x := by
  interval_cases d0 <;> interval_cases d1 <;> simp [sel4]

theorem VS.select4 (hg : σ.Gates) {b0 b0_1 b1 b1_1 : Var} (h0 : σ.val b0_1 = 1 - σ.val b0) (h1 : σ.val b1_1 = 1 - σ.val b1) (N N1 N2 N3 : LC F) :
    VS env σ (select4 b0 b0_1 b1 b1_1 N N1 N2 N3 : Prog F C rnd _) fun ls => ls.map (LC.value σ) = sel4 (σ.val b0) (σ.val b1) (N.value σ) (N1.value σ) (N2.value σ) (N3.value σ) := by
  unfold Bp.select4
  iterate 11
    refine VS.bind (VS.mul hg _ _) ?_
    rintro ⟨_, _, _⟩ ⟨-, -, _⟩
  refine VS.pure ?_
  simp only [LC.value_ofVar, LC.value_oneMinus] at *
  simp only [List.map_cons, List.map_nil, LC.value_varAdd, LC.value_add, LC.value_sub, LC.value_ofVar, sel4, *]

theorem PS.select4 {p : Prover F G} (hg : p.Good) {b0 b0_1 b1 b1_1 : Var} {e0 e1 x x1 x2 x3 : F} {N N1 N2 N3 : LC F} (h0 : p.Has (LC.ofVar b0) e0) (h0' : p.Has (LC.ofVar b0_1) (1 - e0))
    (h1 : p.Has (LC.ofVar b1) e1) (h1' : p.Has (LC.ofVar b1_1) (1 - e1)) (hN : p.Has N x) (hN1 : p.Has N1 x1) (hN2 : p.Has N2 x2) (hN3 : p.Has N3 x3) :
    PS env onSpec p (select4 b0 b0_1 b1 b1_1 N N1 N2 N3 : Prog F C rnd _) fun ls p' => p.Next p' ∧ List.Forall₂ p'.Has ls (sel4 e0 e1 x x1 x2 x3) := by
  unfold Bp.select4
  iterate 11
    refine PS.mulK (by assumption) (by first | (apply Prover.Has.oneMinus; has; done) | has) (by has) ?_
    intro _ _ _ _ _ _ _
  refine PS.pure ⟨by nexts, ?_⟩
  refine .cons (.add ?_ ?_) (.cons (.add (.add (.sub ?_ ?_) ?_) ?_) (.cons (.add (.add (.sub ?_ ?_) ?_) ?_) (.cons (.add ?_ (.sub ?_ ?_)) .nil))) <;> has

theorem Prog.Same.select4 {RC : C → C' → Prop} (b0 b0_1 b1 b1_1 : Var) {N N' : LC F} (h : N.Equiv N') (N1 N2 N3 : LC F) :
    Prog.Same RC (List.Forall₂ LC.Equiv) (select4 b0 b0_1 b1 b1_1 N N1 N2 N3 : Prog F C rnd _) (select4 b0 b0_1 b1 b1_1 N' N1 N2 N3) := by
  unfold Bp.select4
  iterate 11
    refine .bind (.mul (by first | exact h | exact .rfl') (by first | exact h | exact .rfl')) ?_
    rintro ⟨_, _, _⟩ _ rfl
  refine .pure ?_
  repeat' (first | exact .nil | refine .cons .rfl' ?_)

theorem PC.select4 {pd : Option ℕ} (b0 b0_1 b1 b1_1 : Var) (N N1 N2 N3 : LC F) : PC pd (select4 b0 b0_1 b1 b1_1 N N1 N2 N3 : Prog F C rnd _) 11 := by
  unfold Bp.select4
  refine PC.congr (k := 1+(1+(1+(1+(1+(1+(1+(1+(1+(1+(1+0))))))))))) ?_ (by norm_num)
  iterate 11
    refine PC.bind (k := 1) (PC.mul _ _) ?_
    rintro ⟨_, _, _⟩
  exact PC.pure _

/-- What `select8` computes. -/
def sel8 (e0 e1 e2 x x1 x2 x3 x4 x5 x6 x7 : F) : List F :=
  [(1 - e0) * (1 - e1) * (1 - e2) * x + (1 - (1 - e0) * (1 - e1) * (1 - e2)) * x1,
   (1 - (1 - e1) * (1 - e2)) * x2 + (1 - e1) * (1 - e2) * e0 * x + (x1 - (1 - (1 - e0) * (1 - e1) * (1 - e2)) * x1),
   x2 - (1 - (1 - e1) * (1 - e2)) * x2 + (1 - e0) * (1 - e2) * e1 * x + (1 - (1 - e0 * e1) * (1 - e2)) * x3,
   x3 - (1 - (1 - e0 * e1) * (1 - e2)) * x3 + (1 - e2) * (e0 * e1) * x + e2 * x4,
   x4 - e2 * x4 + e2 * ((1 - e0) * (1 - e1)) * x + e2 * (1 - (1 - e0) * (1 - e1)) * x5,
   x5 - e2 * (1 - (1 - e0) * (1 - e1)) * x5 + e1 * e2 * x6 + e2 * (1 - e1) * e0 * x,
   e0 * e1 * e2 * x7 + e1 * e2 * (1 - e0) * x + (x6 - e1 * e2 * x6),
   e0 * e1 * e2 * x + (x7 - e0 * e1 * e2 * x7)]

theorem sel8_insert (x x1 x2 x3 x4 x5 x6 x7 : F) {d0 d1 d2 : ℕ} (h0 : d0 < 2) (h1 : d1 < 2) (h2 : d2 < 2) :
    sel8 (d0 : F) d1 d2 x x1 x2 x3 x4 x5 x6 x7 = [x1, x2, x3, x4, x5, x6, x7].insertIdx (d0 + 2 * d1 + 4 * d2) x := by
  interval_cases d0 <;> interval_cases d1 <;> interval_cases d2 <;> simp [sel8]

theorem VS.select8 (hg : σ.Gates) {b0 b0_1 b1 b1_1 b2 b2_1 : Var} (h0 : σ.val b0_1 = 1 - σ.val b0) (h1 : σ.val b1_1 = 1 - σ.val b1) (h2 : σ.val b2_1 = 1 - σ.val b2)
    (N N1 N2 N3 N4 N5 N6 N7 : LC F) :
    VS env σ (select8 b0 b0_1 b1 b1_1 b2 b2_1 N N1 N2 N3 N4 N5 N6 N7 : Prog F C rnd _) fun ls => ls.map (LC.value σ) =
      sel8 (σ.val b0) (σ.val b1) (σ.val b2) (N.value σ) (N1.value σ) (N2.value σ) (N3.value σ) (N4.value σ) (N5.value σ) (N6.value σ) (N7.value σ) := by
  unfold Bp.select8
  iterate 31
    refine VS.bind (VS.mul hg _ _) ?_
    rintro ⟨_, _, _⟩ ⟨-, -, _⟩
  refine VS.pure ?_
  simp only [LC.value_ofVar, LC.value_oneMinus] at *
  simp only [List.map_cons, List.map_nil, LC.value_varAdd, LC.value_add, LC.value_sub, LC.value_ofVar, sel8, *]

set_option maxHeartbeats 4000000 in
theorem PS.select8 {p : Prover F G} (hg : p.Good) {b0 b0_1 b1 b1_1 b2 b2_1 : Var} {e0 e1 e2 x x1 x2 x3 x4 x5 x6 x7 : F} {N N1 N2 N3 N4 N5 N6 N7 : LC F} (h0 : p.Has (LC.ofVar b0) e0)
    (h0' : p.Has (LC.ofVar b0_1) (1 - e0)) (h1 : p.Has (LC.ofVar b1) e1) (h1' : p.Has (LC.ofVar b1_1) (1 - e1)) (h2 : p.Has (LC.ofVar b2) e2) (h2' : p.Has (LC.ofVar b2_1) (1 - e2))
    (hN : p.Has N x) (hN1 : p.Has N1 x1) (hN2 : p.Has N2 x2) (hN3 : p.Has N3 x3) (hN4 : p.Has N4 x4) (hN5 : p.Has N5 x5) (hN6 : p.Has N6 x6) (hN7 : p.Has N7 x7) :
    PS env onSpec p (select8 b0 b0_1 b1 b1_1 b2 b2_1 N N1 N2 N3 N4 N5 N6 N7 : Prog F C rnd _) fun ls p' => p.Next p' ∧ List.Forall₂ p'.Has ls (sel8 e0 e1 e2 x x1 x2 x3 x4 x5 x6 x7) := by
  unfold Bp.select8
  iterate 31
    refine PS.mulK (by assumption) (by first | (apply Prover.Has.oneMinus; has; done) | has) (by first | (apply Prover.Has.oneMinus; has; done) | has) ?_
    intro _ _ _ _ _ _ _
  refine PS.pure ⟨by nexts, ?_⟩
  refine .cons (.add ?_ ?_) (.cons (.add (.add ?_ ?_) (.sub ?_ ?_)) (.cons (.add (.add (.sub ?_ ?_) ?_) ?_) (.cons (.add (.add (.sub ?_ ?_) ?_) ?_) (.cons (.add (.add (.sub ?_ ?_) ?_) ?_)
    (.cons (.add (.add (.sub ?_ ?_) ?_) ?_) (.cons (.add (.add ?_ ?_) (.sub ?_ ?_)) (.cons (.add ?_ (.sub ?_ ?_)) .nil))))))) <;> has

theorem Prog.Same.select8 {RC : C → C' → Prop} (b0 b0_1 b1 b1_1 b2 b2_1 : Var) {N N' : LC F} (h : N.Equiv N') (N1 N2 N3 N4 N5 N6 N7 : LC F) :
    Prog.Same RC (List.Forall₂ LC.Equiv) (select8 b0 b0_1 b1 b1_1 b2 b2_1 N N1 N2 N3 N4 N5 N6 N7 : Prog F C rnd _) (select8 b0 b0_1 b1 b1_1 b2 b2_1 N' N1 N2 N3 N4 N5 N6 N7) := by
  unfold Bp.select8
  iterate 31
    refine .bind (.mul (by first | exact h | exact .rfl') (by first | exact h | exact .rfl')) ?_
    rintro ⟨_, _, _⟩ _ rfl
  refine .pure ?_
  repeat' (first | exact .nil | refine .cons .rfl' ?_)

theorem PC.select8 {pd : Option ℕ} (b0 b0_1 b1 b1_1 b2 b2_1 : Var) (N N1 N2 N3 N4 N5 N6 N7 : LC F) :
    PC pd (select8 b0 b0_1 b1 b1_1 b2 b2_1 N N1 N2 N3 N4 N5 N6 N7 : Prog F C rnd _) 31 := by
  unfold Bp.select8
  refine PC.congr (k := 1+(1+(1+(1+(1+(1+(1+(1+(1+(1+(1+(1+(1+(1+(1+(1+(1+(1+(1+(1+(1+(1+(1+(1+(1+(1+(1+(1+(1+(1+(1+(0)))))))))))))))))))))))))))))))) ?_ (by norm_num)
  iterate 31
    refine PC.bind (k := 1) (PC.mul _ _) ?_
    rintro ⟨_, _, _⟩
  exact PC.pure _

end Bp
