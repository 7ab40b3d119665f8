import Verif.Model.Gadgets.Factors
import Verif.Lemmas.Gadgets.Zip

set_option linter.unusedSectionVars false
set_option linter.unusedSimpArgs false

/-! # The factoring circuits: soundness, completeness, lock-step, gate count -/

namespace Bp
variable {F G : Type} [Field F] [AddCommGroup G] [Module F G]
variable {C C' : Type} {rnd : Bool} {env : Env F G} {σ : Assignment F} {onSpec : C → Prover F G → Prover F G}

theorem VS.multiplyOn (hg : σ.Gates) : ∀ (vs : List Var) (o : Var), VS env σ (Bp.multiplyOn o vs : Prog F C rnd _) (fun o' => σ.val o' = σ.val o * (vs.map σ.val).prod)
  | [], o => VS.pure (by simp)
  | v :: vs, o => by
    unfold Bp.multiplyOn
    refine VS.bind (VS.mul hg _ _) ?_
    rintro ⟨_, _, o1⟩ ⟨_, _, h⟩
    refine (VS.multiplyOn hg vs o1).mono fun o' h' => ?_
    simp only [LC.value_ofVar] at h
    rw [h', h, List.map_cons, List.prod_cons, mul_assoc]

theorem VS.factors (hg : σ.Gates) (v w : Var) (vs : List Var) (r : F) : VS env σ (factorsGadget v w vs r : Prog F C rnd _) (fun _ => σ.val v * (σ.val w * (vs.map σ.val).prod) = r) := by
  unfold factorsGadget
  refine VS.bind (VS.mul hg _ _) ?_
  rintro ⟨_, _, o⟩ ⟨_, _, h⟩
  refine VS.bind (VS.multiplyOn hg vs o) fun o' h' => (VS.con _).mono fun _ e => ?_
  simp only [LC.value_ofVar] at h
  rw [LC.value_varSub, h', h] at e
  have e1 : (LC.ofTerms [(Var.one, r)]).value σ = r := by simp [LC.value, LC.ofTerms, Assignment.val]
  rw [e1] at e
  linear_combination e

theorem forall₂_next {p p' : Prover F G} (hg : p.Good) (n : p.Next p') : ∀ {vs : List Var} {xs : List F}, List.Forall₂ p.HasV vs xs → List.Forall₂ p'.HasV vs xs
  | _, _, .nil => .nil
  | _, _, .cons h hs => .cons (h.next hg n) (forall₂_next hg n hs)

theorem PS.multiplyOn : ∀ {vs : List Var} {xs : List F} {p : Prover F G} {o : Var} {x : F}, p.Good → p.HasV o x → List.Forall₂ p.HasV vs xs →
    PS env onSpec p (Bp.multiplyOn o vs : Prog F C rnd _) (fun o' p' => p.Next p' ∧ p'.HasV o' (x * xs.prod))
  | _, _, p, o, x, hp, ho, .nil => PS.pure ⟨.refl hp, by simpa using ho⟩
  | _, _, p, o, x, hp, ho, .cons (b := y) (l₂ := ys) h hs => by
    unfold Bp.multiplyOn
    refine PS.bind (PS.mul hp (.ofVar ho) (.ofVar h)) ?_
    rintro ⟨_, _, o1⟩ p1 ⟨n1, _, _, h1⟩
    refine (PS.multiplyOn n1.good h1 (forall₂_next hp n1 hs)).mono fun o' p' h' => ⟨n1.trans h'.1, ?_⟩
    rw [List.prod_cons, ← mul_assoc]
    exact h'.2

theorem PS.factors {p : Prover F G} (hp : p.Good) {v w : Var} {vs : List Var} {x y r : F} {xs : List F} (hv : p.HasV v x) (hw : p.HasV w y) (hs : List.Forall₂ p.HasV vs xs) (hr : x * (y * xs.prod) = r) :
    PS env onSpec p (factorsGadget v w vs r : Prog F C rnd _) (fun _ p' => p.Next p') := by
  unfold factorsGadget
  refine PS.bind (PS.mul hp (.ofVar hv) (.ofVar hw)) ?_
  rintro ⟨_, _, o⟩ p1 ⟨n1, _, _, h1⟩
  refine PS.bind (PS.multiplyOn n1.good h1 (forall₂_next hp n1 hs)) fun o' p2 ⟨n2, h2⟩ => ?_
  refine (PS.con n2.good ((Prover.Has.varSub h2 (.cons Prover.Has.one .nil)).congr ?_)).mono fun _ p3 n3 => (n1.trans n2).trans n3
  rw [← hr]
  ring

theorem Prog.Same.multiplyOn {RC : C → C' → Prop} : ∀ (vs : List Var) (o : Var), Prog.Same RC Eq (Bp.multiplyOn o vs : Prog F C rnd _) (Bp.multiplyOn o vs)
  | [], o => .ret rfl
  | v :: vs, o => by
    unfold Bp.multiplyOn
    refine .bind (.mul .rfl' .rfl') ?_
    rintro ⟨_, _, o1⟩ _ rfl
    exact Prog.Same.multiplyOn vs o1

theorem Prog.Same.factors {RC : C → C' → Prop} (v w : Var) (vs : List Var) (r : F) : Prog.Same RC (fun _ _ => True) (factorsGadget v w vs r : Prog F C rnd _) (factorsGadget v w vs r) := by
  unfold factorsGadget
  refine .bind (.mul .rfl' .rfl') ?_
  rintro ⟨_, _, o⟩ _ rfl
  refine .bind (.multiplyOn vs o) ?_
  rintro o' _ rfl
  exact .con .rfl'

theorem PC.multiplyOn {pd : Option ℕ} : ∀ (vs : List Var) (o : Var), PC pd (Bp.multiplyOn o vs : Prog F C rnd _) vs.length
  | [], o => PC.pure _
  | v :: vs, o => by
    unfold Bp.multiplyOn
    refine (PC.bind (PC.mul _ _) (l := vs.length) ?_).congr (by simp; omega)
    rintro ⟨_, _, o1⟩
    exact PC.multiplyOn vs o1

theorem PC.factors {pd : Option ℕ} (v w : Var) (vs : List Var) (r : F) : PC pd (factorsGadget v w vs r : Prog F C rnd _) (vs.length + 1) := by
  unfold factorsGadget
  refine (PC.bind (PC.mul _ _) (l := vs.length) ?_).congr (by omega)
  rintro ⟨_, _, o⟩
  exact PC.bind (PC.multiplyOn vs o) fun _ => PC.con _

end Bp
