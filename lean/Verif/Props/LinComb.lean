import Verif.Lemmas.LC

/-! # C01, C02: linear combinations -/

set_option linter.unusedSimpArgs false

namespace Bp
namespace LC
variable {F : Type} [Field F] (σ : Assignment F)

/-- C01: `From<Variable>`. -/
theorem value_ofVar (v : Var) : (ofVar v : LC F).value σ = σ.val v := by
  simp [value_def, ofVar]
/-- C01: `From<FieldElement>`. -/
theorem value_ofScalar (s : F) : (ofScalar s).value σ = s := by
  simp [value_def, ofScalar, Assignment.val]
/-- C01: `default()`. -/
theorem value_empty : (empty : LC F).value σ = 0 := rfl
/-- C01: `FromIterator`. -/
theorem value_ofTerms (ts : List (Var × F)) :
    (ofTerms ts).value σ = (ts.map (fun t => t.2 * σ.val t.1)).sum := rfl
/-- C01: `lc + x`, `lc += x`. -/
theorem value_add (l r : LC F) : (l.add r).value σ = l.value σ + r.value σ := by
  simp [value_def, add]
/-- C01: `lc - x`. -/
theorem value_sub (l r : LC F) : (l.sub r).value σ = l.value σ - r.value σ := by
  simp [value_def, sub, termsVal_map_neg]; ring
/-- C01: `-lc`. -/
theorem value_neg (l : LC F) : l.neg.value σ = - l.value σ := by
  simp [value_def, neg, termsVal_map_neg]
/-- C01: `scalar * lc`. -/
theorem value_smul (s : F) (l : LC F) : (smul s l).value σ = s * l.value σ := by
  simp [value_def, smul, termsVal_map_mul]
/-- C01: `scalar + variable`. -/
theorem value_scalarAddVar (s : F) (v : Var) : (scalarAddVar s v).value σ = s + σ.val v := by
  simp [value_def, scalarAddVar, Assignment.val]
/-- C01: `variable - x`. -/
theorem value_varSub (v : Var) (l : LC F) : (varSub v l).value σ = σ.val v - l.value σ := by
  simp [varSub, value_sub, value_ofVar]
/-- C01: `-variable`. -/
theorem value_varNeg (v : Var) : (varNeg v : LC F).value σ = - σ.val v := by
  simp [varNeg, value_neg, value_ofVar]
/-- C01: `variable + x`. -/
theorem value_varAdd (v : Var) (l : LC F) : (varAdd v l).value σ = σ.val v + l.value σ := by
  simp [varAdd, value_add, value_ofVar]
/-- C01: `scalar - variable`. -/
theorem value_scalarSubVar (s : F) (v : Var) : (scalarSubVar s v).value σ = s - σ.val v := by
  simp [value_def, scalarSubVar, Assignment.val]; ring
/-- C01: `scalar * variable`. -/
theorem value_scalarMulVar (s : F) (v : Var) : (scalarMulVar s v).value σ = s * σ.val v := by
  simp [value_def, scalarMulVar]

/-- The expressions a user can write with the operators of linear_combination.rs. -/
inductive Expr (F : Type) where
  | var (v : Var)
  | scalar (s : F)
  | add (a b : Expr F)
  | sub (a b : Expr F)
  | neg (a : Expr F)
  | smul (s : F) (a : Expr F)
  | sum (ts : List (Var × F))

/-- What the Rust operators build for an expression. -/
def Expr.build : Expr F → LC F
  | .var v => ofVar v
  | .scalar s => ofScalar s
  | .add a b => a.build.add b.build
  | .sub a b => a.build.sub b.build
  | .neg a => a.build.neg
  | .smul s a => LC.smul s a.build
  | .sum ts => ofTerms ts

/-- What the expression means. -/
def Expr.meaning (σ : Assignment F) : Expr F → F
  | .var v => σ.val v
  | .scalar s => s
  | .add a b => a.meaning σ + b.meaning σ
  | .sub a b => a.meaning σ - b.meaning σ
  | .neg a => - a.meaning σ
  | .smul s a => s * a.meaning σ
  | .sum ts => (ts.map (fun t => t.2 * σ.val t.1)).sum

/-- C01, all operators at once: every expression built with the operators has the value the expression denotes. -/
theorem c01_expr_value (e : Expr F) : e.build.value σ = e.meaning σ := by
  induction e with
  | var v => exact value_ofVar σ v
  | scalar s => exact value_ofScalar σ s
  | add a b iha ihb => simp [Expr.build, Expr.meaning, value_add, iha, ihb]
  | sub a b iha ihb => simp [Expr.build, Expr.meaning, value_sub, iha, ihb]
  | neg a ih => simp [Expr.build, Expr.meaning, value_neg, ih]
  | smul s a ih => simp [Expr.build, Expr.meaning, value_smul, ih]
  | sum ts => rfl

/-- C01: the mixed operators between `FieldElement` and `Variable`, and unary/binary operators on `Variable`. -/
theorem c01_mixed_operators (s : F) (v : Var) (l : LC F) :
    (scalarAddVar s v).value σ = s + σ.val v ∧
    (scalarSubVar s v).value σ = s - σ.val v ∧
    (scalarMulVar s v).value σ = s * σ.val v ∧
    (varAdd v l).value σ = σ.val v + l.value σ ∧
    (varSub v l).value σ = σ.val v - l.value σ ∧
    (varNeg v : LC F).value σ = - σ.val v ∧
    (empty : LC F).value σ = 0 :=
  ⟨value_scalarAddVar σ s v, value_scalarSubVar σ s v, value_scalarMulVar σ s v, value_varAdd σ v l,
   value_varSub σ v l, value_varNeg σ v, value_empty σ⟩

/-- C02: `simplify` keeps the value under every assignment, for every HashMap iteration order. -/
theorem c02_simplify_value (ord : List (Var × F) → List (Var × F)) (hord : ∀ l, (ord l).Perm l) (l : LC F) :
    (l.simplify ord).value σ = l.value σ := by
  simp only [value_def, simplify]
  rw [termsVal_perm (hord _), collect_val]

/-- C02: after `simplify` every variable occurs at most once. -/
theorem c02_simplify_nodup (ord : List (Var × F) → List (Var × F)) (hord : ∀ l, (ord l).Perm l) (l : LC F) :
    ((l.simplify ord).terms.map Prod.fst).Nodup := by
  simp only [simplify]
  exact ((hord _).map Prod.fst).nodup_iff.mpr (collect_nodup _)

/-- C02: `simplify` neither loses nor invents variables. -/
theorem c02_simplify_vars (ord : List (Var × F) → List (Var × F)) (hord : ∀ l, (ord l).Perm l) (l : LC F) (v : Var) :
    v ∈ (l.simplify ord).terms.map Prod.fst ↔ v ∈ l.terms.map Prod.fst := by
  simp only [simplify]
  rw [((hord _).map Prod.fst).mem_iff, collect_keys]

/-- C02: the coefficient of each variable is the sum of its coefficients in the input. -/
theorem c02_simplify_coeff [DecidableEq F] (ord : List (Var × F) → List (Var × F)) (hord : ∀ l, (ord l).Perm l) (l : LC F) (v : Var) (c : F)
    (h : (v, c) ∈ (l.simplify ord).terms) :
    c = ((l.terms.filter (fun t => t.1 = v)).map Prod.snd).sum := by
  have hmem : (v, c) ∈ collect l.terms := (hord _).mem_iff.mp h
  -- evaluate at the indicator of `v`
  have key : ∀ (ts m : List (Var × F)), (m.map Prod.fst).Nodup →
      (v, c) ∈ ts.foldl (fun m t => upsert m t.1 t.2) m →
      c = ((m.filter (fun t => t.1 = v)).map Prod.snd).sum + ((ts.filter (fun t => t.1 = v)).map Prod.snd).sum := by
    have up : ∀ (m : List (Var × F)) (w : Var) (x : F),
        (((upsert m w x).filter (fun t => t.1 = v)).map Prod.snd).sum =
          ((m.filter (fun t => t.1 = v)).map Prod.snd).sum + if w = v then x else 0 := by
      intro m w x
      induction m with
      | nil => by_cases hw : w = v <;> simp [upsert, hw]
      | cons t m ih =>
        obtain ⟨k, y⟩ := t
        by_cases hk : k = w
        · subst hk
          by_cases hv : k = v <;> simp [upsert, hv, List.filter_cons] <;> ring
        · by_cases hv : k = v
          · subst hv
            simp only [upsert, if_neg hk, List.filter_cons, decide_true, if_true, List.map_cons, List.sum_cons, ih]
            ring
          · simp [upsert, hk, List.filter_cons, hv, ih]
    intro ts
    induction ts with
    | nil =>
      intro m hm hin
      simp only [List.foldl_nil] at hin
      simp only [List.filter_nil, List.map_nil, List.sum_nil, add_zero]
      clear up hmem h
      induction m with
      | nil => simp at hin
      | cons t m ih =>
        simp only [List.map_cons, List.nodup_cons] at hm
        rcases List.mem_cons.mp hin with h | h
        · subst h
          have : m.filter (fun t => t.1 = v) = [] := by
            rw [List.filter_eq_nil_iff]
            intro a ha hav
            simp only [decide_eq_true_eq] at hav
            exact hm.1 (List.mem_map.mpr ⟨a, ha, hav⟩)
          simp [List.filter_cons, this]
        · have hne : t.1 ≠ v := fun e => hm.1 (List.mem_map.mpr ⟨(v, c), h, e.symm⟩)
          simp [List.filter_cons, hne, ← ih hm.2 h]
    | cons t ts ih =>
      intro m hm hin
      have := ih (upsert m t.1 t.2) (upsert_nodup _ _ _ hm) hin
      rw [this, up]
      by_cases ht : t.1 = v <;> simp [List.filter_cons, ht, add_assoc]
  simpa using key l.terms [] (by simp) hmem

/-! Non-vacuity: a combination with a repeated variable really is merged, and its value is unchanged. -/
example : ((⟨[(.left 0, 2), (.one, 5), (.left 0, 3)]⟩ : LC ℚ).simplify List.reverse).terms
    = [(.one, 5), (.left 0, 5)] := by
  have h : Var.left 0 ≠ Var.one := by decide
  norm_num [simplify, collect, upsert, h]
example : ∀ l : List (Var × ℚ), (List.reverse l).Perm l := fun l => l.reverse_perm
example : ((Expr.sub (.smul 3 (.var (.left 0))) (.add (.scalar 2) (.neg (.var (.committed 1))))).build).value
    (⟨fun _ => 7, fun _ => 0, fun _ => 0, fun _ => 4⟩ : Assignment ℚ) = 23 := by
  rw [c01_expr_value]; norm_num [Expr.meaning, Assignment.val]

end LC
end Bp
