import Verif.Model.Driver

/-! # Helper constraints: src/r1cs/gadgets/helper_constraints/{mod,bit,positive_no,non_zero,vector_sum}.rs -/

namespace Bp
variable {F : Type} [Field F]

/-- What gadget code does with the integer behind a field element (`to_bignum`, `shift_right`, `is_odd`): a canonical
representative below the field order.  The amcl arithmetic is trusted to keep representatives reduced.  Used at src/r1cs/gadgets/helper_constraints/positive_no.rs:19, src/r1cs/gadgets/helper_constraints/mod.rs:46. -/
class IntRep (F : Type) [Field F] where
  /-- field order -/
  order : ℕ
  rep : F → ℕ
  rep_lt : ∀ x, rep x < order
  cast_rep : ∀ x : F, (rep x : F) = x
  rep_cast : ∀ n : ℕ, n < order → rep (n : F) = n

variable {C : Type} {rnd : Bool}

/-- `constrain_lc_with_scalar`, helper_constraints/mod.rs:16-22. -/
def constrainLcWithScalar (lc : LC F) (scalar : F) : Prog F C rnd Unit := Prog.con (lc.sub (LC.ofScalar scalar))

/-- `bit_gadget`, helper_constraints/bit.rs:7-33. -/
def bitGadget (v : Alloc F) : Prog F C rnd Unit := do
  let (a, b, o) ← Prog.allocMul (v.assignment.map fun bit => (1 - bit, bit))
  let negV := LC.ofTerms [(v.var, (-1 : F))]
  Prog.con (LC.varAdd b negV)
  Prog.con (LC.ofVar o)
  Prog.con (LC.varAdd a (LC.varSub b (LC.ofScalar 1)))

/-- Body of the loop of `positive_no_gadget`, helper_constraints/positive_no.rs:15-34; the loop state is (constraint_v, exp_2). -/
def positiveNoBody [IntRep F] (v : Alloc F) (i : ℕ) (st : List (Var × F) × F) : Prog F C rnd (List (Var × F) × F) := do
  let (a, b, o) ← Prog.allocMul (v.assignment.map fun q => if (IntRep.rep q >>> i) % 2 = 1 then (0, 1) else (1, 0))
  Prog.con (LC.ofVar o)
  Prog.con (LC.varAdd a (LC.varSub b (LC.ofScalar 1)))
  return (st.1 ++ [(b, st.2)], st.2 + st.2)

/-- `positive_no_gadget`, helper_constraints/positive_no.rs:8-40. -/
def positiveNoGadget [IntRep F] (v : Alloc F) (n : ℕ) : Prog F C rnd Unit := do
  let st ← Prog.forN n ([(v.var, (-1 : F))], (1 : F)) (positiveNoBody v)
  Prog.con (LC.ofTerms st.1)

/-- `is_nonzero_gadget`, helper_constraints/non_zero.rs:12-32. -/
def isNonzeroGadget (x xInv : Var) : Prog F C rnd Unit := do
  let xLc := LC.ofVar x
  let yLc := LC.ofScalar (1 : F)
  let oneMinusY := (LC.ofVar .one).sub yLc
  let (_, _, o1) ← Prog.mul xLc oneMinusY
  Prog.con (LC.ofVar o1)
  let invLc := LC.ofTerms [(xInv, (1 : F))]
  let (_, _, o2) ← Prog.mul xLc invLc
  Prog.con (LC.varSub o2 yLc)

/-- `vector_sum_constraints`, helper_constraints/vector_sum.rs:6-19. -/
def vectorSumConstraints (vector : List Var) (sum : ℕ) : Prog F C rnd Unit :=
  Prog.con (LC.ofTerms ((.one, -(sum : F)) :: vector.map fun v => (v, 1)))

end Bp
