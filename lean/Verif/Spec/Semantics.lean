import Verif.Model.LinComb

/-! # Specification: what a constraint system means

An assignment gives a field value to every wire and every committed value.  A constraint is satisfied when its linear
combination evaluates to zero; a multiplication gate is satisfied when output = left * right.  Nothing here refers to the
implementation of prover or verifier. -/

namespace Bp
variable {F : Type} [Field F]

/-- Values for all wires and committed variables. -/
structure Assignment (F : Type) where
  left : ℕ → F
  right : ℕ → F
  out : ℕ → F
  committed : ℕ → F

/-- The value of a variable; the constant variable is worth 1. -/
def Assignment.val (σ : Assignment F) : Var → F
  | .left i => σ.left i
  | .right i => σ.right i
  | .out i => σ.out i
  | .committed i => σ.committed i
  | .one => 1

/-- The value of a linear combination: `Σ coefficient * variable`. -/
def LC.value (σ : Assignment F) (l : LC F) : F := (l.terms.map (fun t => t.2 * σ.val t.1)).sum

/-- Every multiplication gate holds. -/
def Assignment.Gates (σ : Assignment F) : Prop := ∀ i, σ.out i = σ.left i * σ.right i

/-- Every constraint of the list evaluates to zero. -/
def Assignment.Sat (σ : Assignment F) (cs : List (LC F)) : Prop := ∀ lc ∈ cs, lc.value σ = 0

end Bp
