import Verif.Spec.Knowledge
import Verif.Spec.Linked

/-! # Specification: linear combinations of commitments -/

namespace Bp
variable {F G : Type} [Field F] [AddCommGroup G] [Module F G]

/-- `a₁ P₁ + a₂ P₂ + …`, computed from the points. -/
def combineComs (as : List F) (Ps : List G) : G := (List.zipWith (fun a P => a • P) as Ps).sum

/-- Somebody has been convinced, by a proof with some label, some further commitments and some generators, that the value in `P` is between the bounds. -/
def ShownInRange [DecidableEq G] [IntRep F] (g h : G) (lower upper : ℕ) (P : G) : Prop :=
  ∃ (env : Env F G) (label : String) (debug : Bool) (n : ℕ) (cs Gs Hs : List G), 2 ^ (n + 1) ≤ IntRep.order F ∧ Convinced label (verifyBoundedNum env debug lower upper n (P :: cs)) g h Gs Hs

end Bp
