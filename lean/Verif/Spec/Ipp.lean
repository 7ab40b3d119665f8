import Verif.Model.Ipp
import Mathlib.Algebra.BigOperators.Group.Finset.Basic

/-! # Specification of the inner-product argument -/

namespace Bp
variable {F G : Type} [Field F] [AddCommGroup G] [SMul F G]

/-- Coefficient of generator `i` after folding with challenges `us` (first round first): the challenge of round `j` enters
with exponent `+1` or `-1` according to bit `k-1-j` of `i`. -/
def foldCoeff (us : List F) (i : ℕ) : F :=
  ∏ j ∈ Finset.range us.length, if i.testBit (us.length - 1 - j) then us.getD j 0 else (us.getD j 0)⁻¹

/-- Fold a generator vector all the way down: each round replaces the two halves `lo`, `hi` by `u⁻¹ lo + u hi`. -/
def foldAll : List F → List G → G
  | [], Gs => Gs.getD 0 0
  | u :: us, Gs => foldAll us (foldPoints u⁻¹ u (Gs.take (2 ^ us.length)) (Gs.drop (2 ^ us.length)))

/-- The commitment of the inner-product statement: `<a,G> + <b,H> + <a,b> Q`. -/
def ippCommit (Q : G) (Gs Hs : List G) (a b : List F) : G := msm a Gs + msm b Hs + dot a b • Q

/-- Generators with factors applied. -/
def scaled (f : List F) (Gs : List G) : List G := List.zipWith (fun x g => x • g) f Gs

end Bp
