import Verif.Spec.R1CS
import Mathlib.Algebra.Module.Pi
import Mathlib.Algebra.Module.Prod

/-! # Specification: special soundness

A cheating prover is described by the tree of answers it gives when it is rewound and asked several challenges at each step.  From the *scalars* of such a tree two things are computed: a candidate witness,
and a finite list of candidate linear relations between the generators.  Soundness says that either the witness is right or one of these relations is a non-trivial one (which nobody
should be able to find).  Nothing here looks at the group. -/

namespace Bp
variable {F G : Type} [Field F] [AddCommGroup G] [Module F G]
open Finset

/-! ## The inner-product argument -/

/-- The answers of a prover of the inner-product argument: in every round it sends `L`, `R` and is then asked four challenges. -/
inductive IppTree (F G : Type) where
  | leaf (a b : F)
  | node (L R : G) (u : Fin 4 → F) (next : Fin 4 → IppTree F G)

/-- A branch of the tree: the points sent, the challenges asked, the final answer. -/
inductive IppTree.Path : IppTree F G → List G → List G → List F → F → F → Prop where
  | leaf (a b : F) : Path (.leaf a b) [] [] [] a b
  | node {L R : G} {u : Fin 4 → F} {next : Fin 4 → IppTree F G} {Ls Rs : List G} {us : List F} {a b : F} (i : Fin 4) :
      Path (next i) Ls Rs us a b → Path (.node L R u next) (L :: Ls) (R :: Rs) (u i :: us) a b

/-- The tree has `k` rounds, and the four challenges of each node are non-zero with pairwise different squares. -/
def IppTree.Full : ℕ → IppTree F G → Prop
  | 0, .leaf _ _ => True
  | k + 1, .node _ _ u next => (∀ i, u i ≠ 0) ∧ (∀ i j, i ≠ j → u i ^ 2 ≠ u j ^ 2) ∧ ∀ i, (next i).Full k
  | _, _ => False

/-- Coefficients of a linear combination of `G_0 .. G_(n-1)`, `H_0 .. H_(n-1)` and `Q`. -/
abbrev IppRep (F : Type) := (ℕ → F) × (ℕ → F) × F

/-- Its value. -/
def IppRep.value (n : ℕ) (Q : G) (Gs Hs : List G) (ρ : IppRep F) : G :=
  ∑ i ∈ range n, ρ.1 i • Gs.getD i 0 + ∑ i ∈ range n, ρ.2.1 i • Hs.getD i 0 + ρ.2.2 • Q

/-- All coefficients are zero. -/
def IppRep.Trivial (n : ℕ) (ρ : IppRep F) : Prop := (∀ i < n, ρ.1 i = 0) ∧ (∀ i < n, ρ.2.1 i = 0) ∧ ρ.2.2 = 0

/-- From a combination of the generators of the next round (`u⁻¹ G_i + u G_(m+i)`, `u H_i + u⁻¹ H_(m+i)`) to one of the generators of this round. -/
def IppRep.back (m : ℕ) (u : F) (ρ : IppRep F) : IppRep F :=
  (fun i => if i < m then u⁻¹ * ρ.1 i else u * ρ.1 (i - m), fun i => if i < m then u * ρ.2.1 i else u⁻¹ * ρ.2.1 (i - m), ρ.2.2)

/-- The solution `L`, `P`, `R` of the three equations `s L + P + s⁻¹ R = X`. -/
def solveL {M : Type} [AddCommGroup M] [Module F M] (s : Fin 3 → F) (X : Fin 3 → M) : M :=
  (s 0 / ((s 0 - s 1) * (s 0 - s 2))) • X 0 + (s 1 / ((s 1 - s 0) * (s 1 - s 2))) • X 1 + (s 2 / ((s 2 - s 0) * (s 2 - s 1))) • X 2
def solveP {M : Type} [AddCommGroup M] [Module F M] (s : Fin 3 → F) (X : Fin 3 → M) : M :=
  (-(s 1 + s 2) * s 0 / ((s 0 - s 1) * (s 0 - s 2))) • X 0 + (-(s 0 + s 2) * s 1 / ((s 1 - s 0) * (s 1 - s 2))) • X 1 + (-(s 0 + s 1) * s 2 / ((s 2 - s 0) * (s 2 - s 1))) • X 2
def solveR {M : Type} [AddCommGroup M] [Module F M] (s : Fin 3 → F) (X : Fin 3 → M) : M :=
  (s 1 * s 2 * s 0 / ((s 0 - s 1) * (s 0 - s 2))) • X 0 + (s 0 * s 2 * s 1 / ((s 1 - s 0) * (s 1 - s 2))) • X 1 + (s 0 * s 1 * s 2 / ((s 2 - s 0) * (s 2 - s 1))) • X 2

/-- The first three challenges of a node, squared. -/
def sq3 (u : Fin 4 → F) (i : Fin 3) : F := u i.castSucc ^ 2

/-- The extracted coefficients of the commitment `P`; the first two components are the witness. -/
def IppTree.extract : ℕ → IppTree F G → IppRep F
  | 0, .leaf a b => (fun _ => a, fun _ => b, a * b)
  | k + 1, .node _ _ u next => solveP (sq3 u) fun i => ((next i.castSucc).extract k).back (2 ^ k) (u i.castSucc)
  | _, _ => 0

/-- The candidate relations: at each node, the difference of what the extracted coefficients of `L`, `P`, `R` predict for a challenge and what was extracted below it. -/
def IppTree.relations : ℕ → IppTree F G → List (IppRep F)
  | k + 1, .node _ _ u next =>
    (List.finRange 4).map (fun i =>
      u i ^ 2 • solveL (sq3 u) (fun j => ((next j.castSucc).extract k).back (2 ^ k) (u j.castSucc))
        + solveP (sq3 u) (fun j => ((next j.castSucc).extract k).back (2 ^ k) (u j.castSucc))
        + (u i ^ 2)⁻¹ • solveR (sq3 u) (fun j => ((next j.castSucc).extract k).back (2 ^ k) (u j.castSucc))
        - ((next i).extract k).back (2 ^ k) (u i))
    ++ (List.finRange 4).flatMap (fun i => ((next i).relations k).map (IppRep.back (2 ^ k) (u i)))
  | _, _ => []

end Bp
