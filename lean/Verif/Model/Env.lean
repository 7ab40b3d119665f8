import Verif.Model.LinComb
import Verif.Model.Transcript

/-! # External world: dependencies whose source is not in the repository

`Env` collects what the modelled code obtains from outside: the random oracle behind merlin, the iteration
order of `std::collections::HashMap`, and `FieldElement::batch_invert`.  The propositions in the structure are the
only facts assumed about them. -/

namespace Bp

/-- What comes from outside: the challenges (src/transcript.rs:55-60), the order of the map in `simplify` (src/r1cs/linear_combination.rs:53-67), and `batch_invert` (called at src/ipp.rs:295). -/
structure Env (F G : Type) [Field F] where
  /-- merlin: the challenge is a function of everything absorbed before. -/
  oracle : Oracle F G
  /-- `std::collections::HashMap` iteration order; the first argument is a per-map seed (std gives every map its own). -/
  hashOrd : ℕ → List (Var × F) → List (Var × F)
  /-- iterating a map yields each entry exactly once. -/
  hashOrd_perm : ∀ k l, (hashOrd k l).Perm l
  /-- `FieldElement::batch_invert` of amcl_wrapper. -/
  batchInvert : List F → Res (List F × F)
  /-- documented behaviour on a non-empty list of non-zero scalars: the inverses, and the product of the inverses.
  Nothing is assumed for the empty list or lists containing zero. -/
  batchInvert_spec : ∀ xs : List F, xs ≠ [] → (∀ x ∈ xs, x ≠ 0) →
    batchInvert xs = .ok (xs.map (fun x => x⁻¹), xs.prod⁻¹)

/-- A concrete environment (used to show that hypotheses are satisfiable): given oracle, insertion order, and
Montgomery-style batch inversion.  The environment of src/ipp.rs:295, src/r1cs/linear_combination.rs:53-67, src/transcript.rs:55-60. -/
def Env.std {F G : Type} [Field F] (O : Oracle F G) : Env F G where
  oracle := O
  hashOrd := fun _ l => l
  hashOrd_perm := fun _ _ => List.Perm.refl _
  batchInvert := fun xs => .ok (xs.map (fun x => x⁻¹), xs.prod⁻¹)
  batchInvert_spec := fun _ _ _ => rfl

end Bp
