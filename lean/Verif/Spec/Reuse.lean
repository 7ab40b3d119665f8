import Verif.Spec.Request
import Verif.Spec.R1CS
import Verif.Spec.Statements

/-! # Specification: what an observer computes from proofs made with the same random numbers -/

namespace Bp
variable {F G : Type} [Field F] [AddCommGroup G] [Module F G]

/-- What the verifier computes on its way: the challenge `x`, the weights of the commitments, and all commitments, with those to constants. -/
structure Observed (F G : Type) where
  x : F
  wV : List F
  V : List G

/-- An observer of a proof repeats the steps of the verifier. -/
def observe [ByteRep F] (env : Env F G) (label : String) (g h : G) (stmts : List (Stmt F)) (coms : List G) (pr : R1CSProof F G) : Res (Observed F G) :=
  match verifyStmts env g h stmts coms (Verifier.new [.init label]) with
  | (.error e, _) => .error e
  | (.ok _, s) => do
    let ch := drawn env.oracle (s.start pr).transcript.r1cs1PhaseDomainSep pr
    let w ← s.flattenedConstraints ch.z
    return ⟨ch.x, w.wV, s.V⟩

/-- The value at zero of the polynomial of degree two that takes the values `e i / x i` at `x i`. -/
def unblind (x e : Fin 3 → F) : F :=
  e 0 / x 0 * (x 1 / (x 1 - x 0)) * (x 2 / (x 2 - x 0)) + e 1 / x 1 * (x 0 / (x 0 - x 1)) * (x 2 / (x 2 - x 1)) + e 2 / x 2 * (x 0 / (x 0 - x 2)) * (x 1 / (x 1 - x 2))

end Bp
