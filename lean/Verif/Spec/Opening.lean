import Verif.Spec.Interactive
import Verif.Spec.Statements

/-! # Specification: openings of the commitments, computed from the answers of a prover

Each constraint is linear in the committed values, with coefficients that are public.  Whoever knows the values of the gates can therefore solve the constraints for the committed values, and, because commitments are linear too, solve the same
system for the blindings. -/

open Finset (range)

namespace Bp
variable {F G : Type} [Field F] [AddCommGroup G] [Module F G]

/-- Numbers with which a system of constraints is solved for the committed values: the committed value `i` is minus the combination of the constraints with coefficients `coef i`; `kernel` are combinations of the constraints in which
no committed value occurs. -/
structure Solver (F : Type) where
  coef : ℕ → ℕ → F
  kernel : List (ℕ → F)

/-- Only one value of commitment `i` is possible: when the committed values at `Z` are zero, the coefficients of the constraints `cs` (whatever the gates) leave no freedom. -/
def Determined (cs : List (LC F)) (Z : ℕ → Prop) (i : ℕ) : Prop := ∀ w : ℕ → F, (∀ j, Z j → w j = 0) → (∀ lc ∈ cs, lc.committedPart w = 0) → w i = 0

/-- What is asked of a solver (Gaussian elimination gives one): this is about the coefficients of the constraints `cs` only. -/
structure Solver.Solves (sol : Solver F) (cs : List (LC F)) (Z : ℕ → Prop) : Prop where
  /-- The determined values are combinations of the constraints. -/
  inverse : ∀ i, Determined cs Z i → ∀ w : ℕ → F, (∀ j, Z j → w j = 0) → ∑ j : Fin cs.length, sol.coef i j * (cs[j]).committedPart w = w i
  /-- No committed value occurs in the combinations `kernel`. -/
  kernel : ∀ μ ∈ sol.kernel, ∀ w : ℕ → F, (∀ j, Z j → w j = 0) → ∑ j : Fin cs.length, μ j * (cs[j]).committedPart w = 0
  /-- There are no others (except combinations of these). -/
  span : ∀ ν : ℕ → F, (∀ w : ℕ → F, (∀ j, Z j → w j = 0) → ∑ j : Fin cs.length, ν j * (cs[j]).committedPart w = 0) →
    ∀ c : ℕ → F, (∀ μ ∈ sol.kernel, ∑ j : Fin cs.length, μ j * c j = 0) → ∑ j : Fin cs.length, ν j * c j = 0

namespace R1CSTree
variable {k q : ℕ} (t : R1CSTree F G k q) (s s2 : Verifier F G) (sol : Solver F)

/-- What constraint `j` is, without the committed values: its constant and the extracted gates. -/
def constant (j : Fin s2.constraints.length) : F := (s2.constraints[j]).value (t.assignment s.numVars s2.weights s2.numVars fun _ => 0)

/-- The value and the blinding computed for commitment `i`. -/
def openedValue (i : ℕ) : F := - ∑ j : Fin s2.constraints.length, sol.coef i j * t.constant s s2 j
def openedBlinding (i : ℕ) : F := ∑ j : Fin s2.constraints.length, sol.coef i j * t.blinding j

/-- Candidate relations between `g` and `h`: combinations of constraints in which no commitment occurs. -/
def kernelRelations : List (GenRep F) :=
  sol.kernel.map fun μ => (0, 0, ∑ j : Fin s2.constraints.length, μ j * t.constant s s2 j, - ∑ j : Fin s2.constraints.length, μ j * t.blinding j)

/-- A non-trivial relation between the generators is among those computed from the answers. -/
def Breaks (g h : G) (Gs Hs : List G) : Prop :=
  ∃ ρ ∈ t.relations s.numVars s2.weights ++ t.kernelRelations s s2 sol, ¬ ρ.Trivial (2 ^ k) ∧ ρ.value (2 ^ k) g h (Gs.take (2 ^ k)) (Hs.take (2 ^ k)) = 0

end R1CSTree

/-- The commitments `coms`, recorded by the verifier from position `o` on, are opened by `x` and `r`, and `R` is true of these values. -/
def OpenedAt (g h : G) (x r : ℕ → F) (V : List G) (o : ℕ) (coms : List G) (R : (ℕ → F) → Prop) : Prop :=
  ∃ v : ℕ → F, R v ∧ ∀ (i : ℕ) P, coms[i]? = some P → V[o + i]? = some P ∧ v i = x (o + i) ∧ P = x (o + i) • g + r (o + i) • h

/-- The commitments of every statement are opened by the values `x` and blindings `r`, and its claim is true of these values.  (The commitments of the statement about the Hamming distance are not opened, see C31.) -/
def AllOpened [ByteRep F] (g h : G) (x r : ℕ → F) (V : List G) : List (Stmt F) → List G → Prop
  | [], _ => True
  | st :: stmts, coms => (st.Binding → ∃ o, OpenedAt g h x r V o (coms.take st.size) st.Claim) ∧ (∃ v, st.Claim v) ∧ AllOpened g h x r V stmts (coms.drop st.size)

end Bp
