import Verif.Spec.Statements

/-! # Specification: what statements say when every commitment stands for one value -/

namespace Bp
variable {F G : Type} [Field F] [AddCommGroup G] [Module F G]

/-- `val` gives every Pedersen commitment the value it was made from, whatever the blinding. -/
def Opens (g h : G) (val : G → F) : Prop := ∀ x r : F, val (x • g + r • h) = x

/-- Two generators without a relation. -/
def Unrelated (F : Type) {G : Type} [Field F] [AddCommGroup G] [Module F G] (g h : G) : Prop := ∀ α β : F, α • g + β • h = 0 → α = 0 ∧ β = 0

/-- Every statement is true of the values that `val` gives to its own commitments.  (Except for the Hamming distance, which says nothing about the committed values, C31.) -/
def AllTrue [ByteRep F] (val : G → F) : List (Stmt F) → List G → Prop
  | [], _ => True
  | st :: stmts, coms => (st.Binding → st.Claim fun i => val (coms.getD i 0)) ∧ AllTrue val stmts (coms.drop st.size)

end Bp
