import Verif.Model.Gadgets.Poseidon

/-! # Specification: how far a change spreads -/

namespace Bp

/-- The number of positions at which two states differ. -/
def differences {F : Type} [DecidableEq F] (xs ys : List F) : ℕ := (List.zip xs ys).countP fun p => p.1 ≠ p.2

end Bp
