import Verif.Model.R1CS

/-! # Specification: a proof with other scalars -/

namespace Bp
variable {F G : Type}

/-- The proof with its points, and with other values for its five scalars. -/
def R1CSProof.withScalars (pr : R1CSProof F G) (t_x t_x_blinding e_blinding a b : F) : R1CSProof F G :=
  { pr with t_x := t_x, t_x_blinding := t_x_blinding, e_blinding := e_blinding, ipp := { pr.ipp with a := a, b := b } }

end Bp
