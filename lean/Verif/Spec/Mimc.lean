import Verif.Model.Gadgets.Simple

/-! # Specification: running MiMC backwards -/

namespace Bp
variable {F : Type} [Field F]

/-- One round backwards: the round makes `(xl, xr)` to `((xl + c)³ + xr, xl)`. -/
def mimcStepBack (c : F) (st : F × F) : F × F := (st.2, st.1 - (st.2 + c) ^ 3)

/-- All rounds backwards, from the image and a freely chosen value of the other half. -/
def mimcBack (constants : List F) (image last : F) : F × F := constants.foldr mimcStepBack (image, last)

/-- The half of the state that `mimc` throws away. -/
def mimcLast : F → F → List F → F
  | _, xr, [] => xr
  | xl, xr, c :: cs => mimcLast ((xl + c) ^ 3 + xr) xl cs

end Bp
