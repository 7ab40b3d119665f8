import Verif.Spec.Soundness2
import Verif.Model.Driver
import Verif.Props.Soundness

/-! # Specification: a prover that convinces the verifier of a statement -/

namespace Bp
variable {F G : Type} [Field F] [AddCommGroup G] [Module F G] [DecidableEq G]

/-- The tree `t` of answers convinces, on every branch, the verifier that builds its constraints with `dv` on a new transcript: `s` is its state when `verify` is called, `s2` after the randomized constraints. -/
structure Convincing {k q : ℕ} (t : R1CSTree F G k q) (label : String) (dv : Drv (Verifier F G) Unit) (g h : G) (Gs Hs : List G) (s s2 : Verifier F G) : Prop where
  built : dv (Verifier.new [.init label]) = (.ok (), s)
  size : nextPowerOfTwo s2.numVars = 2 ^ k
  rows : s2.constraints.length = q
  full : t.Full
  accepted : t.Accepted s s2 g h Gs Hs

/-- Some prover, rewound, convinces the verifier that runs `dv`, and the generators it uses have no linear relation. -/
def Convinced (label : String) (dv : Drv (Verifier F G) Unit) (g h : G) (Gs Hs : List G) : Prop :=
  ∃ (k q : ℕ) (t : R1CSTree F G k q) (s s2 : Verifier F G), Convincing t label dv g h Gs Hs s s2 ∧ Independent F (Gs.take (2 ^ k) ++ Hs.take (2 ^ k) ++ [g, h])

/-- `P` is a Pedersen commitment to `x`. -/
def CommitsTo {F G : Type} [Field F] [AddCommGroup G] [SMul F G] (g h : G) (P : G) (x : F) : Prop := ∃ r : F, P = x • g + r • h

end Bp
