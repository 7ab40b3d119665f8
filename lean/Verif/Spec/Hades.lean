import Verif.Model.Gadgets.Poseidon
import Mathlib.Data.Matrix.Mul

/-! # Specification: Poseidon and MiMC as they are published, on vectors and with a matrix -/

namespace Bp
variable {F : Type} [Field F]

/-- The instance of HADES (the design behind Poseidon) for states of `w` elements: round constants, matrix, numbers of rounds. -/
structure Hades (F : Type) (w : ℕ) where
  key : ℕ → Fin w → F
  mds : Matrix (Fin w) (Fin w) F
  fullFirst : ℕ
  partials : ℕ
  fullLast : ℕ

/-- The three S-boxes. -/
def SboxType.power : SboxType → F → F
  | .cube, x => x ^ 3
  | .inverse, x => x⁻¹
  | .quint, x => x ^ 5

/-- Round `r`: add the round constants, apply the S-box to all elements (in the partial rounds in the middle to the last only), multiply the row vector by the matrix. -/
def Hades.round {w : ℕ} (H : Hades F w) (f : F → F) (r : ℕ) (s : Fin w → F) : Fin w → F :=
  Matrix.vecMul (fun i => if r < H.fullFirst ∨ H.fullFirst + H.partials ≤ r ∨ i.val + 1 = w then f (s i + H.key r i) else s i + H.key r i) H.mds

/-- All rounds. -/
def Hades.permute {w : ℕ} (H : Hades F w) (f : F → F) (s : Fin w → F) : Fin w → F :=
  (List.range (H.fullFirst + H.partials + H.fullLast)).foldl (fun s r => H.round f r s) s

/-- The hash of `w - 1` elements: the second element of the permutation of the state with a zero in front of the inputs. -/
def Hades.hash {w : ℕ} (H : Hades F (w + 2)) (f : F → F) (inputs : Fin (w + 1) → F) : F := H.permute f (Fin.cons 0 inputs) 1

/-- The instance given by parameters of the crate: round `r` uses the constants from position `r * width` on. -/
def PoseidonParams.hades (p : PoseidonParams F) (w : ℕ) : Hades F w where
  key r i := p.roundKeys.getD (r * w + i) 0
  mds := Matrix.of fun i j => (p.mds.getD i []).getD j 0
  fullFirst := p.fullRoundsBeginning
  partials := p.partialRounds
  fullLast := p.fullRoundsEnd

/-- MiMC as a Feistel network: each round adds its constant to the left half, cubes it, adds the right half, and swaps. -/
def mimcFeistel (constants : List F) (x y : F) : F × F := constants.foldl (fun s c => ((s.1 + c) ^ 3 + s.2, s.1)) (x, y)

end Bp
