import Verif.Model.Gadgets.PoseidonTables
import Verif.Model.Gadgets.PoseidonTables2

/-! # Poseidon with the tables of all curves (Cargo features, Cargo.toml:21-26) -/

namespace Bp

/-- What a curve feature selects: the group order (`CurveOrder` in amcl), the number of bytes of a scalar (`MODBYTES` in amcl), and the tables of poseidon_constants.rs for each width. -/
structure Curve where
  order : ℕ
  modBytes : ℕ
  rounds : ℕ → List ℕ
  mds : ℕ → List (List ℕ)

/-- Feature `bls381`, poseidon_constants.rs:5-1267. -/
def Curve.bls381 : Curve where
  order := blsOrder
  modBytes := 48
  rounds w := if w = 3 then roundConstsW3 else if w = 5 then roundConstsW5 else roundConstsW9
  mds w := if w = 3 then mdsEntriesW3 else if w = 5 then mdsEntriesW5 else mdsEntriesW9

/-- Feature `bn254`, poseidon_constants.rs:1269-2531.  The order is that of amcl's curve BN254, `36 u^4 + 36 u^3 + 18 u^2 + 6 u + 1` with `u = -(2^62 + 2^55 + 1)`. -/
def Curve.bn254 : Curve where
  order := 0x2523648240000001ba344d8000000007ff9f800000000010a10000000000000d
  modBytes := 32
  rounds w := if w = 3 then rcBn254W3 else if w = 5 then rcBn254W5 else rcBn254W9
  mds w := if w = 3 then mdsBn254W3 else if w = 5 then mdsBn254W5 else mdsBn254W9

/-- Feature `ed25519`, poseidon_constants.rs:2895-4157. -/
def Curve.ed25519 : Curve where
  order := 2 ^ 252 + 27742317777372353535851937790883648493
  modBytes := 32
  rounds w := if w = 3 then rcEd25519W3 else if w = 5 then rcEd25519W5 else rcEd25519W9
  mds w := if w = 3 then mdsEd25519W3 else if w = 5 then mdsEd25519W5 else mdsEd25519W9

/-- Feature `secp256k1`, poseidon_constants.rs:2533-2893.  There are only tables for the width 5.  (The code refers to the missing ones, poseidon.rs:52-95, so that it does not compile with this feature; here they are empty.) -/
def Curve.secp256k1 : Curve where
  order := 0xfffffffffffffffffffffffffffffffebaaedce6af48a03bbfd25e8cd0364141
  modBytes := 32
  rounds w := if w = 5 then rcSecp256k1W5 else []
  mds w := if w = 5 then mdsSecp256k1W5 else []

/-- All features.  Cargo.toml:22-27; src/r1cs/gadgets/poseidon_constants.rs:5, 1269, 2533, 2895. -/
def Curve.all : List Curve := [.bls381, .bn254, .ed25519, .secp256k1]

/-- `PoseidonParams::new`, poseidon.rs:25-45, with the tables of the curve.  (`FieldElement::from_hex` is taken to reduce modulo the group order.) -/
def Curve.params (c : Curve) [Fact c.order.Prime] (width fullB fullE partialR : ℕ) : Res (PoseidonParams (ZMod c.order)) :=
  PoseidonParams.new (fun w => (c.rounds w).map fun (n : ℕ) => (n : ZMod c.order)) (fun w => (c.mds w).map fun row => row.map fun (n : ℕ) => (n : ZMod c.order)) width fullB fullE partialR

end Bp
