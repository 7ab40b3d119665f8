import Verif.Model.Transcript
import Mathlib.Data.ZMod.Basic
import Mathlib.Algebra.BigOperators.Fin

/-! # How a challenge is made from bytes: src/transcript.rs:55-60 -/

namespace Bp

/-- `MODBYTES` bytes.  The buffer of src/transcript.rs:56. -/
abbrev Bytes (m : ℕ) := Fin m → Fin 256

/-- `BigNum::frombytes` of amcl: big-endian.  Called by `FieldElement::from(&buf)`, src/transcript.rs:59. -/
def beNumber {m : ℕ} (b : Bytes m) : ℕ := ∑ i : Fin m, (b i).val * 256 ^ (m - 1 - i.val)

/-- `FieldElement::from(&[u8; MODBYTES])` of amcl_wrapper, as it is used in `challenge_scalar`, transcript.rs:59: the number is reduced modulo the group order. -/
def challengeOf (n : ℕ) {m : ℕ} (b : Bytes m) : ZMod n := (beNumber b : ZMod n)

/-- `challenge_scalar`, transcript.rs:55-60, where `H` is what merlin's `challenge_bytes` writes into the buffer, as a function of the log. -/
def Oracle.ofBytes (n : ℕ) {G : Type} {m : ℕ} (H : Transcript (ZMod n) G → Bytes m) : Oracle (ZMod n) G := fun t => challengeOf n (H t)

end Bp
