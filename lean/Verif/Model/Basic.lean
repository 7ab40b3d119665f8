import Mathlib.Algebra.Field.Basic
import Mathlib.Algebra.Module.Basic
import Mathlib.Data.Nat.Log

/-!
# Faults, results and the vector operations of `amcl_wrapper`

Every Rust function of the modelled code that can fail is modelled as a function into `Res`.
`err e` is a Rust `Err(e)`; `panic why` is a Rust panic (failed assert, out-of-range index,
`unwrap` of `Err`/`None`, arithmetic overflow in the debug profile).
-/

namespace Bp

/-- `R1CSError`, src/errors.rs:7-28. -/
inductive R1CSError where
  | invalidGeneratorsLength
  | verificationError
  | formatError
  | missingAssignment
  | gadgetError (description : String)
  | hashNotFoundInDB (hash : List UInt8)
deriving DecidableEq, Repr

/-- Outcome of a computation that did not return normally.  `Err` or a panic of any function, e.g. the two ways to fail of src/r1cs/verifier.rs:267-457. -/
inductive Fault where
  | err (e : R1CSError)
  | panic (why : String)
deriving DecidableEq, Repr

/-- Result of a modelled Rust function.  `Result<α, R1CSError>`, src/errors.rs:7-28, or a panic. -/
abbrev Res (α : Type) := Except Fault α

/-- A Rust panic.  For example src/ipp.rs:48 (`assert!`), src/ipp.rs:91 (`unwrap`). -/
def Res.panic {α : Type} (why : String) : Res α := .error (.panic why)

/-- A Rust `Err(e)`.  For example src/r1cs/verifier.rs:453. -/
def Res.err {α : Type} (e : R1CSError) : Res α := .error (.err e)

/-- `Option`-valued lookup whose failure is a Rust index panic.  For example `s[i - k]` at src/ipp.rs:311 and `modified_indices[i]` at src/r1cs/gadgets/randomizer.rs:234. -/
def idx {α : Type} (xs : List α) (i : ℕ) : Res α :=
  match xs[i]? with
  | some x => .ok x
  | none => Res.panic "index out of bounds"

/-- Rust slice `xs[a..b]`: panics unless `a ≤ b ≤ len`.  For example src/r1cs/prover.rs:343-344. -/
def slice {α : Type} (xs : List α) (a b : ℕ) : Res (List α) :=
  if a ≤ b ∧ b ≤ xs.length then .ok ((xs.drop a).take (b - a)) else Res.panic "slice out of range"

section Vectors
variable {F G : Type}

/-- Plain inner product of scalars (used after the length check).  For src/ipp.rs:77-78, src/r1cs/prover.rs:513, src/r1cs/verifier.rs:351. -/
def dot [Field F] (a b : List F) : F := (List.zipWith (· * ·) a b).sum

/-- Plain multi-scalar multiplication (used after the length check).  For src/ipp.rs:91, 104, 252, src/r1cs/verifier.rs:451. -/
def msm [Field F] [AddCommGroup G] [SMul F G] (xs : List F) (ps : List G) : G :=
  (List.zipWith (· • ·) xs ps).sum

/-- `FieldElementVector::inner_product(..).unwrap()` of amcl_wrapper: `Err` on different lengths, hence a
panic after `unwrap`.  Called at src/ipp.rs:77-78, 145-146, src/utils/vector_poly.rs:44-50, 82-87, src/r1cs/prover.rs:513, src/r1cs/verifier.rs:351. -/
def innerProduct [Field F] (a b : List F) : Res F :=
  if a.length = b.length then .ok (dot a b) else Res.panic "inner_product: unequal lengths"

/-- `FieldElementVector::hadamard_product(..).unwrap()` of amcl_wrapper.  Called at src/ipp.rs:81-82, 94-95. -/
def hadamard [Field F] (a b : List F) : Res (List F) :=
  if a.length = b.length then .ok (List.zipWith (· * ·) a b) else Res.panic "hadamard_product: unequal lengths"

/-- `FieldElementVector::plus(..).unwrap()` of amcl_wrapper.  Called at src/utils/vector_poly.rs:47-48. -/
def vecPlus [Field F] (a b : List F) : Res (List F) :=
  if a.length = b.length then .ok (List.zipWith (· + ·) a b) else Res.panic "plus: unequal lengths"

/-- `G1Vector::inner_product_*_time / multi_scalar_mul_var_time (..).unwrap()` of amcl_wrapper.  Called at src/ipp.rs:91, 104, 158, 170, 252, src/r1cs/prover.rs:358, 423, src/r1cs/verifier.rs:451. -/
def multiScalarMul [Field F] [AddCommGroup G] [SMul F G] (xs : List F) (ps : List G) : Res G :=
  if xs.length = ps.length then .ok (msm xs ps) else Res.panic "multi_scalar_mul: unequal lengths"

/-- An entry of the vector below: `e ^ i`, and 0 for `e = 0` (`e * e⁻¹` is 1, and 0 for `e = 0`; see `vpow_eq`).  For src/r1cs/prover.rs:463, src/r1cs/verifier.rs:342. -/
def vpow [Field F] (e : F) (i : ℕ) : F := e * e⁻¹ * e ^ i

/-- `FieldElementVector::new_vandermonde_vector(e, n)` of amcl_wrapper: `[1, e, e^2, ..]` of length `n`, and zeros for `e = 0`.  Called at src/r1cs/prover.rs:258, 463, src/r1cs/verifier.rs:342. -/
def vandermonde [Field F] (e : F) (n : ℕ) : List F := (List.range n).map (vpow e)

theorem vpow_eq [Field F] [DecidableEq F] (e : F) (i : ℕ) : vpow e i = if e = 0 then 0 else e ^ i := by
  unfold vpow
  split
  · rename_i h; rw [h, zero_mul, zero_mul]
  · rename_i h; rw [mul_inv_cancel₀ h, one_mul]

theorem vpow_ne [Field F] {e : F} (h : e ≠ 0) (i : ℕ) : vpow e i = e ^ i := by rw [vpow, mul_inv_cancel₀ h, one_mul]

theorem vpow_inv [Field F] {y : F} (h : y ≠ 0) (i : ℕ) : vpow y⁻¹ i = y⁻¹ ^ i := vpow_ne (inv_ne_zero h) i

theorem vpow_inv_ne_zero [Field F] {y : F} (h : y ≠ 0) (i : ℕ) : vpow y⁻¹ i ≠ 0 := by rw [vpow_inv h]; exact pow_ne_zero _ (inv_ne_zero h)

/-- `commit_to_field_element(g, h, v, r)` of amcl_wrapper: `v*g + r*h`.  Called at src/r1cs/prover.rs:123, 496-500, src/r1cs/gadgets/poseidon_hash.rs:50, 57, 424. -/
def commitScalar [Field F] [AddCommGroup G] [SMul F G] (g h : G) (v r : F) : G := v • g + r • h

/-- `commit_to_field_element_vectors(G, H, h, a, b, r).unwrap()` of amcl_wrapper: `<a,G> + <b,H> + r*h`.  Called at src/r1cs/prover.rs:347, 361, 413, 425. -/
def commitVectors [Field F] [AddCommGroup G] [SMul F G] (Gs Hs : List G) (h : G) (a b : List F) (r : F) :
    Res G := do
  let x ← multiScalarMul a Gs
  let y ← multiScalarMul b Hs
  return x + y + r • h

end Vectors

/-- `usize::next_power_of_two` (Rust std): least power of two `≥ n`, `1` for `n = 0`.  Called at src/ipp.rs:64, src/r1cs/prover.rs:376, src/r1cs/verifier.rs:292. -/
def nextPowerOfTwo (n : ℕ) : ℕ := 2 ^ Nat.clog 2 n

end Bp
