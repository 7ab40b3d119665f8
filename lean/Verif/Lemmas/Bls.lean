import Mathlib.NumberTheory.LucasPrimality
import Mathlib.Tactic.ReduceModChar
import Mathlib.Tactic.NormNum.Prime
import Verif.Lemmas.Gadgets.ZMod

/-! # The scalar field of BLS12-381 (the default curve of the crate, Cargo.toml:9-15) -/

namespace Bp

/-- Order of the scalar field. -/
abbrev blsOrder : ℕ := 0x73eda753299d7d483339d80809a1d80553bda402fffe5bfeffffffff00000001

theorem blsOrder_factors : blsOrder - 1 = 2 ^ 32 * 3 * 11 * 19 * 10177 * 125527 * 859267 * 906349 ^ 2 * 2508409 * 2529403 * 52437899 * 254760293 ^ 2 := by
  norm_num

theorem blsOrder_prime : Nat.Prime blsOrder := by
  refine lucas_primality blsOrder 7 (by reduce_mod_char) ?_
  intro q hq hd
  have hd' := hd
  rw [blsOrder_factors] at hd
  have p3 : Nat.Prime 3 := by norm_num
  have p11 : Nat.Prime 11 := by norm_num
  have p19 : Nat.Prime 19 := by norm_num
  have p10177 : Nat.Prime 10177 := by norm_num
  have p125527 : Nat.Prime 125527 := by norm_num
  have p859267 : Nat.Prime 859267 := by norm_num
  have p906349 : Nat.Prime 906349 := by norm_num
  have p2508409 : Nat.Prime 2508409 := by norm_num
  have p2529403 : Nat.Prime 2529403 := by norm_num
  have p52437899 : Nat.Prime 52437899 := by norm_num
  have p254760293 : Nat.Prime 254760293 := by norm_num
  simp only [hq.dvd_mul] at hd
  have key : q = 2 ∨ q = 3 ∨ q = 11 ∨ q = 19 ∨ q = 10177 ∨ q = 125527 ∨ q = 859267 ∨ q = 906349 ∨ q = 2508409 ∨ q = 2529403 ∨ q = 52437899 ∨ q = 254760293 := by
    rcases hd with ((((((((((h | h) | h) | h) | h) | h) | h) | h) | h) | h) | h) | h
    · have := (Nat.prime_dvd_prime_iff_eq hq Nat.prime_two).mp (hq.dvd_of_dvd_pow h); simp [this]
    · have := (Nat.prime_dvd_prime_iff_eq hq p3).mp h; simp [this]
    · have := (Nat.prime_dvd_prime_iff_eq hq p11).mp h; simp [this]
    · have := (Nat.prime_dvd_prime_iff_eq hq p19).mp h; simp [this]
    · have := (Nat.prime_dvd_prime_iff_eq hq p10177).mp h; simp [this]
    · have := (Nat.prime_dvd_prime_iff_eq hq p125527).mp h; simp [this]
    · have := (Nat.prime_dvd_prime_iff_eq hq p859267).mp h; simp [this]
    · have := (Nat.prime_dvd_prime_iff_eq hq p906349).mp (hq.dvd_of_dvd_pow h); simp [this]
    · have := (Nat.prime_dvd_prime_iff_eq hq p2508409).mp h; simp [this]
    · have := (Nat.prime_dvd_prime_iff_eq hq p2529403).mp h; simp [this]
    · have := (Nat.prime_dvd_prime_iff_eq hq p52437899).mp h; simp [this]
    · have := (Nat.prime_dvd_prime_iff_eq hq p254760293).mp (hq.dvd_of_dvd_pow h); simp [this]
  rcases key with rfl | rfl | rfl | rfl | rfl | rfl | rfl | rfl | rfl | rfl | rfl | rfl <;>
  · norm_num only
    reduce_mod_char
    decide +kernel

instance : Fact blsOrder.Prime := ⟨blsOrder_prime⟩

/-- The scalar field. -/
abbrev Fr := ZMod blsOrder

/-- Environment used in the examples: the field as its own group, a constant oracle. -/
def demoEnv : Env Fr Fr := Env.std (fun _ => 2)

theorem demoEnv_ne_zero (l : Transcript Fr Fr) : demoEnv.oracle l ≠ 0 := by
  show (2 : Fr) ≠ 0
  decide +kernel

end Bp
