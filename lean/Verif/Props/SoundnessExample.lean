import Verif.Props.SoundnessR1CS

/-! # C21: the theorems apply to an honest prover

The circuit says that the committed value is a square (one gate, two constraints); the generators are the unit vectors of a free module. -/

namespace Bp
open Finset

/-- Unit vectors: `g`, `h`, `G_0`, `H_0`. -/
def unit4 (i j : Fin 4) : Z101 := if i = j then 1 else 0

abbrev V4 := Fin 4 → Z101

theorem unit4_independent : Independent Z101 [unit4 2, unit4 3, unit4 0, unit4 1] := by
  intro c h i hi
  have hi : i < 4 := hi
  have e : ∀ j : Fin 4, (∑ i ∈ range 4, c i • [unit4 2, unit4 3, unit4 0, unit4 1].getD i 0) j = 0 := fun j => congrFun h j
  simp only [Finset.sum_range_succ, Finset.sum_range_zero] at e
  have e0 := e 0; have e1 := e 1; have e2 := e 2; have e3 := e 3
  simp [unit4] at e0 e1 e2 e3
  interval_cases i <;> assumption

/-- The circuit: `left = right`, `out = V`. -/
def squareProg : Prog1 Z101 Unit := .allocateMultiplier none fun
  | .ok (l, r, o) => .constrain ((LC.ofVar l).sub (LC.ofVar r)) (.constrain ((LC.ofVar o).sub (LC.ofVar (.committed 0))) (.ret ()))
  | .error e => .err e

/-- The verifier of this circuit, for the commitment `9 g + 7 h`. -/
def squareV : Verifier Z101 V4 :=
  match ((Verifier.new [.init "square"] 0 : Verifier Z101 V4).commit ((9 : Z101) • unit4 0 + (7 : Z101) • unit4 1)).2.run1 (Env.std fun _ => 2) squareProg with
  | .ok (_, p) => p
  | .error _ => Verifier.new [] 0

/-- The polynomial `t`: its coefficients for the witness 3, with challenge `z`. -/
def squareT (z : Z101) : List Z101 := [(3 - z) * (z * z - 1), 8 * z * z, 9 * (3 + z) + 5 * (z * z - 1), (3 - z) * 6 + 5 * (3 + z), 9 * 6, 5 * 6]

/-- The answers of the honest prover: blindings 11, 12, 13 of the wire commitments, mask `(5, 6)`, blindings 21 .. 26 of the `T_i`. -/
def squareTree : R1CSTree Z101 V4 0 2 where
  A_I1 := (3 : Z101) • unit4 2 + (3 : Z101) • unit4 3 + (11 : Z101) • unit4 1
  A_O1 := (9 : Z101) • unit4 2 + (12 : Z101) • unit4 1
  S1 := (5 : Z101) • unit4 2 + (6 : Z101) • unit4 3 + (13 : Z101) • unit4 1
  A_I2 := 0
  A_O2 := 0
  S2 := 0
  ys _ := ⟨2, fun b =>
    let z : Z101 := (b.val + 1 : ℕ)
    let T := fun i : ℕ => (squareT z).getD (i - 1) 0 • unit4 0 + ((20 + i : ℕ) : Z101) • unit4 1
    ⟨z, T 1, T 3, T 4, T 5, T 6, fun c => ⟨(c.val + 1 : ℕ), fun d =>
      let x : Z101 := (d.val + 1 : ℕ)
      let l := x * (3 - z) + x * x * 9 + x * x * x * 5
      let r := z * z - 1 + x * (3 + z) + x * x * x * 6
      ⟨x, l * r, 21 * x + 7 * z ^ 2 * x ^ 2 + 23 * x ^ 3 + 24 * x ^ 4 + 25 * x ^ 5 + 26 * x ^ 6, 11 * x + 12 * x ^ 2 + 13 * x ^ 3, fun e => (e.val + 1 : ℕ), fun _ => .leaf l r⟩⟩⟩⟩

theorem squareTree_full : squareTree.Full where
  y0 := by decide
  yd := by decide
  zd := by decide
  u0 := by decide
  ud := by decide
  x0 := by decide
  xd := by decide
  w0 := by decide
  wd := by decide
  ipp := fun _ _ _ _ _ => trivial

/-- An oracle with given answers. -/
def labelOracle (ch : Chals Z101) (log : Transcript Z101 V4) : Z101 :=
  match log.getLast? with
  | some (.challenge "y") => ch.y
  | some (.challenge "z") => ch.z
  | some (.challenge "u") => ch.u
  | some (.challenge "x") => ch.x
  | _ => ch.w

/-- The verifier after its (empty) second phase. -/
def squareV2 : Verifier Z101 V4 :=
  match (squareV.start (squareTree.proof 0 0 0 0 ⟨[], [], 0, 0⟩)).createRandomizedConstraints (Env.std fun _ => 2) with
  | .ok s => s
  | .error _ => squareV

/-- It accepts. -/
def squareOk (b : Fin 3) (c : Fin 5) (d : Fin 6) (e : Fin 2) : Bool :=
  match squareTree.ys 0 |>.zs b |>.us c |>.xs d |>.ipp e with
  | .leaf α β => [0, 1].all fun r => (squareV.verify (Env.std (labelOracle (squareTree.chals 0 b c d e))) (squareTree.proof 0 b c d ⟨[], [], α, β⟩) (unit4 0) (unit4 1) [unit4 2] [unit4 3] r).isOk
  | _ => false

set_option maxRecDepth 100000 in
theorem square_ok : ∀ b c d e, squareOk b c d e = true := by decide +kernel

theorem isOk_elim {ε α : Type} {x : Except ε α} (h : x.isOk = true) : ∃ a, x = .ok a := by
  cases x with
  | ok a => exact ⟨a, rfl⟩
  | error => simp [Except.isOk, Except.toBool] at h

theorem squareTree_accepted : squareTree.Accepted squareV squareV2 (unit4 0) (unit4 1) [unit4 2] [unit4 3] := by
  intro a b c d e L R us α β hp
  obtain rfl : a = 0 := Subsingleton.elim (α := Fin 1) _ _
  have hok := square_ok b c d e
  generalize hT : ((((squareTree.ys 0).zs b).us c).xs d).ipp e = T at hp
  cases hp with
  | node => cases hT
  | leaf =>
    rw [squareOk] at hok
    rw [hT] at hok
    have h0 := isOk_elim (List.all_eq_true.mp hok 0 (by simp))
    have h1 := isOk_elim (List.all_eq_true.mp hok 1 (by simp))
    exact ⟨Env.std (labelOracle (squareTree.chals 0 b c d e)), 0, 1, h0.choose, h1.choose, by decide, rfl, rfl, rfl, .inr (by simp [Env.std]), h0.choose_spec, h1.choose_spec⟩

/-- All hypotheses of C21 are met, and the extracted witness is the prover's. -/
example : ∃ σ : Assignment Z101, σ.Gates ∧ (∀ lc ∈ squareV2.constraints, ∃ β : Z101, lc.commitment σ (unit4 0) squareV2.V = β • unit4 1) ∧
    ∀ v r : ℕ → Z101, (∀ j < squareV2.V.length, squareV2.V.getD j 0 = v j • unit4 0 + r j • unit4 1) → ({ σ with committed := v } : Assignment Z101).Sat squareV2.constraints :=
  c21_independent squareTree squareV squareV2 _ _ _ _ (by decide +kernel) rfl squareTree_full squareTree_accepted unit4_independent

example : squareTree.left 1 squareV2.weights 0 = 3 ∧ squareTree.right 1 squareV2.weights 0 = 3 ∧ squareTree.out 1 squareV2.weights 0 = 9 := by decide +kernel

/-- The commitments do have an opening, so the last part of the statement is not empty. -/
example : ∀ j < squareV2.V.length, squareV2.V.getD j 0 = (9 : Z101) • unit4 0 + (7 : Z101) • unit4 1 := by
  have : squareV2.V = [(9 : Z101) • unit4 0 + (7 : Z101) • unit4 1] := rfl
  rw [this]
  intro j hj
  obtain rfl : j = 0 := by simpa using hj
  rfl

example : (squareTree.phase1 squareV.numVars squareV2.weights 0).value (2 ^ 0) (unit4 0) (unit4 1) [unit4 2] [unit4 3] = squareTree.A_I1 :=
  (c21_wires_of_commitments squareTree squareV squareV2 _ _ [unit4 2] [unit4 3] (by decide +kernel) squareTree_full squareTree_accepted).1

end Bp
