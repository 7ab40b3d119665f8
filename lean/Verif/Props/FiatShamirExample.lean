import Verif.Props.FiatShamir
import Verif.Props.Simulator
import Verif.Lemmas.UnitVec

/-! # C58: the theorems apply

A commitment to zero, and the statement that its value is not zero.  The statement is false; with challenges that are known beforehand there is nevertheless an accepted proof (C56).  So some of these challenges are bad ones. -/

namespace Bp
open Finset

abbrev V6 := Fin 6 → Z101

/-- Unit vectors: `G_0`, `G_1`, `H_0`, `H_1`, `g`, `h`. -/
def unit6 (i j : Fin 6) : Z101 := if i = j then 1 else 0

theorem unit6_independent : Independent Z101 ([unit6 0, unit6 1] ++ [unit6 2, unit6 3] ++ [unit6 4, unit6 5]) := by
  intro c h i hi
  have hi : i < 6 := hi
  have e : ∀ j : Fin 6, (∑ i ∈ range 6, c i • [unit6 0, unit6 1, unit6 2, unit6 3, unit6 4, unit6 5].getD i 0) j = 0 := fun j => congrFun h j
  simp only [Finset.sum_range_succ, Finset.sum_range_zero] at e
  have e0 := e 0; have e1 := e 1; have e2 := e 2; have e3 := e 3; have e4 := e 4; have e5 := e 5
  simp [unit6] at e0 e1 e2 e3 e4 e5
  interval_cases i <;> assumption

/-- Commitments to 0 (blinding 7) and to 5 (blinding 8; the alleged inverse). -/
def zeroComs : List V6 := [(7 : Z101) • unit6 5, (5 : Z101) • unit6 4 + (8 : Z101) • unit6 5]

/-- The verifier of the statement, before `verify`. -/
def zeroV : Verifier Z101 V6 := (verifyNonZeroVal (Env.std fun _ => 2) zeroComs (Verifier.new [.init "zero"])).2

theorem zeroV_built : verifyNonZeroVal (Env.std fun _ => 2) zeroComs (Verifier.new [.init "zero"]) = (.ok (), zeroV) := by rfl

theorem zeroV_deferred : zeroV.deferred = [] := by rfl

theorem zeroV_size : nextPowerOfTwo zeroV.numVars = 2 ∧ zeroV.constraints.length = 6 ∧ zeroV.badBound = 7 := by decide +kernel

/-- With challenges known beforehand the false statement is accepted. -/
theorem zero_accepted : ∃ pr t', ∀ e : Z101, Verifier.verify (Env.std fun _ => 2) zeroV pr (unit6 4) (unit6 5) [unit6 0, unit6 1] [unit6 2, unit6 3] e = .ok t' := by
  have hc : ∃ s0, (zeroV.start blankProof).createRandomizedConstraints (Env.std fun _ => (2 : Z101)) = .ok s0 ∧ s0.numVars = 2 ∧ s0.V.length = 2 ∧
    (s0.constraints.flatMap fun lc => lc.terms.map Prod.fst).all (fun v => decide (v.InRange 2 2)) = true := ⟨_, rfl, rfl, rfl, rfl⟩
  obtain ⟨s0, h1, h2, h3, h4⟩ := hc
  obtain ⟨pr, t', -, h⟩ := c56_simulated_accepted (fun _ => 2) fixed_const (fun _ => show (2 : Z101) ≠ 0 by decide) zeroV s0 h1 (fun lc hlc t ht => by
      have := List.all_eq_true.mp h4 t.1 (List.mem_flatMap.mpr ⟨lc, hlc, List.mem_map_of_mem ht⟩)
      rw [h2, h3]
      exact of_decide_eq_true this) (unit6 4) (unit6 5) [unit6 0, unit6 1] [unit6 2, unit6 3] 1 (by rw [h2]; decide +kernel) (by decide) (by simp) (by simp)
    ⟨0, 0, 0, 0, 0, 0, 0, 0, 0, 0, 0, fun _ => 0, fun _ => 0⟩ (by rw [h2]; exact ⟨fun _ _ => ⟨rfl, rfl⟩, fun _ => ⟨rfl, rfl, rfl⟩⟩)
  exact ⟨pr, t', h⟩

/-- The first commitment is not to a value different from zero. -/
theorem zero_false : ¬ ∃ P, ∃ x : Z101, zeroComs[0]? = some P ∧ CommitsTo (unit6 4) (unit6 5) P x ∧ x ≠ 0 := by
  rintro ⟨P, x, h1, ⟨r, h2⟩, h3⟩
  obtain rfl : (7 : Z101) • unit6 5 = P := by simpa [zeroComs] using h1
  exact h3 (by simpa [unit6] using (congrFun h2 4).symm)

/-- The statement is false, so the verifier cannot be convinced. -/
theorem zero_not_convinced : ¬ Convinced "zero" (verifyNonZeroVal (Env.std fun _ => (2 : Z101)) zeroComs) (unit6 4) (unit6 5) [unit6 0, unit6 1] [unit6 2, unit6 3] := fun hc => zero_false (c55_non_zero _ hc)

theorem zero_unsatisfiable : ¬ zeroV.Satisfiable (unit6 4) (unit6 5) := by
  rintro ⟨σ, hg, hc⟩
  obtain ⟨β, h1⟩ := hc ⟨[(.committed 0, 1), (.left 1, -1)]⟩ (List.mem_of_getElem? (i := 3) rfl)
  obtain ⟨γ, h2⟩ := hc ⟨[(.out 1, 1), (.one, -1)]⟩ (List.mem_of_getElem? (i := 5) rfl)
  have e1 := congrFun h1 4
  have e2 := congrFun h2 4
  have hV : zeroV.V = zeroComs := rfl
  simp [LC.commitment, Assignment.commit, hV, zeroComs, unit6] at e1 e2
  have := hg 1
  simp [Assignment.val] at e1 e2
  rw [e1, zero_mul] at this
  rw [this] at e2
  exact absurd e2 (by decide)

/-- So this proof was accepted because of bad answers. -/
example : ∃ (bad : BadRule Z101 V6 zeroV.badBound) (T : Transcript Z101 V6), bad.Hit (fun _ => 2) T := by
  obtain ⟨pr, t', h⟩ := zero_accepted
  obtain ⟨bad, hb⟩ := c58_convinced (Env.std fun _ => 2) (by simp [Env.std]) "zero" _ zeroV zeroV_built zeroV_deferred _ _ _ _ unit6_independent
  exact ⟨bad, t', (hb (fun _ => 2) pr 0 1 t' t' (by decide) (h 0) (h 1)).resolve_left zero_not_convinced⟩

/-- A prover that asks five questions, and then chooses two commitments, the first one not to a value different from zero, succeeds with at most 78 in 101 of the answers. -/
example (A : Forger Z101 V6) : A.forging (Env.std fun _ => 2) "zero" (verifyNonZeroVal (Env.std fun _ => 2)) 2 (fun coms => ∃ P, ∃ x : Z101, coms[0]? = some P ∧ CommitsTo (unit6 4) (unit6 5) P x ∧ x ≠ 0)
    (unit6 4) (unit6 5) [unit6 0, unit6 1] [unit6 2, unit6 3] 5 6 ≤ 78 * 101 ^ 11 := by
  have h := c58_non_zero (Env.std fun _ => 2) (by simp [Env.std]) "zero" zeroComs zeroV zeroV_built (unit6 4) (unit6 5) [unit6 0, unit6 1] [unit6 2, unit6 3] unit6_independent A 5
  rwa [show zeroV.numDraws = 6 by decide +kernel, zeroV_size.2.2, show Fintype.card Z101 = 101 from ZMod.card 101] at h

/-- There are provers that succeed with some answers. -/
example : ∃ A : Forger Z101 V6, ∀ r, A.Forges (Env.std fun _ => 2) "zero" (verifyNonZeroVal (Env.std fun _ => 2)) 2 (fun coms => ∃ P, ∃ x : Z101, coms[0]? = some P ∧ CommitsTo (unit6 4) (unit6 5) P x ∧ x ≠ 0)
    (unit6 4) (unit6 5) [unit6 0, unit6 1] [unit6 2, unit6 3] 5 [2, 2, 2, 2, 2, 2, 2, 2, 2, 2, 2] r := by
  obtain ⟨pr, t', h⟩ := zero_accepted
  refine ⟨⟨⟨fun _ => [], fun _ => pr⟩, fun _ => zeroComs⟩, fun r => ⟨rfl, zero_false, fun _ => 2, zeroV, t', zeroV_built, fun i c hc _ => ?_, h r⟩⟩
  exact (List.eq_of_mem_replicate (n := 11) (List.mem_of_getElem? hc)).symm

/-- An attack that asks the draws of the accepted proof, the last one first. -/
example : ∃ (A : Attack Z101 V6) (cs : List Z101), ∀ r, A.Wins (Env.std fun _ => 2) zeroV (unit6 4) (unit6 5) [unit6 0, unit6 1] [unit6 2, unit6 3] cs r := by
  obtain ⟨pr, t', h⟩ := zero_accepted
  refine ⟨⟨fun cs => (draws t').reverse.getD cs.length [], fun _ => pr⟩, List.replicate (draws t').reverse.length 2, fun r => ⟨fun _ => 2, t', _, ⟨fun i c hc _ => ?_, h r, fun d hd => ?_⟩, rfl, ?_⟩⟩
  · exact (List.eq_of_mem_replicate (List.mem_of_getElem? hc)).symm
  · obtain ⟨i, hi, e⟩ := List.getElem_of_mem (List.mem_reverse.mpr hd)
    refine List.mem_map.mpr ⟨i, List.mem_range.mpr (by simpa using hi), ?_⟩
    have hi' : i < (draws t').length := by simpa using hi
    show (draws t').reverse.getD (List.take i _).length [] = d
    rw [List.length_take, List.length_replicate, List.length_reverse, min_eq_left (le_of_lt hi'), List.getD_eq_getElem?_getD, List.getElem?_eq_getElem hi, Option.getD_some, e]
  · exact zero_unsatisfiable

/-- The bound for unsatisfiable systems. -/
example (A : Attack Z101 V6) : Nat.card {p : (Fin 5 → Z101) × Z101 // A.Wins (Env.std fun _ => 2) zeroV (unit6 4) (unit6 5) [unit6 0, unit6 1] [unit6 2, unit6 3] (List.ofFn p.1) p.2} ≤ 36 * 101 ^ 5 := by
  refine (c58_attack (Env.std fun _ => 2) (by simp [Env.std]) zeroV _ _ _ _ unit6_independent 7 (le_refl 7) (fun O pr s2 h2 => ?_) A 5).trans (le_of_eq ?_)
  · rw [crc_onePhase (s := zeroV.start pr) zeroV_deferred h2]
    show nextPowerOfTwo zeroV.numVars ≤ 7 ∧ zeroV.constraints.length ≤ 7
    rw [zeroV_size.1, zeroV_size.2.1]
    decide
  · rw [show Fintype.card Z101 = 101 from ZMod.card 101]

/-! A bound check over the field of the curve. -/

abbrev V10 := Fin 10 → Fr

/-- Commitments to 5, 4 and 0. -/
def bnComs : List V10 := [(5 : Fr) • unitVec Fr 10 8 + (7 : Fr) • unitVec Fr 10 9, (4 : Fr) • unitVec Fr 10 8 + (1 : Fr) • unitVec Fr 10 9, unitVec Fr 10 9]

/-- The verifier of the false statement that the first commitment is to a number between 1 and 3. -/
def bnV : Verifier Fr V10 := (verifyBoundedNum (Env.std fun _ => 2) false 1 3 2 bnComs (Verifier.new [.init "bounds"])).2

theorem bnV_built : verifyBoundedNum (Env.std fun _ => 2) false 1 3 2 bnComs (Verifier.new [.init "bounds"]) = (.ok (), bnV) := by rfl

theorem unit10_independent : Independent Fr ([unitVec Fr 10 0, unitVec Fr 10 1, unitVec Fr 10 2, unitVec Fr 10 3] ++ [unitVec Fr 10 4, unitVec Fr 10 5, unitVec Fr 10 6, unitVec Fr 10 7] ++ [unitVec Fr 10 8, unitVec Fr 10 9]) :=
  unitVec_independent Fr 10

example (A : Forger Fr V10) (Q : ℕ) : A.forging (Env.std fun _ => 2) "bounds" (verifyBoundedNum (Env.std fun _ => 2) false 1 3 2) 3 (fun coms => ∃ P, ∃ k : ℕ, coms[0]? = some P ∧ CommitsTo (unitVec Fr 10 8) (unitVec Fr 10 9) P (k : Fr) ∧ 1 ≤ k ∧ k ≤ 3)
    (unitVec Fr 10 8) (unitVec Fr 10 9) [unitVec Fr 10 0, unitVec Fr 10 1, unitVec Fr 10 2, unitVec Fr 10 3] [unitVec Fr 10 4, unitVec Fr 10 5, unitVec Fr 10 6, unitVec Fr 10 7] Q 7 ≤ ((Q + 7) * 13 + 1) * blsOrder ^ (Q + 7) := by
  have h := c58_bounded_num (Env.std fun _ => 2) (by simp [Env.std]) "bounds" false 1 3 2 (by decide) (by decide) (by decide +kernel) (by decide +kernel) bnComs bnV bnV_built _ _ _ _ unit10_independent A Q
  rwa [show bnV.numDraws = 7 by decide +kernel, show bnV.badBound = 13 by decide +kernel, show Fintype.card Fr = blsOrder from ZMod.card blsOrder] at h

end Bp
