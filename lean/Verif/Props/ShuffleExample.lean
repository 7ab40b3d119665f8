import Verif.Props.Shuffle
import Verif.Props.AlgebraicExample

/-! # C72: the theorems apply -/

namespace Bp
open Finset

/-! ## Accepted shuffles -/

/-- Three values, one of them twice. -/
example : EndToEnd demoEnv demoEnv 6 [(3, 7), (4, 8), (4, 1), (4, 2), (3, 9), (4, 5)] (proveShuffle demoEnv [(3, 7), (4, 8), (4, 1)] [(4, 2), (3, 9), (4, 5)]) (verifyShuffle demoEnv 3) :=
  c72_shuffle_complete demoEnv demoEnv rfl demoEnv_ne_zero [(3, 7), (4, 8), (4, 1)] [(4, 2), (3, 9), (4, 5)] (.swap _ _ _) (by decide +kernel) (.inl (by simp))

/-! ## A false statement

Commitments to 3 and 4, and to 4 and 5. -/

abbrev W10 := Fin 10 → Z101

def wG : List W10 := [unitVec Z101 10 0, unitVec Z101 10 1, unitVec Z101 10 2, unitVec Z101 10 3]
def wH : List W10 := [unitVec Z101 10 4, unitVec Z101 10 5, unitVec Z101 10 6, unitVec Z101 10 7]
def wg : W10 := unitVec Z101 10 8
def wh : W10 := unitVec Z101 10 9

theorem w_independent : Independent Z101 (wG ++ wH ++ [wg, wh]) := unitVec_independent Z101 10

def wComs : List W10 := [(3 : Z101) • wg + (7 : Z101) • wh, (4 : Z101) • wg + (8 : Z101) • wh, (4 : Z101) • wg + (1 : Z101) • wh, (5 : Z101) • wg + (2 : Z101) • wh]

def wV : Verifier Z101 W10 := (verifyShuffle (Env.std fun _ => 2) 2 wComs (Verifier.new [.init "shuffle"])).2

theorem wV_built : verifyShuffle (Env.std fun _ => 2) 2 wComs (Verifier.new [.init "shuffle"]) = (.ok (), wV) := by rfl

/-- The statement is false. -/
theorem w_false : ¬ Known (F := Z101) wg wh wComs (Shuffled 2) := by
  rintro ⟨v, hv, hs⟩
  obtain ⟨r0, h0⟩ := hv 0 _ rfl
  obtain ⟨r1, h1⟩ := hv 1 _ rfl
  obtain ⟨r2, h2⟩ := hv 2 _ rfl
  obtain ⟨r3, h3⟩ := hv 3 _ rfl
  have e0 := congrFun h0 8
  have e1 := congrFun h1 8
  have e2 := congrFun h2 8
  have e3 := congrFun h3 8
  simp [wg, wh, unitVec] at e0 e1 e2 e3
  have hs : [v 0, v 1].Perm [v 2, v 3] := hs
  rw [← e0, ← e1, ← e2, ← e3] at hs
  exact absurd hs (by decide)

/-- With challenges known beforehand there is an accepted proof. -/
theorem w_accepted : ∃ pr t', ∀ e : Z101, Verifier.verify (Env.std fun _ => 2) wV pr wg wh wG wH e = .ok t' := by
  have hc : ∃ s0, (wV.start blankProof).createRandomizedConstraints (Env.std fun _ => (2 : Z101)) = .ok s0 ∧ s0.numVars = 4 ∧ s0.V.length = 4 ∧
    (s0.constraints.flatMap fun lc => lc.terms.map Prod.fst).all (fun v => decide (v.InRange 4 4)) = true := ⟨_, rfl, rfl, rfl, rfl⟩
  obtain ⟨s0, h1, h2, h3, h4⟩ := hc
  obtain ⟨pr, t', -, h⟩ := c56_simulated_accepted (fun _ => 2) fixed_const (fun _ => show (2 : Z101) ≠ 0 by decide) wV s0 h1 (fun lc hlc t ht => by
      have := List.all_eq_true.mp h4 t.1 (List.mem_flatMap.mpr ⟨lc, hlc, List.mem_map_of_mem ht⟩)
      rw [h2, h3]
      exact of_decide_eq_true this) wg wh wG wH 2 (by rw [h2]; decide +kernel) (by decide) (by simp [wG]) (by simp [wH])
    ⟨0, 0, 0, 0, 0, 0, 0, 0, 0, 0, 0, fun _ => 0, fun _ => 0⟩ (by
      rw [h2, show wV.numVars = 0 from rfl]
      exact ⟨fun _ _ => ⟨rfl, rfl⟩, fun h => absurd h (by decide)⟩)
  exact ⟨pr, t', h⟩

/-- Its acceptance is due to a bad answer (so there are bad answers). -/
example : ∃ (bad : BadRule Z101 W10 (max (shuffleBound 2) 2)) (T : Transcript Z101 W10), bad.Hit (fun _ => 2) T := by
  obtain ⟨pr, t', h⟩ := w_accepted
  obtain ⟨bad, hb⟩ := c72_claim (Env.std fun _ => 2) (by simp [Env.std]) wV 2 _ (c72_shuffle_randomizes wV_built) wg wh wG wH w_independent (shuffleBound 2) (le_max_left _ _) fun O pr s2 h2 => shuffle_sizes wComs wV O pr s2 wV_built h2
  refine ⟨bad, t', (hb (fun _ => 2) pr 0 1 t' t' (by decide) (h 0) (h 1)).resolve_left ?_⟩
  rintro ⟨s2, h2, h3⟩
  exact w_false (shuffle_known rfl wV_built h2 h3)

/-- An attack that asks the draws of the accepted proof, the last one first. -/
example : ∃ (A : Attack Z101 W10) (cs : List Z101), ∀ r, A.WinsAgainst (Env.std fun _ => 2) wV (fun σ => Shuffled 2 σ.committed) wg wh wG wH cs r := by
  obtain ⟨pr, t', h⟩ := w_accepted
  refine ⟨⟨fun cs => (draws t').reverse.getD cs.length [], fun _ => pr⟩, List.replicate (draws t').reverse.length 2, fun r => ⟨fun _ => 2, t', _, ⟨fun i c hc _ => ?_, h r, fun d hd => ?_⟩, rfl, ?_⟩⟩
  · exact (List.eq_of_mem_replicate (List.mem_of_getElem? hc)).symm
  · obtain ⟨i, hi, e⟩ := List.getElem_of_mem (List.mem_reverse.mpr hd)
    refine List.mem_map.mpr ⟨i, List.mem_range.mpr (by simpa using hi), ?_⟩
    have hi' : i < (draws t').length := by simpa using hi
    show (draws t').reverse.getD (List.take i _).length [] = d
    rw [List.length_take, List.length_replicate, List.length_reverse, min_eq_left (le_of_lt hi'), List.getD_eq_getElem?_getD, List.getElem?_eq_getElem hi, Option.getD_some, e]
  · exact fun h3 => w_false (shuffle_known (O := fun _ => 2) (pr := pr) rfl wV_built rfl h3)

/-- The same, with the commitments chosen by the prover, and with combinations (of the generators themselves) in place of points. -/
example : ∃ (A : Forger Z101 W10) (cs : List Z101), (∀ r, A.Cheats (Env.std fun _ => 2) "shuffle" (verifyShuffle (Env.std fun _ => 2) 2) 4 (fun coms => Known (F := Z101) wg wh coms (Shuffled 2)) wg wh wG wH cs r) ∧
    ∀ r, A.CheatsVia LinearMap.id (Env.std fun _ => 2) "shuffle" (verifyShuffle (Env.std fun _ => 2) 2) (verifyShuffle (Env.std fun _ => 2) 2) 4 (fun coms => Known (F := Z101) wg wh coms (Shuffled 2)) wg wh wG wH cs r := by
  obtain ⟨pr, t', h⟩ := w_accepted
  have hq : ∀ d ∈ draws t', d ∈ askedBy (fun cs : List Z101 => (draws t').reverse.getD cs.length []) (List.replicate (draws t').reverse.length 2) := by
    intro d hd
    obtain ⟨i, hi, e⟩ := List.getElem_of_mem (List.mem_reverse.mpr hd)
    refine List.mem_map.mpr ⟨i, List.mem_range.mpr (by simpa using hi), ?_⟩
    have hi' : i < (draws t').length := by simpa using hi
    show (draws t').reverse.getD (List.take i _).length [] = d
    rw [List.length_take, List.length_replicate, List.length_reverse, min_eq_left (le_of_lt hi'), List.getD_eq_getElem?_getD, List.getElem?_eq_getElem hi, Option.getD_some, e]
  have ht : ∀ t : Transcript Z101 W10, t.mapG (LinearMap.id : W10 →ₗ[Z101] W10) = t := fun t => by
    unfold Transcript.mapG
    refine List.map_id'' (fun e => ?_) t
    cases e <;> rfl
  refine ⟨⟨⟨fun cs => (draws t').reverse.getD cs.length [], fun _ => pr⟩, fun _ => wComs⟩, List.replicate (draws t').reverse.length 2, fun r => ⟨rfl, w_false, fun _ => 2, wV, t', wV_built, fun i c hc _ => ?_, h r, hq⟩,
    fun r => ⟨rfl, w_false, fun _ => 2, wV, t', wV_built, fun i c hc _ => ?_, ?_, fun d hd => ⟨d, hq d hd, ht d⟩, fun ρ hρ => hρ.1 hρ.2.1⟩⟩
  · exact (List.eq_of_mem_replicate (List.mem_of_getElem? hc)).symm
  · exact (List.eq_of_mem_replicate (List.mem_of_getElem? hc)).symm
  · have : pr.mapG (LinearMap.id : W10 →ₗ[Z101] W10) = pr := by
      simp [R1CSProof.mapG, IppProof.mapG]
    show Verifier.verify _ wV (pr.mapG _) _ _ _ _ r = _
    rw [this]
    exact h r

/-- The bounds: five questions, and at most 46 in 101 of the answers. -/
example (A : Attack Z101 W10) : Nat.card {p : (Fin 5 → Z101) × Z101 // A.WinsAgainst (Env.std fun _ => 2) wV (fun σ => Shuffled 2 σ.committed) wg wh wG wH (List.ofFn p.1) p.2} ≤ 46 * 101 ^ 5 := by
  have := c72_attack (Env.std fun _ => 2) (by simp [Env.std]) wV 2 _ (c72_shuffle_randomizes wV_built) wg wh wG wH w_independent (shuffleBound 2) (le_max_left _ _) (fun O pr s2 h2 => shuffle_sizes wComs wV O pr s2 wV_built h2) A 5
  rwa [show Fintype.card Z101 = 101 from ZMod.card 101, show 5 * max (shuffleBound 2) 2 + 1 = 46 by decide +kernel] at this

example (A : Forger Z101 W10) : Nat.card {p : (Fin 5 → Z101) × Z101 // A.Cheats (Env.std fun _ => 2) "shuffle" (verifyShuffle (Env.std fun _ => 2) 2) 4 (fun coms => Known (F := Z101) wg wh coms (Shuffled 2)) wg wh wG wH (List.ofFn p.1) p.2} ≤ 46 * 101 ^ 5 := by
  have := c72_shuffle (Env.std fun _ => 2) (by simp [Env.std]) "shuffle" 2 wg wh wG wH w_independent A 5
  rwa [show Fintype.card Z101 = 101 from ZMod.card 101, show 5 * shuffleBound 2 + 1 = 46 by decide +kernel] at this

/-- For points of the field, with many relations. -/
example (A : Forger Z101 Rep6) : Nat.card {p : (Fin 5 → Z101) × Z101 // A.CheatsVia (Rep.point Z101 _) (Env.std fun _ => 2) "shuffle" (verifyShuffle (Env.std fun _ => 2) 1) (verifyShuffle (Env.std fun _ => 2) 1) 2
    (fun coms => Known (F := Z101) (Rep.g Z101 3 5 [7, 11] [13, 17]) (Rep.h Z101 3 5 [7, 11] [13, 17]) coms (Shuffled 1)) (Rep.g Z101 3 5 [7, 11] [13, 17]) (Rep.h Z101 3 5 [7, 11] [13, 17]) (Rep.Gs Z101 3 5 [7, 11] [13, 17])
    (Rep.Hs Z101 3 5 [7, 11] [13, 17]) (List.ofFn p.1) p.2} ≤ 36 * 101 ^ 5 := by
  have := c72_shuffle_algebraic (Env.std fun _ => 2) (by simp [Env.std]) "shuffle" 1 (3 : Z101) 5 [7, 11] [13, 17] A 5
  rwa [show Fintype.card Z101 = 101 from ZMod.card 101, show 5 * shuffleBound 1 + 1 = 36 by decide +kernel] at this

/-! ## The bad challenges are really there

(3 - z)(4 - z) and (2 - z)(6 - z) differ as polynomials and agree at one point. -/

/-- For one challenge, 0, the circuit cannot tell 3, 4 from 2, 6. -/
example : ¬ Shuffled 2 (fun i => ([3, 4, 2, 6] : List Z101).getD i 0) ∧ {z : Z101 | (([3, 4] : List Z101).map fun x => x - z).prod = (([2, 6] : List Z101).map fun y => y - z).prod} = {0} := by
  constructor
  · show ¬ ([3, 4] : List Z101).Perm [2, 6]
    decide
  · ext z
    simp only [List.map_cons, List.map_nil, List.prod_cons, List.prod_nil, mul_one, Set.mem_ofPred_eq, Set.mem_singleton_iff]
    constructor
    · intro h
      linear_combination h
    · rintro rfl
      decide

end Bp
