import Verif.Lemmas.IppAlgebraic
import Verif.Props.IppGame
import Verif.Props.AlgebraicExample

/-! # C94: the inner-product argument on its own, with the generators of the code

`c94_sound` and `c94_game` suppose generators without relations.  In a group of prime order there always are relations (any two points have one); that nobody knows one is the assumption.  Here the prover makes its points as
combinations of the generators, and what it achieves is: a true statement, a rejection, an unlikely answer, or a relation. -/

set_option linter.unusedSectionVars false

namespace Bp
variable {F G M : Type} [Field F] [Fintype F] [AddCommGroup G] [Module F G] [DecidableEq G] [AddCommGroup M] [Module F M]

/-- **C94**, for any module of combinations in which the generators are independent. -/
theorem c94_combinations [DecidableEq M] (φ : M →ₗ[F] G) (env : Env F G) (base : Transcript F M) (l : String) (k : ℕ) (hb : k ≠ 0 ∨ env.batchInvert [] = .ok ([], 1)) (Gf Hf : List F) (Q : M) (Gs Hs : List M)
    (h1 : Gs.length = 2 ^ k) (h2 : Hs.length = 2 ^ k) (h3 : Gf.length = 2 ^ k) (h4 : Hf.length = 2 ^ k) (hind : Independent F (Gs ++ Hs ++ [Q])) (g0 : ∀ x ∈ Gf, x ≠ 0) (h0 : ∀ x ∈ Hf, x ≠ 0) (A : IppForger F M) (q D : ℕ)
    (hD : D = (draws base).length + k) :
    Nat.card {cs : Fin (q + D) → F // A.Fools φ env base l (2 ^ k) Gf Hf Q Gs Hs q (List.ofFn cs)} ≤ (q + D) * 7 * Fintype.card F ^ (q + D - 1) :=
  (count_mono fun _ _ hp => hp.lift h1 h2 h3 h4).trans (c94_game (env.pull φ) base l k hb Gf Hf Q Gs Hs h1 h2 h3 h4 hind g0 h0 A q D hD)

/-! ## The generators as combinations -/

variable (Gs Hs : List G) (Q : G)

theorem IppRep.point_gens : (IppRep.gens F Gs Hs Q).map (Rep.point F _) = Gs := by
  refine List.ext_getElem (by simp [IppRep.gens]) fun i h1 h2 => ?_
  simp only [IppRep.gens, List.getElem_map, List.getElem_range]
  rw [Rep.point_gen _ _ (by simp; omega)]
  simp [List.getElem_append_left, h2]

theorem IppRep.point_hens : (IppRep.hens F Gs Hs Q).map (Rep.point F _) = Hs := by
  refine List.ext_getElem (by simp [IppRep.hens]) fun i h1 h2 => ?_
  simp only [IppRep.hens, List.getElem_map, List.getElem_range']
  rw [Rep.point_gen _ _ (by simp; omega)]
  rw [List.getElem_append_left (by simp; omega), List.getElem_append_right (by omega)]
  simp

theorem IppRep.point_last : Rep.point F _ (IppRep.last F Gs Hs Q) = Q := by
  rw [IppRep.last, Rep.point_gen _ _ (by simp)]
  rw [List.getElem_append_right (by simp)]
  simp

theorem IppRep.independent : Independent F (IppRep.gens F Gs Hs Q ++ IppRep.hens F Gs Hs Q ++ [IppRep.last F Gs Hs Q]) := by
  have e : IppRep.gens F Gs Hs Q ++ IppRep.hens F Gs Hs Q ++ [IppRep.last F Gs Hs Q] = (List.range (Gs ++ Hs ++ [Q]).length).map (unitVec F (Gs ++ Hs ++ [Q]).length) := by
    have e1 : (Gs ++ Hs ++ [Q]).length = Gs.length + Hs.length + 1 := by simp; omega
    have e2 : ∀ n, (List.range n).map (unitVec F (Gs ++ Hs ++ [Q]).length) = (List.range n).map (Rep.gen F (Gs ++ Hs ++ [Q])) := fun n => rfl
    rw [e2, e1, List.range_succ, List.range_add, List.map_append, List.map_append, ← List.range'_eq_map_range]
    rfl
  rw [e]
  exact unitVec_independent F _

variable {Gs Hs Q} [DecidableEq F]

/-- **C94**, with the generators of the code, whatever these are: a prover asks the oracle `q` questions, then chooses `P` and the proof, and makes all its points as combinations of the generators.  With all but the part
`7 (q + D) / |F|` of the answers, the statement is true of the combination that is `P`, or the verifier rejects, or a non-trivial combination of the generators that is the identity is found. -/
theorem c94_algebraic (env : Env F G) (base : Transcript F (Rep F (Gs ++ Hs ++ [Q]))) (l : String) (k : ℕ) (hb : k ≠ 0 ∨ env.batchInvert [] = .ok ([], 1)) (Gf Hf : List F) (h1 : Gs.length = 2 ^ k) (h2 : Hs.length = 2 ^ k)
    (h3 : Gf.length = 2 ^ k) (h4 : Hf.length = 2 ^ k) (g0 : ∀ x ∈ Gf, x ≠ 0) (h0 : ∀ x ∈ Hf, x ≠ 0) (A : IppForger F (Rep F (Gs ++ Hs ++ [Q]))) (q D : ℕ) (hD : D = (draws base).length + k) :
    A.fooling env base l (2 ^ k) Gf Hf q D ≤ (q + D) * 7 * Fintype.card F ^ (q + D - 1) :=
  c94_combinations (Rep.point F _) env base l k hb Gf Hf _ _ _ (by simpa [IppRep.gens] using h1) (by simpa [IppRep.hens] using h2) h3 h4 (IppRep.independent Gs Hs Q) g0 h0 A q D hD

/-- If the statement is true of the combination, then it is true of the point. -/
theorem c94_claim_point {n : ℕ} {Gf Hf : List F} {P : Rep F (Gs ++ Hs ++ [Q])} (hc : IppClaim n Gf Hf (IppRep.last F Gs Hs Q) (IppRep.gens F Gs Hs Q) (IppRep.hens F Gs Hs Q) P) :
    IppClaim n Gf Hf Q Gs Hs (Rep.point F _ P) := by
  obtain ⟨a, b, ha, hb, e⟩ := hc
  refine ⟨a, b, ha, hb, ?_⟩
  rw [e, map_add, map_add, map_smul, ← mapG_msm, ← mapG_msm, IppRep.point_gens, IppRep.point_hens, IppRep.point_last]

/-! ## Examples -/

/-- Generators with relations: points of the group of integers modulo 101. -/
example (A : IppForger Z101 (Rep Z101 (([3, 5] : List Z101) ++ [7, 11] ++ [13]))) :
    A.fooling (Gs := [3, 5]) (Hs := [7, 11]) (Q := 13) (Env.std fun _ => 0) [.init "test"] "P" 2 [1, 2] [3, 4] 1 1 ≤ 2 * 7 * Fintype.card Z101 :=
  c94_algebraic (Gs := [3, 5]) (Hs := [7, 11]) (Q := 13) (Env.std fun _ => 0) [.init "test"] "P" 1 (.inl one_ne_zero) [1, 2] [3, 4] rfl rfl rfl rfl (by decide) (by decide) A 1 1 rfl

/-- There are `101 ^ 2` sequences of answers, so that this is a small part. -/
example : 2 * 7 * Fintype.card Z101 < Fintype.card (Fin 2 → Z101) := by
  rw [Fintype.card_fun, Fintype.card_fin, show Fintype.card Z101 = 101 from ZMod.card 101]
  decide

/-- A prover that names two combinations for the same point, here `5 G_0 - 3 G_1` and 0, gives a relation. -/
example : ∃ ρ : Rep Z101 (([3, 5] : List Z101) ++ [7, 11] ++ [13]), IppRelation (F := Z101) (Rep.point Z101 _) (Env.std fun _ => (2 : Z101)) 2 [] [1, 2] [3, 4] 0 (IppRep.last Z101 ([3, 5] : List Z101) [7, 11] 13) (IppRep.gens Z101 ([3, 5] : List Z101) [7, 11] 13)
    (IppRep.hens Z101 ([3, 5] : List Z101) [7, 11] 13) ⟨[0], [0], 0, 0⟩ [[TEvent.point "x" ((5 : Z101) • Rep.gen Z101 _ 0 - (3 : Z101) • Rep.gen Z101 _ 1), .point "y" 0]] ρ := by
  refine ⟨(5 : Z101) • Rep.gen Z101 _ 0 - (3 : Z101) • Rep.gen Z101 _ 1, by decide +kernel, by decide +kernel, _, _, rfl, .inr ⟨(5 : Z101) • Rep.gen Z101 _ 0 - (3 : Z101) • Rep.gen Z101 _ 1, 0, ?_, ?_, by simp⟩⟩
  · exact List.mem_flatMap.mpr ⟨_, List.mem_cons_of_mem _ (List.mem_singleton.mpr rfl), by simp [Transcript.points]⟩
  · exact List.mem_flatMap.mpr ⟨_, List.mem_cons_of_mem _ (List.mem_singleton.mpr rfl), by simp [Transcript.points]⟩

end Bp
