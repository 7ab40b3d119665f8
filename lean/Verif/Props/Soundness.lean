import Verif.Lemmas.Extract
import Verif.Props.Ipp
import Verif.Props.R1CS
import Mathlib.Tactic.IntervalCases

/-! # C16: special soundness of the inner-product argument -/

set_option linter.unusedSectionVars false

namespace Bp
variable {F G : Type} [Field F] [AddCommGroup G] [Module F G]
open Finset

/-- No non-trivial linear combination of the generators is zero. -/
def Independent (F : Type) {G : Type} [Field F] [AddCommGroup G] [Module F G] (gens : List G) : Prop :=
  ∀ c : ℕ → F, ∑ i ∈ range gens.length, c i • gens.getD i 0 = 0 → ∀ i < gens.length, c i = 0

theorem verifyIpp_len [DecidableEq G] {env : Env F G} {n : ℕ} {t t' : Transcript F G} {Gf Hf : List F} {P Q : G} {Gs Hs : List G} {a b : F} {L R : List G}
    (h : verifyIpp env n t Gf Hf P Q Gs Hs a b L R = .ok t') : L.length < 32 := by
  by_contra hl
  rw [verifyIpp, verificationScalars] at h
  simp only [bind, Except.bind] at h
  rw [if_pos (by omega)] at h
  simp [Res.err, Res.panic] at h

/-- **C16**: special soundness.  Let a prover, rewound in every round with four challenges with pairwise different squares, answer all of them such that `verify_ipp` accepts on every branch (`env` may be a different
environment on each branch: the one whose oracle returns the challenges of that branch).  Then the vectors extracted from its answers open `P = <a∘Gf, G> + <b∘Hf, H> + <a,b> Q`, unless one of
the finitely many relations computed from its answers is a non-trivial linear relation between the generators. -/
theorem c16_special_soundness [DecidableEq G] (k : ℕ) (t : Transcript F G) (Gf Hf : List F) (P Q : G) (Gs Hs : List G)
    (h1 : Gs.length = 2 ^ k) (h2 : Hs.length = 2 ^ k) (h3 : Gf.length = 2 ^ k) (h4 : Hf.length = 2 ^ k) (tree : IppTree F G) (hfull : tree.Full k)
    (hacc : ∀ L R us a b, tree.Path L R us a b → ∃ (env : Env F G) (t' : Transcript F G), us = roundChallenges env.oracle t (2 ^ k) L R ∧ (k ≠ 0 ∨ env.batchInvert [] = .ok ([], 1)) ∧
      verifyIpp env (2 ^ k) t Gf Hf P Q Gs Hs a b L R = .ok t') :
    (∃ a b : List F, a = (List.range (2 ^ k)).map (tree.extract k).1 ∧ b = (List.range (2 ^ k)).map (tree.extract k).2.1 ∧
      P = msm (List.zipWith (· * ·) a Gf) Gs + msm (List.zipWith (· * ·) b Hf) Hs + dot a b • Q) ∨
    ∃ ρ ∈ tree.relations k, ¬ ρ.Trivial (2 ^ k) ∧ ρ.value (2 ^ k) Q (scaled Gf Gs) (scaled Hf Hs) = 0 := by
  have hlG : (scaled Gf Gs).length = 2 ^ k := by simp [scaled, h1, h3]
  have hlH : (scaled Hf Hs).length = 2 ^ k := by simp [scaled, h2, h4]
  have hA : tree.Accepted k Q (fun i => (scaled Gf Gs).getD i 0) (fun i => (scaled Hf Hs).getD i 0) P := by
    intro Ls Rs us a b hp
    obtain ⟨env, t', hus, hb, hv⟩ := hacc _ _ _ _ _ hp
    obtain ⟨l1, l2, l3, l4⟩ := hp.length hfull
    have hk : k < 32 := l1 ▸ verifyIpp_len hv
    have := (c13_verify_iff env k hk hb t Gf Hf P Q Gs Hs a b Ls Rs l1 l2 h1 h2 h3 h4 us hus l4).mp ⟨t', hv⟩
    unfold PathEq
    rw [this, ← msm_sVec _ _ (by rw [hlG, l3]), ← msm_sVec _ _ (by rw [hlH, List.length_map, l3]), sVec_eq, sVec_eq, List.length_map, l3, msm_map_range _ _ _ hlG, msm_map_range _ _ _ hlH]
  by_cases hr : ∃ ρ ∈ tree.relations k, ¬ ρ.Trivial (2 ^ k) ∧ ρ.value (2 ^ k) Q (scaled Gf Gs) (scaled Hf Hs) = 0
  · exact .inr hr
  · refine .inl ⟨_, _, rfl, rfl, ?_⟩
    have hv := extract_value Q k tree _ _ P hfull hA
    have hp := extract_product Q k tree _ _ P hfull hA fun ρ hρ h0 => by
      by_contra hn
      exact hr ⟨ρ, hρ, hn, h0⟩
    rw [msm_hadamard (by simp [h3]), msm_hadamard (by simp [h4]), msm_map_range _ _ _ hlG, msm_map_range _ _ _ hlH, dot_eq_sum (n := 2 ^ k) (by simp) (by simp), hv, repVal, hp]
    congr 2
    refine Finset.sum_congr rfl fun i hi => ?_
    have hi := Finset.mem_range.mp hi
    rw [getD_map_range, getD_map_range, if_pos hi, if_pos hi]

theorem scaled_getD {f : List F} {g : List G} {n : ℕ} (hf : f.length = n) (hg : g.length = n) (i : ℕ) (hi : i < n) : (scaled f g).getD i 0 = f.getD i 0 • g.getD i 0 := by
  unfold scaled
  rw [getD_zipWith (d1 := 0) (d2 := 0) _ _ _ _ _ (by omega) (by omega)]

/-- Independent generators admit no non-trivial relation, also after scaling with non-zero factors. -/
theorem Independent.no_relation {n : ℕ} {Q : G} {Gs Hs : List G} (h1 : Gs.length = n) (h2 : Hs.length = n) (hi : Independent F (Gs ++ Hs ++ [Q])) {Gf Hf : List F} (h3 : Gf.length = n) (h4 : Hf.length = n)
    (g0 : ∀ x ∈ Gf, x ≠ 0) (h0 : ∀ x ∈ Hf, x ≠ 0) (ρ : IppRep F) (hv : ρ.value n Q (scaled Gf Gs) (scaled Hf Hs) = 0) : ρ.Trivial n := by
  have hl : (Gs ++ Hs ++ [Q]).length = n + n + 1 := by simp [h1, h2]; omega
  have key := hi (fun i => if i < n then ρ.1 i * Gf.getD i 0 else if i < n + n then ρ.2.1 (i - n) * Hf.getD (i - n) 0 else ρ.2.2) (by
    refine Eq.trans ?_ hv
    rw [hl, Finset.sum_range_succ, Finset.sum_range_add, IppRep.value]
    congr 1
    · congr 1
      · refine Finset.sum_congr rfl fun i hi => ?_
        have hi := Finset.mem_range.mp hi
        rw [if_pos hi, scaled_getD h3 h1 i hi, smul_smul, getD_append, if_pos (by simp; omega), getD_append, if_pos (by omega)]
      · refine Finset.sum_congr rfl fun i hi => ?_
        have hi := Finset.mem_range.mp hi
        rw [if_neg (by omega), if_pos (by omega), Nat.add_sub_cancel_left, scaled_getD h4 h2 i hi, smul_smul, getD_append, if_pos (by simp; omega), getD_append,
          if_neg (by omega), h1, Nat.add_sub_cancel_left]
    · rw [if_neg (by omega), if_neg (by omega), getD_append, if_neg (by simp; omega)]
      simp [h1, h2])
  rw [hl] at key
  refine ⟨fun i hi => ?_, fun i hi => ?_, ?_⟩
  · have := key i (by omega)
    simp only [if_pos hi] at this
    refine (mul_eq_zero.mp this).resolve_right (g0 _ ?_)
    rw [List.getD_eq_getElem?_getD, List.getElem?_eq_getElem (by omega), Option.getD_some]; exact List.getElem_mem _
  · have := key (n + i) (by omega)
    rw [if_neg (by omega), if_pos (by omega), Nat.add_sub_cancel_left] at this
    refine (mul_eq_zero.mp this).resolve_right (h0 _ ?_)
    rw [List.getD_eq_getElem?_getD, List.getElem?_eq_getElem (by omega), Option.getD_some]; exact List.getElem_mem _
  · have := key (n + n) (by omega)
    simpa using this

/-- **C16**, for generators without linear relations (and non-zero factors): the prover's answers contain an opening of `P`. -/
theorem c16_independent [DecidableEq G] (k : ℕ) (t : Transcript F G) (Gf Hf : List F) (P Q : G) (Gs Hs : List G)
    (h1 : Gs.length = 2 ^ k) (h2 : Hs.length = 2 ^ k) (h3 : Gf.length = 2 ^ k) (h4 : Hf.length = 2 ^ k) (hind : Independent F (Gs ++ Hs ++ [Q])) (g0 : ∀ x ∈ Gf, x ≠ 0) (h0 : ∀ x ∈ Hf, x ≠ 0)
    (tree : IppTree F G) (hfull : tree.Full k)
    (hacc : ∀ L R us a b, tree.Path L R us a b → ∃ (env : Env F G) (t' : Transcript F G), us = roundChallenges env.oracle t (2 ^ k) L R ∧ (k ≠ 0 ∨ env.batchInvert [] = .ok ([], 1)) ∧
      verifyIpp env (2 ^ k) t Gf Hf P Q Gs Hs a b L R = .ok t') :
    ∃ a b : List F, a.length = 2 ^ k ∧ b.length = 2 ^ k ∧ P = msm (List.zipWith (· * ·) a Gf) Gs + msm (List.zipWith (· * ·) b Hf) Hs + dot a b • Q := by
  rcases c16_special_soundness k t Gf Hf P Q Gs Hs h1 h2 h3 h4 tree hfull hacc with ⟨a, b, rfl, rfl, h⟩ | ⟨ρ, -, hn, hv⟩
  · exact ⟨_, _, by simp, by simp, h⟩
  · exact absurd (hind.no_relation h1 h2 h3 h4 g0 h0 ρ hv) hn

/-! ## Example: an honest prover with `a = (3,5)`, `b = (7,11)`, generators the unit vectors of a free module -/

/-- Unit vectors. -/
def unit5 (i j : Fin 5) : Z101 := if i = j then 1 else 0

def demoTree : IppTree Z101 (Fin 5 → Z101) :=
  .node ((6 : Z101) • unit5 1 + (33 : Z101) • unit5 2 + (33 : Z101) • unit5 4) ((5 : Z101) • unit5 0 + (28 : Z101) • unit5 3 + (35 : Z101) • unit5 4)
    (fun i => ((i.val + 1 : ℕ) : Z101)) fun i => .leaf (3 * ((i.val + 1 : ℕ) : Z101) + 5 * ((i.val + 1 : ℕ) : Z101)⁻¹) (7 * ((i.val + 1 : ℕ) : Z101)⁻¹ + 11 * ((i.val + 1 : ℕ) : Z101))

theorem demoTree_full : demoTree.Full 1 := ⟨by decide, by decide, fun _ => trivial⟩

theorem unit5_independent : Independent Z101 [unit5 0, unit5 1, unit5 2, unit5 3, unit5 4] := by
  intro c h i hi
  have hi : i < 5 := hi
  have e : ∀ j : Fin 5, (∑ i ∈ range 5, c i • [unit5 0, unit5 1, unit5 2, unit5 3, unit5 4].getD i 0) j = 0 := fun j => congrFun h j
  simp only [Finset.sum_range_succ, Finset.sum_range_zero] at e
  have e0 := e 0; have e1 := e 1; have e2 := e 2; have e3 := e 3; have e4 := e 4
  simp [unit5] at e0 e1 e2 e3 e4
  interval_cases i <;> assumption

theorem demoTree_accepted (L R : List (Fin 5 → Z101)) (us : List Z101) (a b : Z101) (hp : demoTree.Path L R us a b) :
    ∃ (env : Env Z101 (Fin 5 → Z101)) (t' : Transcript Z101 (Fin 5 → Z101)), us = roundChallenges env.oracle [] (2 ^ 1) L R ∧ (1 ≠ 0 ∨ env.batchInvert [] = .ok ([], 1)) ∧
      verifyIpp env (2 ^ 1) [] [1, 2] [3, 4] ((3 : Z101) • unit5 0 + (10 : Z101) • unit5 1 + (21 : Z101) • unit5 2 + (44 : Z101) • unit5 3 + (76 : Z101) • unit5 4) (unit5 4)
        [unit5 0, unit5 1] [unit5 2, unit5 3] a b L R = .ok t' := by
  generalize hT : demoTree = T at hp
  cases hp with
  | leaf => cases hT
  | node i hp =>
    cases hT
    cases hp
    refine ⟨Env.std fun _ => ((i.val + 1 : ℕ) : Z101), ?_⟩
    have hu : [((i.val + 1 : ℕ) : Z101)] = roundChallenges (Env.std (G := Fin 5 → Z101) fun _ => ((i.val + 1 : ℕ) : Z101)).oracle [] (2 ^ 1)
        [(6 : Z101) • unit5 1 + (33 : Z101) • unit5 2 + (33 : Z101) • unit5 4] [(5 : Z101) • unit5 0 + (28 : Z101) • unit5 3 + (35 : Z101) • unit5 4] := rfl
    obtain ⟨t', h⟩ := (c13_verify_iff (Env.std fun _ => ((i.val + 1 : ℕ) : Z101)) 1 (by decide) (.inl (by decide)) [] [1, 2] [3, 4]
      ((3 : Z101) • unit5 0 + (10 : Z101) • unit5 1 + (21 : Z101) • unit5 2 + (44 : Z101) • unit5 3 + (76 : Z101) • unit5 4) (unit5 4) [unit5 0, unit5 1] [unit5 2, unit5 3]
      (3 * ((i.val + 1 : ℕ) : Z101) + 5 * ((i.val + 1 : ℕ) : Z101)⁻¹) (7 * ((i.val + 1 : ℕ) : Z101)⁻¹ + 11 * ((i.val + 1 : ℕ) : Z101)) _ _ rfl rfl rfl rfl rfl rfl _ hu
      (by intro u hm; rw [List.mem_singleton.mp hm]; clear hu hm; revert i; decide)).mpr (by clear hu; funext j; revert i j; decide +kernel)
    exact ⟨t', hu, .inl (by decide), h⟩

/-- The theorem applies to it. -/
example : ∃ a b : List Z101, a.length = 2 ^ 1 ∧ b.length = 2 ^ 1 ∧ (3 : Z101) • unit5 0 + (10 : Z101) • unit5 1 + (21 : Z101) • unit5 2 + (44 : Z101) • unit5 3 + (76 : Z101) • unit5 4 =
    msm (List.zipWith (· * ·) a [1, 2]) [unit5 0, unit5 1] + msm (List.zipWith (· * ·) b [3, 4]) [unit5 2, unit5 3] + dot a b • unit5 4 :=
  c16_independent 1 [] [1, 2] [3, 4] _ _ _ _ rfl rfl rfl rfl unit5_independent (by decide) (by decide) demoTree demoTree_full demoTree_accepted

/-- The extracted witness is the prover's. -/
example : (List.range 2).map (demoTree.extract 1).1 = [3, 5] ∧ (List.range 2).map (demoTree.extract 1).2.1 = [7, 11] := by decide +kernel

/-- In a group where the generators do have a relation, one of the computed relations can be a non-trivial one: here all generators are multiples of one point and the leaf answers
do not fit together. -/
example : ∃ ρ ∈ (IppTree.node (G := Z101) 0 0 (fun i => ((i.val + 1 : ℕ) : Z101)) fun i => .leaf (i.val : Z101) 1).relations 1, ¬ ρ.Trivial 2 := by
  refine ⟨_, by rw [IppTree.relations]; exact List.mem_append_left _ (List.mem_map.mpr ⟨3, by decide, rfl⟩), fun h => ?_⟩
  exact absurd h.2.2 (by decide +kernel)

end Bp
