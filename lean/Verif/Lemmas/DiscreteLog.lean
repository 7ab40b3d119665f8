import Verif.Spec.DiscreteLog
import Verif.Lemmas.Average
import Verif.Lemmas.Challenge
import Verif.Props.Algebraic

/-! # Lemmas: from relations to discrete logarithms -/

namespace Bp
variable {F G ι Ω : Type} [Field F] [AddCommGroup G] [Module F G] [Fintype ι]
open Finset

theorem combine_apply (P : ι → G) (ρ : ι → F) : combine P ρ = ∑ i, ρ i • P i := rfl

theorem combine_smul (B : G) (γ ρ : ι → F) : combine (fun i => γ i • B) ρ = (∑ i, ρ i * γ i) • B := by
  rw [combine_apply, Finset.sum_smul]
  exact sum_congr rfl fun i _ => (mul_smul _ _ _).symm

/-- What is planted, in terms of the base. -/
theorem planted_eq (B : G) (x : F) (α β : ι → F) : planted B (x • B) α β = fun i => (α i + x * β i) • B := by
  funext i
  simp only [planted, add_smul, mul_smul, smul_comm x]

/-- A relation between planted points gives the logarithm, unless the coefficients of `X` cancel. -/
theorem log_of_relation {B : G} (hB : Function.Injective fun a : F => a • B) {x : F} {α β ρ : ι → F} (h : combine (planted B (x • B) α β) ρ = 0) (hβ : ∑ i, ρ i * β i ≠ 0) :
    -(∑ i, ρ i * α i) / (∑ i, ρ i * β i) = x := by
  rw [planted_eq, combine_smul] at h
  have h0 : ∑ i, ρ i * (α i + x * β i) = 0 := hB (by simpa using h)
  have e : ∑ i, ρ i * (α i + x * β i) = ∑ i, ρ i * α i + x * ∑ i, ρ i * β i := by
    rw [mul_sum, ← sum_add_distrib]
    exact sum_congr rfl fun i _ => by ring
  rw [e] at h0
  rw [div_eq_iff hβ]
  linear_combination -h0

/-- The linear form `β ↦ Σ ρ β` is zero on a `|F|`-th of the vectors, when `ρ ≠ 0`. -/
theorem card_kernel [Fintype F] [DecidableEq ι] {ρ : ι → F} (hρ : ρ ≠ 0) : Nat.card {β : ι → F // ∑ i, ρ i * β i = 0} * Fintype.card F = Nat.card (ι → F) := by
  obtain ⟨j, hj⟩ := Function.ne_iff.mp hρ
  rw [← Nat.card_eq_fintype_card, ← Nat.card_prod]
  have hs : ∀ (β : ι → F) (c : F), ∑ i, ρ i * (β i + (Pi.single j c : ι → F) i) = ∑ i, ρ i * β i + ρ j * c := by
    intro β c
    simp only [mul_add, sum_add_distrib]
    congr 1
    rw [sum_eq_single j (fun i _ hi => by rw [Pi.single_eq_of_ne hi, mul_zero]) (by simp), Pi.single_eq_same]
  have hj' : ρ j ≠ 0 := hj
  refine Nat.card_congr
    { toFun := fun p => p.1.1 + Pi.single j p.2
      invFun := fun β => (⟨β + Pi.single j (-(∑ i, ρ i * β i) / ρ j), ?_⟩, (∑ i, ρ i * β i) / ρ j)
      left_inv := ?_
      right_inv := ?_ }
  · have := hs β (-(∑ i, ρ i * β i) / ρ j)
    simp only [Pi.add_apply]
    rw [this, mul_div_cancel₀ _ hj', add_neg_cancel]
  · rintro ⟨⟨β, h0⟩, c⟩
    have e : ∑ i, ρ i * (β + Pi.single j c : ι → F) i = ρ j * c := by
      have := hs β c
      simp only [Pi.add_apply]
      rw [this, h0, zero_add]
    have e2 : (∑ i, ρ i * (β + Pi.single j c : ι → F) i) / ρ j = c := by rw [e, mul_div_cancel_left₀ _ hj']
    refine Prod.ext (Subtype.ext ?_) e2
    show β + Pi.single j c + Pi.single j (-(∑ i, ρ i * (β + Pi.single j c : ι → F) i) / ρ j) = β
    rw [neg_div, e2, Pi.single_neg]
    abel
  · intro β
    simp only [neg_div, Pi.single_neg]
    abel

section
variable {α β : Type} [Finite α] [Finite β]

theorem prob_mono {E E' : α → Prop} (h : ∀ a, E a → E' a) : prob E ≤ prob E' := by
  classical
  refine avg_mono fun a => ?_
  by_cases h1 : E a
  · rw [if_pos h1, if_pos (h a h1)]
  · rw [if_neg h1]; split <;> norm_num

theorem prob_or (E E' : α → Prop) : prob (fun a => E a ∨ E' a) ≤ prob E + prob E' := by
  classical
  unfold prob
  rw [← avg_add]
  refine avg_mono fun a => ?_
  by_cases h1 : E a <;> by_cases h2 : E' a <;> simp [h1, h2]

theorem prob_prod (E : α × β → Prop) : prob E = avg fun a => prob fun b => E (a, b) := avg_prod _

open Classical in
theorem prob_equiv {α β : Type} (e : α ≃ β) (E : β → Prop) : prob (fun a => E (e a)) = prob E := by
  unfold prob
  refine Eq.trans ?_ (avg_equiv e fun b => if E b then (1 : ℚ) else 0)
  rfl

end

/-! ## The reduction -/

/-- `β ↦ Σ ρ β` is not zero with probability `1 - 1/|F|`. -/
theorem prob_nonzero [Fintype F] [DecidableEq ι] {ρ : ι → F} (hρ : ρ ≠ 0) : prob (fun β : ι → F => ∑ i, ρ i * β i ≠ 0) = 1 - 1 / Fintype.card F := by
  classical
  have h1 : prob (fun β : ι → F => ∑ i, ρ i * β i ≠ 0) = 1 - prob (fun β : ι → F => ∑ i, ρ i * β i = 0) := by
    rw [eq_sub_iff_add_eq, prob, prob, ← avg_add]
    rw [avg_eq, div_eq_one_iff_eq (by exact_mod_cast Fintype.card_ne_zero)]
    rw [sum_congr rfl fun β _ => (show (_ : ℚ) = 1 by by_cases h : ∑ i, ρ i * β i = 0 <;> simp [h])]
    simp
  rw [h1, prob_card]
  have hF : (Fintype.card F : ℚ) ≠ 0 := by exact_mod_cast Fintype.card_ne_zero
  have hc : (Nat.card {β : ι → F // ∑ i, ρ i * β i = 0} : ℚ) * Fintype.card F = Nat.card (ι → F) := by exact_mod_cast card_kernel hρ
  have hN : (Nat.card (ι → F) : ℚ) ≠ 0 := by
    rw [Nat.card_eq_fintype_card]; exact_mod_cast Fintype.card_ne_zero
  congr 1
  rw [div_eq_div_iff hN hF, hc, one_mul]

/-- `(α, β) ↦ (α + x β, β)`. -/
def shear (x : F) : (ι → F) × (ι → F) ≃ (ι → F) × (ι → F) where
  toFun p := (fun i => p.1 i + x * p.2 i, p.2)
  invFun p := (fun i => p.1 i - x * p.2 i, p.2)
  left_inv p := by ext <;> simp
  right_inv p := by ext <;> simp

theorem prob_relation_one [Fintype F] [DecidableEq ι] {B : G} (hB : Function.Bijective fun a : F => a • B) (A : (ι → G) → ι → F) (x : F) :
    (1 - 1 / Fintype.card F) * prob (fun P : ι → G => IsRelation P (A P)) ≤
      prob fun p : (ι → F) × (ι → F) => -(∑ i, A (planted B (x • B) p.1 p.2) i * p.1 i) / (∑ i, A (planted B (x • B) p.1 p.2) i * p.2 i) = x := by
  classical
  have h1 : prob (fun P : ι → G => IsRelation P (A P)) = prob fun γ : ι → F => IsRelation (fun i => γ i • B) (A fun i => γ i • B) :=
    (prob_equiv (Equiv.piCongrRight fun _ : ι => Equiv.ofBijective _ hB) fun P => IsRelation P (A P)).symm
  have h2 : prob (fun q : (ι → F) × (ι → F) => IsRelation (fun i => q.1 i • B) (A fun i => q.1 i • B) ∧ ∑ i, (A fun i => q.1 i • B) i * q.2 i ≠ 0) =
      (1 - 1 / Fintype.card F) * prob fun γ : ι → F => IsRelation (fun i => γ i • B) (A fun i => γ i • B) := by
    rw [prob_prod, prob, avg_eq, avg_eq, ← mul_div_assoc, mul_sum]
    congr 1
    refine sum_congr rfl fun γ _ => ?_
    by_cases h : IsRelation (fun i => γ i • B) (A fun i => γ i • B)
    · rw [if_pos h, mul_one, ← prob_nonzero h.1]
      simp only [h, true_and]
    · rw [if_neg h, mul_zero]
      simp only [h, false_and, prob, if_false]
      rw [avg_eq]; simp
  rw [h1, ← h2, ← prob_equiv (shear x)]
  refine prob_mono fun p hp => ?_
  obtain ⟨⟨-, hr⟩, hn⟩ := hp
  have e : (fun i => (shear x p).1 i • B) = planted B (x • B) p.1 p.2 := (planted_eq B x p.1 p.2).symm
  rw [e] at hr hn
  exact log_of_relation hB.1 hr hn

/-! ## The oracle of given answers -/

theorem answersOf_answers [DecidableEq F] [DecidableEq G] (ask : List F → Transcript F G) (cs : List F) : Answers ask (answersOf ask cs) cs := by
  intro i c hc hnew
  have hi : i < cs.length := (List.getElem?_eq_some_iff.mp hc).1
  have hf : (List.range cs.length).find? (fun j => ask (cs.take j) = ask (cs.take i)) = some i := by
    rw [List.find?_range_eq_some]
    refine ⟨by simp, List.mem_range.mpr hi, fun j hj => ?_⟩
    simp only [Bool.not_eq_eq_eq_not, Bool.not_true, decide_eq_false_iff_not]
    intro e
    refine hnew (List.mem_map.mpr ⟨j, List.mem_range.mpr (by rw [List.length_take]; omega), ?_⟩)
    rw [List.take_take, Nat.min_eq_left (by omega), e]
  rw [answersOf, hf]
  simp [List.getD_eq_getElem?_getD, hc]

/-! ## Provers -/

theorem combine_unitOf [DecidableEq ι] (P : ι → G) (i : ι) : combine P (unitOf i : ι → F) = P i := by
  rw [combine_apply, sum_eq_single i (fun j _ hj => by rw [unitOf, Pi.single_eq_of_ne hj, zero_smul]) (by simp), unitOf, Pi.single_eq_same, one_smul]

theorem map_combine_unitOf [DecidableEq ι] (P : ι → G) (l : List ι) : (l.map (unitOf : ι → ι → F)).map (combine P : (ι → F) →ₗ[F] G) = l.map P := by
  rw [List.map_map]
  exact List.map_congr_left fun i _ => combine_unitOf P i

/-- Different points are independent, as combinations. -/
theorem independent_unitOf [DecidableEq ι] (l : List ι) (hl : l.Nodup) : Independent F (l.map (unitOf : ι → ι → F)) := by
  intro c hc i hi
  rw [List.length_map] at hi hc
  have := congrFun hc l[i]
  rw [Finset.sum_apply, Finset.sum_eq_single i] at this
  · simpa [unitOf, List.getD_eq_getElem?_getD, hi] using this
  · intro j hj hne
    have hj' := Finset.mem_range.mp hj
    have e : l[i] ≠ l[j] := fun e => hne ((hl.getElem_inj_iff.mp e).symm)
    simp [unitOf, List.getD_eq_getElem?_getD, hj', Pi.single_eq_of_ne e]
  · intro h; exact absurd (Finset.mem_range.mpr hi) h

theorem mem_candidates {M : Type} [AddCommGroup M] [Module F M] {φ : M →ₗ[F] G} {env : Env F G} {s : Verifier F M} {pr : R1CSProof F M} {g h : M} {Gs Hs : List M} {r : F} {O : Oracle F G} {qs : List (Transcript F M)} {ρ : M}
    (hr : Relation φ env s pr g h Gs Hs r O qs ρ) : ρ ∈ candidates φ env s pr g h Gs Hs r O qs := by
  obtain ⟨-, -, ρ', t, e, hc⟩ := hr
  rw [candidates, e]
  rcases hc with rfl | ⟨p, p', hp, hp', rfl⟩
  · simp
  · exact List.mem_cons_of_mem _ (List.mem_flatMap.mpr ⟨p, hp, List.mem_map.mpr ⟨p', hp', rfl⟩⟩)

/-- A prover that deceives the verifier fools it without a relation, or a relation is found. -/
theorem Forger.Deceives.cases [DecidableEq ι] [DecidableEq F] [DecidableEq G] {A : Forger F (ι → F)} {env : Env F G} {label : String} {dv : List G → Drv (Verifier F G) Unit} {dv' : List (ι → F) → Drv (Verifier F (ι → F)) Unit}
    {m : ℕ} {claim : List (ι → F) → Prop} {P : ι → G} {g h : ι} {Gs Hs : List ι} {Q : ℕ} {cs : List F} {r : F} (hn : ∀ a, DrvNat (combine P) (dv (a.map (combine P))) (dv' a)) (hu : Uniform label m dv')
    {coms0 : List (ι → F)} (h0 : coms0.length = m) {s0 : Verifier F (ι → F)} (hs0 : dv' coms0 (Verifier.new [.init label]) = (.ok (), s0)) (hl : cs.length = Q + s0.numDraws)
    (hd : A.Deceives env label dv m claim P g h Gs Hs Q cs r) :
    A.Fools (combine P) env label dv dv' m claim (unitOf g) (unitOf h) (Gs.map unitOf) (Hs.map unitOf) Q cs r ∨ IsRelation P (A.findRelation env label dv' g h Gs Hs Q P cs r) := by
  obtain ⟨hm, hcl, O, s, T, b1, b2, b3⟩ := hd
  have hb : dv ((A.coms (cs.take Q)).map (combine P)) (Verifier.new [.init label]) = (.ok (), s) := b1
  rw [← mapG_new (combine P : (ι → F) →ₗ[F] G) label, hn] at hb
  obtain ⟨e1, e2⟩ := Prod.mk.inj hb
  have hb' : dv' (A.coms (cs.take Q)) (Verifier.new [.init label]) = (.ok (), (dv' (A.coms (cs.take Q)) (Verifier.new [.init label])).2) := Prod.ext e1 rfl
  generalize hs' : (dv' (A.coms (cs.take Q)) (Verifier.new [.init label])).2 = s' at *
  subst e2
  have hdef : s'.deferred = [] := OnePhase.new (hu.onePhase _) hb'
  obtain ⟨rfl, l1, l2⟩ := verify_proofLog (s := s'.mapG (combine P)) hdef b3
  have hnd : ∀ e ∈ (s'.mapG (combine P)).transcript, e.isChallenge = false := by
    intro e he
    obtain ⟨e', he', rfl⟩ := List.mem_map.mp (show e ∈ s'.transcript.map (TEvent.mapG (combine P)) from he)
    have := (hu.onePhase _).noDraw hb' e' he'
    cases e' <;> simp_all [TEvent.mapG, TEvent.isChallenge]
  have hasked := (A.mapG (combine P)).game_asked (s'.mapG (combine P)) Q hl (by
    rw [length_draws_proofLog _ _ hnd, l1, l2, ← hu.numDraws hm h0 hb' hs0, Nat.min_self]
    exact le_of_eq rfl)
  set O' := answersOf ((A.mapG (combine P)).game (s'.mapG (combine P)) Q) cs with hO'
  have a' : Answers ((A.mapG (combine P)).game (s'.mapG (combine P)) Q) O' cs := answersOf_answers _ _
  have acc := c09_verify_challenges { env with oracle := O } _ _ _ _ _ _ _ _ b3 O' fun pre l hp => b2.agree a' (hasked _ (mem_draws hp))
  by_cases hr : ∃ ρ, Relation (combine P) env s' (A.out (cs.take Q)) (unitOf g) (unitOf h) (Gs.map unitOf) (Hs.map unitOf) r O' (askedBy A.ask (cs.take Q)) ρ
  · right
    obtain ⟨ρ, hρ⟩ := hr
    have hfind : ∃ ρ', (candidates (combine P) env s' (A.out (cs.take Q)) (unitOf g) (unitOf h) (Gs.map unitOf) (Hs.map unitOf) r O' (askedBy A.ask (cs.take Q))).find? (fun ρ => ρ ≠ 0 ∧ combine P ρ = 0) = some ρ' :=
      Option.isSome_iff_exists.mp (List.find?_isSome.mpr ⟨ρ, mem_candidates hρ, by simpa using ⟨hρ.1, hρ.2.1⟩⟩)
    obtain ⟨ρ', hρ'⟩ := hfind
    have := List.find?_some hρ'
    have e : A.findRelation env label dv' g h Gs Hs Q P cs r = ρ' := by
      simp only [Forger.findRelation, hs']
      rw [← hO', hρ']
      rfl
    rw [e]
    simpa [IsRelation] using this
  · left
    refine ⟨hm, hcl, O', s'.mapG (combine P), (s'.mapG (combine P)).proofLog ((A.mapG (combine P)).out (cs.take Q)), ⟨b1, a', ?_⟩, fun ρ hρ => hr ⟨ρ, by rwa [hs'] at hρ⟩⟩
    rw [combine_unitOf, combine_unitOf, map_combine_unitOf, map_combine_unitOf]
    exact acc

end Bp
