import Verif.Lemmas.DiscreteLog
import Verif.Props.Sizes
import Verif.Props.Utils
import Verif.Props.RandomOracle

/-! # C74: relations between the generators, and proofs of false statements, are as hard to find as discrete logarithms -/

namespace Bp
variable {F G ι Ω : Type} [Field F] [AddCommGroup G] [Module F G] [Fintype ι]

/-- The group is a cyclic group of the order of the field: every point is a unique multiple of `B`. -/
theorem finite_of_base [Finite F] {B : G} (hB : Function.Bijective fun a : F => a • B) : Finite G := Finite.of_surjective _ hB.2

/-- **C74** Whoever finds relations between random points computes discrete logarithms: for every `B` and every `x`, the solver `logOf` computes `x` from `x B` with (almost) the probability with which the finder finds a relation. -/
theorem c74_relation [Fintype F] [DecidableEq ι] [Finite Ω] [Nonempty Ω] {B : G} (hB : Function.Bijective fun a : F => a • B) (A : Ω → (ι → G) → ι → F) (x : F) :
    (1 - 1 / Fintype.card F) * prob (fun p : Ω × (ι → G) => IsRelation p.2 (A p.1 p.2)) ≤ prob fun p : Ω × (ι → F) × (ι → F) => logOf A B p.1 p.2.1 p.2.2 (x • B) = x := by
  have := finite_of_base hB
  rw [prob_prod, prob_prod, ← avg_mul_left]
  exact avg_mono fun ω => prob_relation_one hB (A ω) x

/-- **C74**, the other direction: whoever can compute logarithms has relations. -/
theorem c74_converse {B : G} (L : G → F) (P : Fin 2 → G) (hL : ∀ i, L (P i) • B = P i) (h0 : P 0 ≠ 0) : IsRelation P ![L (P 1), - L (P 0)] := by
  refine ⟨fun e => h0 ?_, ?_⟩
  · have := congrFun e 1
    simp only [Matrix.cons_val_one, Matrix.cons_val_fin_one, Pi.zero_apply, neg_eq_zero] at this
    rw [← hL 0, this, zero_smul]
  · rw [combine_apply, Fin.sum_univ_two]
    show L (P 1) • P 0 + (- L (P 0)) • P 1 = 0
    have h : L (P 1) • L (P 0) • B + (- L (P 0)) • L (P 1) • B = 0 := by rw [smul_smul, smul_smul, mul_comm, neg_mul, neg_smul, add_neg_cancel]
    rwa [hL, hL] at h

theorem ofMessages_val {S : Finset String} {l : List String} (hl : ∀ w ∈ l, w ∈ S) : (ofMessages S l).map Subtype.val = l := by
  induction l with
  | nil => rfl
  | cons w l ih =>
    have hw := hl w (by simp)
    rw [ofMessages, List.filterMap_cons, dif_pos hw]
    exact congrArg (w :: ·) (ih fun v hv => hl v (by simp [hv]))

theorem ofMessages_map {S : Finset String} {l : List String} (hl : ∀ w ∈ l, w ∈ S) (P : S → G) : (ofMessages S l).map P = l.map (hashOn S P) := by
  conv_rhs => rw [← ofMessages_val hl, List.map_map]
  refine List.map_congr_left fun w _ => ?_
  rw [Function.comp, hashOn, dif_pos w.2]

/-- **C74**, the messages that the tests hash are all different: the generators are different entries of the table of the hash function. -/
theorem c74_generators (n : ℕ) :
    ∃ g h : messages n, ∃ Gs Hs : List (messages n), (Gs ++ Hs ++ [g, h]).Nodup ∧
      ∀ P : messages n → G, P g = hashOn _ P "g" ∧ P h = hashOn _ P "h" ∧ Gs.map P = getGenerators (hashOn _ P) "G" n ∧ Hs.map P = getGenerators (hashOn _ P) "H" n := by
  have hg : "g" ∈ messages n := by simp [messages]
  have hh : "h" ∈ messages n := by simp [messages]
  have hG : ∀ w ∈ generatorMessages "G" n, w ∈ messages n := fun w hw => by simp [messages, hw]
  have hH : ∀ w ∈ generatorMessages "H" n, w ∈ messages n := fun w hw => by simp [messages, hw]
  refine ⟨⟨_, hg⟩, ⟨_, hh⟩, ofMessages _ (generatorMessages "G" n), ofMessages _ (generatorMessages "H" n), ?_, fun P => ⟨by rw [hashOn, dif_pos hg], by rw [hashOn, dif_pos hh], ofMessages_map hG P, ofMessages_map hH P⟩⟩
  refine List.Nodup.of_map Subtype.val ?_
  rw [List.map_append, List.map_append, ofMessages_val hG, ofMessages_val hH]
  show (generatorMessages "G" n ++ generatorMessages "H" n ++ ["g", "h"]).Nodup
  have head : ∀ (c : Char) (pre w : String), pre.toList = [c] → w ∈ generatorMessages pre n → w.toList.head? = some c := by
    intro c pre w hp hw
    obtain ⟨i, -, rfl⟩ := List.mem_map.mp hw
    rw [String.toList_append, hp]
    rfl
  rw [List.nodup_append, List.nodup_append]
  refine ⟨⟨c45_same_prefix _ _, c45_same_prefix _ _, fun a ha b hb e => ?_⟩, by decide, fun a ha b hb e => ?_⟩
  · have h1 := head 'G' "G" a rfl ha
    rw [e, head 'H' "H" b rfl hb] at h1
    exact absurd h1 (by decide)
  · subst e
    have hb' : a.toList.head? = some 'g' ∨ a.toList.head? = some 'h' := by
      simp only [List.mem_cons, List.not_mem_nil, or_false] at hb
      rcases hb with rfl | rfl
      · exact .inl rfl
      · exact .inr rfl
    rcases List.mem_append.mp ha with h | h
    · rw [head 'G' "G" a rfl h] at hb'
      exact absurd hb' (by decide)
    · rw [head 'H' "H" a rfl h] at hb'
      exact absurd hb' (by decide)

theorem built_of_nat {P : ι → G} {dv : List G → Drv (Verifier F G) Unit} {dv' : List (ι → F) → Drv (Verifier F (ι → F)) Unit} (hn : ∀ a, DrvNat (combine P) (dv (a.map (combine P))) (dv' a)) {label : String}
    {coms : List (ι → F)} {s : Verifier F G} (h1 : dv (coms.map (combine P)) (Verifier.new [.init label]) = (.ok (), s)) : ∃ s', dv' coms (Verifier.new [.init label]) = (.ok (), s') := by
  rw [← mapG_new (combine P : (ι → F) →ₗ[F] G) label, hn] at h1
  exact ⟨_, Prod.ext (Prod.mk.inj h1).1 rfl⟩

/-- What the game of C59 says, as a probability. -/
theorem prob_fools [Fintype F] [DecidableEq F] [DecidableEq G] [DecidableEq ι] (P : ι → G) (env : Env F G) (hb : env.batchInvert [] = .ok ([], 1)) (label : String) (m : ℕ)
    (dv : List G → Drv (Verifier F G) Unit) (dv' : List (ι → F) → Drv (Verifier F (ι → F)) Unit) (hn : ∀ a, DrvNat (combine P) (dv (a.map (combine P))) (dv' a)) (hu : Uniform label m dv')
    (D b : ℕ) (hs : ∀ coms s, coms.length = m → dv' coms (Verifier.new [.init label]) = (.ok (), s) → s.numDraws = D ∧ s.badBound = b)
    (g h : ι) (Gs Hs : List ι) (hd : (Gs ++ Hs ++ [g, h]).Nodup) (claim : List (ι → F) → Prop)
    (hc : ∀ coms, coms.length = m → Convinced label (dv' coms) (unitOf g) (unitOf h) (Gs.map unitOf) (Hs.map unitOf) → claim coms) (A : Forger F (ι → F)) (Q : ℕ) :
    prob (fun ω : (Fin (Q + D) → F) × F => A.Fools (combine P) env label dv dv' m claim (unitOf g) (unitOf h) (Gs.map unitOf) (Hs.map unitOf) Q (List.ofFn ω.1) ω.2) ≤ ((Q + D) * b + 1 : ℕ) / Fintype.card F := by
  have hF : (0 : ℚ) < Fintype.card F := by exact_mod_cast Fintype.card_pos
  have hle : Nat.card {ω : (Fin (Q + D) → F) × F // A.Fools (combine P) env label dv dv' m claim (unitOf g) (unitOf h) (Gs.map unitOf) (Hs.map unitOf) Q (List.ofFn ω.1) ω.2} ≤ ((Q + D) * b + 1) * Fintype.card F ^ (Q + D) := by
    by_cases hex : ∃ coms s, coms.length = m ∧ dv' coms (Verifier.new [.init label]) = (.ok (), s)
    · obtain ⟨coms, s, hm, h1⟩ := hex
      obtain ⟨rfl, rfl⟩ := hs coms s hm h1
      exact c59_game (combine P) env hb label m dv dv' hn hu coms hm s h1 (unitOf g) (unitOf h) (Gs.map unitOf) (Hs.map unitOf)
        (by have := independent_unitOf (F := F) _ hd; rwa [List.map_append, List.map_append] at this) claim hc A Q
    · have : IsEmpty {ω : (Fin (Q + D) → F) × F // A.Fools (combine P) env label dv dv' m claim (unitOf g) (unitOf h) (Gs.map unitOf) (Hs.map unitOf) Q (List.ofFn ω.1) ω.2} := by
        constructor
        rintro ⟨ω, hm, -, O, s, T, ⟨h1, -, -⟩, -⟩
        obtain ⟨s', h2⟩ := built_of_nat hn h1
        exact hex ⟨_, s', hm, h2⟩
      rw [Nat.card_eq_zero.mpr (.inl this)]
      exact Nat.zero_le _
  rw [prob_card, Nat.card_prod, Nat.card_eq_fintype_card (α := F), Nat.card_fun, Nat.card_fin, Nat.card_eq_fintype_card (α := F), Nat.cast_mul, Nat.cast_pow, div_le_div_iff₀ (mul_pos (pow_pos hF _) hF) hF]
  refine (mul_le_mul_of_nonneg_right (Nat.cast_le.mpr hle) hF.le).trans (le_of_eq ?_)
  rw [Nat.cast_mul, Nat.cast_pow, mul_assoc]

/-- **C74** Proofs of false statements, any statement: the points `P` are random, the generators are some of them, and the prover (which may look at all of them) makes its points as combinations of them.  If it deceives the verifier with
probability `ε`, over the points, the answers of the oracle and the verifier's `r`, then its runs can be used to compute discrete logarithms with probability about `ε`. -/
theorem c74_forge [Fintype F] [DecidableEq F] [DecidableEq G] [DecidableEq ι] {B : G} (hB : Function.Bijective fun a : F => a • B) (env : Env F G) (hb : env.batchInvert [] = .ok ([], 1)) (label : String) (m : ℕ)
    (dv : (ι → G) → List G → Drv (Verifier F G) Unit) (dv' : (ι → G) → List (ι → F) → Drv (Verifier F (ι → F)) Unit) (hn : ∀ P a, DrvNat (combine P) (dv P (a.map (combine P))) (dv' P a)) (hu : ∀ P, Uniform label m (dv' P))
    (D b : ℕ) (hs : ∀ P coms s, coms.length = m → dv' P coms (Verifier.new [.init label]) = (.ok (), s) → s.numDraws = D ∧ s.badBound = b)
    (g h : ι) (Gs Hs : List ι) (hd : (Gs ++ Hs ++ [g, h]).Nodup) (claim : List (ι → F) → Prop)
    (hc : ∀ P coms, coms.length = m → Convinced label (dv' P coms) (unitOf g) (unitOf h) (Gs.map unitOf) (Hs.map unitOf) → claim coms) (A : (ι → G) → Forger F (ι → F)) (Q : ℕ) (x : F) :
    (1 - 1 / Fintype.card F) * (prob (fun p : ((Fin (Q + D) → F) × F) × (ι → G) => (A p.2).Deceives env label (dv p.2) m claim p.2 g h Gs Hs Q (List.ofFn p.1.1) p.1.2) - ((Q + D) * b + 1 : ℕ) / Fintype.card F) ≤
      prob fun p : ((Fin (Q + D) → F) × F) × (ι → F) × (ι → F) => logOf (fun ω P => (A P).findRelation env label (dv' P) g h Gs Hs Q P (List.ofFn ω.1) ω.2) B p.1 p.2.1 p.2.2 (x • B) = x := by
  have := finite_of_base hB
  have hF : (0 : ℚ) < Fintype.card F := by exact_mod_cast Fintype.card_pos
  have hF1 : (1 : ℚ) ≤ Fintype.card F := by exact_mod_cast Fintype.card_pos (α := F)
  have h0 := c74_relation (Ω := (Fin (Q + D) → F) × F) hB (fun ω P => (A P).findRelation env label (dv' P) g h Gs Hs Q P (List.ofFn ω.1) ω.2) x
  refine le_trans ?_ h0
  refine mul_le_mul_of_nonneg_left ?_ (sub_nonneg.mpr ((div_le_one hF).mpr hF1))
  rw [sub_le_iff_le_add']
  have h1 := prob_or (fun p : ((Fin (Q + D) → F) × F) × (ι → G) => (A p.2).Fools (combine p.2) env label (dv p.2) (dv' p.2) m claim (unitOf g) (unitOf h) (Gs.map unitOf) (Hs.map unitOf) Q (List.ofFn p.1.1) p.1.2)
    (fun p => IsRelation p.2 ((A p.2).findRelation env label (dv' p.2) g h Gs Hs Q p.2 (List.ofFn p.1.1) p.1.2))
  refine le_trans (prob_mono fun p hp => ?_) (h1.trans (add_le_add ?_ le_rfl))
  · obtain ⟨hm, -, O, s, T, h1, -, -⟩ := id hp
    obtain ⟨s', h2⟩ := built_of_nat (hn p.2) h1
    exact hp.cases (hn p.2) (hu p.2) hm h2 (by rw [List.length_ofFn, (hs _ _ _ hm h2).1])
  · rw [← prob_equiv (Equiv.prodComm (ι → G) ((Fin (Q + D) → F) × F)), prob_prod]
    refine (avg_mono (f' := fun _ => (((Q + D) * b + 1 : ℕ) / Fintype.card F : ℚ)) fun P => ?_).trans (le_of_eq (avg_const _))
    exact prob_fools P env hb label m (dv P) (dv' P) (hn P) (hu P) D b (hs P) g h Gs Hs hd claim (hc P) (A P) Q

/-- **C74** Proofs of false statements, for all statements of the crate: `D` is the number of challenges and `b` the number of bad values of each, both in closed form. -/
theorem c74_statements [ByteRep F] [Fintype F] [DecidableEq F] [DecidableEq G] [DecidableEq ι] {B : G} (hB : Function.Bijective fun a : F => a • B) (env : Env F G) (hb : env.batchInvert [] = .ok ([], 1)) (label : String)
    {stmts : List (Stmt F)} (hok : ∀ st ∈ stmts, st.Ok) (g h : ι) (Gs Hs : List ι) (hd : (Gs ++ Hs ++ [g, h]).Nodup) (A : (ι → G) → Forger F (ι → F)) (Q : ℕ) (x : F) :
    (1 - 1 / Fintype.card F) * (prob (fun p : ((Fin (Q + drawsOf stmts) → F) × F) × (ι → G) =>
        (A p.2).Deceives env label (verifyStmts env (p.2 g) (p.2 h) stmts) (totalSize stmts) (AllHold (unitOf g) (unitOf h) stmts) p.2 g h Gs Hs Q (List.ofFn p.1.1) p.1.2) -
        ((Q + drawsOf stmts) * badOf stmts + 1 : ℕ) / Fintype.card F) ≤
      prob fun p : ((Fin (Q + drawsOf stmts) → F) × F) × (ι → F) × (ι → F) => logOf (finderOf env label stmts g h Gs Hs Q A) B p.1 p.2.1 p.2.2 (x • B) = x :=
  c74_forge hB env hb label _ (fun P => verifyStmts env (P g) (P h) stmts) (fun P => verifyStmts (env.pull (combine P)) (unitOf g) (unitOf h) stmts) (fun P a => by
      have := DrvNat.stmts (combine P) env (unitOf g : ι → F) (unitOf h) stmts a
      rwa [combine_unitOf, combine_unitOf] at this) (fun P => Uniform.stmts _ _ _ _) (drawsOf stmts) (badOf stmts)
    (fun P coms s hm hr => by
      obtain ⟨h1, h2, -, -⟩ := c65_list _ _ _ label stmts coms hm.ge hr
      rw [Verifier.numDraws, Verifier.badBound, h1, h2]
      exact ⟨rfl, rfl⟩) g h Gs Hs hd _ (fun P coms hm hcv => Convinced.allHold hok hm.ge hcv) A Q x

/-! ## The hypotheses are met -/

/-- In the group `Z101`, with the base 5: somebody who returns `(P_1, -P_0)` finds a relation unless both points are 0, and the solver made from it works with probability at least 0.98. -/
example (x : Z101) : (98 / 100 : ℚ) ≤ prob fun p : Unit × (Fin 2 → Z101) × (Fin 2 → Z101) => logOf (fun _ P => ![P 1, - P 0]) (5 : Z101) p.1 p.2.1 p.2.2 (x • 5) = x := by
  have h := c74_relation (Ω := Unit) five_bijective (fun _ P => ![P 1, - P 0]) x
  have h1 : prob (fun p : Unit × (Fin 2 → Z101) => IsRelation p.2 (![p.2 1, - p.2 0] : Fin 2 → Z101)) = 1 - 1 / 101 ^ 2 := by
    have hb : ∀ a b : Z101, IsRelation (F := Z101) ![a, b] ![b, - a] ↔ ¬ (a = 0 ∧ b = 0) := by
      intro a b
      rw [IsRelation, combine_apply, Fin.sum_univ_two]
      show _ ∧ b * a + (- a) * b = 0 ↔ _
      rw [show b * a + (- a) * b = 0 by ring, eq_self_iff_true, and_true, Ne, not_iff_not]
      constructor
      · intro e
        exact ⟨neg_eq_zero.mp (congrFun e 1), congrFun e 0⟩
      · rintro ⟨rfl, rfl⟩
        funext i
        fin_cases i <;> simp
    have hc : ∀ P : Fin 2 → Z101, IsRelation (F := Z101) P ![P 1, - P 0] ↔ P ≠ 0 := by
      intro P
      have e : P = ![P 0, P 1] := by funext i; fin_cases i <;> rfl
      have := hb (P 0) (P 1)
      rw [← e] at this
      rw [this, not_iff_not]
      constructor
      · rintro ⟨h0, h1⟩
        rw [e, h0, h1]
        funext i
        fin_cases i <;> rfl
      · rintro h0
        rw [h0]
        exact ⟨rfl, rfl⟩
    simp only [hc]
    rw [prob_card]
    have e : Nat.card {p : Unit × (Fin 2 → Z101) // p.2 ≠ 0} = 101 ^ 2 - 1 := by
      rw [Nat.card_congr (show {p : Unit × (Fin 2 → Z101) // p.2 ≠ 0} ≃ {P : Fin 2 → Z101 // P ≠ 0} from ⟨fun p => ⟨p.1.2, p.2⟩, fun P => ⟨((), P.1), P.2⟩, fun _ => rfl, fun _ => rfl⟩), Nat.card_eq_fintype_card, Fintype.card_subtype_compl,
        Fintype.card_subtype_eq, Fintype.card_fun, ZMod.card, Fintype.card_fin]
    rw [e, Nat.card_prod, Nat.card_eq_fintype_card (α := Unit), Fintype.card_unit, Nat.card_fun, Nat.card_fin, Nat.card_eq_fintype_card, ZMod.card]
    norm_num
  rw [h1, ZMod.card] at h
  exact le_trans (by norm_num) h

example : IsRelation ![(35 : Z101), 6] ![(6 * 5⁻¹ : Z101), - (35 * 5⁻¹)] :=
  c74_converse (B := (5 : Z101)) (fun a => a * 5⁻¹) ![35, 6] (fun i => by fin_cases i <;> decide +kernel) (by decide)

theorem unit6_eq : (unit6 : Fin 6 → V6) = unitOf := by
  funext i j
  simp [unit6, unitOf, Pi.single_apply, eq_comm]

/-- There are provers that deceive the verifier with some answers, whatever the points are. -/
theorem zero_deceives : ∃ A : Forger Z101 V6, ∀ (P : Fin 6 → Z101) r, A.Deceives (Env.std fun _ => 2) "zero" (verifyNonZeroVal (Env.std fun _ => 2)) 2
    (fun coms => ∃ P, ∃ x : Z101, coms[0]? = some P ∧ CommitsTo (unit6 4) (unit6 5) P x ∧ x ≠ 0) P 4 5 [0, 1] [2, 3] 5 [2, 2, 2, 2, 2, 2, 2, 2, 2, 2, 2] r := by
  obtain ⟨pr, t', h⟩ := zero_accepted
  refine ⟨⟨⟨fun _ => [], fun _ => pr⟩, fun _ => zeroComs⟩, fun P r => ⟨rfl, zero_false, fun _ => 2, zeroV.mapG (combine P), t'.mapG (combine P), ⟨?_, fun i c hc _ => ?_, ?_⟩⟩⟩
  · have h1 := DrvNat.nonZeroVal (combine P) (Env.std fun _ => (2 : Z101)) zeroComs (Verifier.new [.init "zero"])
    rw [mapG_new] at h1
    refine h1.trans ?_
    have e : verifyNonZeroVal (Env.pull (combine P) (Env.std fun _ => (2 : Z101))) zeroComs (Verifier.new [.init "zero"]) = (.ok (), zeroV) := zeroV_built
    rw [e]
  · exact (List.eq_of_mem_replicate (n := 11) (List.mem_of_getElem? hc)).symm
  · have hr := h r
    show Verifier.verify _ (zeroV.mapG (combine P)) (pr.mapG (combine P)) (P 4) (P 5) ([0, 1].map P) ([2, 3].map P) r = _
    rw [← combine_unitOf (F := Z101) P 4, ← combine_unitOf (F := Z101) P 5, ← map_combine_unitOf (F := Z101) P [0, 1], ← map_combine_unitOf (F := Z101) P [2, 3], ← unit6_eq]
    rw [verify_residual] at hr ⊢
    rw [mapG_residual]
    have e : Env.pull (combine P : V6 →ₗ[Z101] Z101) { (Env.std fun _ => 2 : Env Z101 Z101) with oracle := fun _ => 2 } = (Env.std fun _ => 2) := rfl
    rw [e, List.map_cons, List.map_cons, List.map_nil, List.map_cons, List.map_cons, List.map_nil]
    revert hr
    cases zeroV.residual (Env.std fun _ => 2) pr (unit6 4) (unit6 5) [unit6 0, unit6 1] [unit6 2, unit6 3] r with
    | error e => intro hr; simp at hr
    | ok p =>
      intro hr
      simp only at hr
      split at hr
      · rename_i h0
        simp only [Except.ok.injEq] at hr
        simp [Except.map, h0, hr]
      · simp [Res.err] at hr

/-- The three bound checks of tests/multiple_constraint_systems.rs:13-97, with the generators of the test: hashes of 1026 messages.  `n = 512`, and any prover. -/
example (A : (messages 512 → Fr) → Forger Fr (messages 512 → Fr)) (Q : ℕ) (x : Fr) : ∃ g h : messages 512, ∃ Gs Hs : List (messages 512),
    (∀ P : messages 512 → Fr, P g = hashOn _ P "g" ∧ P h = hashOn _ P "h" ∧ Gs.map P = getGenerators (hashOn _ P) "G" 512 ∧ Hs.map P = getGenerators (hashOn _ P) "H" 512) ∧
    (1 - 1 / Fintype.card Fr) * (prob (fun p : ((Fin (Q + drawsOf threeBounds) → Fr) × Fr) × (messages 512 → Fr) => (A p.2).Deceives (Env.std fun _ => 2) "MultipleBoundChecks" (verifyStmts (Env.std fun _ => 2) (p.2 g) (p.2 h) threeBounds) 9
        (AllHold (unitOf g) (unitOf h) threeBounds) p.2 g h Gs Hs Q (List.ofFn p.1.1) p.1.2) - ((Q + drawsOf threeBounds) * badOf threeBounds + 1 : ℕ) / Fintype.card Fr) ≤
      prob fun p : ((Fin (Q + drawsOf threeBounds) → Fr) × Fr) × (messages 512 → Fr) × (messages 512 → Fr) => logOf (finderOf (Env.std fun _ => 2) "MultipleBoundChecks" threeBounds g h Gs Hs Q A) 1 p.1 p.2.1 p.2.2 (x • 1) = x := by
  obtain ⟨g, h, Gs, Hs, hd, hP⟩ := c74_generators (G := Fr) 512
  refine ⟨g, h, Gs, Hs, hP, ?_⟩
  exact c74_statements (B := (1 : Fr)) ⟨fun a b e => by simpa using e, fun b => ⟨b, by simp⟩⟩ (Env.std fun _ => 2) (by simp [Env.std]) "MultipleBoundChecks" (stmts := threeBounds) (by
    intro st hst
    simp only [threeBounds, List.mem_cons, List.not_mem_nil, or_false] at hst
    rcases hst with rfl | rfl | rfl <;> exact ⟨by decide, by decide, by decide +kernel, by decide +kernel⟩) g h Gs Hs hd A Q x

example : drawsOf threeBounds = 9 ∧ badOf threeBounds = 43 := by decide +kernel

end Bp
