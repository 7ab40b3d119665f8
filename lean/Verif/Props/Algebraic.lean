import Verif.Lemmas.Algebraic3
import Verif.Lemmas.UnitVec
import Verif.Props.FiatShamir

/-! # C59: soundness against algebraic provers, with no assumption on the generators -/

set_option linter.unusedSectionVars false

namespace Bp
variable {F G M : Type} [Field F] [AddCommGroup G] [Module F G] [DecidableEq G] [AddCommGroup M] [Module F M] [DecidableEq M]
open Finset

theorem card_mono {α : Type} [Finite α] {p q : α → Prop} (h : ∀ a, p a → q a) : Nat.card {a // p a} ≤ Nat.card {a // q a} :=
  Nat.card_le_card_of_injective (fun a => ⟨a.1, h a.1 a.2⟩) fun a b e => Subtype.ext (by simpa using e)

/-- **C59**, one run: if the verifier accepts (for two values of its random scalar) a proof whose points were made as combinations of the generators, then the constraint system is satisfiable by the committed combinations, or
there was a bad answer, or the final calculation of the verifier, done with the combinations, gives a non-trivial combination that is the identity. -/
theorem c59_satisfiable (φ : M →ₗ[F] G) (env : Env F G) (hb : env.batchInvert [] = .ok ([], 1)) (s : Verifier F M) (g h : M) (Gs Hs : List M) (hind : Independent F (Gs ++ Hs ++ [g, h])) (B : ℕ) (h7 : 7 ≤ B)
    (hB : ∀ O pr s2, (s.start pr).createRandomizedConstraints { env.pull φ with oracle := O } = .ok s2 → nextPowerOfTwo s2.numVars ≤ B ∧ s2.constraints.length ≤ B) :
    ∃ bad : BadRule F M B, ∀ (O : Oracle F G) (pr : R1CSProof F M) (r r' : F) (T T' : Transcript F G), r ≠ r' →
      (s.mapG φ).verify { env with oracle := O } (pr.mapG φ) (φ g) (φ h) (Gs.map φ) (Hs.map φ) r = .ok T → (s.mapG φ).verify { env with oracle := O } (pr.mapG φ) (φ g) (φ h) (Gs.map φ) (Hs.map φ) r' = .ok T' →
      (∃ s2, (s.start pr).createRandomizedConstraints (Env.pull φ { env with oracle := O }) = .ok s2 ∧ s2.Satisfiable g h) ∨ (∃ T0, T0.mapG φ = T ∧ bad.Hit (fun t => O (t.mapG φ)) T0) ∨
      ∃ q ρ t, (q = r ∨ q = r') ∧ s.residual (Env.pull φ { env with oracle := O }) pr g h Gs Hs q = .ok (ρ, t) ∧ ρ ≠ 0 ∧ φ ρ = 0 := by
  obtain ⟨bad, hbad⟩ := c58_satisfiable (env.pull φ) hb s g h Gs Hs hind B h7 hB
  refine ⟨bad, fun O pr r r' T T' hr hv hv' => ?_⟩
  have key : ∀ q T, (s.mapG φ).verify { env with oracle := O } (pr.mapG φ) (φ g) (φ h) (Gs.map φ) (Hs.map φ) q = .ok T →
      (∃ T0, T0.mapG φ = T ∧ s.verify { env.pull φ with oracle := fun t => O (t.mapG φ) } pr g h Gs Hs q = .ok T0) ∨
      ∃ ρ t, s.residual (Env.pull φ { env with oracle := O }) pr g h Gs Hs q = .ok (ρ, t) ∧ ρ ≠ 0 ∧ φ ρ = 0 := by
    intro q T hq
    rw [verify_residual, mapG_residual] at hq
    cases hres : s.residual (Env.pull φ { env with oracle := O }) pr g h Gs Hs q with
    | error e => rw [hres] at hq; simp [Except.map] at hq
    | ok p =>
      obtain ⟨ρ, T0⟩ := p
      rw [hres] at hq
      simp only [Except.map] at hq
      split at hq
      · rename_i h0
        by_cases hρ : ρ = 0
        · left
          refine ⟨T0, by simpa using hq, ?_⟩
          rw [verify_residual]
          have e : ({ env.pull φ with oracle := fun t => O (t.mapG φ) } : Env F M) = Env.pull φ { env with oracle := O } := rfl
          rw [e, hres, hρ]
          simp
        · exact .inr ⟨ρ, T0, rfl, hρ, h0⟩
      · simp [Res.err] at hq
  rcases key r T hv with ⟨T0, e0, a0⟩ | ⟨ρ, t, hρ⟩
  · rcases key r' T' hv' with ⟨T1, e1, a1⟩ | ⟨ρ, t, hρ⟩
    · rcases hbad _ pr r r' T0 T1 hr a0 a1 with hs | hh
      · exact .inl hs
      · exact .inr (.inl ⟨T0, e0, hh⟩)
    · exact .inr (.inr ⟨r', ρ, t, .inr rfl, hρ⟩)
  · exact .inr (.inr ⟨r, ρ, t, .inl rfl, hρ⟩)

/-- **C59**, attacks: a prover that asks the oracle `Q` times makes the verifier accept an unsatisfiable constraint system, without giving a relation, with at most `Q B + 1` in `|F|` of the answers. -/
theorem c59_attack [Fintype F] (φ : M →ₗ[F] G) (env : Env F G) (hb : env.batchInvert [] = .ok ([], 1)) (s : Verifier F M) (g h : M) (Gs Hs : List M) (hind : Independent F (Gs ++ Hs ++ [g, h])) (B : ℕ) (h7 : 7 ≤ B)
    (hB : ∀ O pr s2, (s.start pr).createRandomizedConstraints { env.pull φ with oracle := O } = .ok s2 → nextPowerOfTwo s2.numVars ≤ B ∧ s2.constraints.length ≤ B) (A : Attack F M) (Q : ℕ) :
    Nat.card {p : (Fin Q → F) × F // A.WinsVia φ env s g h Gs Hs (List.ofFn p.1) p.2} ≤ (Q * B + 1) * Fintype.card F ^ Q := by
  refine (card_mono fun p hp => ?_).trans (c58_attack (env.pull φ) hb s g h Gs Hs hind B h7 hB A Q)
  obtain ⟨O, T, s2, h1, h2, h3, h4⟩ := hp
  obtain ⟨T', h5, -⟩ := h1.lift h2
  exact ⟨_, T', s2, h5, h3, h4⟩

/-! ## The game -/

/-- **C59**, the game, for any module of combinations in which the generators are independent. -/
theorem c59_game [Fintype F] (φ : M →ₗ[F] G) (env : Env F G) (hb : env.batchInvert [] = .ok ([], 1)) (label : String) (m : ℕ) (dv : List G → Drv (Verifier F G) Unit) (dv' : List M → Drv (Verifier F M) Unit)
    (hn : ∀ a, DrvNat φ (dv (a.map φ)) (dv' a)) (hu : Uniform label m dv') (coms0 : List M) (h0 : coms0.length = m) (s0 : Verifier F M) (hs0 : dv' coms0 (Verifier.new [.init label]) = (.ok (), s0)) (g h : M) (Gs Hs : List M)
    (hind : Independent F (Gs ++ Hs ++ [g, h])) (claim : List M → Prop) (hc : ∀ coms, coms.length = m → Convinced label (dv' coms) g h Gs Hs → claim coms) (A : Forger F M) (Q : ℕ) :
    Nat.card {p : (Fin (Q + s0.numDraws) → F) × F // A.Fools φ env label dv dv' m claim g h Gs Hs Q (List.ofFn p.1) p.2} ≤ ((Q + s0.numDraws) * s0.badBound + 1) * Fintype.card F ^ (Q + s0.numDraws) :=
  (card_mono fun _ hp => hp.lift hn hu.onePhase).trans (c58_game (env.pull φ) hb label m dv' hu coms0 h0 s0 hs0 g h Gs Hs hind claim hc A Q)

/-! ## Combinations of the generators of the code -/

theorem Rep.point_gen (gens : List G) (i : ℕ) (hi : i < gens.length) : Rep.point F gens (Rep.gen F gens i) = gens[i] := by
  show ∑ j, Rep.gen F gens i j • gens.get j = _
  rw [Finset.sum_eq_single ⟨i, hi⟩]
  · simp [Rep.gen]
  · intro j _ hj
    have : j.val ≠ i := fun e => hj (Fin.ext e)
    simp [Rep.gen, this]
  · simp

variable (g h : G) (Gs Hs : List G)

theorem Rep.point_Gs : (Rep.Gs F g h Gs Hs).map (Rep.point F _) = Gs := by
  refine List.ext_getElem (by simp [Rep.Gs]) fun i h1 h2 => ?_
  simp only [Rep.Gs, List.getElem_map, List.getElem_range]
  rw [Rep.point_gen _ _ (by simp; omega)]
  simp [List.getElem_append_left, h2]

theorem Rep.point_Hs : (Rep.Hs F g h Gs Hs).map (Rep.point F _) = Hs := by
  refine List.ext_getElem (by simp [Rep.Hs]) fun i h1 h2 => ?_
  simp only [Rep.Hs, List.getElem_map, List.getElem_range']
  rw [Rep.point_gen _ _ (by simp; omega)]
  rw [List.getElem_append_left (by simp; omega), List.getElem_append_right (by omega)]
  simp

theorem Rep.point_g : Rep.point F _ (Rep.g F g h Gs Hs) = g := by
  rw [Rep.g, Rep.point_gen _ _ (by simp)]
  rw [List.getElem_append_right (by simp)]
  simp

theorem Rep.point_h : Rep.point F _ (Rep.h F g h Gs Hs) = h := by
  rw [Rep.h, Rep.point_gen _ _ (by simp; omega)]
  rw [List.getElem_append_right (by simp)]
  simp

theorem Rep.independent : Independent F (Rep.Gs F g h Gs Hs ++ Rep.Hs F g h Gs Hs ++ [Rep.g F g h Gs Hs, Rep.h F g h Gs Hs]) := by
  have e : Rep.Gs F g h Gs Hs ++ Rep.Hs F g h Gs Hs ++ [Rep.g F g h Gs Hs, Rep.h F g h Gs Hs] = (List.range (Gs ++ Hs ++ [g, h]).length).map (unitVec F (Gs ++ Hs ++ [g, h]).length) := by
    have e1 : (Gs ++ Hs ++ [g, h]).length = Gs.length + Hs.length + 1 + 1 := by simp; omega
    have e2 : ∀ n, (List.range n).map (unitVec F (Gs ++ Hs ++ [g, h]).length) = (List.range n).map (Rep.gen F (Gs ++ Hs ++ [g, h])) := fun n => rfl
    rw [e2, e1, List.range_succ, List.range_succ, List.range_add, List.map_append, List.map_append, List.map_append, ← List.range'_eq_map_range, List.append_assoc (_ ++ _)]
    rfl
  rw [e]
  exact unitVec_independent F _

variable {g h Gs Hs} [Fintype F] [DecidableEq F]

/-- **C59**, with the generators of the code (whatever these are), for a statement without randomized constraints about `m` commitments: a prover asks the oracle `Q` questions, and then chooses the commitments and the proof.  It
makes all its points as combinations of the generators; `claim` is a claim about the combinations that are the commitments.  With all but `(Q + D) B + 1` in `|F|` of the answers the claim is true, or the verifier rejects, or a
non-trivial relation between the generators is found. -/
theorem c59_statement (env : Env F G) (hb : env.batchInvert [] = .ok ([], 1)) (label : String) (dv : List G → Drv (Verifier F G) Unit) (dv' : List (Rep F (Gs ++ Hs ++ [g, h])) → Drv (Verifier F (Rep F (Gs ++ Hs ++ [g, h]))) Unit)
    (hn : ∀ a, DrvNat (Rep.point F _) (dv (a.map (Rep.point F _))) (dv' a)) (coms0 : List (Rep F (Gs ++ Hs ++ [g, h]))) (hu : Uniform label coms0.length dv') (s0 : Verifier F (Rep F (Gs ++ Hs ++ [g, h])))
    (hs0 : dv' coms0 (Verifier.new [.init label]) = (.ok (), s0)) (claim : List (Rep F (Gs ++ Hs ++ [g, h])) → Prop)
    (hc : ∀ coms, coms.length = coms0.length → Convinced label (dv' coms) (Rep.g F g h Gs Hs) (Rep.h F g h Gs Hs) (Rep.Gs F g h Gs Hs) (Rep.Hs F g h Gs Hs) → claim coms) (A : Forger F (Rep F (Gs ++ Hs ++ [g, h]))) (Q : ℕ) :
    A.fooling env label dv g h Gs Hs dv' coms0.length claim Q s0.numDraws ≤ ((Q + s0.numDraws) * s0.badBound + 1) * Fintype.card F ^ (Q + s0.numDraws) :=
  c59_game (Rep.point F _) env hb label _ dv dv' hn hu coms0 rfl s0 hs0 _ _ _ _ (Rep.independent g h Gs Hs) claim hc A Q

/-- **C59**, bounded number: the first commitment is a combination `k g + r h` with `lower ≤ k ≤ upper`. -/
theorem c59_bounded_num [IntRep F] (env : Env F G) (hb : env.batchInvert [] = .ok ([], 1)) (label : String) (debug : Bool) (lower upper n : ℕ) (hl : lower < 2 ^ 64) (hu : upper < 2 ^ 64)
    (ho : 2 ^ 64 < IntRep.order F) (hn : 2 ^ (n + 1) ≤ IntRep.order F) (coms0 : List (Rep F (Gs ++ Hs ++ [g, h]))) (s0 : Verifier F (Rep F (Gs ++ Hs ++ [g, h])))
    (hs : verifyBoundedNum (env.pull (Rep.point F _)) debug lower upper n coms0 (Verifier.new [.init label]) = (.ok (), s0)) (A : Forger F (Rep F (Gs ++ Hs ++ [g, h]))) (Q : ℕ) :
    A.fooling env label (verifyBoundedNum env debug lower upper n) g h Gs Hs (verifyBoundedNum (env.pull (Rep.point F _)) debug lower upper n) coms0.length
      (fun coms => ∃ P, ∃ k : ℕ, coms[0]? = some P ∧ CommitsTo (Rep.g F g h Gs Hs) (Rep.h F g h Gs Hs) P (k : F) ∧ lower ≤ k ∧ k ≤ upper)
      Q s0.numDraws ≤ ((Q + s0.numDraws) * s0.badBound + 1) * Fintype.card F ^ (Q + s0.numDraws) :=
  c59_statement env hb label _ _ (fun a => DrvNat.boundedNum _ env debug lower upper n a) coms0 (Uniform.boundedNum _ _ _ _ _) s0 hs _ (fun _ _ hc => c55_bounded_num _ debug lower upper n hl hu ho hn hc) A Q

/-- **C59**, non-zero: the first commitment is a combination `x g + r h` with `x ≠ 0`. -/
theorem c59_non_zero (env : Env F G) (hb : env.batchInvert [] = .ok ([], 1)) (label : String) (coms0 : List (Rep F (Gs ++ Hs ++ [g, h]))) (s0 : Verifier F (Rep F (Gs ++ Hs ++ [g, h])))
    (hs : verifyNonZeroVal (env.pull (Rep.point F _)) coms0 (Verifier.new [.init label]) = (.ok (), s0)) (A : Forger F (Rep F (Gs ++ Hs ++ [g, h]))) (Q : ℕ) :
    A.fooling env label (verifyNonZeroVal env) g h Gs Hs (verifyNonZeroVal (env.pull (Rep.point F _))) coms0.length
      (fun coms => ∃ P, ∃ x : F, coms[0]? = some P ∧ CommitsTo (Rep.g F g h Gs Hs) (Rep.h F g h Gs Hs) P x ∧ x ≠ 0)
      Q s0.numDraws ≤ ((Q + s0.numDraws) * s0.badBound + 1) * Fintype.card F ^ (Q + s0.numDraws) :=
  c59_statement env hb label _ _ (fun a => DrvNat.nonZeroVal _ env a) coms0 (Uniform.nonZeroVal _) s0 hs _ (fun _ _ hc => c55_non_zero _ hc) A Q

/-- **C59**, set membership (for a set that is not the whole field): the first commitment is a combination `x g + r h` with `x` in the set. -/
theorem c59_set_membership (env : Env F G) (hb : env.batchInvert [] = .ok ([], 1)) (label : String) (set : List F) (hset : ∃ y, y ∉ set) (coms0 : List (Rep F (Gs ++ Hs ++ [g, h]))) (s0 : Verifier F (Rep F (Gs ++ Hs ++ [g, h])))
    (hs : verifySetMembership (env.pull (Rep.point F _)) set coms0 (Verifier.new [.init label]) = (.ok (), s0)) (A : Forger F (Rep F (Gs ++ Hs ++ [g, h]))) (Q : ℕ) :
    A.fooling env label (verifySetMembership env set) g h Gs Hs (verifySetMembership (env.pull (Rep.point F _)) set) coms0.length
      (fun coms => ∃ P x, coms[0]? = some P ∧ CommitsTo (Rep.g F g h Gs Hs) (Rep.h F g h Gs Hs) P x ∧ x ∈ set)
      Q s0.numDraws ≤ ((Q + s0.numDraws) * s0.badBound + 1) * Fintype.card F ^ (Q + s0.numDraws) :=
  c59_statement env hb label _ _ (fun a => DrvNat.setMembership _ env set a) coms0 (Uniform.setMembership _ _) s0 hs _ (fun _ _ hc => c55_set_membership _ set hset hc) A Q

/-- **C59**, set non-membership (for a non-empty set): the first commitment is a combination `x g + r h` with `x` outside the set. -/
theorem c59_set_non_membership (env : Env F G) (hb : env.batchInvert [] = .ok ([], 1)) (label : String) (set : List F) (hset : set ≠ []) (coms0 : List (Rep F (Gs ++ Hs ++ [g, h]))) (s0 : Verifier F (Rep F (Gs ++ Hs ++ [g, h])))
    (hs : verifySetNonMembership (env.pull (Rep.point F _)) set coms0 (Verifier.new [.init label]) = (.ok (), s0)) (A : Forger F (Rep F (Gs ++ Hs ++ [g, h]))) (Q : ℕ) :
    A.fooling env label (verifySetNonMembership env set) g h Gs Hs (verifySetNonMembership (env.pull (Rep.point F _)) set) coms0.length
      (fun coms => ∃ P x, coms[0]? = some P ∧ CommitsTo (Rep.g F g h Gs Hs) (Rep.h F g h Gs Hs) P x ∧ x ∉ set)
      Q s0.numDraws ≤ ((Q + s0.numDraws) * s0.badBound + 1) * Fintype.card F ^ (Q + s0.numDraws) :=
  c59_statement env hb label _ _ (fun a => DrvNat.setNonMembership _ env set a) coms0 (Uniform.setNonMembership _ _) s0 hs _ (fun _ _ hc => c55_set_non_membership _ set hset hc) A Q

/-- **C59**, MiMC preimage: if the two commitments are combinations `v i g + r h`, then `v 0` and `v 1` hash to the image. -/
theorem c59_mimc (env : Env F G) (hb : env.batchInvert [] = .ok ([], 1)) (label : String) (image : F) (constants : List F) (rounds : ℕ) (hr : constants.length = rounds) (coms0 : List (Rep F (Gs ++ Hs ++ [g, h]))) (s0 : Verifier F (Rep F (Gs ++ Hs ++ [g, h])))
    (hs : verifyMimcPreimage (env.pull (Rep.point F _)) image constants rounds coms0 (Verifier.new [.init label]) = (.ok (), s0)) (A : Forger F (Rep F (Gs ++ Hs ++ [g, h]))) (Q : ℕ) :
    A.fooling env label (verifyMimcPreimage env image constants rounds) g h Gs Hs (verifyMimcPreimage (env.pull (Rep.point F _)) image constants rounds) coms0.length
      (fun coms => ∀ v : ℕ → F, (∀ (i : ℕ) P, i < 2 → coms[i]? = some P → CommitsTo (Rep.g F g h Gs Hs) (Rep.h F g h Gs Hs) P (v i)) → mimc (v 0) (v 1) constants rounds = .ok image)
      Q s0.numDraws ≤ ((Q + s0.numDraws) * s0.badBound + 1) * Fintype.card F ^ (Q + s0.numDraws) :=
  c59_statement env hb label _ _ (fun a => DrvNat.mimcPreimage _ env image constants rounds a) coms0 (Uniform.mimcPreimage _ _ _ _) s0 hs _ (fun _ _ hc => c55_mimc _ image constants rounds hr hc) A Q

/-- **C59**, Poseidon preimage (2:1): if the commitments are combinations `v i g + r h`, then the values hash to the output. -/
theorem c59_poseidon_2 (env : Env F G) (hb : env.batchInvert [] = .ok ([], 1)) (label : String) (output : F) (p : PoseidonParams F) (sbox : SboxType) (hi : sbox ≠ .inverse) (coms0 : List (Rep F (Gs ++ Hs ++ [g, h]))) (s0 : Verifier F (Rep F (Gs ++ Hs ++ [g, h])))
    (hs : verifyPoseidon2 (env.pull (Rep.point F _)) output p sbox (Rep.g F g h Gs Hs) (Rep.h F g h Gs Hs) coms0 (Verifier.new [.init label]) = (.ok (), s0)) (A : Forger F (Rep F (Gs ++ Hs ++ [g, h]))) (Q : ℕ) :
    A.fooling env label (verifyPoseidon2 env output p sbox g h) g h Gs Hs (verifyPoseidon2 (env.pull (Rep.point F _)) output p sbox (Rep.g F g h Gs Hs) (Rep.h F g h Gs Hs)) coms0.length
      (fun coms => ∀ v : ℕ → F, (∀ (i : ℕ) P, i < 2 → coms[i]? = some P → CommitsTo (Rep.g F g h Gs Hs) (Rep.h F g h Gs Hs) P (v i)) → poseidonHash2 (v 0) (v 1) p sbox = .ok output)
      Q s0.numDraws ≤ ((Q + s0.numDraws) * s0.badBound + 1) * Fintype.card F ^ (Q + s0.numDraws) :=
  c59_statement env hb label _ _ (fun a => by
    have := DrvNat.preimage (Rep.point F (Gs ++ Hs ++ [g, h])) env 2 (Rep.g F g h Gs Hs) (Rep.h F g h Gs Hs) (hash2Call p sbox.synthesize output) a
    rwa [Rep.point_g, Rep.point_h] at this) coms0 (Uniform.preimage _ _ _ _ _ fun _ => OnePhase.poseidon2 _ _ _ _ _ _ _) s0 hs _ (fun _ _ hc => c55_poseidon_2 _ output p sbox hi hc) A Q

/-- **C59**, Poseidon preimage (4:1): if the commitments are combinations `v i g + r h`, then the values hash to the output. -/
theorem c59_poseidon_4 (env : Env F G) (hb : env.batchInvert [] = .ok ([], 1)) (label : String) (output : F) (p : PoseidonParams F) (sbox : SboxType) (hi : sbox ≠ .inverse) (coms0 : List (Rep F (Gs ++ Hs ++ [g, h]))) (s0 : Verifier F (Rep F (Gs ++ Hs ++ [g, h])))
    (hs : verifyPoseidon4 (env.pull (Rep.point F _)) output p sbox (Rep.g F g h Gs Hs) (Rep.h F g h Gs Hs) coms0 (Verifier.new [.init label]) = (.ok (), s0)) (A : Forger F (Rep F (Gs ++ Hs ++ [g, h]))) (Q : ℕ) :
    A.fooling env label (verifyPoseidon4 env output p sbox g h) g h Gs Hs (verifyPoseidon4 (env.pull (Rep.point F _)) output p sbox (Rep.g F g h Gs Hs) (Rep.h F g h Gs Hs)) coms0.length
      (fun coms => ∀ v : ℕ → F, (∀ (i : ℕ) P, i < 4 → coms[i]? = some P → CommitsTo (Rep.g F g h Gs Hs) (Rep.h F g h Gs Hs) P (v i)) → poseidonHash4 [v 0, v 1, v 2, v 3] p sbox = .ok output)
      Q s0.numDraws ≤ ((Q + s0.numDraws) * s0.badBound + 1) * Fintype.card F ^ (Q + s0.numDraws) :=
  c59_statement env hb label _ _ (fun a => by
    have := DrvNat.preimage (Rep.point F (Gs ++ Hs ++ [g, h])) env 4 (Rep.g F g h Gs Hs) (Rep.h F g h Gs Hs) (hash4Call p sbox.synthesize output) a
    rwa [Rep.point_g, Rep.point_h] at this) coms0 (Uniform.preimage _ _ _ _ _ fun _ => OnePhase.poseidon4 _ _ _ _ _ _ _) s0 hs _ (fun _ _ hc => c55_poseidon_4 _ output p sbox hi hc) A Q

/-- **C59**, Poseidon preimage (8:1): if the commitments are combinations `v i g + r h`, then the values hash to the output. -/
theorem c59_poseidon_8 (env : Env F G) (hb : env.batchInvert [] = .ok ([], 1)) (label : String) (output : F) (p : PoseidonParams F) (sbox : SboxType) (hi : sbox ≠ .inverse) (coms0 : List (Rep F (Gs ++ Hs ++ [g, h]))) (s0 : Verifier F (Rep F (Gs ++ Hs ++ [g, h])))
    (hs : verifyPoseidon8 (env.pull (Rep.point F _)) output p sbox (Rep.g F g h Gs Hs) (Rep.h F g h Gs Hs) coms0 (Verifier.new [.init label]) = (.ok (), s0)) (A : Forger F (Rep F (Gs ++ Hs ++ [g, h]))) (Q : ℕ) :
    A.fooling env label (verifyPoseidon8 env output p sbox g h) g h Gs Hs (verifyPoseidon8 (env.pull (Rep.point F _)) output p sbox (Rep.g F g h Gs Hs) (Rep.h F g h Gs Hs)) coms0.length
      (fun coms => ∀ v : ℕ → F, (∀ (i : ℕ) P, i < 8 → coms[i]? = some P → CommitsTo (Rep.g F g h Gs Hs) (Rep.h F g h Gs Hs) P (v i)) → poseidonHash8 [v 0, v 1, v 2, v 3, v 4, v 5, v 6, v 7] p sbox = .ok output)
      Q s0.numDraws ≤ ((Q + s0.numDraws) * s0.badBound + 1) * Fintype.card F ^ (Q + s0.numDraws) :=
  c59_statement env hb label _ _ (fun a => by
    have := DrvNat.preimage (Rep.point F (Gs ++ Hs ++ [g, h])) env 8 (Rep.g F g h Gs Hs) (Rep.h F g h Gs Hs) (hash8Call p sbox.synthesize output) a
    rwa [Rep.point_g, Rep.point_h] at this) coms0 (Uniform.preimage _ _ _ _ _ fun _ => OnePhase.poseidon8 _ _ _ _ _ _ _) s0 hs _ (fun _ _ hc => c55_poseidon_8 _ output p sbox hi hc) A Q

/-- **C59**, Merkle inclusion (4-ary): if the commitments are combinations `v i g + r h`, then the values are a path to the root. -/
theorem c59_inclusion_4 [ByteRep F] (env : Env F G) (hb : env.batchInvert [] = .ok ([], 1)) (label : String) (root : F) (depth : ℕ) (p : PoseidonParams F) (sbox : SboxType) (hi : sbox ≠ .inverse) (coms0 : List (Rep F (Gs ++ Hs ++ [g, h]))) (hl : coms0.length = 2 + 3 * depth) (s0 : Verifier F (Rep F (Gs ++ Hs ++ [g, h])))
    (hs : verifyInclusion4 (env.pull (Rep.point F _)) root depth p sbox (Rep.g F g h Gs Hs) (Rep.h F g h Gs Hs) coms0 (Verifier.new [.init label]) = (.ok (), s0)) (A : Forger F (Rep F (Gs ++ Hs ++ [g, h]))) (Q : ℕ) :
    A.fooling env label (verifyInclusion4 env root depth p sbox g h) g h Gs Hs (verifyInclusion4 (env.pull (Rep.point F _)) root depth p sbox (Rep.g F g h Gs Hs) (Rep.h F g h Gs Hs)) coms0.length
      (fun coms => ∀ v : ℕ → F, (∀ (i : ℕ) P, coms[i]? = some P → CommitsTo (Rep.g F g h Gs Hs) (Rep.h F g h Gs Hs) P (v i)) → Included (hasher4 p sbox) depth root v)
      Q s0.numDraws ≤ ((Q + s0.numDraws) * s0.badBound + 1) * Fintype.card F ^ (Q + s0.numDraws) :=
  c59_statement env hb label _ _ (fun a => by
    have := DrvNat.inclusion (Rep.point F (Gs ++ Hs ++ [g, h])) env (Rep.g F g h Gs Hs) (Rep.h F g h Gs Hs) (merkleCall4 root depth p sbox.synthesize) a
    rwa [Rep.point_g, Rep.point_h] at this) coms0 (Uniform.inclusion _ _ _ _ fun _ => OnePhase.inclusion4 _ _ _ _ _ _ _ _) s0 hs _ (fun _ hl' hc => c55_inclusion_4 _ root depth p sbox hi (hl'.trans hl) hc) A Q

/-- **C59**, Merkle inclusion (8-ary): if the commitments are combinations `v i g + r h`, then the values are a path to the root. -/
theorem c59_inclusion_8 [ByteRep F] (env : Env F G) (hb : env.batchInvert [] = .ok ([], 1)) (label : String) (root : F) (depth : ℕ) (p : PoseidonParams F) (sbox : SboxType) (hi : sbox ≠ .inverse) (coms0 : List (Rep F (Gs ++ Hs ++ [g, h]))) (hl : coms0.length = 2 + 7 * depth) (s0 : Verifier F (Rep F (Gs ++ Hs ++ [g, h])))
    (hs : verifyInclusion8 (env.pull (Rep.point F _)) root depth p sbox (Rep.g F g h Gs Hs) (Rep.h F g h Gs Hs) coms0 (Verifier.new [.init label]) = (.ok (), s0)) (A : Forger F (Rep F (Gs ++ Hs ++ [g, h]))) (Q : ℕ) :
    A.fooling env label (verifyInclusion8 env root depth p sbox g h) g h Gs Hs (verifyInclusion8 (env.pull (Rep.point F _)) root depth p sbox (Rep.g F g h Gs Hs) (Rep.h F g h Gs Hs)) coms0.length
      (fun coms => ∀ v : ℕ → F, (∀ (i : ℕ) P, coms[i]? = some P → CommitsTo (Rep.g F g h Gs Hs) (Rep.h F g h Gs Hs) P (v i)) → Included (hasher8 p sbox) depth root v)
      Q s0.numDraws ≤ ((Q + s0.numDraws) * s0.badBound + 1) * Fintype.card F ^ (Q + s0.numDraws) :=
  c59_statement env hb label _ _ (fun a => by
    have := DrvNat.inclusion (Rep.point F (Gs ++ Hs ++ [g, h])) env (Rep.g F g h Gs Hs) (Rep.h F g h Gs Hs) (merkleCall8 root depth p sbox.synthesize) a
    rwa [Rep.point_g, Rep.point_h] at this) coms0 (Uniform.inclusion _ _ _ _ fun _ => OnePhase.inclusion8 _ _ _ _ _ _ _ _) s0 hs _ (fun _ hl' hc => c55_inclusion_8 _ root depth p sbox hi (hl'.trans hl) hc) A Q

/-- **C59**, randomizer: if the commitments are combinations `v i g + r h`, then the values are as the statement says. -/
theorem c59_randomizer [ByteRep F] (env : Env F G) (hb : env.batchInvert [] = .ok ([], 1)) (label : String) (p : PoseidonParams F) (hp : p.Valid) (hw : p.width = 5) (depth : ℕ) (hd : depth ≤ 4 * ByteRep.modBytes F)
    (db0 : HashDb (List F)) (hist : History F) (hcf : (tree4 p).CollisionFree depth hist) (t : SparseTree F) (db : HashDb (List F)) (hrun : runHistory (tree4 p) depth db0 hist = .ok (t, db)) (indices : List F) (coms0 : List (Rep F (Gs ++ Hs ++ [g, h]))) (s0 : Verifier F (Rep F (Gs ++ Hs ++ [g, h])))
    (hs : verifyRandomizer (env.pull (Rep.point F _)) t db indices depth p .quint (Rep.g F g h Gs Hs) (Rep.h F g h Gs Hs) coms0 (Verifier.new [.init label]) = (.ok (), s0)) (A : Forger F (Rep F (Gs ++ Hs ++ [g, h]))) (Q : ℕ) :
    A.fooling env label (verifyRandomizer env t db indices depth p .quint g h) g h Gs Hs (verifyRandomizer (env.pull (Rep.point F _)) t db indices depth p .quint (Rep.g F g h Gs Hs) (Rep.h F g h Gs Hs)) coms0.length
      (fun coms => ∀ v : ℕ → F, (∀ (i : ℕ) P, i < 1 + indices.length * (1 + 3 * depth) → coms[i]? = some P → CommitsTo (Rep.g F g h Gs Hs) (Rep.h F g h Gs Hs) P (v i)) → Randomized (tree4 p) depth (written (4 ^ depth) hist) indices v)
      Q s0.numDraws ≤ ((Q + s0.numDraws) * s0.badBound + 1) * Fintype.card F ^ (Q + s0.numDraws) :=
  c59_statement env hb label _ _ (fun a => by
    have := DrvNat.randomizer (Rep.point F (Gs ++ Hs ++ [g, h])) env t db indices depth p .quint (Rep.g F g h Gs Hs) (Rep.h F g h Gs Hs) a
    rwa [Rep.point_g, Rep.point_h] at this) coms0 (Uniform.randomizer _ _ _ _ _ _ _ _ _) s0 hs _ (fun _ _ hc => c55_randomizer _ p hp hw depth hd db0 hist hcf t db hrun indices hc) A Q

end Bp
