import Verif.Lemmas.IppGame

/-! # C94: the inner-product argument on its own

`verify_ipp` does not write the commitment `P` (nor `Q` and the generators) into the transcript. -/

set_option linter.unusedSectionVars false

namespace Bp
variable {F G : Type} [Field F] [AddCommGroup G] [Module F G] [DecidableEq G]

/-- **C94**: let the generators have no relation and the factors be non-zero, and let the caller log `P` before the call.  There is a rule that names at most seven bad answers for each draw (depending only on the answers
before it), such that whatever `verify_ipp` accepts is true, or one of the challenges of the proof was a bad answer. -/
theorem c94_sound (base : Transcript F G) (l : String) (k : ℕ) (Gf Hf : List F) (Q : G) (Gs Hs : List G) (h1 : Gs.length = 2 ^ k) (h2 : Hs.length = 2 ^ k) (h3 : Gf.length = 2 ^ k) (h4 : Hf.length = 2 ^ k)
    (hind : Independent F (Gs ++ Hs ++ [Q])) (g0 : ∀ x ∈ Gf, x ≠ 0) (h0 : ∀ x ∈ Hf, x ≠ 0) :
    ∃ bad : BadRule F G 7, ∀ (env : Env F G) (P : G) (a b : F) (L R : List G) (T : Transcript F G), (k ≠ 0 ∨ env.batchInvert [] = .ok ([], 1)) →
      verifyIpp env (2 ^ k) (base.commitPoint l P) Gf Hf P Q Gs Hs a b L R = .ok T → IppClaim (2 ^ k) Gf Hf Q Gs Hs P ∨ bad.Hit env.oracle T :=
  ⟨ippBad base l k Gf Hf Q Gs Hs, fun _ _ a b L R _ hb hv => ipp_hit (pr := ⟨L, R, a, b⟩) hb h1 h2 h3 h4 hind g0 h0 hv⟩

/-- **C94**, as a game: a prover asks the oracle `q` questions, then chooses `P` and the proof.  The verifier has asked for the draws of the log `base`, logs `P`, and checks the proof.  Of all sequences of answers at most the part
`7 (q + D) / |F|` lets the verifier accept a false statement, where `D` is the number of the verifier's questions. -/
theorem c94_game [Fintype F] (env : Env F G) (base : Transcript F G) (l : String) (k : ℕ) (hb : k ≠ 0 ∨ env.batchInvert [] = .ok ([], 1)) (Gf Hf : List F) (Q : G) (Gs Hs : List G) (h1 : Gs.length = 2 ^ k)
    (h2 : Hs.length = 2 ^ k) (h3 : Gf.length = 2 ^ k) (h4 : Hf.length = 2 ^ k) (hind : Independent F (Gs ++ Hs ++ [Q])) (g0 : ∀ x ∈ Gf, x ≠ 0) (h0 : ∀ x ∈ Hf, x ≠ 0) (A : IppForger F G) (q D : ℕ) (hD : D = (draws base).length + k) :
    A.forging env base l (2 ^ k) Gf Hf Q Gs Hs q D ≤ (q + D) * 7 * Fintype.card F ^ (q + D - 1) := by
  refine le_trans (count_mono (n := q + D) (p := A.Forges env base l (2 ^ k) Gf Hf Q Gs Hs q)
    (q := fun cs => ∃ O T, Answers (A.game base l (2 ^ k) q) O cs ∧ (∀ d ∈ draws T, d ∈ askedBy (A.game base l (2 ^ k) q) cs) ∧ (ippBad base l k Gf Hf Q Gs Hs).Hit O T) ?_)
    (count_hit (ippBad base l k Gf Hf Q Gs Hs) (A.game base l (2 ^ k) q) (q + D))
  rintro cs hl ⟨hc, O, T, hO, hv⟩
  refine ⟨O, T, hO, ?_, (ipp_hit (env := { env with oracle := O }) hb h1 h2 h3 h4 hind g0 h0 hv).resolve_left hc⟩
  obtain ⟨hL, hR, rfl⟩ := verifyIpp_inv h1 h2 h3 h4 hv
  refine A.game_asked base l (2 ^ k) q hl ?_
  rw [length_draws_ippLog, hL, hR, Nat.min_self, hD]

/-- The inner product of the coefficients of the two folded generators is the number of generators. -/
theorem dot_sVec {us : List F} (hu : ∀ u ∈ us, u ≠ 0) : dot (sVec us) (sVec us).reverse = 2 ^ us.length := by
  rw [sVec_reverse, dot_eq_sum (n := 2 ^ us.length) (by simp) (by simp)]
  have : ∀ i ∈ Finset.range (2 ^ us.length), (sVec us).getD i 0 * (sVec (us.map (·⁻¹))).getD i 0 = 1 := fun i hi => by
    have hi := Finset.mem_range.mp hi
    rw [sVec_getD us hi, sVec_getD _ (by simpa using hi), foldCoeff_inv]
    refine mul_inv_cancel₀ ?_
    unfold foldCoeff
    refine Finset.prod_ne_zero_iff.mpr fun j hj => ?_
    have hj := Finset.mem_range.mp hj
    have : us.getD j 0 ≠ 0 := by
      rw [List.getD_eq_getElem?_getD, List.getElem?_eq_getElem hj, Option.getD_some]
      exact hu _ (List.getElem_mem _)
    split
    · exact this
    · exact inv_ne_zero this
  rw [Finset.sum_congr rfl this]
  simp

/-- **C94**, what is false: if `P` is not in the log before the call, then the prover may choose it after the challenges.  For vectors of any length `2 ^ k` greater than one (and not 1 in the field), whatever the log is before the
call, there are a commitment, with which no two vectors go, and a proof that `verify_ipp` accepts. -/
theorem c94_unlogged (env : Env F G) (t : Transcript F G) (k : ℕ) (hk : k < 32) (hk2 : (2 ^ k : F) ≠ 1) (Gf Hf : List F) (Q : G) (Gs Hs : List G) (h1 : Gs.length = 2 ^ k) (h2 : Hs.length = 2 ^ k) (h3 : Gf.length = 2 ^ k)
    (h4 : Hf.length = 2 ^ k) (hind : Independent F (Gs ++ Hs ++ [Q])) (g0 : ∀ x ∈ Gf, x ≠ 0) (h0 : ∀ x ∈ Hf, x ≠ 0)
    (hu : ∀ u ∈ roundChallenges env.oracle t (2 ^ k) (List.replicate k 0) (List.replicate k 0), u ≠ 0) :
    ∃ P T, verifyIpp env (2 ^ k) t Gf Hf P Q Gs Hs 1 1 (List.replicate k 0) (List.replicate k 0) = .ok T ∧ ¬ IppClaim (2 ^ k) Gf Hf Q Gs Hs P := by
  have hk0 : k ≠ 0 := fun h => hk2 (by simp [h])
  obtain ⟨us, hus⟩ : ∃ us, us = roundChallenges env.oracle t (2 ^ k) (List.replicate k (0 : G)) (List.replicate k 0) := ⟨_, rfl⟩
  have hlen : us.length = k := by rw [hus, roundChallenges, length_ippChallenges]; simp
  rw [← hus] at hu
  let P : G := msm (sVec us) (scaled Gf Gs) + msm (sVec us).reverse (scaled Hf Hs) + (1 : F) • Q
  have z : ∀ (xs : List F) n, msm xs (List.replicate n (0 : G)) = 0 := fun xs => by
    induction xs with
    | nil => simp
    | cons x xs ih =>
      intro n
      cases n with
      | zero => simp [msm]
      | succ n => simp [List.replicate_succ, ih]
  obtain ⟨T, hT⟩ := (c13_verify_iff env k hk (.inl hk0) t Gf Hf P Q Gs Hs 1 1 (List.replicate k 0) (List.replicate k 0) (by simp) (by simp) h1 h2 h3 h4 us hus hu).mpr (by
    rw [z, z, ← msm_sVec us _ (by simp [scaled, h1, h3, hlen]), ← msm_sVec (us.map (·⁻¹)) _ (by simp [scaled, h2, h4, hlen]), ← sVec_reverse]
    simp [P])
  refine ⟨P, T, hT, ?_⟩
  rintro ⟨a, b, ha, hb, e⟩
  rw [msm_hadamard (by omega), msm_hadamard (by omega)] at e
  have lg : (scaled Gf Gs).length = 2 ^ k := by simp [scaled, h1, h3]
  have lh : (scaled Hf Hs).length = 2 ^ k := by simp [scaled, h2, h4]
  have ls : (sVec us).length = 2 ^ k := by rw [length_sVec, hlen]
  have hr := hind.no_relation h1 h2 h3 h4 g0 h0 (fun i => a.getD i 0 - (sVec us).getD i 0, fun i => b.getD i 0 - (sVec us).reverse.getD i 0, dot a b - 1) (by
    simp only [IppRep.value, sub_smul, Finset.sum_sub_distrib]
    rw [← msm_eq_sum ha lg, ← msm_eq_sum ls lg, ← msm_eq_sum hb lh, ← msm_eq_sum (by simpa using ls) lh]
    have e : msm (sVec us) (scaled Gf Gs) + msm (sVec us).reverse (scaled Hf Hs) + (1 : F) • Q = _ := e
    rw [← sub_eq_zero] at e
    rw [← neg_eq_zero, ← e]
    abel)
  obtain ⟨r1, r2, r3⟩ := hr
  have ea : a = sVec us := ext_getD 0 ha ls fun i hi => sub_eq_zero.mp (r1 i hi)
  have eb : b = (sVec us).reverse := ext_getD 0 hb (by simpa using ls) fun i hi => sub_eq_zero.mp (r2 i hi)
  rw [ea, eb, dot_sVec hu, hlen] at r3
  exact hk2 (sub_eq_zero.mp r3)

/-! ## Examples: vectors of length two, the generators are the unit vectors of a free module -/

/-- The commitment to `a = (3,5)`, `b = (7,11)` and their inner product. -/
def honest5 : Fin 5 → Z101 := (3 : Z101) • unit5 0 + (10 : Z101) • unit5 1 + (21 : Z101) • unit5 2 + (44 : Z101) • unit5 3 + (76 : Z101) • unit5 4

/-- The call of `verify_ipp` with a proof made with the challenge 2, after the commitment was logged. -/
def honestCall5 : Res (Transcript Z101 (Fin 5 → Z101)) :=
  verifyIpp (Env.std fun _ => 2) 2 (Transcript.commitPoint [.init "test"] "P" honest5) [1, 2] [3, 4] honest5 (unit5 4) [unit5 0, unit5 1] [unit5 2, unit5 3]
    (3 * 2 + 5 * 51) (7 * 51 + 11 * 2) [(6 : Z101) • unit5 1 + (33 : Z101) • unit5 2 + (33 : Z101) • unit5 4] [(5 : Z101) • unit5 0 + (28 : Z101) • unit5 3 + (35 : Z101) • unit5 4]

theorem honestCall5_ok : ∃ T, honestCall5 = .ok T := by
  have : (match honestCall5 with | .ok _ => true | .error _ => false) = true := by decide +kernel
  revert this
  cases honestCall5 with
  | ok T => exact fun _ => ⟨T, rfl⟩
  | error e => simp

/-- It is accepted, and the statement is true, or a bad answer was given. -/
example : ∃ bad : BadRule Z101 (Fin 5 → Z101) 7, ∃ T, honestCall5 = .ok T ∧
    (IppClaim (F := Z101) 2 [1, 2] [3, 4] (unit5 4) [unit5 0, unit5 1] [unit5 2, unit5 3] honest5 ∨ bad.Hit (fun _ => 2) T) := by
  obtain ⟨bad, hbad⟩ := c94_sound (F := Z101) [.init "test"] "P" 1 [1, 2] [3, 4] (unit5 4) [unit5 0, unit5 1] [unit5 2, unit5 3] rfl rfl rfl rfl unit5_independent (by decide) (by decide)
  obtain ⟨T, hT⟩ := honestCall5_ok
  exact ⟨bad, T, hT, hbad (Env.std fun _ => 2) _ _ _ _ _ _ (.inl one_ne_zero) hT⟩

/-- A prover that asks one question. -/
example (A : IppForger Z101 (Fin 5 → Z101)) :
    A.forging (Env.std fun _ => 0) [.init "test"] "P" 2 [1, 2] [3, 4] (unit5 4) [unit5 0, unit5 1] [unit5 2, unit5 3] 1 1 ≤ 2 * 7 * Fintype.card Z101 :=
  c94_game (F := Z101) (Env.std fun _ => 0) [.init "test"] "P" 1 (.inl one_ne_zero) [1, 2] [3, 4] (unit5 4) [unit5 0, unit5 1] [unit5 2, unit5 3] rfl rfl rfl rfl unit5_independent (by decide) (by decide) A 1 1 rfl

/-- There are `101 ^ 2` sequences of answers. -/
example : 2 * 7 * Fintype.card Z101 < Fintype.card (Fin 2 → Z101) := by
  rw [Fintype.card_fun, Fintype.card_fin, show Fintype.card Z101 = 101 from ZMod.card 101]
  decide

/-- A wrong commitment, accepted. -/
example : ∃ P T, verifyIpp (Env.std fun _ => 2) 2 ([.init "test"] : Transcript Z101 (Fin 5 → Z101)) [1, 2] [3, 4] P (unit5 4) [unit5 0, unit5 1] [unit5 2, unit5 3] 1 1 [0] [0] = .ok T ∧
    ¬ IppClaim (F := Z101) 2 [1, 2] [3, 4] (unit5 4) [unit5 0, unit5 1] [unit5 2, unit5 3] P :=
  c94_unlogged (F := Z101) (Env.std fun _ => 2) [.init "test"] 1 (by decide) (by decide) [1, 2] [3, 4] (unit5 4) [unit5 0, unit5 1] [unit5 2, unit5 3] rfl rfl rfl rfl unit5_independent (by decide) (by decide)
    (by intro u hu; have : u = 2 := by simpa [roundChallenges, ippChallenges, Transcript.challengeScalar, Env.std] using hu
        rw [this]; decide)

end Bp
