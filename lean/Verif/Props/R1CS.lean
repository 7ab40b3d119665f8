import Verif.Lemmas.Prove2
import Mathlib.Data.ZMod.Basic
import Mathlib.Algebra.Field.ZMod
import Mathlib.Tactic.NormNum.Prime

/-! # C17, C18, C19, C20, C49: `prove` and `verify` -/

set_option linter.unusedSectionVars false
set_option linter.unusedSimpArgs false

namespace Bp
variable {F G : Type} [Field F] [AddCommGroup G] [Module F G]
open Finset

/-! ## C17 completeness -/

/-- C17: completeness of one- and two-phase proofs.  `p` and `s` were built together (`Session`): same transcript, the verifier got the
points returned by `commit`, both ran the same gadget code.  `p2` is the prover after the randomized callbacks; its assignment
satisfies all constraints, which mention only existing variables; there are enough generators.  Then `prove` returns a
proof, and `verify` accepts it for every batching scalar `r`, with the same final transcript, provided the drawn `y` and the
inner-product challenges are non-zero.  All coins `c` and oracles are universally quantified.  (Limit of the code: fewer than 32
inner-product rounds.  `batch_invert` of an empty list is only needed for circuits with at most one gate.) -/
theorem c17_complete [DecidableEq G] (env env' : Env F G) (hO : env.oracle = env'.oracle) (p p2 : Prover F G) (s : Verifier F G)
    (hs : Session env env' p s) (c : Coins F) (Gs Hs : List G)
    (hcrc : (p.start c Gs Hs).createRandomizedConstraints env = .ok p2) (hsat : p2.Satisfied)
    (hin : ∀ lc ∈ p2.constraints, ∀ t ∈ lc.terms, Var.InRange p2.aL.length p2.v.length t.1)
    (hsize : nextPowerOfTwo p2.aL.length < 2 ^ 32) (hG : nextPowerOfTwo p2.aL.length ≤ Gs.length) (hH : nextPowerOfTwo p2.aL.length ≤ Hs.length)
    (hb : 1 < p2.aL.length ∨ env'.batchInvert [] = .ok ([], 1)) :
    ∃ pr t', p.prove env c Gs Hs = .ok (pr, t') ∧
      ((drawn env.oracle p2.transcript pr).y ≠ 0 → (∀ u ∈ ippRounds env.oracle p2.transcript pr (nextPowerOfTwo p2.aL.length), u ≠ 0) →
        ∀ r : F, s.verify env' pr p.g p.h Gs Hs r = .ok t') := by
  obtain ⟨hw, hst⟩ := hs.inStep hO
  obtain ⟨pr, t', h1, h2⟩ := honest_verify env env' hO p p2 s hw hst c Gs Hs hcrc hin (Nat.clog 2 p2.aL.length) rfl
    ((Nat.pow_lt_pow_iff_right (by omega)).mp hsize) hG hH (by
      refine hb.imp (fun h => ?_) id
      exact Nat.pos_iff_ne_zero.mp (Nat.clog_pos (by omega) h))
  refine ⟨pr, t', h1, fun hy h0 r => ?_⟩
  rw [h2 hy h0 r]
  have hz : ∀ z, zCombination z p2.constraints p2.assignment = 0 := by
    intro z
    unfold zCombination
    apply sum_eq_zero
    intro q _
    rw [hsat _ (List.getElem_mem _), mul_zero]
  simp [hz]

/-- C17, one phase: no randomized callbacks, so the hypotheses are about the prover as the user left it. -/
theorem c17_complete_one_phase [DecidableEq G] (env env' : Env F G) (hO : env.oracle = env'.oracle) (p : Prover F G) (s : Verifier F G)
    (hs : Session env env' p s) (hd : p.deferred = []) (c : Coins F) (Gs Hs : List G) (hsat : p.Satisfied)
    (hin : ∀ lc ∈ p.constraints, ∀ t ∈ lc.terms, Var.InRange p.aL.length p.v.length t.1)
    (hsize : nextPowerOfTwo p.aL.length < 2 ^ 32) (hG : nextPowerOfTwo p.aL.length ≤ Gs.length) (hH : nextPowerOfTwo p.aL.length ≤ Hs.length)
    (hb : 1 < p.aL.length ∨ env'.batchInvert [] = .ok ([], 1)) :
    ∃ pr t', p.prove env c Gs Hs = .ok (pr, t') ∧
      ((drawn env.oracle (p.start c Gs Hs).transcript.r1cs1PhaseDomainSep pr).y ≠ 0 →
        (∀ u ∈ ippRounds env.oracle (p.start c Gs Hs).transcript.r1cs1PhaseDomainSep pr (nextPowerOfTwo p.aL.length), u ≠ 0) →
        ∀ r : F, s.verify env' pr p.g p.h Gs Hs r = .ok t') := by
  have hcrc : (p.start c Gs Hs).createRandomizedConstraints env =
      .ok { (p.start c Gs Hs) with pending := none, transcript := (p.start c Gs Hs).transcript.r1cs1PhaseDomainSep } := by
    unfold Prover.createRandomizedConstraints
    simp only
    rw [if_pos (by simp [Prover.start, hd])]
  obtain ⟨pr, t', h1, h2⟩ := c17_complete env env' hO p _ s hs c Gs Hs hcrc hsat hin hsize hG hH hb
  exact ⟨pr, t', h1, h2⟩

/-! A concrete two-phase session: two commitments, a product, and a randomized callback that adds a gate. -/

/-- A small prime field for the concrete sessions. -/
abbrev Z101 := ZMod 101
instance : Fact (Nat.Prime 101) := ⟨by norm_num⟩

/-- Prove `x * y = 12`, and in the second phase, for a challenge `c`, `(x + c)(y + c) = 12 + c x + c y + c²`. -/
def demoProduct (vars : Var × Var) : Prog1 Z101 Unit := do
  let (_, _, o) ← Prog.mul (LC.ofVar vars.1) (LC.ofVar vars.2)
  Prog.con ((LC.ofVar o).sub (LC.ofScalar 12))
  Prog.spec (.challenge rfl "c" fun c => .multiply ((LC.ofVar vars.1).add (LC.ofScalar c)) ((LC.ofVar vars.2).add (LC.ofScalar c)) fun q =>
    .constrain ((((LC.ofVar q.2.2).sub (LC.ofScalar 12)).sub (LC.smul c (LC.ofVar vars.1))).sub ((LC.smul c (LC.ofVar vars.2)).add (LC.ofScalar (c * c)))) (.ret ()))

/-- A prover that went through it. -/
def demoP (x y : Z101) : Prover Z101 Z101 :=
  match (((Prover.new 1 5 [.init "demo"] 0 : Prover Z101 Z101).commit x 7).2.commit y 8).2.run1 (Env.std (fun _ => 2)) (demoProduct (.committed 0, .committed 1)) with
  | .ok (_, p) => p
  | .error _ => Prover.new 1 5 [] 0

/-- The verifier for it. -/
def demoV (X Y : Z101) : Verifier Z101 Z101 :=
  match (((Verifier.new [.init "demo"] 0 : Verifier Z101 Z101).commit X).2.commit Y).2.run1 (Env.std (fun _ => 2)) (demoProduct (.committed 0, .committed 1)) with
  | .ok (_, p) => p
  | .error _ => Verifier.new [] 0

theorem demo_session (x y : Z101) : Session (Env.std (fun _ => 2)) (Env.std (fun _ => 2)) (demoP x y) (demoV (commitScalar 1 5 x 7) (commitScalar 1 5 y 8)) := by
  refine .gadget (RA := fun _ _ => True) (a := ()) (b := ()) (c := demoProduct (.committed 0, .committed 1)) (c' := demoProduct (.committed 0, .committed 1))
    (.commit y 8 (.commit x 7 (.new 1 5 [.init "demo"] 0 0))) ?_ rfl rfl
  refine .multiply (.refl _) (.refl _) fun vs => .constrain (.refl _) (.specify ?_ (.ret trivial))
  exact .challenge fun c => .multiply (.refl _) (.refl _) fun q => .constrain (.refl _) (.ret trivial)

/-- The prover of the demo session after its callbacks. -/
def demoP2 (x y : Z101) (c : Coins Z101) (Gs Hs : List Z101) : Prover Z101 Z101 :=
  match ((demoP x y).start c Gs Hs).createRandomizedConstraints (Env.std (fun _ => 2)) with
  | .ok p => p
  | .error _ => demoP x y

theorem demo_satisfied (c : Coins Z101) : (demoP2 3 4 c [1, 2, 3, 4] [5, 6, 7, 8]).Satisfied := by
  have : (demoP2 3 4 c [1, 2, 3, 4] [5, 6, 7, 8]).constraints.map (LC.value (demoP2 3 4 c [1, 2, 3, 4] [5, 6, 7, 8]).assignment) = [0, 0, 0, 0, 0, 0] := by
    have e : ∀ c c', (demoP2 3 4 c [1, 2, 3, 4] [5, 6, 7, 8]).constraints.map (LC.value (demoP2 3 4 c [1, 2, 3, 4] [5, 6, 7, 8]).assignment) =
      (demoP2 3 4 c' [1, 2, 3, 4] [5, 6, 7, 8]).constraints.map (LC.value (demoP2 3 4 c' [1, 2, 3, 4] [5, 6, 7, 8]).assignment) := fun _ _ => rfl
    rw [e c ⟨0, 0, 0, 0, 0, 0, 0, 0, 0, 0, 0, 0, 0, 0, 0⟩]
    decide +kernel
  intro lc hlc
  have hm := List.mem_map_of_mem (f := LC.value (demoP2 3 4 c [1, 2, 3, 4] [5, 6, 7, 8]).assignment) hlc
  rw [this] at hm
  simpa using hm

instance (n m : ℕ) (v : Var) : Decidable (v.InRange n m) := by
  cases v <;> simp only [Var.InRange] <;> infer_instance

theorem demo_inRange (x y : Z101) (c : Coins Z101) : ∀ lc ∈ (demoP2 x y c [1, 2, 3, 4] [5, 6, 7, 8]).constraints, ∀ t ∈ lc.terms,
    Var.InRange (demoP2 x y c [1, 2, 3, 4] [5, 6, 7, 8]).aL.length (demoP2 x y c [1, 2, 3, 4] [5, 6, 7, 8]).v.length t.1 := by
  have : ((demoP2 x y c [1, 2, 3, 4] [5, 6, 7, 8]).constraints.flatMap fun lc => lc.terms.map Prod.fst).all (fun v => decide (v.InRange 2 2)) = true := rfl
  intro lc hlc t ht
  have := List.all_eq_true.mp this t.1 (List.mem_flatMap.mpr ⟨lc, hlc, List.mem_map_of_mem ht⟩)
  exact of_decide_eq_true this

theorem demo_size (x y : Z101) (c : Coins Z101) : nextPowerOfTwo (demoP2 x y c [1, 2, 3, 4] [5, 6, 7, 8]).aL.length = 2 := by
  have : (demoP2 x y c [1, 2, 3, 4] [5, 6, 7, 8]).aL.length = 2 := rfl
  rw [this]; decide +kernel

/-- All hypotheses of C17 are met by the demo session with the witness 3 * 4, any coins and four generators each; the challenges (all 2) are non-zero. -/
theorem demo_accepts (c : Coins Z101) : ∃ pr t', (demoP 3 4).prove (Env.std (fun _ => 2)) c [1, 2, 3, 4] [5, 6, 7, 8] = .ok (pr, t') ∧
    ∀ r, (demoV (commitScalar 1 5 (3 : Z101) 7) (commitScalar 1 5 (4 : Z101) 8)).verify (Env.std (fun _ => 2)) pr 1 5 [1, 2, 3, 4] [5, 6, 7, 8] r = .ok t' := by
  obtain ⟨pr, t', h1, h2⟩ := c17_complete (Env.std (fun _ => 2)) (Env.std (fun _ => 2)) rfl (demoP 3 4) (demoP2 3 4 c [1, 2, 3, 4] [5, 6, 7, 8]) _ (demo_session 3 4)
    c [1, 2, 3, 4] [5, 6, 7, 8] rfl (demo_satisfied c) (demo_inRange 3 4 c) (by rw [demo_size]; norm_num) (by rw [demo_size]; simp) (by rw [demo_size]; simp) (.inl (show 1 < 2 by omega))
  refine ⟨pr, t', h1, h2 ?_ ?_⟩
  · show (2 : Z101) ≠ 0; decide
  · have : ∀ (ps : List (Z101 × Z101)) (t : Transcript Z101 Z101), ∀ u ∈ (ippChallenges (fun _ => (2 : Z101)) t ps).1, u = 2 := by
      intro ps
      induction ps with
      | nil => simp [ippChallenges]
      | cons p ps ih => intro t u hu; simp only [ippChallenges, Transcript.challengeScalar, List.mem_cons] at hu; rcases hu with rfl | hu; rfl; exact ih _ u hu
    intro u hu
    rw [this _ _ u hu]; decide

/-! ## C18 honest run on a false statement -/

/-- C18: the exact outcome of verifying an honestly computed proof, whatever the assignment: accepted if and only if
`r * x² * (Σ_q z^(q+1) * value of constraint q)` kills `g`; otherwise `VerificationError`. -/
theorem c18_exact_outcome [DecidableEq G] (env env' : Env F G) (hO : env.oracle = env'.oracle) (p p2 : Prover F G) (s : Verifier F G)
    (hs : Session env env' p s) (c : Coins F) (Gs Hs : List G)
    (hcrc : (p.start c Gs Hs).createRandomizedConstraints env = .ok p2)
    (hin : ∀ lc ∈ p2.constraints, ∀ t ∈ lc.terms, Var.InRange p2.aL.length p2.v.length t.1)
    (hsize : nextPowerOfTwo p2.aL.length < 2 ^ 32) (hG : nextPowerOfTwo p2.aL.length ≤ Gs.length) (hH : nextPowerOfTwo p2.aL.length ≤ Hs.length)
    (hb : 1 < p2.aL.length ∨ env'.batchInvert [] = .ok ([], 1)) :
    ∃ pr t', p.prove env c Gs Hs = .ok (pr, t') ∧
      ((drawn env.oracle p2.transcript pr).y ≠ 0 → (∀ u ∈ ippRounds env.oracle p2.transcript pr (nextPowerOfTwo p2.aL.length), u ≠ 0) → ∀ r : F,
        s.verify env' pr p.g p.h Gs Hs r =
          if (r * ((drawn env.oracle p2.transcript pr).x ^ 2 *
              zCombination (drawn env.oracle p2.transcript pr).z p2.constraints p2.assignment)) • p.g = 0
          then .ok t' else Res.err .verificationError) := by
  obtain ⟨hw, hst⟩ := hs.inStep hO
  exact honest_verify env env' hO p p2 s hw hst c Gs Hs hcrc hin (Nat.clog 2 p2.aL.length) rfl
    ((Nat.pow_lt_pow_iff_right (by omega)).mp hsize) hG hH (by
      refine hb.imp (fun h => ?_) id
      exact Nat.pos_iff_ne_zero.mp (Nat.clog_pos (by omega) h))

/-- C18: a violated constraint gets the proof rejected for every non-zero `r` and `x` and all `z` outside a set of at most `Q` values
that is fixed before `z` is drawn. -/
theorem c18_rejected [DecidableEq G] (env env' : Env F G) (hO : env.oracle = env'.oracle) (p p2 : Prover F G) (s : Verifier F G)
    (hs : Session env env' p s) (c : Coins F) (Gs Hs : List G) (hg : p.g ≠ 0)
    (hcrc : (p.start c Gs Hs).createRandomizedConstraints env = .ok p2) (hviol : ¬ p2.Satisfied)
    (hin : ∀ lc ∈ p2.constraints, ∀ t ∈ lc.terms, Var.InRange p2.aL.length p2.v.length t.1)
    (hsize : nextPowerOfTwo p2.aL.length < 2 ^ 32) (hG : nextPowerOfTwo p2.aL.length ≤ Gs.length) (hH : nextPowerOfTwo p2.aL.length ≤ Hs.length)
    (hb : 1 < p2.aL.length ∨ env'.batchInvert [] = .ok ([], 1)) :
    ∃ bad : Finset F, bad.card ≤ p2.constraints.length ∧ ∃ pr t', p.prove env c Gs Hs = .ok (pr, t') ∧
      ((drawn env.oracle p2.transcript pr).y ≠ 0 → (∀ u ∈ ippRounds env.oracle p2.transcript pr (nextPowerOfTwo p2.aL.length), u ≠ 0) →
        (drawn env.oracle p2.transcript pr).x ≠ 0 → (drawn env.oracle p2.transcript pr).z ∉ bad → ∀ r : F, r ≠ 0 →
        s.verify env' pr p.g p.h Gs Hs r = Res.err .verificationError) := by
  obtain ⟨bad, hc, hbad⟩ := c11_violation_survives p2.constraints p2.assignment hviol
  obtain ⟨pr, t', h1, h2⟩ := c18_exact_outcome env env' hO p p2 s hs c Gs Hs hcrc hin hsize hG hH hb
  refine ⟨bad, hc, pr, t', h1, fun hy h0 hx hz r hr => ?_⟩
  rw [h2 hy h0 r, if_neg]
  have hne : zCombination (drawn env.oracle p2.transcript pr).z p2.constraints p2.assignment ≠ 0 := fun h => hz (hbad _ h)
  rw [smul_eq_zero, not_or]
  exact ⟨mul_ne_zero hr (mul_ne_zero (pow_ne_zero 2 hx) hne), hg⟩

/-- The demo session with the wrong witness 3 * 5 violates a constraint. -/
example (c : Coins Z101) : ¬ (demoP2 3 5 c [1, 2, 3, 4] [5, 6, 7, 8]).Satisfied := by
  have : (demoP2 3 5 c [1, 2, 3, 4] [5, 6, 7, 8]).constraints.map (LC.value (demoP2 3 5 c [1, 2, 3, 4] [5, 6, 7, 8]).assignment) ≠ [0, 0, 0, 0, 0, 0] := by
    have e : ∀ c c', (demoP2 3 5 c [1, 2, 3, 4] [5, 6, 7, 8]).constraints.map (LC.value (demoP2 3 5 c [1, 2, 3, 4] [5, 6, 7, 8]).assignment) =
      (demoP2 3 5 c' [1, 2, 3, 4] [5, 6, 7, 8]).constraints.map (LC.value (demoP2 3 5 c' [1, 2, 3, 4] [5, 6, 7, 8]).assignment) := fun _ _ => rfl
    rw [e c ⟨0, 0, 0, 0, 0, 0, 0, 0, 0, 0, 0, 0, 0, 0, 0⟩]
    decide +kernel
  intro h
  apply this
  rw [List.map_congr_left (g := fun _ => (0 : Z101)) h]
  rfl

/-! ## C19 generator lengths -/

/-- C19: `prove` reports too few `G` generators for the first phase. -/
theorem c19_prove_short_first_phase (env : Env F G) (p : Prover F G) (c : Coins F) (Gs Hs : List G) (h : Gs.length < p.numMultipliers) (hw : p.WF) :
    p.prove env c Gs Hs = Res.err .invalidGeneratorsLength :=
  prove_short_G1 env p c Gs Hs (by rw [← hw.lenO]; exact h)

/-- C19: `prove` reports too few `G` generators for the padded total number of gates. -/
theorem c19_prove_short_total (env : Env F G) (p p2 : Prover F G) (c : Coins F) (Gs Hs : List G) (hw : p.WF) (hG : p.aL.length ≤ Gs.length)
    (hH : p.aL.length ≤ Hs.length) (hc : (p.start c Gs Hs).createRandomizedConstraints env = .ok p2) (hN : Gs.length < nextPowerOfTwo p2.aL.length) :
    p.prove env c Gs Hs = Res.err .invalidGeneratorsLength := prove_short_G2 env p p2 c Gs Hs hw hG hH hc hN

/-- C19: `verify` reports too few `G` generators. -/
theorem c19_verify_short [DecidableEq G] (env : Env F G) (s s2 : Verifier F G) (pr : R1CSProof F G) (g h : G) (Gs Hs : List G) (r : F)
    (hc : (s.start pr).createRandomizedConstraints env = .ok s2) (hN : Gs.length < nextPowerOfTwo s2.numVars) :
    s.verify env pr g h Gs Hs r = Res.err .invalidGeneratorsLength := by
  rw [verify_norm, hc]
  simp only
  rw [if_pos hN]

/-- C19: with enough `G` and `H` generators (and callbacks that succeed), `prove` does not report it: it returns a proof when all constraints
mention existing variables, and panics otherwise. -/
theorem c19_prove_enough (env : Env F G) (p p2 : Prover F G) (c : Coins F) (Gs Hs : List G) (hw : p.WF)
    (hc : (p.start c Gs Hs).createRandomizedConstraints env = .ok p2) (hG : nextPowerOfTwo p2.aL.length ≤ Gs.length) (hH : nextPowerOfTwo p2.aL.length ≤ Hs.length) :
    ((∃ pr t, p.prove env c Gs Hs = .ok (pr, t)) ↔ ∀ lc ∈ p2.constraints, ∀ t ∈ lc.terms, Var.InRange p2.aL.length p2.v.length t.1) ∧
    p.prove env c Gs Hs ≠ Res.err .invalidGeneratorsLength := by
  have hn1 : p.aL.length ≤ p2.aL.length := by
    obtain ⟨vs, hst⟩ := Prover.createRandomizedConstraints_steps hc
    exact hst.ext.lenL
  have := nextPowerOfTwo_ge p2.aL.length
  by_cases hin : ∀ lc ∈ p2.constraints, ∀ t ∈ lc.terms, Var.InRange p2.aL.length p2.v.length t.1
  · obtain ⟨pr, t', ch, wp, lp, rp, h1, -⟩ := prove_ok env p p2 c Gs Hs hw hc (Nat.clog 2 p2.aL.length) rfl hG hH hin
    rw [h1]
    exact ⟨⟨fun _ => hin, fun _ => ⟨pr, t', rfl⟩⟩, by simp [Res.err]⟩
  · obtain ⟨w, hp⟩ := prove_bad_panics env p p2 c Gs Hs hw (by omega) hc hG (.inr hin)
    rw [hp]
    exact ⟨⟨fun ⟨_, _, h⟩ => by simp [Res.panic] at h, fun h => absurd h hin⟩, by simp [Res.err, Res.panic]⟩

/-- C19: with enough generators `verify` does not report it either. -/
theorem c19_verify_enough [DecidableEq G] (env : Env F G) (s s2 : Verifier F G) (pr : R1CSProof F G) (g h : G) (Gs Hs : List G) (r : F)
    (hc : (s.start pr).createRandomizedConstraints env = .ok s2) (hN : nextPowerOfTwo s2.numVars ≤ Gs.length) :
    s.verify env pr g h Gs Hs r ≠ Res.err .invalidGeneratorsLength := by
  rw [verify_norm, hc]
  simp only
  rw [if_neg (by omega)]
  rcases Verifier.flattened_or s2 (drawn env.oracle s2.transcript pr).z with ⟨w, h⟩ | ⟨w, h⟩
  · rw [h]
    simp only [verifyTail]
    split
    · simp [Res.err]
    · simp [Res.err, Res.panic]
    · split
      · simp [Res.err, Res.panic]
      · unfold multiScalarMul
        split
        · rename_i e he
          split at he
          · simp at he
          · simp only [Res.panic, Except.error.injEq] at he
            subst he; simp [Res.err]
        · split <;> simp [Res.err]
  · rw [h]; simp [Res.err, Res.panic]

/-- C19: a short `H` is not checked: `prove` panics (first phase). -/
theorem c19_prove_short_H_panics (env : Env F G) (p : Prover F G) (c : Coins F) (Gs Hs : List G) (hw : p.WF) (hG : p.numMultipliers ≤ Gs.length)
    (hH : Hs.length < p.numMultipliers) : Panics (p.prove env c Gs Hs) :=
  prove_short_H1 env p c Gs Hs (by rw [← hw.lenO]; exact hG) (by rw [← hw.lenO]; exact hH)

/-- C19: a short `H` is not checked: `prove` panics (padded total). -/
theorem c19_prove_short_H_total_panics (env : Env F G) (p p2 : Prover F G) (c : Coins F) (Gs Hs : List G) (hw : p.WF) (hH1 : p.aL.length ≤ Hs.length)
    (hc : (p.start c Gs Hs).createRandomizedConstraints env = .ok p2) (hN : nextPowerOfTwo p2.aL.length ≤ Gs.length)
    (hH : Hs.length < nextPowerOfTwo p2.aL.length) : Panics (p.prove env c Gs Hs) :=
  prove_bad_panics env p p2 c Gs Hs hw hH1 hc hN (.inl hH)

/-- The demo prover has one first-phase gate and two in total: with one generator both checks are exercised. -/
example (c : Coins Z101) : (demoP 3 4).prove (Env.std (fun _ => 2)) c [] [] = Res.err .invalidGeneratorsLength ∧
    (demoP 3 4).prove (Env.std (fun _ => 2)) c [1] [1] = Res.err .invalidGeneratorsLength ∧
    Panics ((demoP 3 4).prove (Env.std (fun _ => 2)) c [1, 2] []) ∧ Panics ((demoP 3 4).prove (Env.std (fun _ => 2)) c [1, 2] [3]) := by
  have hw := ((demo_session 3 4).inStep rfl).1
  refine ⟨c19_prove_short_first_phase _ _ c _ _ (by show 0 < 1; omega) hw, ?_, c19_prove_short_H_panics _ _ c _ _ hw (by show 1 ≤ 2; omega) (by show 0 < 1; omega), ?_⟩
  · refine c19_prove_short_total _ _ (demoP2 3 4 c [1] [1]) c _ _ hw (by show 1 ≤ 1; omega) (by show 1 ≤ 1; omega) rfl ?_
    have : (demoP2 3 4 c [1] [1]).aL.length = 2 := rfl
    rw [this]; decide +kernel
  · refine c19_prove_short_H_total_panics _ _ (demoP2 3 4 c [1, 2] [3]) c _ _ hw (by show 1 ≤ 1; omega) rfl ?_ ?_
    · have : (demoP2 3 4 c [1, 2] [3]).aL.length = 2 := rfl
      rw [this]; decide +kernel
    · have : (demoP2 3 4 c [1, 2] [3]).aL.length = 2 := rfl
      rw [this]; decide +kernel

/-! ## C20 batching -/

/-- C20: `verify` accepts for two different batching scalars only if the polynomial-commitment equation and the inner-product
equation both hold. -/
theorem c20_two_scalars [DecidableEq G] (env : Env F G) (s : Verifier F G) (pr : R1CSProof F G) (g h : G) (Gs Hs : List G) (r r' : F) (hr : r ≠ r')
    (t t' : Transcript F G) (h1 : s.verify env pr g h Gs Hs r = .ok t) (h2 : s.verify env pr g h Gs Hs r' = .ok t')
    (h0 : ∀ s2, (s.start pr).createRandomizedConstraints env = .ok s2 → ∀ u ∈ ippRounds env.oracle s2.transcript pr (nextPowerOfTwo s2.numVars), u ≠ 0)
    (hb : pr.ipp.L ≠ [] ∨ env.batchInvert [] = .ok ([], 1)) :
    ∃ s2 wt, (s.start pr).createRandomizedConstraints env = .ok s2 ∧ s2.flattenedConstraints (drawn env.oracle s2.transcript pr).z = .ok wt ∧
      polyCheck s2.V pr g h wt s2.numVars (drawn env.oracle s2.transcript pr) = 0 ∧
      ippCheck s.numVars (nextPowerOfTwo s2.numVars) pr g h (Gs.take (nextPowerOfTwo s2.numVars)) (Hs.take (nextPowerOfTwo s2.numVars)) wt
        (drawn env.oracle s2.transcript pr) (ippRounds env.oracle s2.transcript pr (nextPowerOfTwo s2.numVars)) = 0 := by
  obtain ⟨s2, wt, k, i1, i2, i3, i4, i5, i6, i7, i8, i9⟩ := verify_inv h1
  have hb' : k ≠ 0 ∨ env.batchInvert [] = .ok ([], 1) := hb.imp (fun h hk => h (List.length_eq_zero_iff.mp (i7.trans hk))) id
  have key := fun r => verify_eq env s s2 pr g h Gs Hs r i1 k i2 i3 i4 i5 _ rfl wt i6 i7 i8 _ rfl (by rw [← i2]; exact h0 s2 i1) hb'
  refine ⟨s2, wt, i1, i6, ?_⟩
  rw [i2]
  rw [key] at h1 h2
  split at h1
  swap
  · simp [Res.err] at h1
  rename_i e1
  split at h2
  swap
  · simp [Res.err] at h2
  rename_i e2
  have hp : polyCheck s2.V pr g h wt s2.numVars (drawn env.oracle s2.transcript pr) = 0 := by
    have : (r - r') • polyCheck s2.V pr g h wt s2.numVars (drawn env.oracle s2.transcript pr) = 0 := by
      rw [sub_smul]
      have := e1.trans e2.symm
      exact sub_eq_zero.mpr (add_left_cancel this)
    exact (smul_eq_zero.mp this).resolve_left (sub_ne_zero.mpr hr)
  refine ⟨hp, ?_⟩
  rw [hp, smul_zero, add_zero] at e1
  exact e1

/-- C20: if the proof is rejected for some batching scalar, then it is accepted for at most one. -/
theorem c20_at_most_one_bad_scalar [DecidableEq G] (env : Env F G) (s : Verifier F G) (pr : R1CSProof F G) (g h : G) (Gs Hs : List G) (r0 r r' : F)
    (hrej : ∀ t, s.verify env pr g h Gs Hs r0 ≠ .ok t) (t t' : Transcript F G)
    (h1 : s.verify env pr g h Gs Hs r = .ok t) (h2 : s.verify env pr g h Gs Hs r' = .ok t')
    (h0 : ∀ s2, (s.start pr).createRandomizedConstraints env = .ok s2 → ∀ u ∈ ippRounds env.oracle s2.transcript pr (nextPowerOfTwo s2.numVars), u ≠ 0)
    (hb : pr.ipp.L ≠ [] ∨ env.batchInvert [] = .ok ([], 1)) : r = r' := by
  by_contra hr
  obtain ⟨s2, wt, i1, i6, hp, hi⟩ := c20_two_scalars env s pr g h Gs Hs r r' hr t t' h1 h2 h0 hb
  obtain ⟨s2', wt', k, j1, i2, i3, i4, i5, j6, i7, i8, i9⟩ := verify_inv h1
  rw [i1] at j1
  cases j1
  rw [i6] at j6
  cases j6
  have hb' : k ≠ 0 ∨ env.batchInvert [] = .ok ([], 1) := hb.imp (fun h hk => h (List.length_eq_zero_iff.mp (i7.trans hk))) id
  have key := verify_eq env s s2 pr g h Gs Hs r0 i1 k i2 i3 i4 i5 _ rfl wt i6 i7 i8 _ rfl (by rw [← i2]; exact h0 s2 i1) hb'
  rw [i2] at hi
  rw [if_pos] at key
  · exact hrej _ key
  · rw [hp, smul_zero, add_zero]; exact hi

end Bp
