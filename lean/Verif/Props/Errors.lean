import Verif.Props.Api
import Verif.Props.Sizes
import Verif.Props.Total
import Verif.Props.Range
import Verif.Props.Request

/-! # C99: what the errors mean -/

set_option linter.unusedSectionVars false

namespace Bp
variable {F G : Type} [Field F] [AddCommGroup G]

variable [Module F G]

/-- **C99**, proving: for every circuit, with callbacks or without, the errors of `prove` are exactly these: `InvalidGeneratorsLength` if there are fewer `G` than gates of the first phase; the error of a callback;
`InvalidGeneratorsLength` if there are fewer `G` than the padded number of all gates.  (A vector `H` shorter than the first phase is a panic before the callbacks are called.) -/
theorem c99_prove (env : Env F G) (p : Prover F G) (hw : p.WF) (c : Coins F) (Gs Hs : List G) (e : R1CSError) :
    p.prove env c Gs Hs = Res.err e ↔ (e = .invalidGeneratorsLength ∧ Gs.length < p.numMultipliers) ∨
      (p.numMultipliers ≤ Gs.length ∧ p.numMultipliers ≤ Hs.length ∧ ((p.start c Gs Hs).createRandomizedConstraints env = Res.err e ∨
        ∃ p2, (p.start c Gs Hs).createRandomizedConstraints env = .ok p2 ∧ e = .invalidGeneratorsLength ∧ Gs.length < nextPowerOfTwo p2.numMultipliers)) := by
  have hm : p.numMultipliers = p.aL.length := hw.lenO
  rw [hm]
  by_cases hG : Gs.length < p.aL.length
  · rw [prove_short_G1 env p c Gs Hs hG]
    constructor
    · intro he
      cases he
      exact .inl ⟨rfl, hG⟩
    · rintro (⟨rfl, -⟩ | ⟨h1, -⟩)
      · rfl
      · omega
  rw [not_lt] at hG
  by_cases hH : Hs.length < p.aL.length
  · obtain ⟨w, hp⟩ := prove_short_H1 env p c Gs Hs hG hH
    rw [hp]
    constructor
    · intro he; cases he
    · rintro (⟨-, h1⟩ | ⟨-, h1, -⟩) <;> omega
  rw [not_lt] at hH
  cases hc : (p.start c Gs Hs).createRandomizedConstraints env with
  | error e' =>
    rw [prove_crc_error env p c Gs Hs hw hG hH e' hc]
    constructor
    · intro he; exact .inr ⟨hG, hH, .inl (by cases he; rfl)⟩
    · rintro (⟨-, h1⟩ | ⟨-, -, h1 | ⟨p2, h1, -⟩⟩)
      · omega
      · cases h1; rfl
      · cases h1
  | ok p2 =>
    have hws : (p.start c Gs Hs).WF := by cases hw; constructor <;> assumption
    have hw2 : p2.WF := by
      obtain ⟨vs, hst⟩ := Prover.createRandomizedConstraints_steps hc
      exact hst.ext.wf hws
    have hm2 : p2.numMultipliers = p2.aL.length := hw2.lenO
    by_cases hN : Gs.length < nextPowerOfTwo p2.aL.length
    · rw [prove_short_G2 env p p2 c Gs Hs hw hG hH hc hN]
      constructor
      · intro he
        cases he
        exact .inr ⟨hG, hH, .inr ⟨p2, rfl, rfl, by rw [hm2]; exact hN⟩⟩
      · rintro (⟨rfl, -⟩ | ⟨-, -, h1 | ⟨_, -, rfl, -⟩⟩)
        · rfl
        · cases h1
        · rfl
    rw [not_lt] at hN
    have hno : ∀ e, p.prove env c Gs Hs ≠ Res.err e := by
      intro e he
      by_cases hbad : Hs.length < nextPowerOfTwo p2.aL.length ∨ ¬ ∀ lc ∈ p2.constraints, ∀ t ∈ lc.terms, Var.InRange p2.aL.length p2.v.length t.1
      · obtain ⟨w, hp⟩ := prove_bad_panics env p p2 c Gs Hs hw hH hc hN hbad
        rw [hp] at he
        cases he
      · rw [not_or, not_lt, not_not] at hbad
        obtain ⟨pr, t, h3⟩ := (c19_prove_enough env p p2 c Gs Hs hw hc hN hbad.1).1.mpr hbad.2
        rw [h3] at he
        cases he
    constructor
    · intro he; exact absurd he (hno e)
    · rintro (⟨-, h1⟩ | ⟨-, -, h1 | ⟨p3, h1, -, h2⟩⟩)
      · omega
      · cases h1
      · cases h1
        rw [hm2] at h2
        omega

/-- **C99**, verifying: for every circuit and every proof, well-formed or not, an error of `verify` is `VerificationError`, or `InvalidGeneratorsLength`, and then there are fewer `G` than the padded number of gates,
or the error of a callback. -/
theorem c99_verify [DecidableEq G] (env : Env F G) (s : Verifier F G) (pr : R1CSProof F G) (g h : G) (Gs Hs : List G) (r : F) (e : R1CSError) (he : s.verify env pr g h Gs Hs r = Res.err e) :
    (s.start pr).createRandomizedConstraints env = Res.err e ∨ ∃ s2, (s.start pr).createRandomizedConstraints env = .ok s2 ∧
      ((e = .invalidGeneratorsLength ∧ Gs.length < nextPowerOfTwo s2.numVars) ∨ (e = .verificationError ∧ nextPowerOfTwo s2.numVars ≤ Gs.length)) := by
  rw [verify_norm] at he
  cases hc : (s.start pr).createRandomizedConstraints env with
  | error e' => rw [hc] at he; exact .inl (by cases he; rfl)
  | ok s2 =>
    rw [hc] at he
    refine .inr ⟨s2, rfl, ?_⟩
    simp only at he
    split at he
    · next hN => cases he; exact .inl ⟨rfl, hN⟩
    · next hN =>
      refine .inr ⟨?_, by omega⟩
      rcases Verifier.flattened_or s2 (drawn env.oracle s2.transcript pr).z with ⟨w, h⟩ | ⟨w, h⟩
      · rw [h] at he
        simp only [verifyTail] at he
        split at he
        · cases he; rfl
        · cases he
        · split at he
          · cases he
          · split at he
            · next e' hm =>
              unfold multiScalarMul at hm
              split at hm
              · cases hm
              · cases hm; cases he
            · split at he
              · cases he
              · cases he; rfl
      · rw [h] at he
        cases he

variable [ByteRep F]

/-- **C99**, the verifying functions: one or several on one verifier, with the right number of commitments and parameters with which they run, on every proof.  `InvalidGeneratorsLength` is returned exactly if there are
too few `G` for the statements, whatever the proof is; every other error is `VerificationError`. -/
theorem c99_statements [DecidableEq G] (env : Env F G) (label : String) (g h : G) (stmts : List (Stmt F)) (hr : ∀ st ∈ stmts, st.Runs) (coms : List G) (hl : coms.length = totalSize stmts) (pr : R1CSProof F G)
    (Gs Hs : List G) (r : F) :
    (verifyProof env label (verifyStmts env g h stmts coms) pr g h Gs Hs r = Res.err .invalidGeneratorsLength ↔ Gs.length < nextPowerOfTwo (totalGates stmts)) ∧
    ∀ e, verifyProof env label (verifyStmts env g h stmts coms) pr g h Gs Hs r = Res.err e → e = .invalidGeneratorsLength ∨ e = .verificationError := by
  obtain ⟨s, hs, -⟩ := c81_statements env g h stmts hr coms hl (Verifier.new [.init label]) rfl
  have key : ∀ e, verifyProof env label (verifyStmts env g h stmts coms) pr g h Gs Hs r = Res.err e ↔ s.verify env pr g h Gs Hs r = Res.err e := by
    intro e
    unfold verifyProof
    rw [hs]
    simp only
    cases s.verify env pr g h Gs Hs r with
    | ok x => exact ⟨fun h => (by cases h), fun h => (by cases h)⟩
    | error x => exact ⟨fun h => (by cases h; rfl), fun h => (by cases h; rfl)⟩
  refine ⟨by rw [key]; exact c65_generators env g h label stmts coms hl.ge hs pr g h Gs Hs r, fun e he => ?_⟩
  rw [key] at he
  have hdef : (s.start pr).deferred = [] := (OnePhase.stmts env g h stmts coms _ _ _ hs).1
  have hcrc : (s.start pr).createRandomizedConstraints env = .ok { s.start pr with pending := none, transcript := (s.start pr).transcript.r1cs1PhaseDomainSep } := by
    unfold Verifier.createRandomizedConstraints
    simp only [hdef, List.length_nil, if_true]
  rcases c99_verify env s pr g h Gs Hs r e he with h1 | ⟨s2, -, h1 | h1⟩
  · rw [hcrc] at h1; cases h1
  · exact .inl h1.1
  · exact .inr h1.1

/-- **C99**, one verifying function of the API. -/
theorem c99_check [DecidableEq G] (env : Env F G) (st : Stmt F) (hr : st.Runs) (coms : List G) (hl : coms.length = st.size) (pr : R1CSProof F G) (label : String) (g h : G) (Gs Hs : List G) (r : F) :
    (st.check env pr coms label g h Gs Hs r = Res.err .invalidGeneratorsLength ↔ Gs.length < nextPowerOfTwo st.gates) ∧
    ∀ e, st.check env pr coms label g h Gs Hs r = Res.err e → e = .invalidGeneratorsLength ∨ e = .verificationError := by
  rw [c89_check st env pr hl label g h Gs Hs r]
  have h1 : totalGates [st] = st.gates := by simp [totalGates]
  have := c99_statements env label g h [st] (by intro st' h'; rw [List.mem_singleton.mp h']; exact hr) coms (by simpa [totalSize] using hl) pr Gs Hs r
  rwa [h1] at this

/-- **C99**, the proving functions: one or several on one prover, with any secret inputs, true or not.  Provided `H` is not shorter than the number of gates, the only error is `InvalidGeneratorsLength`, and it is
returned exactly if there are too few `G`: `FormatError`, `MissingAssignment`, `GadgetError` and `VerificationError` never are. -/
theorem c99_proof {stmts : List (Stmt F)} {dp : Env F G → Drv (Prover F G) (List G)} (hq : Requests stmts dp) (hst : ∀ st ∈ stmts, st.Runs) (env : Env F G) (label : String) (g h : G) (c : Coins F) (Gs Hs : List G)
    (hH : totalGates stmts ≤ Hs.length) (e : R1CSError) :
    genProof env label g h c Gs Hs (dp env) = Res.err e ↔ e = .invalidGeneratorsLength ∧ Gs.length < nextPowerOfTwo (totalGates stmts) := by
  obtain ⟨coms, p, e1, hl⟩ := c87_commitments hq hst env label g h
  obtain ⟨-, s, hv, J⟩ := hq.verified (.new _ _ g h [.init label] 0 0) e1
  obtain ⟨hw, hi⟩ := J.inStep rfl
  obtain ⟨hgates, -, -⟩ := c65_list env g h label stmts coms hl.ge hv
  have hdef : (p.start c Gs Hs).deferred = [] := by
    have := hi.deferred
    rw [(OnePhase.stmts _ g h stmts coms _ _ _ hv).1] at this
    exact List.forall₂_nil_right_iff.mp this
  have hcrc : (p.start c Gs Hs).createRandomizedConstraints env = .ok { p.start c Gs Hs with pending := none, transcript := (p.start c Gs Hs).transcript.r1cs1PhaseDomainSep } := by
    unfold Prover.createRandomizedConstraints
    simp only [hdef, List.length_nil, if_true]
  have hn : p.aL.length = totalGates stmts := by rw [← hi.num, hgates]
  have hm : p.numMultipliers = totalGates stmts := (show p.numMultipliers = p.aL.length from hw.lenO).trans hn
  have key : genProof env label g h c Gs Hs (dp env) = Res.err e ↔ p.prove env c Gs Hs = Res.err e := by
    unfold genProof
    rw [e1]
    simp only
    cases p.prove env c Gs Hs with
    | ok x => exact ⟨fun h => (by cases h), fun h => (by cases h)⟩
    | error x => exact ⟨fun h => (by cases h; rfl), fun h => (by cases h; rfl)⟩
  have hnN := nextPowerOfTwo_ge (totalGates stmts)
  rw [key, c99_prove env p hw c Gs Hs e, hcrc, hm]
  constructor
  · rintro (⟨h1, h2⟩ | ⟨-, -, h1 | ⟨p2, h1, h2, h3⟩⟩)
    · exact ⟨h1, by omega⟩
    · cases h1
    · cases h1
      refine ⟨h2, ?_⟩
      have h3' : Gs.length < nextPowerOfTwo p.numMultipliers := h3
      rwa [hm] at h3'
  · rintro ⟨h1, h2⟩
    by_cases hG : Gs.length < totalGates stmts
    · exact .inl ⟨h1, hG⟩
    · exact .inr ⟨by omega, hH, .inr ⟨_, rfl, h1, by show Gs.length < nextPowerOfTwo p.numMultipliers; rwa [hm]⟩⟩

/-! ## Cases -/

/-- A membership and a non-zero statement: with three `G` generators the error is `InvalidGeneratorsLength`, although the inputs are false; with eight there is none. -/
example (c : Coins Z101) (Hs : List Z101) (hH : Hs.length = 8) (e : R1CSError) :
    genProof (Env.std fun _ => 2 : Env Z101 Z101) "set" 1 5 c [2, 3, 4] Hs (refutedRun (Env.std fun _ => 2)) = Res.err .invalidGeneratorsLength ∧
    genProof (Env.std fun _ => 2 : Env Z101 Z101) "set" 1 5 c [2, 3, 4, 5, 6, 7, 8, 9] Hs (refutedRun (Env.std fun _ => 2)) ≠ Res.err e := by
  have hst : ∀ st ∈ [Stmt.setMembership ([2, 3, 5] : List Z101), .nonZero], st.Runs := by
    intro st hst; simp only [List.mem_cons, List.not_mem_nil, or_false] at hst; rcases hst with rfl | rfl <;> trivial
  have hs : totalGates [Stmt.setMembership ([2, 3, 5] : List Z101), .nonZero] ≤ Hs.length := by rw [hH]; decide +kernel
  refine ⟨(c99_proof refuted_requests hst _ "set" 1 5 c _ Hs hs _).mpr ⟨rfl, by decide +kernel⟩, fun h1 => ?_⟩
  exact absurd ((c99_proof refuted_requests hst _ "set" 1 5 c _ Hs hs _).mp h1).2 (by decide +kernel)

/-- The verifying function for "not zero", with any proof: no generators, one too few, enough. -/
example (pr : R1CSProof Z101 Z101) (r x y : Z101) :
    Stmt.nonZero.check (Env.std fun _ => 2) pr [x, y] "nz" 1 5 [2] [3, 4] r = Res.err .invalidGeneratorsLength ∧
    ∀ e, Stmt.nonZero.check (Env.std fun _ => 2) pr [x, y] "nz" 1 5 [2, 3] [3, 4] r = Res.err e → e = .verificationError := by
  have h1 := c99_check (Env.std fun _ => 2) (.nonZero : Stmt Z101) trivial [x, y] rfl pr "nz" 1 5 [2] [3, 4] r
  have h2 := c99_check (Env.std fun _ => 2) (.nonZero : Stmt Z101) trivial [x, y] rfl pr "nz" 1 5 [2, 3] [3, 4] r
  refine ⟨h1.1.mpr (by decide +kernel), fun e he => (h2.2 e he).resolve_left fun h3 => ?_⟩
  subst h3
  exact absurd (h2.1.mp he) (by decide +kernel)

/-- A circuit whose callback gives up: the error of the callback is the error of `prove` and of `verify`. -/
example (c : Coins Z101) (Gs Hs : List Z101) : ((Prover.new (F := Z101) (G := Z101) 1 5 [.init "x"]).specify (.err .missingAssignment)).prove (Env.std fun _ => 2) c Gs Hs = Res.err .missingAssignment :=
  (c99_prove _ _ (by constructor <;> simp [Prover.specify, Prover.new]) c Gs Hs _).mpr (.inr ⟨Nat.zero_le _, Nat.zero_le _, .inl rfl⟩)

example (pr : R1CSProof Z101 Z101) (Gs Hs : List Z101) (r : Z101) (e : R1CSError) (he : ((Verifier.new (F := Z101) (G := Z101) [.init "x"]).specify (.err .missingAssignment)).verify (Env.std fun _ => 2) pr 1 5 Gs Hs r = Res.err e) :
    e = .missingAssignment := by
  rcases c99_verify _ _ pr 1 5 Gs Hs r e he with h1 | ⟨s2, h1, -⟩
  · cases h1; rfl
  · cases h1

end Bp
