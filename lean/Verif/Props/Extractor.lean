import Verif.Lemmas.Extractor
import Verif.Props.Interactive

/-! # C68: the extractor takes polynomial time on average -/

namespace Bp
variable {F G : Type} [Field F] [AddCommGroup G] [Module F G] [DecidableEq F] [Fintype F]

/-- **C68**, for any protocol in which the verifier's draws are random: `W` says which challenges are accepted, `thr` how many challenges of each draw are not enough.  The extractor runs the prover at most `∏ (m + 1)` times on average,
however seldom or often the prover is accepted. -/
theorem c68_expected_runs (W : List F → Bool) (thr : List ℕ) : (extractor thr []).runs W ≤ (thr.map fun m : ℕ => (m : ℚ) + 1).prod := extractor_runs W thr []

/-- **C68**, its success: if `ε` is the fraction of challenges that are accepted, then it finds enough challenges with probability at least `ε - (∑ m) / |F|`. -/
theorem c68_success (W : List F → Bool) (thr : List ℕ) :
    (Nat.card {cs : Fin thr.length → F // W (List.ofFn cs) = true} : ℚ) / Fintype.card F ^ thr.length - thr.sum / Fintype.card F ≤ (extractor thr []).success W := by
  have := extractor_success W thr []
  simpa [count] using this

/-- **C68**, what it finds: the branches are accepted, and there are `m + 1` different challenges at each draw.  (It always stops, and finds something if this is likely.) -/
theorem c68_found (W : List F → Bool) (thr : List ℕ) : (∀ b, (extractor thr []).Outcome W (some b) → b.Good W thr []) ∧ (extractor thr []).expect W (fun _ => 1) = 1 ∧
    (0 < (extractor thr []).success W → ∃ b, (extractor thr []).Outcome W (some b)) :=
  ⟨extractor_good thr [], (extractor_proper thr []).expect_const W 1, Rewinding.outcome_of_success W⟩

variable [DecidableEq G]

/-- **C68**: `P` is any interactive prover, as in C62: `s` is the verifier when `verify` is called, `s2` after the randomized constraints, for which the challenges were `pre`; it has `q` constraints and at most `2^k` gates.  The extractor runs
`P` at most `252 (2^k + 1) (q + 1) 8^k` times on average.  It succeeds with a probability of at least that with which `P` is accepted, less `κ / |F|`, with `κ = 2^k + q + 7 k + 14`.  If it does, what it has found determines a full tree of
accepted answers of `P`, all of which it has seen; so one can compute values of all gates that satisfy the constraints, up to multiples of `h`, or a non-trivial relation between the generators. -/
theorem c68_extract {env : Env F G} (hb : env.batchInvert [] = .ok ([], 1)) (P : Interactive F G) {s s2 : Verifier F G} {g h : G} {Gs Hs : List G} {k : ℕ} (pre : List F)
    (hd : (draws s2.transcript).length = pre.length) (hcrc : (s.start (P.proof 0 0 [])).createRandomizedConstraints { env with oracle := publicCoins pre } = .ok s2) (hN : nextPowerOfTwo s2.numVars = 2 ^ k) :
    (extractor (needed k s2.constraints.length) []).runs (P.accepted env s g h Gs Hs pre k) ≤ 252 * (2 ^ k + 1) * (s2.constraints.length + 1) * 8 ^ k ∧
      (Nat.card {p : (Fin (5 + k) → F) × F // P.Convinces env s g h Gs Hs pre.length k (pre ++ List.ofFn p.1) p.2} : ℚ) / Fintype.card F ^ (6 + k) - knowledgeError k s2.constraints.length / Fintype.card F ≤
        (extractor (needed k s2.constraints.length) []).success (P.accepted env s g h Gs Hs pre k) ∧
      ∀ b, (extractor (needed k s2.constraints.length) []).Outcome (P.accepted env s g h Gs Hs pre k) (some b) →
        ∃ t : R1CSTree F G k s2.constraints.length, t.Full ∧ t.Accepted s s2 g h Gs Hs ∧ t.AnswersOf P pre ∧
          (∀ a b' c d e L R us α β, (((((t.ys a).zs b').us c).xs d).ipp e).Path L R us α β → ∃ r, b.Path (t.challenges a b' c d e us ++ [r])) ∧
          ((∀ v, (t.assignment s.numVars s2.weights s2.numVars v).Gates ∧
              ∀ j (hj : j < s2.constraints.length), (s2.constraints[j]).commitment (t.assignment s.numVars s2.weights s2.numVars v) g s2.V = t.blinding j • h) ∨
            ∃ ρ ∈ t.relations s.numVars s2.weights, ¬ ρ.Trivial (2 ^ k) ∧ ρ.value (2 ^ k) g h (Gs.take (2 ^ k)) (Hs.take (2 ^ k)) = 0) := by
  refine ⟨(extractor_runs _ _ []).trans (le_of_eq (needed_prod _ _)), ?_, fun b ho => ?_⟩
  · have h1 := extractor_success (P.accepted env s g h Gs Hs pre k) (needed k s2.constraints.length) []
    rw [needed_length, needed_sum] at h1
    refine le_trans (sub_le_sub_right (div_le_div_of_nonneg_right ?_ (by positivity)) _) h1
    exact_mod_cast card_accepted P pre
  · obtain ⟨t, h1, h2, h3, h4⟩ := branches_tree hb P pre hd hcrc hN (extractor_good _ [] b ho)
    refine ⟨t, h1, h2, h3, h4, ?_⟩
    by_cases hr : ∃ ρ ∈ t.relations s.numVars s2.weights, ¬ ρ.Trivial (2 ^ k) ∧ ρ.value (2 ^ k) g h (Gs.take (2 ^ k)) (Hs.take (2 ^ k)) = 0
    · exact .inr hr
    · exact .inl fun v => (c21_special_soundness t s s2 g h Gs Hs hN rfl h1 h2 v).resolve_right hr

/-- **C68** for statements without randomized constraints (all gadgets are): whenever the extractor succeeds, the prover has convinced the verifier in the sense of C22, C23 and so on, with answers that the extractor has seen. -/
theorem c68_statement {env : Env F G} (hb : env.batchInvert [] = .ok ([], 1)) (P : Interactive F G) {label : String} {dv : Drv (Verifier F G) Unit} (h1 : OnePhase dv) {s : Verifier F G}
    (hs : dv (Verifier.new [.init label]) = (.ok (), s)) {g h : G} {Gs Hs : List G} {k : ℕ} (hk : k = Nat.clog 2 s.numVars) :
    (extractor (needed k s.constraints.length) []).runs (P.accepted env s g h Gs Hs [] k) ≤ 252 * (2 ^ k + 1) * (s.constraints.length + 1) * 8 ^ k ∧
      (Nat.card {p : (Fin (5 + k) → F) × F // P.Convinces env s g h Gs Hs 0 k (List.ofFn p.1) p.2} : ℚ) / Fintype.card F ^ (6 + k) - knowledgeError k s.constraints.length / Fintype.card F ≤
        (extractor (needed k s.constraints.length) []).success (P.accepted env s g h Gs Hs [] k) ∧
      ∀ b, (extractor (needed k s.constraints.length) []).Outcome (P.accepted env s g h Gs Hs [] k) (some b) →
        ∃ (t : R1CSTree F G k s.constraints.length) (s2 : Verifier F G), Convincing t label dv g h Gs Hs s s2 ∧ t.AnswersOf P [] ∧
          ∀ a b' c d e L R us α β, (((((t.ys a).zs b').us c).xs d).ipp e).Path L R us α β → ∃ r, b.Path (t.challenges a b' c d e us ++ [r]) := by
  have hdef : s.deferred = [] := (h1 _ _ _ hs).1
  have hnd := h1.noDraw hs
  let s2 : Verifier F G := { s.start (P.proof 0 0 []) with pending := none, transcript := (s.start (P.proof 0 0 [])).transcript.r1cs1PhaseDomainSep }
  have hcrc : (s.start (P.proof 0 0 [])).createRandomizedConstraints { env with oracle := publicCoins [] } = .ok s2 := by
    have hdef' : (s.start (P.proof 0 0 [])).deferred = [] := hdef
    unfold Verifier.createRandomizedConstraints
    simp only [hdef', List.length_nil, if_true, s2]
  have hd : (draws s2.transcript).length = 0 := by
    show (drawsFrom [] _).length = 0
    rw [drawsFrom_none]
    · rfl
    · intro e he
      have he : e ∈ (s.transcript : List (TEvent F G)) ++ [.u64 "m" s.V.length, .point "A_I1" P.A_I1, .point "A_O1" P.A_O1, .point "S1" P.S1, .domSep "r1cs-1phase"] := by
        have : s2.transcript = (s.transcript : List (TEvent F G)) ++ [.u64 "m" s.V.length, .point "A_I1" P.A_I1, .point "A_O1" P.A_O1, .point "S1" P.S1, .domSep "r1cs-1phase"] := by
          simp [s2, Transcript.r1cs1PhaseDomainSep, Verifier.start, log1, Interactive.proof]
        rw [← this]; exact he
      rcases List.mem_append.mp he with he | he
      · exact hnd e he
      · simp only [List.mem_cons, List.not_mem_nil, or_false] at he
        rcases he with rfl | rfl | rfl | rfl | rfl <;> rfl
  have hN : nextPowerOfTwo s2.numVars = 2 ^ k := by rw [hk]; rfl
  obtain ⟨e1, e2, e3⟩ := c68_extract (s2 := s2) (g := g) (h := h) (Gs := Gs) (Hs := Hs) hb P [] hd hcrc hN
  refine ⟨e1, e2, fun b ho => ?_⟩
  obtain ⟨t, a, b', c, d, -⟩ := e3 b ho
  exact ⟨t, s2, ⟨hs, hN, rfl, a, b'⟩, c, d⟩

/-! ## The hypotheses are met -/

/-- The session of C17 with a randomized constraint: the extractor succeeds against the code's prover more often than not, so that it finds something. -/
example (c : Coins Z101) : ∃ b : Branches Z101, (extractor (needed 1 6) []).Outcome ((demoInteractive c).accepted (Env.std fun _ => 2) demoIV 1 5 [1, 2, 3, 4] [5, 6, 7, 8] [2] 1) (some b) ∧
    ∃ t : R1CSTree Z101 Z101 1 6, t.Full ∧ t.Accepted demoIV (demoIV2 c) 1 5 [1, 2, 3, 4] [5, 6, 7, 8] ∧ t.AnswersOf (demoInteractive c) [2] := by
  obtain ⟨-, h2, h3⟩ := c68_extract (env := Env.std fun _ => 2) (g := (1 : Z101)) (h := 5) (Gs := [1, 2, 3, 4]) (Hs := [5, 6, 7, 8]) (by simp [Env.std]) (demoInteractive c) (s := demoIV) (s2 := demoIV2 c) (k := 1) [2] rfl rfl
    (show nextPowerOfTwo 2 = 2 ^ 1 by decide +kernel)
  have hq : (demoIV2 c).constraints.length = 6 := rfl
  have hpos : 0 < (extractor (needed 1 (demoIV2 c).constraints.length) []).success ((demoInteractive c).accepted (Env.std fun _ => 2) demoIV 1 5 [1, 2, 3, 4] [5, 6, 7, 8] [2] 1) := by
    refine lt_of_lt_of_le ?_ h2
    have h4 := demoInteractive_accepted c
    have h4' : (((Fintype.card Z101 - 1) ^ (1 + 1) * Fintype.card Z101 ^ 5 : ℕ) : ℚ) ≤ _ := Nat.cast_le.mpr h4
    refine lt_of_lt_of_le ?_ (sub_le_sub_right (div_le_div_of_nonneg_right h4' (by positivity)) _)
    rw [hq, ZMod.card]
    norm_num [knowledgeError]
  obtain ⟨b, hb⟩ := (c68_found _ _).2.2 hpos
  obtain ⟨t, t1, t2, t3, -⟩ := h3 b hb
  exact ⟨b, hb, t, t1, t2, t3⟩

/-- The code's prover for `3 * 16 = 48`. -/
example (c : Coins Z101) : ∃ (P : Interactive Z101 Z101) (b : Branches Z101) (t : R1CSTree Z101 Z101 0 3) (s2 : Verifier Z101 Z101),
    (extractor (needed 0 3) []).Outcome (P.accepted (Env.std fun _ => 2) demoFactorsV 1 5 [2] [3] [] 0) (some b) ∧
    Convincing t "f" (verifyFactors (Env.std fun _ => 2) 0 48 [3 • 1 + 7 • 5, 16 • 1 + 8 • 5]) 1 5 [2] [3] demoFactorsV s2 ∧ t.AnswersOf P [] := by
  obtain ⟨coms, p, s, -, e2, e3, e4, e5⟩ := c62_gadget (c60_complete (Env.std fun _ => (2 : Z101)) (Env.std fun _ => 2) rfl (3, 7) (16, 8) [] 48 (by decide) none) rfl (OnePhase.factors _ 0 48) (by decide +kernel)
    (.inr (by simp [Env.std])) "f" (1 : Z101) 5 c [2] [3] (by decide +kernel) (by decide +kernel)
  have e4 : coms = [(3 : Z101) • 1 + (7 : Z101) • 5, (16 : Z101) • 1 + (8 : Z101) • 5] := e4
  have es : s = demoFactorsV := by
    rw [e4] at e2
    exact (congrArg Prod.snd e2).symm
  subst es
  subst e4
  obtain ⟨-, h2, h3⟩ := c68_statement (env := Env.std fun _ => 2) (g := (1 : Z101)) (h := 5) (Gs := [2]) (Hs := [3]) (by simp [Env.std]) (p.interactive (Env.std fun _ => 2) c [2] [3] 0) (OnePhase.factors _ 0 48 _) e2 (k := 0) rfl
  have hq : demoFactorsV.constraints.length = 3 := rfl
  have hpos : 0 < (extractor (needed 0 demoFactorsV.constraints.length) []).success ((p.interactive (Env.std fun _ => 2) c [2] [3] 0).accepted (Env.std fun _ => 2) demoFactorsV 1 5 [2] [3] [] 0) := by
    refine lt_of_lt_of_le ?_ h2
    have e5' : (((Fintype.card Z101 - 1) ^ (1 + 0) * Fintype.card Z101 ^ 5 : ℕ) : ℚ) ≤ _ := Nat.cast_le.mpr e5
    refine lt_of_lt_of_le ?_ (sub_le_sub_right (div_le_div_of_nonneg_right e5' (by positivity)) _)
    rw [hq, ZMod.card]
    norm_num [knowledgeError]
  obtain ⟨b, hb⟩ := (c68_found _ _).2.2 hpos
  obtain ⟨t, s2, t1, t2, -⟩ := h3 b hb
  exact ⟨_, b, t, s2, hb, t1, t2⟩

end Bp
