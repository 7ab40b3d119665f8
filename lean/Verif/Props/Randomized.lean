import Verif.Lemmas.Randomized
import Verif.Props.Algebraic

/-! # C72: statements with randomized constraints are sound -/

set_option linter.unusedSectionVars false

namespace Bp
variable {F G : Type} [Field F] [AddCommGroup G] [Module F G] [DecidableEq G]
open Finset

/-! ## One verifier -/

/-- The points that open a log can be read off it. -/
theorem start_points {s : Verifier F G} {pr pr' : R1CSProof F G} {t : Transcript F G} (h : (s.start pr).transcript <+: t) (h' : (s.start pr').transcript <+: t) : pr.A_I1 = pr'.A_I1 ∧ pr.A_O1 = pr'.A_O1 := by
  have e := congrArg Verifier.transcript (start_eq_of_prefix h h')
  simp only [Verifier.start, log1, List.append_cancel_left_eq, List.cons.injEq, TEvent.point.injEq, true_and] at e
  exact ⟨e.1, e.2.1⟩

/-- The second phase is over in the log `pre`. -/
def PhaseOver (env : Env F G) (s : Verifier F G) (O : Oracle F G) (pre : Transcript F G) : Prop :=
  ∃ pr s2, (s.start pr).createRandomizedConstraints { env with oracle := O } = .ok s2 ∧ s2.transcript <+: pre

theorem PhaseOver.before {env : Env F G} {s : Verifier F G} {O O' : Oracle F G} {pre : Transcript F G} (hO : AgreeOn O O' pre) (h : PhaseOver env s O pre) : PhaseOver env s O' pre := by
  obtain ⟨pr, s2, h1, h2⟩ := h
  obtain ⟨-, -, -, h4⟩ := Verifier.crc_log h1
  exact ⟨pr, s2, h4 O' (hO.mono h2), h2⟩

variable {env : Env F G} {s : Verifier F G} {d : ℕ} {claim : Assignment F → Prop} {g h : G} {Gs Hs : List G} {L R : ℕ → G →ₗ[F] F} {c : G →ₗ[F] F}

/-- The bad challenges: in the second phase those for the values that the prover has fixed, and afterwards those of C58. -/
def badRandom (hR : Randomizes env s d claim) (g h : G) (Gs Hs : List G) (L R : ℕ → G →ₗ[F] F) (c : G →ₗ[F] F) (O : Oracle F G) (t : Transcript F G) : Set F :=
  {x | x ∈ badSet env s g h Gs Hs O t ∨ ∃ pre l pr, t = pre ++ [.challenge l] ∧ (s.start pr).transcript <+: pre ∧ ¬ PhaseOver env s O pre ∧
    ∃ hσ : ¬ claim (firstPhase L R c s.V pr.A_I1 pr.A_O1), x ∈ (hR.sound _ hσ).choose.bad O t}

theorem badRandom_prefix {hR : Randomizes env s d claim} {O : Oracle F G} {t : Transcript F G} {x : F} (hx : x ∈ badRandom hR g h Gs Hs L R c O t) : ∃ pr, (s.start pr).transcript <+: t := by
  rcases hx with hx | ⟨pre, l, pr, rfl, h1, -⟩
  · exact badSet_prefix hx
  · exact ⟨pr, h1.trans (List.prefix_append _ _)⟩

theorem badRandom_few {hR : Randomizes env s d claim} {B : ℕ} (h7 : 7 ≤ B)
    (hB : ∀ O pr s2, (s.start pr).createRandomizedConstraints { env with oracle := O } = .ok s2 → nextPowerOfTwo s2.numVars ≤ B ∧ s2.constraints.length ≤ B) (O : Oracle F G) (t : Transcript F G) :
    (badRandom hR g h Gs Hs L R c O t).encard ≤ max B d := by
  by_cases hne : ∃ x pre l pr, t = pre ++ [.challenge l] ∧ (s.start pr).transcript <+: pre ∧ ¬ PhaseOver env s O pre ∧
    ∃ hσ : ¬ claim (firstPhase L R c s.V pr.A_I1 pr.A_O1), x ∈ (hR.sound _ hσ).choose.bad O t
  · obtain ⟨x, pre, l, pr, rfl, h1, h2, hσ, -⟩ := hne
    refine le_trans (Set.encard_le_encard (t := (hR.sound _ hσ).choose.bad O (pre ++ [.challenge l])) ?_) (((hR.sound _ hσ).choose.few O _).trans (by exact_mod_cast le_max_right B d))
    rintro y (hy | ⟨pre', l', pr', e, h1', -, hσ', hy⟩)
    · exfalso
      obtain ⟨pr', s2, k, a1, a2, a3⟩ := hy
      obtain ⟨pre', l', e, hp⟩ := badFor_prefix a3
      obtain ⟨rfl, -⟩ := List.append_inj' e rfl
      exact h2 ⟨pr', s2, a1, hp⟩
    · obtain ⟨rfl, -⟩ := List.append_inj' e rfl
      obtain ⟨e1, e2⟩ := start_points h1 h1'
      have : ∀ σ σ' (hs : ¬ claim σ) (hs' : ¬ claim σ'), σ = σ' → (hR.sound _ hs).choose = (hR.sound _ hs').choose := by rintro σ _ hs hs' rfl; rfl
      rw [this _ _ hσ hσ' (by rw [e1, e2])]
      exact hy
  · refine le_trans (Set.encard_le_encard (t := badSet env s g h Gs Hs O t) ?_) ((badSet_few h7 hB O t).trans (by exact_mod_cast le_max_left B d))
    rintro y (hy | hy)
    · exact hy
    · exact absurd ⟨y, hy⟩ hne

theorem badRandom_before {hR : Randomizes env s d claim} {O O' : Oracle F G} {pre : Transcript F G} {l : String} (hO : AgreeOn O O' pre) :
    badRandom hR g h Gs Hs L R c O (pre ++ [.challenge l]) ⊆ badRandom hR g h Gs Hs L R c O' (pre ++ [.challenge l]) := by
  rintro x (hx | ⟨pre', l', pr, e, h1, h2, hσ, hx⟩)
  · exact .inl (badSet_before hO hx)
  · obtain ⟨rfl, -⟩ := List.append_inj' e rfl
    refine .inr ⟨pre, l, pr, rfl, h1, fun hp => h2 (hp.before hO.symm), hσ, ?_⟩
    rwa [← (hR.sound _ hσ).choose.before O O' pre l hO]

/-- The wires of an accepted tree are those fixed by the points of the first phase. -/
theorem wires_fixed {k : ℕ} {s2 : Verifier F G} (hd : Dual g h Gs Hs L R c) (hN : nextPowerOfTwo s2.numVars = 2 ^ k) (t : R1CSTree F G k s2.constraints.length) (hf : t.Full) (ha : t.Accepted s s2 g h Gs Hs)
    {O : Oracle F G} {pr : R1CSProof F G} (hc : (s.start pr).createRandomizedConstraints { env with oracle := O } = .ok s2) (v : ℕ → F) (hv : ∀ j < s.V.length, c (s.V.getD j 0) = v j) :
    (firstPhase L R c s.V pr.A_I1 pr.A_O1).SameUpTo s.numVars s.V.length (t.assignment s.numVars s2.weights s2.numVars v) := by
  obtain ⟨L', R', us, α, β, hp⟩ := (hf.ipp ⟨0, Nat.two_pow_pos k⟩ 0 0 0 0).path
  obtain ⟨env', r, r', T, T', -, h1, -⟩ := ha _ _ _ _ _ _ _ _ _ _ hp
  obtain ⟨e1, e2⟩ := start_points (crc_prefix hc) (crc_prefix h1)
  have hl : 2 ^ k ≤ Gs.length ∧ 2 ^ k ≤ Hs.length := ⟨(ha.eqs hN hf hp).1, (ha.eqs hN hf hp).2.1⟩
  have hn : (s.start pr).numVars ≤ s2.numVars := Verifier.crc_numVars hc
  have hn : s.numVars ≤ s2.numVars := hn
  have hn' : s2.numVars ≤ 2 ^ k := hN ▸ nextPowerOfTwo_ge _
  obtain ⟨w1, w2, -⟩ := c21_wires_of_commitments t s s2 g h Gs Hs hN hf ha
  refine ⟨fun i hi => ?_, fun i hi => ?_, fun i hi => ?_, hv⟩
  · show L i pr.A_I1 = if i < s2.numVars then t.left s.numVars s2.weights i else 0
    rw [if_pos (by omega), R1CSTree.left, if_pos hi, e1, ← hd.left hl.1 hl.2 _ (show i < 2 ^ k by omega), w1]
    rfl
  · show R i pr.A_I1 = if i < s2.numVars then t.right s.numVars s2.weights i else 0
    rw [if_pos (by omega), R1CSTree.right, if_pos hi, e1, ← hd.right hl.1 hl.2 _ (show i < 2 ^ k by omega), w1]
    rfl
  · show L i pr.A_O1 = if i < s2.numVars then t.out s.numVars s2.weights i else 0
    rw [if_pos (by omega), R1CSTree.out, if_pos hi, e2, ← hd.left hl.1 hl.2 _ (show i < 2 ^ k by omega), w2]
    rfl

/-- An accepted proof shows the claim, or there was a bad answer. -/
theorem claim_or_bad (hb : env.batchInvert [] = .ok ([], 1)) (hR : Randomizes env s d claim) (hind : Independent F (Gs ++ Hs ++ [g, h])) (hd : Dual g h Gs Hs L R c) {O : Oracle F G} {pr : R1CSProof F G} {r r' : F}
    {T T' : Transcript F G} (hr : r ≠ r') (hv : s.verify { env with oracle := O } pr g h Gs Hs r = .ok T) (hv' : s.verify { env with oracle := O } pr g h Gs Hs r' = .ok T') :
    (∃ s2, (s.start pr).createRandomizedConstraints { env with oracle := O } = .ok s2 ∧ s2.SatisfiableWith g h claim) ∨
    ∃ pre l, pre ++ [TEvent.challenge l] <+: T ∧ O (pre ++ [.challenge l]) ∈ badRandom hR g h Gs Hs L R c O (pre ++ [.challenge l]) := by
  rcases tree_or_bad hb hr hv hv' with ⟨s2, k, i1, i2, t, t1, t2⟩ | ⟨pre, l, h1, h2⟩
  swap
  · exact .inr ⟨pre, l, h1, .inl h2⟩
  have hV : s2.V = s.V := (Verifier.crc_V i1).trans rfl
  have hno : ∀ ρ : GenRep F, ρ.value (2 ^ k) g h (Gs.take (2 ^ k)) (Hs.take (2 ^ k)) = 0 → ρ.Trivial (2 ^ k) := fun ρ hv => by
    obtain ⟨L', R', us, α, β, hp⟩ := (t1.ipp ⟨0, Nat.two_pow_pos k⟩ 0 0 0 0).path
    have hl := And.intro (t2.eqs i2 t1 hp).1 (t2.eqs i2 t1 hp).2.1
    exact (hind.take (2 ^ k)).no_gen_relation (by rw [List.length_take]; omega) (by rw [List.length_take]; omega) ρ hv
  obtain ⟨h1, h2⟩ : (t.assignment s.numVars s2.weights s2.numVars fun j => c (s2.V.getD j 0)).Gates ∧
      ∀ lc ∈ s2.constraints, ∃ β : F, lc.commitment (t.assignment s.numVars s2.weights s2.numVars fun j => c (s2.V.getD j 0)) g s2.V = β • h := by
    rcases c21_special_soundness t s s2 g h Gs Hs i2 rfl t1 t2 fun j => c (s2.V.getD j 0) with ⟨h1, h2⟩ | ⟨ρ, -, h2, h3⟩
    · refine ⟨h1, fun lc hlc => ?_⟩
      obtain ⟨j, hj, rfl⟩ := List.getElem_of_mem hlc
      exact ⟨_, h2 j hj⟩
    · exact absurd (hno ρ h3) h2
  have hs := wires_fixed hd i2 t t1 t2 i1 (fun j => c (s2.V.getD j 0)) (fun j _ => by rw [hV])
  by_cases hσ : claim (firstPhase L R c s.V pr.A_I1 pr.A_O1)
  · refine .inl ⟨s2, i1, _, h1, h2, fun v ρ hv => hR.early _ _ ⟨hs.left, hs.right, hs.out, fun j hj => ?_⟩ hσ⟩
    show c (s.V.getD j 0) = v j
    rw [← hV, hv j (by rw [hV]; exact hj), map_add, map_smul, map_smul, hd.cg, hd.ch]
    simp
  · right
    obtain ⟨pre, l, a1, a2, a3⟩ := (hR.sound _ hσ).choose_spec O pr s2 i1 ⟨_, hs, h1, fun lc hlc => by
      obtain ⟨β, hβ⟩ := h2 lc hlc
      have := LC.functional_commitment c hd.cg (t.assignment s.numVars s2.weights s2.numVars fun j => c (s2.V.getD j 0)) s2.V lc
      rw [hβ, map_smul, hd.ch, smul_zero] at this
      exact this.symm⟩
    obtain ⟨s2', wt, k', j1, -, -, -, -, -, -, -, j9⟩ := verify_inv hv
    obtain rfl : s2 = s2' := Except.ok.inj (i1.symm.trans j1)
    have hT : s2.transcript <+: T := by
      rw [j9, (ippChallenges_log _ _ _).1]
      exact (List.prefix_append _ _).trans (proofMsgs_flatten _ _ _)
    refine ⟨pre, l, a2.trans hT, .inr ⟨pre, l, pr, rfl, a1, ?_, hσ, a3⟩⟩
    rintro ⟨pr', s3, b1, b2⟩
    have es := start_eq_of_prefix a1 ((crc_prefix b1).trans b2)
    obtain rfl : s2 = s3 := by rw [← es, i1] at b1; exact Except.ok.inj b1
    have := (a2.trans b2).length_le
    simp at this

/-- **C72**, one verifier: if its callbacks randomize a claim (with at most `d` bad challenges for each draw), then there is a rule for bad answers, at most `max B d` for each draw, such that for every oracle: if the verifier
accepts a proof (for two values of its random scalar), then the claim is true of values that satisfy the constraints and are committed to, or the oracle gave a bad answer along the log of that proof. -/
theorem c72_claim (env : Env F G) (hb : env.batchInvert [] = .ok ([], 1)) (s : Verifier F G) (d : ℕ) (claim : Assignment F → Prop) (hR : Randomizes env s d claim) (g h : G) (Gs Hs : List G)
    (hind : Independent F (Gs ++ Hs ++ [g, h])) (B : ℕ) (h7 : 7 ≤ B)
    (hB : ∀ O pr s2, (s.start pr).createRandomizedConstraints { env with oracle := O } = .ok s2 → nextPowerOfTwo s2.numVars ≤ B ∧ s2.constraints.length ≤ B) :
    ∃ bad : BadRule F G (max B d), ∀ (O : Oracle F G) (pr : R1CSProof F G) (r r' : F) (T T' : Transcript F G), r ≠ r' →
      s.verify { env with oracle := O } pr g h Gs Hs r = .ok T → s.verify { env with oracle := O } pr g h Gs Hs r' = .ok T' →
      (∃ s2, (s.start pr).createRandomizedConstraints { env with oracle := O } = .ok s2 ∧ s2.SatisfiableWith g h claim) ∨ bad.Hit O T := by
  obtain ⟨L, R, c, hd⟩ := hind.dualGens
  exact ⟨⟨badRandom hR g h Gs Hs L R c, badRandom_few h7 hB, fun O O' pre l hO => (badRandom_before hO).antisymm (badRandom_before hO.symm)⟩, fun O pr r r' T T' hr hv hv' => claim_or_bad hb hR hind hd hr hv hv'⟩

/-- **C72**, attacks on one verifier: a prover that asks the oracle `Q` times makes the verifier accept, although the claim is not true of values that satisfy the constraints and are committed to, with at most `Q max(B, d) + 1` in `|F|`
of the answers. -/
theorem c72_attack [Fintype F] (env : Env F G) (hb : env.batchInvert [] = .ok ([], 1)) (s : Verifier F G) (d : ℕ) (claim : Assignment F → Prop) (hR : Randomizes env s d claim) (g h : G) (Gs Hs : List G)
    (hind : Independent F (Gs ++ Hs ++ [g, h])) (B : ℕ) (h7 : 7 ≤ B)
    (hB : ∀ O pr s2, (s.start pr).createRandomizedConstraints { env with oracle := O } = .ok s2 → nextPowerOfTwo s2.numVars ≤ B ∧ s2.constraints.length ≤ B) (A : Attack F G) (Q : ℕ) :
    Nat.card {p : (Fin Q → F) × F // A.WinsAgainst env s claim g h Gs Hs (List.ofFn p.1) p.2} ≤ (Q * max B d + 1) * Fintype.card F ^ Q := by
  obtain ⟨bad, hbad⟩ := c72_claim env hb s d claim hR g h Gs Hs hind B h7 hB
  refine count_wins _ (count_hit bad A.ask Q) (fun cs r => A.WinsAgainst env s claim g h Gs Hs (List.ofFn cs) r) fun cs r r' hr h1 h2 => ?_
  obtain ⟨O, T, s2, a1, -, -⟩ := h1
  obtain ⟨O', T', s2', b1, b2, b3⟩ := h2
  have a1' := a1.transfer b1
  rcases hbad O' _ r r' T T' hr a1'.accepts b1.accepts with ⟨s3, c1, c2⟩ | hh
  · rw [b2] at c1
    obtain rfl := Except.ok.inj c1
    exact absurd c2 b3
  · exact ⟨O', T, a1'.answers, a1'.asked, hh⟩

/-! ## Provers that choose the commitments -/

/-- The bad answers for a statement about `m` commitments. -/
def badRandomFam (env : Env F G) (label : String) (dv : List G → Drv (Verifier F G) Unit) (m d : ℕ) (claim : Assignment F → Prop)
    (hR : ∀ coms s, coms.length = m → dv coms (Verifier.new [.init label]) = (.ok (), s) → Randomizes env s d claim) (g h : G) (Gs Hs : List G) (L R : ℕ → G →ₗ[F] F) (c : G →ₗ[F] F) (O : Oracle F G) (t : Transcript F G) : Set F :=
  {x | ∃ coms s, ∃ (hl : coms.length = m) (hs : dv coms (Verifier.new [.init label]) = (.ok (), s)), x ∈ badRandom (hR coms s hl hs) g h Gs Hs L R c O t}

/-- **C72**, for a statement about `m` commitments: there is one rule for bad answers, whatever the commitments. -/
theorem c72_rule (env : Env F G) (hb : env.batchInvert [] = .ok ([], 1)) (label : String) (m : ℕ) (dv : List G → Drv (Verifier F G) Unit) (hu : Shaped label m dv) (d : ℕ) (claim : Assignment F → Prop)
    (hR : ∀ coms s, coms.length = m → dv coms (Verifier.new [.init label]) = (.ok (), s) → Randomizes env s d claim) (B : ℕ) (h7 : 7 ≤ B)
    (hB : ∀ coms s O pr s2, coms.length = m → dv coms (Verifier.new [.init label]) = (.ok (), s) → (s.start pr).createRandomizedConstraints { env with oracle := O } = .ok s2 → nextPowerOfTwo s2.numVars ≤ B ∧ s2.constraints.length ≤ B)
    (g h : G) (Gs Hs : List G) (hind : Independent F (Gs ++ Hs ++ [g, h])) :
    ∃ bad : BadRule F G (max B d), ∀ (coms : List G) (s : Verifier F G), coms.length = m → dv coms (Verifier.new [.init label]) = (.ok (), s) → ∀ (O : Oracle F G) (pr : R1CSProof F G) (r r' : F) (T T' : Transcript F G), r ≠ r' →
      s.verify { env with oracle := O } pr g h Gs Hs r = .ok T → s.verify { env with oracle := O } pr g h Gs Hs r' = .ok T' →
      (∃ s2, (s.start pr).createRandomizedConstraints { env with oracle := O } = .ok s2 ∧ s2.SatisfiableWith g h claim) ∨ bad.Hit O T := by
  obtain ⟨L, R, c, hd⟩ := hind.dualGens
  have few : ∀ O t, (badRandomFam env label dv m d claim hR g h Gs Hs L R c O t).encard ≤ max B d := by
    intro O t
    by_cases hne : (badRandomFam env label dv m d claim hR g h Gs Hs L R c O t).Nonempty
    · obtain ⟨x, coms, s, hl, hs, hx⟩ := hne
      obtain ⟨pr, hp⟩ := badRandom_prefix hx
      refine le_trans (Set.encard_le_encard (t := badRandom (hR coms s hl hs) g h Gs Hs L R c O t) ?_) (badRandom_few h7 (fun O pr s2 => hB coms s O pr s2 hl hs) O t)
      rintro y ⟨coms', s', hl', hs', hy⟩
      obtain ⟨pr', hp'⟩ := badRandom_prefix hy
      obtain rfl := hu.eq_of_prefix hl hl' hs hs' hp hp'
      exact hy
    · rw [Set.not_nonempty_iff_eq_empty.mp hne]; simp
  have before : ∀ O O' pre l, AgreeOn O O' pre → badRandomFam env label dv m d claim hR g h Gs Hs L R c O (pre ++ [.challenge l]) ⊆ badRandomFam env label dv m d claim hR g h Gs Hs L R c O' (pre ++ [.challenge l]) := by
    rintro O O' pre l hO x ⟨coms, s, hl, hs, hx⟩
    exact ⟨coms, s, hl, hs, badRandom_before hO hx⟩
  refine ⟨⟨badRandomFam env label dv m d claim hR g h Gs Hs L R c, few, fun O O' pre l hO => (before O O' pre l hO).antisymm (before O' O pre l hO.symm)⟩, fun coms s hl hs O pr r r' T T' hr hv hv' => ?_⟩
  rcases claim_or_bad hb (hR coms s hl hs) hind hd hr hv hv' with hc | ⟨pre, l, h1, h2⟩
  · exact .inl hc
  · exact .inr ⟨pre, l, h1, coms, s, hl, hs, h2⟩

/-- **C72**, for a statement about `m` commitments: a prover asks the oracle `Q` questions (all challenges of its proof are among the answers), and then chooses the commitments and the proof.  The number of answers (and scalars `r` of
the verifier) with which the verifier accepts although the claim is false of the commitments is at most `Q max(B, d) + 1` in `|F|`. -/
theorem c72_forger [Fintype F] (env : Env F G) (hb : env.batchInvert [] = .ok ([], 1)) (label : String) (m : ℕ) (dv : List G → Drv (Verifier F G) Unit) (hu : Shaped label m dv) (d : ℕ) (claim : Assignment F → Prop)
    (hR : ∀ coms s, coms.length = m → dv coms (Verifier.new [.init label]) = (.ok (), s) → Randomizes env s d claim) (B : ℕ) (h7 : 7 ≤ B)
    (hB : ∀ coms s O pr s2, coms.length = m → dv coms (Verifier.new [.init label]) = (.ok (), s) → (s.start pr).createRandomizedConstraints { env with oracle := O } = .ok s2 → nextPowerOfTwo s2.numVars ≤ B ∧ s2.constraints.length ≤ B)
    (g h : G) (Gs Hs : List G) (hind : Independent F (Gs ++ Hs ++ [g, h])) (stmt : List G → Prop)
    (hstmt : ∀ coms s O pr s2, coms.length = m → dv coms (Verifier.new [.init label]) = (.ok (), s) → (s.start pr).createRandomizedConstraints { env with oracle := O } = .ok s2 → s2.SatisfiableWith g h claim → stmt coms)
    (A : Forger F G) (Q : ℕ) : Nat.card {p : (Fin Q → F) × F // A.Cheats env label dv m stmt g h Gs Hs (List.ofFn p.1) p.2} ≤ (Q * max B d + 1) * Fintype.card F ^ Q := by
  obtain ⟨bad, hbad⟩ := c72_rule env hb label m dv hu d claim hR B h7 hB g h Gs Hs hind
  refine count_wins _ (count_hit bad A.ask Q) (fun cs r => A.Cheats env label dv m stmt g h Gs Hs (List.ofFn cs) r) fun cs r r' hr h1 h2 => ?_
  obtain ⟨hl, hn, O, s, T, hs, a1⟩ := h1
  obtain ⟨-, -, O', s', T', hs', b1⟩ := h2
  obtain rfl : s = s' := (Prod.mk.inj (hs.symm.trans hs')).2
  have a1' := a1.transfer b1
  rcases hbad _ s hl hs O' _ r r' T T' hr a1'.accepts b1.accepts with ⟨s2, c1, c2⟩ | hh
  · exact absurd (hstmt _ s O' _ s2 hl hs c1 c2) hn
  · exact ⟨O', T, a1'.answers, a1'.asked, hh⟩

theorem Forger.CheatsVia.lift {M : Type} [AddCommGroup M] [Module F M] [DecidableEq M] {φ : M →ₗ[F] G} {A : Forger F M} {env : Env F G} {label : String} {dv : List G → Drv (Verifier F G) Unit} {dv' : List M → Drv (Verifier F M) Unit}
    (hn : ∀ a, DrvNat φ (dv (a.map φ)) (dv' a)) {m : ℕ} {stmt : List M → Prop} {g h : M} {Gs Hs : List M} {cs : List F} {r : F} (hf : A.CheatsVia φ env label dv dv' m stmt g h Gs Hs cs r) :
    A.Cheats (env.pull φ) label dv' m stmt g h Gs Hs cs r := by
  obtain ⟨hl, hc, O, s, T, b1, b2, b3, b4, b5⟩ := hf
  rw [← mapG_new φ label, hn] at b1
  obtain ⟨e1, e2⟩ := Prod.mk.inj b1
  have hb' : dv' (A.coms cs) (Verifier.new [.init label]) = (.ok (), (dv' (A.coms cs) (Verifier.new [.init label])).2) := Prod.ext e1 rfl
  generalize (dv' (A.coms cs) (Verifier.new [.init label])).2 = s' at *
  subst e2
  obtain ⟨T', h1, -⟩ := Attack.AcceptedVia.lift (A := A.toAttack) ⟨b2, b3, b4⟩ b5
  exact ⟨hl, hc, _, s', T', hb', h1⟩

/-- **C72**, for provers that make their points as combinations: as before, unless a relation is found. -/
theorem c72_algebraic [Fintype F] {M : Type} [AddCommGroup M] [Module F M] [DecidableEq M] (φ : M →ₗ[F] G) (env : Env F G) (hb : env.batchInvert [] = .ok ([], 1)) (label : String) (m : ℕ) (dv : List G → Drv (Verifier F G) Unit)
    (dv' : List M → Drv (Verifier F M) Unit) (hn : ∀ a, DrvNat φ (dv (a.map φ)) (dv' a)) (hu : Shaped label m dv') (d : ℕ) (claim : Assignment F → Prop)
    (hR : ∀ coms s, coms.length = m → dv' coms (Verifier.new [.init label]) = (.ok (), s) → Randomizes (env.pull φ) s d claim) (B : ℕ) (h7 : 7 ≤ B)
    (hB : ∀ coms s O pr s2, coms.length = m → dv' coms (Verifier.new [.init label]) = (.ok (), s) → (s.start pr).createRandomizedConstraints { env.pull φ with oracle := O } = .ok s2 → nextPowerOfTwo s2.numVars ≤ B ∧ s2.constraints.length ≤ B)
    (g h : M) (Gs Hs : List M) (hind : Independent F (Gs ++ Hs ++ [g, h])) (stmt : List M → Prop)
    (hstmt : ∀ coms s O pr s2, coms.length = m → dv' coms (Verifier.new [.init label]) = (.ok (), s) → (s.start pr).createRandomizedConstraints { env.pull φ with oracle := O } = .ok s2 → s2.SatisfiableWith g h claim → stmt coms)
    (A : Forger F M) (Q : ℕ) : Nat.card {p : (Fin Q → F) × F // A.CheatsVia φ env label dv dv' m stmt g h Gs Hs (List.ofFn p.1) p.2} ≤ (Q * max B d + 1) * Fintype.card F ^ Q :=
  (card_mono fun _ hp => hp.lift hn).trans (c72_forger (env.pull φ) hb label m dv' hu d claim hR B h7 hB g h Gs Hs hind stmt hstmt A Q)

end Bp
