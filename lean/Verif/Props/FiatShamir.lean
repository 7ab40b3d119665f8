import Verif.Lemmas.GameCount
import Verif.Spec.FiatShamir
import Verif.Lemmas.FiatShamir2
import Verif.Lemmas.Attack
import Verif.Props.Knowledge
import Verif.Lemmas.Game
import Verif.Props.Verify

/-! # C58: soundness of the non-interactive proofs -/

set_option linter.unusedSectionVars false

namespace Bp
variable {F G : Type} [Field F] [AddCommGroup G] [Module F G] [DecidableEq G]
open Finset

theorem start_eq_of_prefix {s : Verifier F G} {pr pr' : R1CSProof F G} {t : Transcript F G} (h : (s.start pr).transcript <+: t) (h' : (s.start pr').transcript <+: t) : s.start pr = s.start pr' := by
  have e : (s.start pr).transcript = (s.start pr').transcript := by
    rcases List.prefix_or_prefix_of_prefix h h' with hp | hp
    · exact hp.eq_of_length (by simp [Verifier.start, log1])
    · exact (hp.eq_of_length (by simp [Verifier.start, log1])).symm
  rw [Verifier.start, Verifier.start, show log1 s.transcript s.V.length pr.A_I1 pr.A_O1 pr.S1 = log1 s.transcript s.V.length pr'.A_I1 pr'.A_O1 pr'.S1 from e]

theorem crc_prefix {env : Env F G} {s s2 : Verifier F G} (h : s.createRandomizedConstraints env = .ok s2) : s.transcript <+: s2.transcript := by
  obtain ⟨ls, e, -⟩ := Verifier.crc_log h
  exact ⟨_, e.symm⟩

/-- The numbers of challenges needed at each draw. -/
def thresholds (k q : ℕ) : List ℕ := 2 ^ k :: q :: 5 :: 6 :: 2 :: List.replicate k 7

/-- The bad challenges: those that bring a hopeless partial proof to life. -/
def badSet (env : Env F G) (s : Verifier F G) (g h : G) (Gs Hs : List G) (O : Oracle F G) (t : Transcript F G) : Set F :=
  {c | ∃ pr s2 k, (s.start pr).createRandomizedConstraints { env with oracle := O } = .ok s2 ∧ nextPowerOfTwo s2.numVars = 2 ^ k ∧
    c ∈ badFor (Accs s s2 g h Gs Hs k) (thresholds k s2.constraints.length) s2.transcript O t}

theorem badSet_few {env : Env F G} {s : Verifier F G} {g h : G} {Gs Hs : List G} {B : ℕ} (h7 : 7 ≤ B)
    (hB : ∀ O pr s2, (s.start pr).createRandomizedConstraints { env with oracle := O } = .ok s2 → nextPowerOfTwo s2.numVars ≤ B ∧ s2.constraints.length ≤ B) (O : Oracle F G) (t : Transcript F G) :
    (badSet env s g h Gs Hs O t).encard ≤ B := by
  by_cases hne : (badSet env s g h Gs Hs O t).Nonempty
  · obtain ⟨c, pr, s2, k, h1, h2, h3⟩ := hne
    obtain ⟨pre, l, rfl, hp⟩ := badFor_prefix h3
    refine le_trans (Set.encard_le_encard (t := badFor (Accs s s2 g h Gs Hs k) (thresholds k s2.constraints.length) s2.transcript O (pre ++ [.challenge l])) ?_) (badFor_card ?_ _ _ _)
    · rintro c' ⟨pr', s2', k', h1', h2', h3'⟩
      obtain ⟨pre', l', e, hp'⟩ := badFor_prefix h3'
      obtain ⟨rfl, -⟩ := List.append_inj' e rfl
      have es := start_eq_of_prefix ((crc_prefix h1).trans hp) ((crc_prefix h1').trans hp')
      obtain rfl : s2 = s2' := by rw [← es, h1] at h1'; exact Except.ok.inj h1'
      obtain rfl : k = k' := Nat.pow_right_injective (le_refl 2) (h2.symm.trans h2')
      exact h3'
    · intro m hm
      obtain ⟨b1, b2⟩ := hB O pr s2 h1
      simp only [thresholds, List.mem_cons, List.mem_replicate] at hm
      omega
  · rw [Set.not_nonempty_iff_eq_empty.mp hne]; simp

theorem badSet_before {env : Env F G} {s : Verifier F G} {g h : G} {Gs Hs : List G} {O O' : Oracle F G} {pre : Transcript F G} {l : String} (hO : AgreeOn O O' pre) :
    badSet env s g h Gs Hs O (pre ++ [.challenge l]) ⊆ badSet env s g h Gs Hs O' (pre ++ [.challenge l]) := by
  rintro c ⟨pr, s2, k, h1, h2, h3⟩
  obtain ⟨pre', l', e, hp⟩ := badFor_prefix h3
  obtain ⟨rfl, -⟩ := List.append_inj' e rfl
  obtain ⟨-, -, -, h4⟩ := Verifier.crc_log h1
  exact ⟨pr, s2, k, h4 O' (hO.mono hp), h2, badFor_local hO h3⟩

theorem AgreeOn.symm {O O' : Oracle F G} {t : Transcript F G} (h : AgreeOn O O' t) : AgreeOn O' O t := fun pre l hp => (h pre l hp).symm

theorem sublist_coeffs {l l' : List G} (hs : l.Sublist l') : ∀ c : ℕ → F, ∃ c' : ℕ → F, ∑ i ∈ range l'.length, c' i • l'.getD i 0 = ∑ i ∈ range l.length, c i • l.getD i 0 ∧
    ((∀ i < l'.length, c' i = 0) → ∀ i < l.length, c i = 0) := by
  induction hs with
  | slnil => exact fun c => ⟨c, rfl, fun h => h⟩
  | cons a hs ih =>
    intro c
    obtain ⟨c', h1, h2⟩ := ih c
    refine ⟨fun i => if i = 0 then 0 else c' (i - 1), ?_, fun h => h2 fun i hi => by simpa using h (i + 1) (by simpa using hi)⟩
    rw [List.length_cons, Finset.sum_range_succ', ← h1]
    simp
  | cons_cons a hs ih =>
    intro c
    obtain ⟨c', h1, h2⟩ := ih fun i => c (i + 1)
    refine ⟨fun i => if i = 0 then c 0 else c' (i - 1), ?_, fun h i hi => ?_⟩
    · rw [List.length_cons, Finset.sum_range_succ', List.length_cons, Finset.sum_range_succ']
      simp only [Nat.add_eq_zero_iff, one_ne_zero, and_false, if_false, Nat.add_sub_cancel, List.getD_cons_succ, if_true]
      rw [h1]; rfl
    · cases i with
      | zero => simpa using h 0 (by simp)
      | succ i => exact h2 (fun j hj => by simpa using h (j + 1) (by simpa using hj)) i (by simpa using hi)

theorem Independent.sublist {l l' : List G} (hi : Independent F l') (hs : l.Sublist l') : Independent F l := fun c hc => by
  obtain ⟨c', h1, h2⟩ := sublist_coeffs hs c
  exact h2 (hi c' (h1.trans hc))

theorem Independent.take {g h : G} {Gs Hs : List G} (hi : Independent F (Gs ++ Hs ++ [g, h])) (n : ℕ) : Independent F (Gs.take n ++ Hs.take n ++ [g, h]) :=
  hi.sublist (((List.take_sublist n Gs).append (List.take_sublist n Hs)).append (List.Sublist.refl _))

/-- An accepted proof gives a tree of accepted answers, or there was a bad answer. -/
theorem tree_or_bad {env : Env F G} (hb : env.batchInvert [] = .ok ([], 1)) {s : Verifier F G} {g h : G} {Gs Hs : List G} {O : Oracle F G} {pr : R1CSProof F G} {r r' : F} {T T' : Transcript F G} (hr : r ≠ r')
    (hv : s.verify { env with oracle := O } pr g h Gs Hs r = .ok T) (hv' : s.verify { env with oracle := O } pr g h Gs Hs r' = .ok T') :
    (∃ s2 k, (s.start pr).createRandomizedConstraints { env with oracle := O } = .ok s2 ∧ nextPowerOfTwo s2.numVars = 2 ^ k ∧
      ∃ t : R1CSTree F G k s2.constraints.length, t.Full ∧ t.Accepted s s2 g h Gs Hs) ∨
    ∃ pre l, pre ++ [TEvent.challenge l] <+: T ∧ O (pre ++ [.challenge l]) ∈ badSet env s g h Gs Hs O (pre ++ [.challenge l]) := by
  obtain ⟨s2, wt, k, i1, i2, i3, i4, i5, i6, i7, i8, i9⟩ := verify_inv hv
  by_cases hd : Live (Accs s s2 g h Gs Hs k) (thresholds k s2.constraints.length) [] []
  · exact .inl ⟨s2, k, i1, i2, live_tree i2 hd⟩
  · right
    obtain ⟨pre, l, h1, h2⟩ := hit_bad (O := O) (t0 := s2.transcript) (msgs := proofMsgs (2 ^ k) pr) hd (by simp [proofMsgs, thresholds, roundMsgs_length, i7, i8]) (proofMsgs_isMsg _ _)
      ⟨pr, { env with oracle := O }, r, r', T, T', rfl, rfl, hr, .inr hb, i1, hv, hv'⟩
    refine ⟨pre, l, h1.trans ?_, pr, s2, k, i1, i2, h2⟩
    rw [i9, (ippChallenges_log _ _ _).1]
    exact proofMsgs_flatten _ _ _

/-- **C58**: soundness of the non-interactive argument.  There is a rule for bad answers (at most as many for each draw as there are padded gates, or constraints, or 7) such that, for every oracle: if the verifier accepts a
proof (for two values of its own random scalar), then there is a full tree of accepted answers for the constraints it has built (from which C21 computes a witness or a relation between the generators), or at some
draw along the log of that proof the oracle gave a bad answer. -/
theorem c58_tree (env : Env F G) (hb : env.batchInvert [] = .ok ([], 1)) (s : Verifier F G) (g h : G) (Gs Hs : List G) (B : ℕ) (h7 : 7 ≤ B)
    (hB : ∀ O pr s2, (s.start pr).createRandomizedConstraints { env with oracle := O } = .ok s2 → nextPowerOfTwo s2.numVars ≤ B ∧ s2.constraints.length ≤ B) :
    ∃ bad : BadRule F G B, ∀ (O : Oracle F G) (pr : R1CSProof F G) (r r' : F) (T T' : Transcript F G), r ≠ r' →
      s.verify { env with oracle := O } pr g h Gs Hs r = .ok T → s.verify { env with oracle := O } pr g h Gs Hs r' = .ok T' →
      (∃ s2 k, (s.start pr).createRandomizedConstraints { env with oracle := O } = .ok s2 ∧ nextPowerOfTwo s2.numVars = 2 ^ k ∧
        ∃ t : R1CSTree F G k s2.constraints.length, t.Full ∧ t.Accepted s s2 g h Gs Hs) ∨ bad.Hit O T := by
  exact ⟨⟨badSet env s g h Gs Hs, badSet_few h7 hB, fun O O' pre l hO => (badSet_before hO).antisymm (badSet_before hO.symm)⟩, fun O pr r r' T T' hr hv hv' => tree_or_bad hb hr hv hv'⟩

/-- **C58**, for generators without linear relations: what is accepted is satisfiable, or a bad answer was given. -/
theorem c58_satisfiable (env : Env F G) (hb : env.batchInvert [] = .ok ([], 1)) (s : Verifier F G) (g h : G) (Gs Hs : List G) (hind : Independent F (Gs ++ Hs ++ [g, h])) (B : ℕ) (h7 : 7 ≤ B)
    (hB : ∀ O pr s2, (s.start pr).createRandomizedConstraints { env with oracle := O } = .ok s2 → nextPowerOfTwo s2.numVars ≤ B ∧ s2.constraints.length ≤ B) :
    ∃ bad : BadRule F G B, ∀ (O : Oracle F G) (pr : R1CSProof F G) (r r' : F) (T T' : Transcript F G), r ≠ r' →
      s.verify { env with oracle := O } pr g h Gs Hs r = .ok T → s.verify { env with oracle := O } pr g h Gs Hs r' = .ok T' →
      (∃ s2, (s.start pr).createRandomizedConstraints { env with oracle := O } = .ok s2 ∧ s2.Satisfiable g h) ∨ bad.Hit O T := by
  obtain ⟨bad, hbad⟩ := c58_tree env hb s g h Gs Hs B h7 hB
  refine ⟨bad, fun O pr r r' T T' hr hv hv' => (hbad O pr r r' T T' hr hv hv').imp ?_ id⟩
  rintro ⟨s2, k, i1, i2, t, t1, t2⟩
  obtain ⟨σ, h1, h2, -⟩ := c21_independent t s s2 g h Gs Hs i2 rfl t1 t2 (hind.take _)
  exact ⟨s2, i1, σ, h1, h2⟩

/-- **C58**, for a statement (without randomized constraints) made on a new transcript: if the verifier accepts, it is convinced in the sense of C55 (so that the theorems there apply to the committed values), or a bad answer was given. -/
theorem c58_convinced (env : Env F G) (hb : env.batchInvert [] = .ok ([], 1)) (label : String) (dv : Drv (Verifier F G) Unit) (s : Verifier F G) (hs : dv (Verifier.new [.init label]) = (.ok (), s))
    (hd : s.deferred = []) (g h : G) (Gs Hs : List G) (hind : Independent F (Gs ++ Hs ++ [g, h])) :
    ∃ bad : BadRule F G s.badBound, ∀ (O : Oracle F G) (pr : R1CSProof F G) (r r' : F) (T T' : Transcript F G), r ≠ r' →
      s.verify { env with oracle := O } pr g h Gs Hs r = .ok T → s.verify { env with oracle := O } pr g h Gs Hs r' = .ok T' → Convinced label dv g h Gs Hs ∨ bad.Hit O T := by
  obtain ⟨bad, hbad⟩ := c58_tree env hb s g h Gs Hs s.badBound (le_max_left _ _) (fun O pr s2 h2 => by
    rw [crc_onePhase (s := s.start pr) hd h2]
    exact ⟨(le_max_left _ _).trans (le_max_right _ _), (le_max_right _ _).trans (le_max_right _ _)⟩)
  refine ⟨bad, fun O pr r r' T T' hr hv hv' => (hbad O pr r r' T T' hr hv hv').imp ?_ id⟩
  rintro ⟨s2, k, i1, i2, t, t1, t2⟩
  exact ⟨k, _, t, s, s2, ⟨hs, i2, rfl, t1, t2⟩, hind.take _⟩

/-! ## Attacks with many questions -/

/-- Both scalars are accepted under the same oracle. -/
theorem Attack.AcceptedWith.transfer {A : Attack F G} {env : Env F G} {s : Verifier F G} {g h : G} {Gs Hs : List G} {cs : List F} {r r' : F} {O O' : Oracle F G} {T T' : Transcript F G}
    (h1 : A.AcceptedWith env s g h Gs Hs cs r O T) (h2 : A.AcceptedWith env s g h Gs Hs cs r' O' T') : A.AcceptedWith env s g h Gs Hs cs r O' T := by
  have hO : AgreeOn O O' T := fun pre l hp => h1.answers.agree h2.answers (h1.asked _ (mem_draws hp))
  exact ⟨h2.answers, (c09_verify_challenges { env with oracle := O } s _ g h Gs Hs r T h1.accepts O' hO), h1.asked⟩

/-- **C58**, attacks: whatever a prover does that asks the oracle `Q` times, the number of answers (and scalars `r` of the verifier) with which it makes the verifier accept an unsatisfiable constraint system is
at most `Q B + 1` in `|F|`. -/
theorem c58_attack [Fintype F] (env : Env F G) (hb : env.batchInvert [] = .ok ([], 1)) (s : Verifier F G) (g h : G) (Gs Hs : List G) (hind : Independent F (Gs ++ Hs ++ [g, h])) (B : ℕ) (h7 : 7 ≤ B)
    (hB : ∀ O pr s2, (s.start pr).createRandomizedConstraints { env with oracle := O } = .ok s2 → nextPowerOfTwo s2.numVars ≤ B ∧ s2.constraints.length ≤ B) (A : Attack F G) (Q : ℕ) :
    Nat.card {p : (Fin Q → F) × F // A.Wins env s g h Gs Hs (List.ofFn p.1) p.2} ≤ (Q * B + 1) * Fintype.card F ^ Q := by
  obtain ⟨bad, hbad⟩ := c58_satisfiable env hb s g h Gs Hs hind B h7 hB
  refine count_wins _ (count_hit bad A.ask Q) (fun cs r => A.Wins env s g h Gs Hs (List.ofFn cs) r) fun cs r r' hr h1 h2 => ?_
  obtain ⟨O, T, s2, a1, -, -⟩ := h1
  obtain ⟨O', T', s2', b1, b2, b3⟩ := h2
  have a1' := a1.transfer b1
  rcases hbad O' _ r r' T T' hr a1'.accepts b1.accepts with ⟨s3, c1, c2⟩ | hh
  · rw [b2] at c1
    obtain rfl := Except.ok.inj c1
    exact absurd c2 b3
  · exact ⟨O', T, a1'.answers, a1'.asked, hh⟩

/-! ## The game -/

/-- The bad answers for a statement about `m` commitments. -/
def badFam (env : Env F G) (label : String) (dv : List G → Drv (Verifier F G) Unit) (m : ℕ) (g h : G) (Gs Hs : List G) (O : Oracle F G) (t : Transcript F G) : Set F :=
  {c | ∃ coms s, coms.length = m ∧ dv coms (Verifier.new [.init label]) = (.ok (), s) ∧ c ∈ badSet env s g h Gs Hs O t}

theorem badSet_prefix {env : Env F G} {s : Verifier F G} {g h : G} {Gs Hs : List G} {O : Oracle F G} {t : Transcript F G} {c : F} (hc : c ∈ badSet env s g h Gs Hs O t) : ∃ pr, (s.start pr).transcript <+: t := by
  obtain ⟨pr, s2, k, h1, h2, h3⟩ := hc
  obtain ⟨pre, l, rfl, hp⟩ := badFor_prefix h3
  exact ⟨pr, ((crc_prefix h1).trans hp).trans (List.prefix_append _ _)⟩

theorem onePhase_bound {env : Env F G} {s : Verifier F G} (hd : s.deferred = []) : ∀ O pr s2, (s.start pr).createRandomizedConstraints { env with oracle := O } = .ok s2 →
    nextPowerOfTwo s2.numVars ≤ s.badBound ∧ s2.constraints.length ≤ s.badBound := fun O pr s2 h2 => by
  rw [crc_onePhase (s := s.start pr) hd h2]
  exact ⟨(le_max_left _ _).trans (le_max_right _ _), (le_max_right _ _).trans (le_max_right _ _)⟩

/-- **C58**, for a statement about `m` commitments (without randomized constraints, built in the same way for all commitments): there is one rule for bad answers, whatever the commitments. -/
theorem c58_game_rule (env : Env F G) (hb : env.batchInvert [] = .ok ([], 1)) (label : String) (m : ℕ) (dv : List G → Drv (Verifier F G) Unit) (hu : Uniform label m dv) (coms0 : List G) (h0 : coms0.length = m) (s0 : Verifier F G)
    (hs0 : dv coms0 (Verifier.new [.init label]) = (.ok (), s0)) (g h : G) (Gs Hs : List G) (hind : Independent F (Gs ++ Hs ++ [g, h])) :
    ∃ bad : BadRule F G s0.badBound, ∀ (coms : List G) (s : Verifier F G), coms.length = m → dv coms (Verifier.new [.init label]) = (.ok (), s) → ∀ (O : Oracle F G) (pr : R1CSProof F G) (r r' : F) (T T' : Transcript F G), r ≠ r' →
      s.verify { env with oracle := O } pr g h Gs Hs r = .ok T → s.verify { env with oracle := O } pr g h Gs Hs r' = .ok T' → Convinced label (dv coms) g h Gs Hs ∨ bad.Hit O T := by
  have few : ∀ O t, (badFam env label dv m g h Gs Hs O t).encard ≤ s0.badBound := by
    intro O t
    by_cases hne : (badFam env label dv m g h Gs Hs O t).Nonempty
    · obtain ⟨c, coms, s, hl, hs, hc⟩ := hne
      obtain ⟨pr, hp⟩ := badSet_prefix hc
      refine le_trans (Set.encard_le_encard (t := badSet env s g h Gs Hs O t) ?_) ?_
      · rintro c' ⟨coms', s', hl', hs', hc'⟩
        obtain ⟨pr', hp'⟩ := badSet_prefix hc'
        obtain rfl := hu.eq_of_prefix hl hl' hs hs' hp hp'
        exact hc'
      · rw [← hu.badBound hl h0 hs hs0]
        exact badSet_few (le_max_left _ _) (onePhase_bound (OnePhase.new (hu.onePhase _) hs)) O t
    · rw [Set.not_nonempty_iff_eq_empty.mp hne]; simp
  have before : ∀ O O' pre l, AgreeOn O O' pre → badFam env label dv m g h Gs Hs O (pre ++ [.challenge l]) ⊆ badFam env label dv m g h Gs Hs O' (pre ++ [.challenge l]) := by
    rintro O O' pre l hO c ⟨coms, s, hl, hs, hc⟩
    exact ⟨coms, s, hl, hs, badSet_before hO hc⟩
  refine ⟨⟨badFam env label dv m g h Gs Hs, few, fun O O' pre l hO => (before O O' pre l hO).antisymm (before O' O pre l hO.symm)⟩, fun coms s hl hs O pr r r' T T' hr hv hv' => ?_⟩
  rcases tree_or_bad hb hr hv hv' with ⟨s2, k, i1, i2, t, t1, t2⟩ | ⟨pre, l, h1, h2⟩
  · exact .inl ⟨k, _, t, s, s2, ⟨hs, i2, rfl, t1, t2⟩, hind.take _⟩
  · exact .inr ⟨pre, l, h1, coms, s, hl, hs, h2⟩

/-- **C58**, the game: the prover asks the oracle `Q` questions, and chooses `m` commitments and a proof; the verifier asks for the challenges, and checks the proof.  The number of answers (and scalars `r` of the verifier) with
which the verifier accepts although the claim is false of the commitments is at most `(Q + D) B + 1` in `|F|`; `D` is the number of challenges of a proof. -/
theorem c58_game [Fintype F] (env : Env F G) (hb : env.batchInvert [] = .ok ([], 1)) (label : String) (m : ℕ) (dv : List G → Drv (Verifier F G) Unit) (hu : Uniform label m dv) (coms0 : List G) (h0 : coms0.length = m)
    (s0 : Verifier F G) (hs0 : dv coms0 (Verifier.new [.init label]) = (.ok (), s0)) (g h : G) (Gs Hs : List G) (hind : Independent F (Gs ++ Hs ++ [g, h])) (claim : List G → Prop)
    (hc : ∀ coms, coms.length = m → Convinced label (dv coms) g h Gs Hs → claim coms) (A : Forger F G) (Q : ℕ) :
    A.forging env label dv m claim g h Gs Hs Q s0.numDraws ≤ ((Q + s0.numDraws) * s0.badBound + 1) * Fintype.card F ^ (Q + s0.numDraws) := by
  obtain ⟨bad, hbad⟩ := c58_game_rule env hb label m dv hu coms0 h0 s0 hs0 g h Gs Hs hind
  exact game_count env label m dv hu coms0 h0 s0 hs0 g h Gs Hs bad claim (fun coms s hl hs O pr r r' T T' hr hv hv' => (hbad coms s hl hs O pr r r' T T' hr hv hv').imp_left (hc coms hl)) A Q

/-- **C58**, for a bound check: a prover that asks the oracle `Q` questions, and then chooses the commitments and the proof, makes the verifier accept with at most `(Q + D) B + 1` in `|F|` of the answers, unless the first commitment
is to a number between the bounds.  (`D` and `B` depend only on the number of commitments; `s0` is the state of the verifier for some of them.) -/
theorem c58_bounded_num [Fintype F] [IntRep F] (env : Env F G) (hb : env.batchInvert [] = .ok ([], 1)) (label : String) (debug : Bool) (lower upper n : ℕ) (hl : lower < 2 ^ 64) (hu : upper < 2 ^ 64)
    (ho : 2 ^ 64 < IntRep.order F) (hn : 2 ^ (n + 1) ≤ IntRep.order F) (coms0 : List G) (s0 : Verifier F G)
    (hs : verifyBoundedNum env debug lower upper n coms0 (Verifier.new [.init label]) = (.ok (), s0)) (g h : G) (Gs Hs : List G) (hind : Independent F (Gs ++ Hs ++ [g, h])) (A : Forger F G) (Q : ℕ) :
    A.forging env label (fun coms => verifyBoundedNum env debug lower upper n coms) coms0.length (fun coms => ∃ P, ∃ k : ℕ, coms[0]? = some P ∧ CommitsTo g h P (k : F) ∧ lower ≤ k ∧ k ≤ upper) g h Gs Hs Q s0.numDraws ≤
      ((Q + s0.numDraws) * s0.badBound + 1) * Fintype.card F ^ (Q + s0.numDraws) :=
  c58_game env hb label _ _ (Uniform.boundedNum _ _ _ _ _) coms0 rfl s0 hs g h Gs Hs hind _ (fun _ _ hc => c55_bounded_num env debug lower upper n hl hu ho hn hc) A Q

/-- **C58**, for the non-zero statement: unless the first commitment is to a value different from zero. -/
theorem c58_non_zero [Fintype F] (env : Env F G) (hb : env.batchInvert [] = .ok ([], 1)) (label : String) (coms0 : List G) (s0 : Verifier F G)
    (hs : verifyNonZeroVal env coms0 (Verifier.new [.init label]) = (.ok (), s0)) (g h : G) (Gs Hs : List G) (hind : Independent F (Gs ++ Hs ++ [g, h])) (A : Forger F G) (Q : ℕ) :
    A.forging env label (verifyNonZeroVal env) coms0.length (fun coms => ∃ P, ∃ x : F, coms[0]? = some P ∧ CommitsTo g h P x ∧ x ≠ 0) g h Gs Hs Q s0.numDraws ≤
      ((Q + s0.numDraws) * s0.badBound + 1) * Fintype.card F ^ (Q + s0.numDraws) :=
  c58_game env hb label _ _ (Uniform.nonZeroVal _) coms0 rfl s0 hs g h Gs Hs hind _ (fun _ _ hc => c55_non_zero env hc) A Q

end Bp
