import Verif.Lemmas.Interactive

set_option linter.unusedSectionVars false
set_option linter.unusedSimpArgs false

/-! # The messages of the code's prover only depend on the challenges drawn before them -/

namespace Bp
variable {F G : Type} [Field F] [AddCommGroup G] [Module F G]
open Finset

theorem length_draws_snoc (t : Transcript F G) (l : String) : (draws (t ++ [TEvent.challenge l])).length = (draws t).length + 1 :=
  draws_append_msg ⟨[], l, rfl, by simp⟩

theorem publicCoins_snoc (cs : List F) (t : Transcript F G) (l : String) : publicCoins cs (t ++ [TEvent.challenge l]) = cs.getD (draws t).length 0 := by
  rw [publicCoins, length_draws_snoc]; simp

theorem length_draws_point (t : Transcript F G) (l : String) (P : G) : (draws (t.commitPoint l P)).length = (draws t).length := by
  rw [Transcript.commitPoint, draws, drawsFrom_append, List.length_append]
  simp [drawsFrom, TEvent.isChallenge, draws]

/-- One round: the equation of `ippLoop` at a power of two. -/
theorem ippLoop_round (O : Oracle F G) (Q : G) (k : ℕ) (t : Transcript F G) (Gs Hs : List G) (a b : List F) (Ls Rs : List G) (h1 : Gs.length = 2 ^ (k + 1)) (h2 : Hs.length = 2 ^ (k + 1)) (h3 : a.length = 2 ^ (k + 1))
    (h4 : b.length = 2 ^ (k + 1)) : ∃ L R : G, ∀ (O : Oracle F G) (t : Transcript F G) (Ls Rs : List G) (u : F), O (((t.commitPoint "L" L).commitPoint "R" R) ++ [TEvent.challenge "u"]) = u →
      ippLoop O Q (2 ^ (k + 1)) t Gs Hs a b Ls Rs = ippLoop O Q (2 ^ k) (((t.commitPoint "L" L).commitPoint "R" R) ++ [TEvent.challenge "u"]) (foldPoints u⁻¹ u (Gs.take (2 ^ k)) (Gs.drop (2 ^ k)))
        (foldPoints u u⁻¹ (Hs.take (2 ^ k)) (Hs.drop (2 ^ k))) (foldScalars u u⁻¹ (a.take (2 ^ k)) (a.drop (2 ^ k))) (foldScalars u⁻¹ u (b.take (2 ^ k)) (b.drop (2 ^ k))) (Ls ++ [L]) (Rs ++ [R]) := by
  refine ⟨ippCommit Q (Gs.drop (2 ^ k)) (Hs.take (2 ^ k)) (a.take (2 ^ k)) (b.drop (2 ^ k)), ippCommit Q (Gs.take (2 ^ k)) (Hs.drop (2 ^ k)) (a.drop (2 ^ k)) (b.take (2 ^ k)), ?_⟩
  intro O t Ls Rs u hu
  have hn : ¬ 2 ^ (k + 1) ≤ 1 := by
    rw [pow_succ]; have : 0 < 2 ^ k := Nat.two_pow_pos _
    omega
  obtain ⟨g1, g2, hk⟩ := take_drop_len h1
  obtain ⟨p1, p2, -⟩ := take_drop_len h2
  obtain ⟨a1, a2, -⟩ := take_drop_len h3
  obtain ⟨b1, b2, -⟩ := take_drop_len h4
  rw [hk] at g1 g2 p1 p2 a1 a2 b1 b2
  rw [ippLoop, if_neg hn, hk]
  simp only
  rw [innerProduct_ok (by omega), innerProduct_ok (by omega)]
  simp only [bind, Except.bind]
  rw [multiScalarMul_ok (by simp only [List.length_append, List.length_singleton]; omega),
    multiScalarMul_ok (by simp only [List.length_append, List.length_singleton]; omega)]
  simp only
  rw [ippCommit_single Q _ _ _ _ (by omega) (by omega), ippCommit_single Q _ _ _ _ (by omega) (by omega)]
  simp only [Transcript.challengeScalar]
  rw [hu]

theorem fold_lens {k : ℕ} (u v : F) {Gs Hs : List G} {a b : List F} (h1 : Gs.length = 2 ^ (k + 1)) (h2 : Hs.length = 2 ^ (k + 1)) (h3 : a.length = 2 ^ (k + 1)) (h4 : b.length = 2 ^ (k + 1)) :
    (foldPoints v u (Gs.take (2 ^ k)) (Gs.drop (2 ^ k))).length = 2 ^ k ∧ (foldPoints u v (Hs.take (2 ^ k)) (Hs.drop (2 ^ k))).length = 2 ^ k ∧ (foldScalars u v (a.take (2 ^ k)) (a.drop (2 ^ k))).length = 2 ^ k ∧
      (foldScalars v u (b.take (2 ^ k)) (b.drop (2 ^ k))).length = 2 ^ k := by
  have : 2 ^ (k + 1) = 2 ^ k + 2 ^ k := by rw [pow_succ]; omega
  refine ⟨?_, ?_, ?_, ?_⟩ <;> simp [foldPoints, foldScalars, h1, h2, h3, h4, this]

/-- Two runs of the inner-product prover with the same inputs, the first `j` challenges alike: the first `j + 1` messages are alike, and the final scalars if all challenges are. -/
theorem ippLoop_coins (Q : G) (k : ℕ) : ∀ (t t' : Transcript F G) (cs cs' : List F) (j : ℕ) (Gs Hs : List G) (a b : List F) (Ls Rs : List G),
    Gs.length = 2 ^ k → Hs.length = 2 ^ k → a.length = 2 ^ k → b.length = 2 ^ k → (draws t).length = (draws t').length → (∀ i < (draws t).length + j, cs.getD i 0 = cs'.getD i 0) →
    ∃ L R a1 b1 T L' R' a1' b1' T', ippLoop (publicCoins cs) Q (2 ^ k) t Gs Hs a b Ls Rs = .ok (⟨Ls ++ L, Rs ++ R, a1, b1⟩, T) ∧ ippLoop (publicCoins cs') Q (2 ^ k) t' Gs Hs a b Ls Rs = .ok (⟨Ls ++ L', Rs ++ R', a1', b1'⟩, T') ∧
      L.length = k ∧ R.length = k ∧ L'.length = k ∧ R'.length = k ∧ (∀ i ≤ j, L[i]? = L'[i]? ∧ R[i]? = R'[i]?) ∧ (k ≤ j → a1 = a1' ∧ b1 = b1') := by
  induction k with
  | zero =>
    intro t t' cs cs' j Gs Hs a b Ls Rs h1 h2 h3 h4 ht hc
    obtain ⟨x, rfl⟩ := List.length_eq_one_iff.mp h3
    obtain ⟨y, rfl⟩ := List.length_eq_one_iff.mp h4
    refine ⟨[], [], x, y, t, [], [], x, y, t', ?_, ?_, rfl, rfl, rfl, rfl, fun _ _ => ⟨rfl, rfl⟩, fun _ => ⟨rfl, rfl⟩⟩ <;>
    · rw [ippLoop]; simp [idx, bind, Except.bind, pure, Except.pure]
  | succ k ih =>
    intro t t' cs cs' j Gs Hs a b Ls Rs h1 h2 h3 h4 ht hc
    obtain ⟨L0, R0, hr⟩ := ippLoop_round (publicCoins cs) Q k t Gs Hs a b Ls Rs h1 h2 h3 h4
    have hd : ∀ t : Transcript F G, (draws (((t.commitPoint "L" L0).commitPoint "R" R0) ++ [TEvent.challenge "u"])).length = (draws t).length + 1 := by
      intro t; rw [length_draws_snoc, length_draws_point, length_draws_point]
    have hu : ∀ (cs : List F) (t : Transcript F G), publicCoins cs (((t.commitPoint "L" L0).commitPoint "R" R0) ++ [TEvent.challenge "u"]) = cs.getD (draws t).length 0 := by
      intro cs t; rw [publicCoins_snoc, length_draws_point, length_draws_point]
    rw [hr _ t _ _ _ (hu _ _), hr _ t' _ _ _ (hu _ _), ← ht]
    cases j with
    | zero =>
      obtain ⟨g1, p1, a1, b1⟩ := fold_lens (cs.getD (draws t).length 0) (cs.getD (draws t).length 0)⁻¹ h1 h2 h3 h4
      obtain ⟨g2, p2, a2, b2⟩ := fold_lens (cs'.getD (draws t).length 0) (cs'.getD (draws t).length 0)⁻¹ h1 h2 h3 h4
      obtain ⟨L, R, α, β, l1, l2, e1, -⟩ := ippLoop_complete (publicCoins cs) Q k (((t.commitPoint "L" L0).commitPoint "R" R0) ++ [TEvent.challenge "u"]) _ _ _ _ (Ls ++ [L0]) (Rs ++ [R0]) g1 p1 a1 b1
      obtain ⟨L', R', α', β', l1', l2', e1', -⟩ := ippLoop_complete (publicCoins cs') Q k (((t'.commitPoint "L" L0).commitPoint "R" R0) ++ [TEvent.challenge "u"]) _ _ _ _ (Ls ++ [L0]) (Rs ++ [R0]) g2 p2 a2 b2
      refine ⟨L0 :: L, R0 :: R, α, β, (ippChallenges (publicCoins cs) (((t.commitPoint "L" L0).commitPoint "R" R0) ++ [TEvent.challenge "u"]) (L.zip R)).2, L0 :: L', R0 :: R', α', β',
        (ippChallenges (publicCoins cs') (((t'.commitPoint "L" L0).commitPoint "R" R0) ++ [TEvent.challenge "u"]) (L'.zip R')).2, ?_, ?_, by simp [l1], by simp [l2], by simp [l1'], by simp [l2'], ?_, by omega⟩
      · rw [e1]; simp only [List.append_assoc, List.singleton_append]
      · rw [e1']; simp only [List.append_assoc, List.singleton_append]
      · intro i hi
        obtain rfl : i = 0 := by omega
        simp
    | succ j =>
      rw [← hc (draws t).length (by omega)]
      obtain ⟨g1, p1, a1, b1⟩ := fold_lens (cs.getD (draws t).length 0) (cs.getD (draws t).length 0)⁻¹ h1 h2 h3 h4
      obtain ⟨L, R, α, β, T, L', R', α', β', T', e1, e2, l1, l2, l1', l2', h5, h6⟩ := ih (((t.commitPoint "L" L0).commitPoint "R" R0) ++ [TEvent.challenge "u"]) (((t'.commitPoint "L" L0).commitPoint "R" R0) ++ [TEvent.challenge "u"])
        cs cs' j _ _ _ _ (Ls ++ [L0]) (Rs ++ [R0]) g1 p1 a1 b1 (by rw [hd, hd, ht]) (by
        rw [hd]; intro i hi; exact hc i (by omega))
      refine ⟨L0 :: L, R0 :: R, α, β, T, L0 :: L', R0 :: R', α', β', T', ?_, ?_, by simp [l1], by simp [l2], by simp [l1'], by simp [l2'], ?_, fun hk => h6 (by omega)⟩
      · rw [e1]; simp only [List.append_assoc, List.singleton_append]
      · rw [e2]; simp only [List.append_assoc, List.singleton_append]
      · intro i hi
        cases i with
        | zero => simp
        | succ i => simpa using h5 i (by omega)

theorem length_draws_ippDomainSep (t : Transcript F G) (n : ℕ) : (draws (t.ippDomainSep n)).length = (draws t).length := by
  rw [Transcript.ippDomainSep, draws, drawsFrom_append, List.length_append]
  simp [drawsFrom, TEvent.isChallenge, draws]

theorem createIpp_coins (Q : G) (k : ℕ) (t t' : Transcript F G) (cs cs' : List F) (j : ℕ) (Gf Hf : List F) (Gs Hs : List G) (a b : List F) (h1 : Gs.length = 2 ^ k) (h2 : Hs.length = 2 ^ k) (h3 : a.length = 2 ^ k)
    (h4 : b.length = 2 ^ k) (h5 : Gf.length = 2 ^ k) (h6 : Hf.length = 2 ^ k) (ht : (draws t).length = (draws t').length) (hc : ∀ i < (draws t).length + j, cs.getD i 0 = cs'.getD i 0) (pr pr' : IppProof F G) (T T' : Transcript F G)
    (e1 : createIpp (publicCoins cs) t Q Gf Hf Gs Hs a b = .ok (pr, T)) (e2 : createIpp (publicCoins cs') t' Q Gf Hf Gs Hs a b = .ok (pr', T')) :
    pr.L.length = k ∧ pr.R.length = k ∧ (∀ i ≤ j, pr.L[i]? = pr'.L[i]? ∧ pr.R[i]? = pr'.R[i]?) ∧ (k ≤ j → pr.a = pr'.a ∧ pr.b = pr'.b) := by
  cases k with
  | zero =>
    obtain ⟨g, rfl⟩ := List.length_eq_one_iff.mp h1
    obtain ⟨h, rfl⟩ := List.length_eq_one_iff.mp h2
    obtain ⟨x, rfl⟩ := List.length_eq_one_iff.mp h3
    obtain ⟨y, rfl⟩ := List.length_eq_one_iff.mp h4
    obtain ⟨f, rfl⟩ := List.length_eq_one_iff.mp h5
    obtain ⟨e, rfl⟩ := List.length_eq_one_iff.mp h6
    unfold createIpp at e1 e2
    simp only [List.length_singleton, show isPowerOfTwo 1 = true from isPowerOfTwo_pow 0, Bool.true_eq_false, if_false, ne_eq, not_true_eq_false, or_self] at e1 e2
    rw [ippLoop] at e1 e2
    simp [idx, bind, Except.bind, pure, Except.pure] at e1 e2
    rw [← e1.1, ← e2.1]
    simp
  | succ k =>
    rw [createIpp_succ _ _ _ _ _ _ _ _ _ _ h1 h2 h3 h4 h5 h6] at e1 e2
    obtain ⟨L, R, α, β, U, L', R', α', β', U', f1, f2, l1, l2, l1', l2', h7, h8⟩ := ippLoop_coins Q (k + 1) (t.ippDomainSep (2 ^ (k + 1))) (t'.ippDomainSep (2 ^ (k + 1))) cs cs' j (scaled Gf Gs) (scaled Hf Hs) a b [] []
      (by simp [h1, h5]) (by simp [h2, h6]) h3 h4 (by rw [length_draws_ippDomainSep, length_draws_ippDomainSep, ht]) (by rw [length_draws_ippDomainSep]; exact hc)
    rw [f1] at e1
    rw [f2] at e2
    simp only [List.nil_append, Except.ok.injEq, Prod.mk.injEq] at e1 e2
    rw [← e1.1, ← e2.1]
    exact ⟨l1, l2, h7, h8⟩

theorem ippChallenges_coins (cs : List F) : ∀ (ps : List (G × G)) (t : Transcript F G), (ippChallenges (publicCoins cs) t ps).1 = (List.range' (draws t).length ps.length).map fun i => cs.getD i 0
  | [], t => rfl
  | (L, R) :: ps, t => by
    simp only [ippChallenges, Transcript.challengeScalar]
    rw [ippChallenges_coins cs ps, length_draws_snoc, publicCoins_snoc, length_draws_point, length_draws_point, List.length_cons, List.range'_succ, List.map_cons]

/-! ## The logs of a proof -/

theorem length_draws_msgs (t : Transcript F G) (l : String) (ms : List (TEvent F G)) (h : ∀ e ∈ ms, e.isChallenge = false) : (draws (t ++ (ms ++ [TEvent.challenge l]))).length = (draws t).length + 1 :=
  draws_append_msg ⟨ms, l, rfl, h⟩

theorem publicCoins_msgs (cs : List F) (t : Transcript F G) (l : String) (ms : List (TEvent F G)) (h : ∀ e ∈ ms, e.isChallenge = false) : publicCoins cs (t ++ (ms ++ [TEvent.challenge l])) = cs.getD (draws t).length 0 := by
  rw [publicCoins, length_draws_msgs _ _ _ h]; simp

theorem length_draws_logY (t : Transcript F G) (pr : R1CSProof F G) : (draws (logY t pr)).length = (draws t).length + 1 :=
  length_draws_msgs t "y" [.point "A_I2" pr.A_I2, .point "A_O2" pr.A_O2, .point "S2" pr.S2] (by simp [TEvent.isChallenge])
theorem length_draws_logZ (t : Transcript F G) (pr : R1CSProof F G) : (draws (logZ t pr)).length = (draws t).length + 2 := by
  rw [logZ, length_draws_snoc, length_draws_logY]
theorem length_draws_logU (t : Transcript F G) (pr : R1CSProof F G) : (draws (logU t pr)).length = (draws t).length + 3 := by
  have := length_draws_msgs (logZ t pr) "u" [.point "T_1" pr.T_1, .point "T_3" pr.T_3, .point "T_4" pr.T_4, .point "T_5" pr.T_5, .point "T_6" pr.T_6] (by simp [TEvent.isChallenge])
  rw [length_draws_logZ] at this
  exact this
theorem length_draws_logX (t : Transcript F G) (pr : R1CSProof F G) : (draws (logX t pr)).length = (draws t).length + 4 := by
  rw [logX, length_draws_snoc, length_draws_logU]
theorem length_draws_logW (t : Transcript F G) (pr : R1CSProof F G) : (draws (logW t pr)).length = (draws t).length + 5 := by
  have := length_draws_msgs (logX t pr) "w" [.scalar "t_x" pr.t_x, .scalar "t_x_blinding" pr.t_x_blinding, .scalar "e_blinding" pr.e_blinding] (by simp [TEvent.isChallenge])
  rw [length_draws_logX] at this
  exact this

theorem drawn_coins (cs : List F) (t : Transcript F G) (pr : R1CSProof F G) {d : ℕ} (hd : (draws t).length = d) :
    drawn (publicCoins cs) t pr = ⟨cs.getD d 0, cs.getD (d + 1) 0, cs.getD (d + 2) 0, cs.getD (d + 3) 0, cs.getD (d + 4) 0⟩ := by
  simp only [drawn, publicCoins, length_draws_logY, length_draws_logZ, length_draws_logU, length_draws_logX, length_draws_logW, hd, Nat.add_one_sub_one]

theorem ippRounds_coins (cs : List F) (t : Transcript F G) (pr : R1CSProof F G) (N : ℕ) {d : ℕ} (hd : (draws t).length = d) :
    ippRounds (publicCoins cs) t pr N = (List.range' (d + 5) (min pr.ipp.L.length pr.ipp.R.length)).map fun i => cs.getD i 0 := by
  rw [ippRounds, ippChallenges_coins, length_draws_ippDomainSep, length_draws_logW, hd, List.length_zip]

/-! ## Two runs of the prover -/

section
variable {env : Env F G} {p p2 : Prover F G} {c : Coins F} {Gs Hs : List G} {k d : ℕ} {ch ch' : Chals F} {wp wp' : Weights F} {lp rp lp' rp' : VecPoly3 F} {pr pr' : R1CSProof F G} {T T' : Transcript F G} {cs cs' : List F}

theorem Honest.same_T (hd : (draws p2.transcript).length = d) (H : Honest { env with oracle := publicCoins cs } p p2 c Gs Hs k ch wp lp rp pr T) (H' : Honest { env with oracle := publicCoins cs' } p p2 c Gs Hs k ch' wp' lp' rp' pr' T')
    (h : ∀ i < d + 2, cs.getD i 0 = cs'.getD i 0) : ch.y = ch'.y ∧ ch.z = ch'.z ∧ wp = wp' ∧ lp = lp' ∧ rp = rp' := by
  have e1 := H.hch
  have e2 := H'.hch
  rw [drawn_coins _ _ _ hd] at e1 e2
  have hy : ch.y = ch'.y := by rw [e1, e2]; exact h _ (by omega)
  have hz : ch.z = ch'.z := by rw [e1, e2]; exact h _ (by omega)
  have hw : wp = wp' := by
    have a := H.hwp
    rw [hz, H'.hwp] at a
    exact (Except.ok.inj a).symm
  exact ⟨hy, hz, hw, by rw [H.hlp, H'.hlp, hy, hw], by rw [H.hrp, H'.hrp, hy, hw]⟩

theorem Honest.same_x (hd : (draws p2.transcript).length = d) (H : Honest { env with oracle := publicCoins cs } p p2 c Gs Hs k ch wp lp rp pr T) (H' : Honest { env with oracle := publicCoins cs' } p p2 c Gs Hs k ch' wp' lp' rp' pr' T')
    (h : ∀ i < d + 4, cs.getD i 0 = cs'.getD i 0) : ch.u = ch'.u ∧ ch.x = ch'.x := by
  have e1 := H.hch
  have e2 := H'.hch
  rw [drawn_coins _ _ _ hd] at e1 e2
  exact ⟨by rw [e1, e2]; exact h _ (by omega), by rw [e1, e2]; exact h _ (by omega)⟩

theorem Honest.same_ipp (hd : (draws p2.transcript).length = d) (H : Honest { env with oracle := publicCoins cs } p p2 c Gs Hs k ch wp lp rp pr T) (H' : Honest { env with oracle := publicCoins cs' } p p2 c Gs Hs k ch' wp' lp' rp' pr' T')
    (hn : p2.aL.length ≤ 2 ^ k) (hG : 2 ^ k ≤ Gs.length) (hH : 2 ^ k ≤ Hs.length) (j : ℕ) (h : ∀ i < d + 5 + j, cs.getD i 0 = cs'.getD i 0) :
    pr.ipp.L.length = k ∧ pr.ipp.R.length = k ∧ (∀ i ≤ j, pr.ipp.L[i]? = pr'.ipp.L[i]? ∧ pr.ipp.R[i]? = pr'.ipp.R[i]?) ∧ (k ≤ j → pr.ipp.a = pr'.ipp.a ∧ pr.ipp.b = pr'.ipp.b) := by
  obtain ⟨hy, hz, hw, hl, hr⟩ := Honest.same_T hd H H' fun i hi => h i (by omega)
  obtain ⟨hu, hx⟩ := Honest.same_x hd H H' fun i hi => h i (by omega)
  have hw : ch.w = ch'.w := by
    have e1 := H.hch
    have e2 := H'.hch
    rw [drawn_coins _ _ _ hd] at e1 e2
    rw [e1, e2]; exact h _ (by omega)
  have a := H.hipp
  have b := H'.hipp
  rw [← hy, ← hu, ← hx, ← hw, ← hl, ← hr] at b
  refine createIpp_coins _ k _ _ cs cs' j _ _ _ _ _ _ ?_ ?_ ?_ ?_ ?_ ?_ ?_ ?_ _ _ _ _ a b
  · simp; omega
  · simp; omega
  · exact length_hlvec _ _ _ _ hn
  · exact length_hrvec _ _ _ _ _ hn
  · simp
  · simp
  · rw [length_draws_logW, length_draws_logW]
  · rw [length_draws_logW, hd]; exact h

end

/-- The code's prover is an interactive prover: what it computes with the challenges `pre ++ cs` is what `Prover.interactive` sends. -/
theorem prove_interactive (env : Env F G) (p p2 : Prover F G) (c : Coins F) (Gs Hs : List G) (hwp : p.WF) (pre : List F) (hd : (draws p2.transcript).length = pre.length)
    (hcrc : (p.start c Gs Hs).createRandomizedConstraints { env with oracle := publicCoins pre } = .ok p2) (k : ℕ) (hkN : nextPowerOfTwo p2.aL.length = 2 ^ k)
    (hG : 2 ^ k ≤ Gs.length) (hH : 2 ^ k ≤ Hs.length) (hin : ∀ lc ∈ p2.constraints, ∀ t ∈ lc.terms, Var.InRange p2.aL.length p2.v.length t.1) (cs : List F) (hcs : cs.length = 5 + k) :
    ∃ T, p.prove { env with oracle := publicCoins (pre ++ cs) } c Gs Hs = .ok ((p.interactive env c Gs Hs pre.length).proof pre.length k (pre ++ cs), T) := by
  have hn : p2.aL.length ≤ 2 ^ k := hkN ▸ nextPowerOfTwo_ge _
  have hc : ∀ cs', (p.start c Gs Hs).createRandomizedConstraints { env with oracle := publicCoins (pre ++ cs') } = .ok p2 := by
    intro cs'
    obtain ⟨-, -, -, hO⟩ := Prover.crc_log hcrc
    exact hO _ (coins_agree hd.le)
  have hrun : ∀ cs', ∃ T ch wp lp rp, p.prove { env with oracle := publicCoins (pre ++ cs') } c Gs Hs = .ok (p.answers env c Gs Hs (pre ++ cs'), T) ∧
      Honest { env with oracle := publicCoins (pre ++ cs') } p p2 c Gs Hs k ch wp lp rp (p.answers env c Gs Hs (pre ++ cs')) T := by
    intro cs'
    obtain ⟨pr, T, ch, wp, lp, rp, h1, h2⟩ := prove_ok { env with oracle := publicCoins (pre ++ cs') } p p2 c Gs Hs hwp (hc cs') k hkN hG hH hin
    have e : p.answers env c Gs Hs (pre ++ cs') = pr := by rw [Prover.answers, h1]
    exact ⟨T, ch, wp, lp, rp, by rw [e]; exact h1, by rw [e]; exact h2⟩
  obtain ⟨T, ch, wp, lp, rp, h1, H⟩ := hrun cs
  have ht : ∀ m, (pre ++ cs).take (pre.length + m) = pre ++ cs.take m := by intro m; rw [List.take_append]; simp
  have hg : ∀ m, ∀ i < pre.length + m, (pre ++ cs).getD i 0 = (pre ++ cs.take m).getD i 0 := by
    intro m
    rw [← ht]
    intro i hi
    exact (getD_take _ _ i 0 hi).symm
  refine ⟨T, ?_⟩
  rw [h1]
  congr 2
  obtain ⟨l1, l2, -⟩ := Honest.same_ipp hd H H hn hG hH 0 fun _ _ => rfl
  have h0 := ht 0
  obtain ⟨T0, ch0, wp0, lp0, rp0, -, H0⟩ := hrun (cs.take 0)
  obtain ⟨T2, ch2, wp2, lp2, rp2, -, H2⟩ := hrun (cs.take 2)
  obtain ⟨T4, ch4, wp4, lp4, rp4, -, H4⟩ := hrun (cs.take 4)
  obtain ⟨-, -, -, a1, a2⟩ := Honest.same_T hd H H2 (hg 2)
  obtain ⟨b1, b2, b3, b4, b5⟩ := Honest.same_T hd H H4 fun i hi => hg 4 i (by omega)
  obtain ⟨b6, b7⟩ := Honest.same_x hd H H4 (hg 4)
  have hL : ∀ i < k, (p.answers env c Gs Hs (pre ++ cs)).ipp.L[i]? = (p.answers env c Gs Hs (pre ++ cs.take (5 + i))).ipp.L[i]? ∧ (p.answers env c Gs Hs (pre ++ cs)).ipp.R[i]? = (p.answers env c Gs Hs (pre ++ cs.take (5 + i))).ipp.R[i]? := by
    intro i hi
    obtain ⟨T5, ch5, wp5, lp5, rp5, -, H5⟩ := hrun (cs.take (5 + i))
    exact (Honest.same_ipp hd H H5 hn hG hH i fun i hi => hg _ i (by omega)).2.2.1 i (le_refl _)
  have hcl : ∀ i < k, (pre ++ cs.take (5 + i)).length - (pre.length + 5) = i := by
    intro i hi
    simp only [List.length_append, List.length_take]
    omega
  have e : ∀ q q' : R1CSProof F G, q.A_I1 = q'.A_I1 → q.A_O1 = q'.A_O1 → q.S1 = q'.S1 → q.A_I2 = q'.A_I2 → q.A_O2 = q'.A_O2 → q.S2 = q'.S2 → q.T_1 = q'.T_1 → q.T_3 = q'.T_3 → q.T_4 = q'.T_4 → q.T_5 = q'.T_5 → q.T_6 = q'.T_6 →
      q.t_x = q'.t_x → q.t_x_blinding = q'.t_x_blinding → q.e_blinding = q'.e_blinding → q.ipp.L = q'.ipp.L → q.ipp.R = q'.ipp.R → q.ipp.a = q'.ipp.a → q.ipp.b = q'.ipp.b → q = q' := by
    rintro ⟨_, _, _, _, _, _, _, _, _, _, _, _, _, _, ⟨_, _, _, _⟩⟩ ⟨_, _, _, _, _, _, _, _, _, _, _, _, _, _, ⟨_, _, _, _⟩⟩
    simp only
    rintro rfl rfl rfl rfl rfl rfl rfl rfl rfl rfl rfl rfl rfl rfl rfl rfl rfl rfl
    rfl
  have ht0 : (pre ++ cs).take pre.length = pre ++ cs.take 0 := ht 0
  apply e
  · exact H.hA_I1
  · exact H.hA_O1
  · exact H.hS1
  · show _ = (p.answers env c Gs Hs ((pre ++ cs).take pre.length)).A_I2
    rw [ht0, H.hA_I2, H0.hA_I2]
  · show _ = (p.answers env c Gs Hs ((pre ++ cs).take pre.length)).A_O2
    rw [ht0, H.hA_O2, H0.hA_O2]
  · show _ = (p.answers env c Gs Hs ((pre ++ cs).take pre.length)).S2
    rw [ht0, H.hS2, H0.hS2]
  · show _ = (p.answers env c Gs Hs ((pre ++ cs).take (pre.length + 2))).T_1
    rw [ht, H.hT_1, H2.hT_1, a1, a2]
  · show _ = (p.answers env c Gs Hs ((pre ++ cs).take (pre.length + 2))).T_3
    rw [ht, H.hT_3, H2.hT_3, a1, a2]
  · show _ = (p.answers env c Gs Hs ((pre ++ cs).take (pre.length + 2))).T_4
    rw [ht, H.hT_4, H2.hT_4, a1, a2]
  · show _ = (p.answers env c Gs Hs ((pre ++ cs).take (pre.length + 2))).T_5
    rw [ht, H.hT_5, H2.hT_5, a1, a2]
  · show _ = (p.answers env c Gs Hs ((pre ++ cs).take (pre.length + 2))).T_6
    rw [ht, H.hT_6, H2.hT_6, a1, a2]
  · show _ = (p.answers env c Gs Hs ((pre ++ cs).take (pre.length + 4))).t_x
    rw [ht, H.ht_x, H4.ht_x, b4, b5, b7]
  · show _ = (p.answers env c Gs Hs ((pre ++ cs).take (pre.length + 4))).t_x_blinding
    rw [ht, H.ht_x_blinding, H4.ht_x_blinding, b3, b7]
  · show _ = (p.answers env c Gs Hs ((pre ++ cs).take (pre.length + 4))).e_blinding
    rw [ht, H.he_blinding, H4.he_blinding, b6, b7]
  · show _ = (List.range k).map fun i => (p.answers env c Gs Hs ((pre ++ cs).take (pre.length + 5 + i))).ipp.L.getD (((pre ++ cs).take (pre.length + 5 + i)).length - (pre.length + 5)) 0
    apply List.ext_getElem (by simp [l1])
    intro i hi hi'
    have hik : i < k := l1 ▸ hi
    simp only [List.getElem_map, List.getElem_range]
    rw [show pre.length + 5 + i = pre.length + (5 + i) by omega, ht, hcl i hik, List.getD_eq_getElem?_getD, ← (hL i hik).1, List.getElem?_eq_getElem hi]
    rfl
  · show _ = (List.range k).map fun i => (p.answers env c Gs Hs ((pre ++ cs).take (pre.length + 5 + i))).ipp.R.getD (((pre ++ cs).take (pre.length + 5 + i)).length - (pre.length + 5)) 0
    apply List.ext_getElem (by simp [l2])
    intro i hi hi'
    have hik : i < k := l2 ▸ hi
    simp only [List.getElem_map, List.getElem_range]
    rw [show pre.length + 5 + i = pre.length + (5 + i) by omega, ht, hcl i hik, List.getD_eq_getElem?_getD, ← (hL i hik).2, List.getElem?_eq_getElem hi]
    rfl
  · rfl
  · rfl

/-- The code's verifier accepts the code's prover, unless `y` or a round challenge is zero. -/
theorem honest_convinces [DecidableEq G] (env env' : Env F G) (p p2 : Prover F G) (s : Verifier F G) (hwp : p.WF) (hst : InStep p s) (c : Coins F) (Gs Hs : List G) (pre : List F) (hd : (draws p2.transcript).length = pre.length)
    (hcrc : (p.start c Gs Hs).createRandomizedConstraints { env with oracle := publicCoins pre } = .ok p2) (hsat : p2.Satisfied) (hin : ∀ lc ∈ p2.constraints, ∀ t ∈ lc.terms, Var.InRange p2.aL.length p2.v.length t.1)
    (k : ℕ) (hkN : nextPowerOfTwo p2.aL.length = 2 ^ k) (hk : k < 32) (hG : 2 ^ k ≤ Gs.length) (hH : 2 ^ k ≤ Hs.length) (hb : k ≠ 0 ∨ env'.batchInvert [] = .ok ([], 1)) (cs : List F) (hcs : cs.length = 5 + k)
    (hy : cs.getD 0 0 ≠ 0) (hu : ∀ i < k, cs.getD (5 + i) 0 ≠ 0) (r : F) : (p.interactive env c Gs Hs pre.length).Convinces env' s p.g p.h Gs Hs pre.length k (pre ++ cs) r := by
  have hc : (p.start c Gs Hs).createRandomizedConstraints { env with oracle := publicCoins (pre ++ cs) } = .ok p2 := by
    obtain ⟨-, -, -, hO⟩ := Prover.crc_log hcrc
    exact hO _ (coins_agree hd.le)
  obtain ⟨pr, T, h1, h2⟩ := honest_verify { env with oracle := publicCoins (pre ++ cs) } { env' with oracle := publicCoins (pre ++ cs) } rfl p p2 s hwp hst c Gs Hs hc hin k hkN hk hG hH hb
  obtain ⟨T', h3⟩ := prove_interactive env p p2 c Gs Hs hwp pre hd hcrc k hkN hG hH hin cs hcs
  have e : (p.interactive env c Gs Hs pre.length).proof pre.length k (pre ++ cs) = pr := by
    rw [h1] at h3
    exact (congrArg Prod.fst (Except.ok.inj h3)).symm
  have hL : pr.ipp.L.length = k := by rw [← e]; simp [Interactive.proof]
  have hR : pr.ipp.R.length = k := by rw [← e]; simp [Interactive.proof]
  refine ⟨T, ?_⟩
  rw [e, h2 ?_ ?_ r, if_pos]
  · have hz : ∀ z, zCombination z p2.constraints p2.assignment = 0 := by
      intro z
      unfold zCombination
      apply sum_eq_zero
      intro q _
      rw [hsat _ (List.getElem_mem _), mul_zero]
    simp [hz]
  · rw [drawn_coins _ _ _ hd]
    show (pre ++ cs).getD pre.length 0 ≠ 0
    rw [List.getD_eq_getElem?_getD, List.getElem?_append_right (le_refl _), Nat.sub_self, ← List.getD_eq_getElem?_getD]
    exact hy
  · rw [ippRounds_coins _ _ _ _ hd, hL, hR, min_self]
    intro u hu'
    obtain ⟨i, hi, rfl⟩ := List.mem_map.mp hu'
    rw [List.mem_range'_1] at hi
    rw [List.getD_eq_getElem?_getD, List.getElem?_append_right (by omega), ← List.getD_eq_getElem?_getD]
    have := hu (i - pre.length - 5) (by omega)
    rwa [show 5 + (i - pre.length - 5) = i - pre.length by omega] at this

/-- The number of challenges with non-zero `y` and non-zero round challenges. -/
theorem card_nonzero [Fintype F] (k : ℕ) (Good : (Fin (5 + k) → F) × F → Prop) (h : ∀ (cs : Fin (5 + k) → F) (r : F), cs (Fin.castAdd k 0) ≠ 0 → (∀ i : Fin k, cs (Fin.natAdd 5 i) ≠ 0) → Good (cs, r)) :
    (Fintype.card F - 1) ^ (1 + k) * Fintype.card F ^ 5 ≤ Nat.card {p // Good p} := by
  classical
  let A : Fin (5 + k) → Finset F := Fin.append (fun i : Fin 5 => if i = 0 then univ.erase 0 else univ) fun _ => univ.erase 0
  have h1 : (Fintype.piFinset A ×ˢ (univ : Finset F)).card = (Fintype.card F - 1) ^ (1 + k) * Fintype.card F ^ 5 := by
    rw [Finset.card_product, Fintype.card_piFinset, Fin.prod_univ_add]
    simp [A, Fin.prod_univ_five, Finset.card_erase_of_mem]
    ring
  rw [← h1, Nat.card_eq_fintype_card, Fintype.card_subtype]
  apply Finset.card_le_card
  rintro ⟨cs, r⟩ hp
  rw [Finset.mem_product, Fintype.mem_piFinset] at hp
  rw [Finset.mem_filter]
  refine ⟨Finset.mem_univ _, h cs r ?_ ?_⟩
  · have := hp.1 (Fin.castAdd k 0)
    simpa [A] using this
  · intro i
    have := hp.1 (Fin.natAdd 5 i)
    simpa [A] using this

end Bp
