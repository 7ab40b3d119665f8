import Verif.Props.R1CS
import Verif.Props.Ipp
import Verif.Lemmas.Log

/-! # C09, C49: transcript binding, and panics of `verify` on malformed proofs -/

set_option linter.unusedSectionVars false
set_option linter.unusedSimpArgs false

namespace Bp
variable {F G : Type} [Field F] [AddCommGroup G] [SMul F G]
open Finset

/-! ## C49 -/

section WithModule
variable {F G : Type} [Field F] [AddCommGroup G] [Module F G]
/-- C49 fails: for every proof whose `L` has the expected length but whose (non-empty) `R` has another length, `verify` panics
(unless some drawn round challenge is zero), although the verifier's state is fine and there are enough generators. -/
theorem c49_wrong_R_panics [DecidableEq G] (env : Env F G) (s s2 : Verifier F G) (pr : R1CSProof F G) (g h : G) (Gs Hs : List G) (r : F)
    (hcrc : (s.start pr).createRandomizedConstraints env = .ok s2) (hL : nextPowerOfTwo s2.numVars = 2 ^ pr.ipp.L.length) (hL32 : pr.ipp.L.length < 32)
    (hG : nextPowerOfTwo s2.numVars ≤ Gs.length)
    (hL0 : pr.ipp.L ≠ []) (hR0 : pr.ipp.R ≠ []) (hLR : pr.ipp.R.length ≠ pr.ipp.L.length)
    (h0 : ∀ u ∈ ippRounds env.oracle s2.transcript pr (nextPowerOfTwo s2.numVars), u ≠ 0) :
    Panics (s.verify env pr g h Gs Hs r) := by
  rw [verify_norm, hcrc]
  simp only
  rw [if_neg (by omega)]
  rcases Verifier.flattened_or s2 (drawn env.oracle s2.transcript pr).z with ⟨wt, hwt⟩ | ⟨w, hw⟩
  swap
  · rw [hw]; exact ⟨_, rfl⟩
  rw [hwt]
  simp only [verifyTail]
  rcases Nat.lt_or_gt_of_ne hLR with hlt | hgt
  · obtain ⟨w, hw⟩ := c15_short_R_panics env pr.ipp.L pr.ipp.R (logW s2.transcript pr) hL32 hlt hR0 (by rw [← hL]; exact h0)
    rw [hL, hw]
    exact ⟨w, rfl⟩
  · cases hv : verificationScalars env pr.ipp.L pr.ipp.R (nextPowerOfTwo s2.numVars) (logW s2.transcript pr) with
    | error e =>
      exfalso
      have hz : pr.ipp.L.zip pr.ipp.R = pr.ipp.L.zip (pr.ipp.R.take pr.ipp.L.length) := by
        have h1 : (pr.ipp.L.zip pr.ipp.R).take pr.ipp.L.length = pr.ipp.L.zip (pr.ipp.R.take pr.ipp.L.length) := by simp [List.zip, List.take_zipWith]
        rw [← h1, List.take_of_length_le (by simp)]
      have hv2 := verificationScalars_ok env pr.ipp.L.length hL32 pr.ipp.L (pr.ipp.R.take pr.ipp.L.length) rfl (by simp; omega) (logW s2.transcript pr)
        (by rw [← hz, ← hL]; exact h0) (Or.inl (fun h => hL0 (List.length_eq_zero_iff.mp h)))
      have hv' : verificationScalars env pr.ipp.L pr.ipp.R (2 ^ pr.ipp.L.length) (logW s2.transcript pr) =
          verificationScalars env pr.ipp.L (pr.ipp.R.take pr.ipp.L.length) (2 ^ pr.ipp.L.length) (logW s2.transcript pr) := by
        unfold verificationScalars; rw [hz]
      rw [hL, hv', hv2] at hv
      simp at hv
    | ok q =>
      obtain ⟨⟨a, b, c⟩, t⟩ := q
      obtain ⟨v1, v2, v3, v4, v5, v6⟩ := verificationScalars_shape hv
      simp only
      by_cases hH : Hs.length < nextPowerOfTwo s2.numVars
      · rw [if_pos hH]; exact ⟨_, rfl⟩
      rw [if_neg hH]
      have hlw : wt.Len s2.numVars s2.V.length := (Verifier.flattened_ok hwt).2.1
      have hn1 : s.numVars ≤ s2.numVars := by
        obtain ⟨vs, hv⟩ := Verifier.createRandomizedConstraints_steps hcrc
        exact hv.ext.num
      obtain ⟨l1, l2⟩ := checkArgs_length s.numVars s2.numVars (nextPowerOfTwo s2.numVars) hn1 (nextPowerOfTwo_ge _) s2.V pr g h
        (Gs.take (nextPowerOfTwo s2.numVars)) (Hs.take (nextPowerOfTwo s2.numVars)) (by simp; omega) (by simp; omega) wt hlw
        (drawn env.oracle s2.transcript pr) a b c (fun i => vpow (drawn env.oracle s2.transcript pr).y⁻¹ i * wt.wR.getD i 0) v5 r
      unfold multiScalarMul
      rw [if_neg (by rw [l1, l2, v3, v4, min_eq_left hgt.le]; omega)]
      exact ⟨_, rfl⟩
end WithModule

section WithModule
variable {F G : Type} [Field F] [AddCommGroup G] [Module F G]
/-- C49, what does hold: if `L` and `R` have the same length, or `L` has not the expected one, then `verify` does not panic: it accepts, or
reports an error.  (Callbacks must not fail, constraints must mention existing variables, and no round challenge may be zero.) -/
theorem c49_no_panic_partial [DecidableEq G] (env : Env F G) (s s2 : Verifier F G) (pr : R1CSProof F G) (g h : G) (Gs Hs : List G) (r : F)
    (hcrc : (s.start pr).createRandomizedConstraints env = .ok s2) (hH : nextPowerOfTwo s2.numVars ≤ Hs.length)
    (hin : ∀ lc ∈ s2.constraints, ∀ t ∈ lc.terms, Var.InRange s2.numVars s2.V.length t.1)
    (hLR : pr.ipp.R.length = pr.ipp.L.length ∨ nextPowerOfTwo s2.numVars ≠ 2 ^ pr.ipp.L.length ∨ 32 ≤ pr.ipp.L.length)
    (h0 : ∀ u ∈ ippRounds env.oracle s2.transcript pr (nextPowerOfTwo s2.numVars), u ≠ 0)
    (hb : pr.ipp.L ≠ [] ∨ env.batchInvert [] = .ok ([], 1)) :
    (∃ t, s.verify env pr g h Gs Hs r = .ok t) ∨ ∃ e, s.verify env pr g h Gs Hs r = Res.err e := by
  by_cases hG : Gs.length < nextPowerOfTwo s2.numVars
  · exact .inr ⟨_, c19_verify_short env s s2 pr g h Gs Hs r hcrc hG⟩
  obtain ⟨wt, hwt⟩ := (c10_verifier_flatten_total s2 (drawn env.oracle s2.transcript pr).z).mpr hin
  by_cases hN : nextPowerOfTwo s2.numVars ≠ 2 ^ pr.ipp.L.length ∨ 32 ≤ pr.ipp.L.length
  · refine .inr ⟨.verificationError, ?_⟩
    rw [verify_norm, hcrc]
    simp only
    rw [if_neg hG, hwt]
    simp only [verifyTail]
    rw [c15_wrong_length_rejected _ _ _ _ _ hN.symm]
    rfl
  · simp only [not_or, not_not, not_le] at hN
    have hR : pr.ipp.R.length = pr.ipp.L.length := by
      rcases hLR with h | h | h
      · exact h
      · exact absurd hN.1 h
      · omega
    have := verify_eq env s s2 pr g h Gs Hs r hcrc pr.ipp.L.length hN.1 hN.2 (by omega) (by omega) _ rfl wt hwt rfl hR _ rfl (by rw [← hN.1]; exact h0)
      (hb.imp (fun h hl => h (List.length_eq_zero_iff.mp hl)) id)
    rw [this]
    split
    · exact .inl ⟨_, rfl⟩
    · exact .inr ⟨_, rfl⟩
end WithModule

/-- A concrete attack proof against the demo verifier: one `L` as required, but two `R`s. -/
def attackProof : R1CSProof Z101 Z101 := ⟨0, 0, 0, 0, 0, 0, 0, 0, 0, 0, 0, 0, 0, 0, ⟨[1], [1, 2], 0, 0⟩⟩

/-- C49 is violated by a concrete proof. -/
theorem c49_counterexample : ∃ why, (demoV 9 9).verify (Env.std (fun _ => 2)) attackProof 1 5 [1, 2, 3, 4] [5, 6, 7, 8] 3 = Res.panic why := by
  refine c49_wrong_R_panics _ _ (match ((demoV 9 9).start attackProof).createRandomizedConstraints (Env.std (fun _ => 2)) with | .ok s => s | .error _ => demoV 9 9)
    _ _ _ _ _ _ rfl ?_ (by decide) ?_ (by decide) (by decide) (by decide) ?_
  · show nextPowerOfTwo 2 = 2 ^ 1; decide +kernel
  · show nextPowerOfTwo 2 ≤ 4; decide +kernel
  · intro u hu
    have := ippChallenges_const (2 : Z101) (G := Z101) _ _ u hu
    rw [this]; decide

section WithModule
variable {F G : Type} [Field F] [AddCommGroup G] [Module F G]
/-- The positive part applies to the same verifier with a proof of the right shape. -/
example : (∃ t, (demoV 9 9).verify (Env.std (fun _ => 2)) ({ attackProof with ipp := ⟨[1], [2], 0, 0⟩ }) 1 5 [1, 2, 3, 4] [5, 6, 7, 8] 3 = .ok t) ∨
    ∃ e, (demoV 9 9).verify (Env.std (fun _ => 2)) ({ attackProof with ipp := ⟨[1], [2], 0, 0⟩ }) 1 5 [1, 2, 3, 4] [5, 6, 7, 8] 3 = Res.err e := by
  refine c49_no_panic_partial _ _ (match ((demoV 9 9).start { attackProof with ipp := ⟨[1], [2], 0, 0⟩ }).createRandomizedConstraints (Env.std (fun _ => 2)) with
    | .ok s => s | .error _ => demoV 9 9) _ _ _ _ _ _ rfl ?_ ?_ (.inl rfl) ?_ (.inl (by simp))
  · show nextPowerOfTwo 2 ≤ 4; decide +kernel
  · decide +kernel
  · intro u hu
    have := ippChallenges_const (2 : Z101) (G := Z101) _ _ u hu
    rw [this]; decide
end WithModule

/-! ## C09 -/

/-- The whole log, in terms of the pieces used by the verifier. -/
theorem fullLog_eq (t : Transcript F G) (pr : R1CSProof F G) (N : ℕ) :
    (logW t pr).ippDomainSep N ++ roundsLog (pr.ipp.L.zip pr.ipp.R) = t ++
    ([.point "A_I2" pr.A_I2, .point "A_O2" pr.A_O2, .point "S2" pr.S2, .challenge "y", .challenge "z",
      .point "T_1" pr.T_1, .point "T_3" pr.T_3, .point "T_4" pr.T_4, .point "T_5" pr.T_5, .point "T_6" pr.T_6, .challenge "u", .challenge "x",
      .scalar "t_x" pr.t_x, .scalar "t_x_blinding" pr.t_x_blinding, .scalar "e_blinding" pr.e_blinding, .challenge "w",
      .domSep "ipp v1", .u64 "n" N] ++ roundsLog (pr.ipp.L.zip pr.ipp.R)) := by
  simp [logW, logX, logU, logZ, logY, Transcript.ippDomainSep]

/-- C09: when `verify` accepts, its transcript has absorbed exactly `fullLog`: the caller's transcript, the domain separator, all
commitments in order, their number, the first-phase commitments, the phase separator, the callbacks' challenges, the
second-phase commitments, `y`, `z`, the `T`s, `u`, `x`, the three scalars, `w`, and the rounds. -/
theorem c09_verify_log [DecidableEq G] (env : Env F G) (t0 : Transcript F G) (s : Verifier F G) (hs : s.Reach env t0) (pr : R1CSProof F G) (g h : G)
    (Gs Hs : List G) (r : F) (t : Transcript F G) (hv : s.verify env pr g h Gs Hs r = .ok t) :
    ∃ labels, (s.deferred = [] → labels = []) ∧
      t = fullLog t0 s.V pr (decide (s.deferred ≠ [])) labels (2 ^ pr.ipp.L.length) ∧ pr.ipp.R.length = pr.ipp.L.length := by
  obtain ⟨s2, wt, k, i1, i2, i3, i4, i5, i6, i7, i8, i9⟩ := verify_inv hv
  obtain ⟨labels, h1, h2, -⟩ := Verifier.crc_log i1
  refine ⟨labels, h2, ?_, i8.trans i7.symm⟩
  rw [i9, (ippChallenges_log _ _ _).1, fullLog_eq, h1, i7]
  simp only [Verifier.start, log1, hs.transcript, fullLog, preLog]
  simp

/-- C09: the verdict depends on the oracle only through its answers at the challenge positions of that log: each challenge is the
oracle's answer on the complete log up to it, and nothing else of the oracle is used. -/
theorem c09_verify_challenges [DecidableEq G] (env : Env F G) (s : Verifier F G) (pr : R1CSProof F G) (g h : G)
    (Gs Hs : List G) (r : F) (t : Transcript F G) (hv : s.verify env pr g h Gs Hs r = .ok t) (O' : Oracle F G) (hO : AgreeOn env.oracle O' t) :
    s.verify { env with oracle := O' } pr g h Gs Hs r = .ok t := by
  obtain ⟨s2, wt, k, i1, i2, i3, i4, i5, i6, i7, i8, i9⟩ := verify_inv hv
  obtain ⟨labels, h1, h2, h3⟩ := Verifier.crc_log i1
  rw [(ippChallenges_log _ _ _).1] at i9
  have hfull := i9
  rw [fullLog_eq] at hfull
  have hcrc := h3 O' (hO.mono (by rw [hfull]; exact List.prefix_append _ _))
  have pW : logW s2.transcript pr <+: t := by rw [i9]; simp only [Transcript.ippDomainSep, List.append_assoc]; exact List.prefix_append _ _
  have pX : logX s2.transcript pr <+: t := (List.prefix_append _ _).trans pW
  have pU : logU s2.transcript pr <+: t := (List.prefix_append _ _).trans pX
  have pZ : logZ s2.transcript pr <+: t := (List.prefix_append _ _).trans pU
  have pY : logY s2.transcript pr <+: t := (List.prefix_append _ _).trans pZ
  have hd : drawn O' s2.transcript pr = drawn env.oracle s2.transcript pr := by
    have aW : env.oracle (logW s2.transcript pr) = O' (logW s2.transcript pr) := by
      have := hO (logX s2.transcript pr ++ [.scalar "t_x" pr.t_x, .scalar "t_x_blinding" pr.t_x_blinding, .scalar "e_blinding" pr.e_blinding]) "w"
        (by simpa [logW] using pW)
      simpa [logW] using this
    have aX : env.oracle (logX s2.transcript pr) = O' (logX s2.transcript pr) := hO _ _ pX
    have aU : env.oracle (logU s2.transcript pr) = O' (logU s2.transcript pr) := by
      have := hO (logZ s2.transcript pr ++ [.point "T_1" pr.T_1, .point "T_3" pr.T_3, .point "T_4" pr.T_4, .point "T_5" pr.T_5, .point "T_6" pr.T_6]) "u"
        (by simpa [logU] using pU)
      simpa [logU] using this
    have aZ : env.oracle (logZ s2.transcript pr) = O' (logZ s2.transcript pr) := hO _ _ pZ
    have aY : env.oracle (logY s2.transcript pr) = O' (logY s2.transcript pr) := by
      have := hO (s2.transcript ++ [.point "A_I2" pr.A_I2, .point "A_O2" pr.A_O2, .point "S2" pr.S2]) "y" (by simpa [logY] using pY)
      simpa [logY] using this
    unfold drawn
    rw [aY, aZ, aU, aX, aW]
  have hvs := verificationScalars_oracle env O' pr.ipp.L pr.ipp.R (nextPowerOfTwo s2.numVars) (logW s2.transcript pr) (by rw [i2, ← i9]; exact hO)
  rw [verify_norm] at hv ⊢
  rw [hcrc]
  rw [i1] at hv
  simp only at hv ⊢
  rw [hd]
  rw [i6] at hv ⊢
  simp only [verifyTail] at hv ⊢
  rw [hvs]
  exact hv

section WithModule
variable {F G : Type} [Field F] [AddCommGroup G] [Module F G]
/-- C09: an honest prover absorbs exactly the same log. -/
theorem c09_prove_log (env : Env F G) (g h : G) (t0 : Transcript F G) (p : Prover F G) (hp : p.Reach env g h t0) (c : Coins F) (Gs Hs : List G)
    (pr : R1CSProof F G) (t : Transcript F G) (hv : p.prove env c Gs Hs = .ok (pr, t)) :
    ∃ labels, (p.deferred = [] → labels = []) ∧
      t = fullLog t0 (List.zipWith (commitScalar g h) p.v p.vBlinding) pr (decide (p.deferred ≠ [])) labels (2 ^ pr.ipp.L.length) := by
  obtain ⟨hw, hg, hh, hl, ht⟩ := hp.inv
  obtain ⟨p2, k, ch, wp, lp, rp, i1, i2, i3, i4, -, H⟩ := prove_inv hw hv
  obtain ⟨labels, h1, h2, -⟩ := Prover.crc_log i1
  have hnN : p2.aL.length ≤ 2 ^ k := i2 ▸ nextPowerOfTwo_ge _
  obtain ⟨q, hqL, hqR, hq, -⟩ := createIpp_complete env.oracle (logW p2.transcript pr) (ch.w • p2.g) k
    ((List.range (2 ^ k)).map (ufac p.aL.length ch.u)) ((List.range (2 ^ k)).map (fun i => vpow ch.y⁻¹ i * ufac p.aL.length ch.u i))
    (Gs.take (2 ^ k)) (Hs.take (2 ^ k)) (hlvec lp ch.x p2.aL.length (2 ^ k - p2.aL.length)) (hrvec rp ch.x ch.y p2.aL.length (2 ^ k - p2.aL.length))
    (by simpa using i3) (by simpa using i4) (length_hlvec _ _ _ _ hnN) (length_hrvec _ _ _ _ _ hnN) (by simp) (by simp)
  have hq' := H.hipp
  rw [hq] at hq'
  simp only [Except.ok.injEq, Prod.mk.injEq] at hq'
  obtain ⟨rfl, ht'⟩ := hq'
  refine ⟨labels, h2, ?_⟩
  rw [← ht', (ippChallenges_log _ _ _).1, fullLog_eq, h1, hqL]
  have hVl : (List.zipWith (commitScalar g h) p.v p.vBlinding).length = p.v.length := by simp [← hl]
  simp only [Prover.start, log1, ht, fullLog, preLog, hVl, ← H.hA_I1, ← H.hA_O1, ← H.hS1]
  simp
end WithModule

theorem map_cons_inj {α β : Type} (f : α → β) (hf : Function.Injective f) (x y : β) (hx : ∀ a, f a ≠ x) (hy : ∀ a, f a ≠ y) :
    ∀ (V V' : List α) (r r' : List β), V.map f ++ x :: r = V'.map f ++ y :: r' → V = V' ∧ x = y ∧ r = r' := by
  intro V
  induction V with
  | nil =>
    intro V' r r' h
    cases V' with
    | nil => simpa using h
    | cons a V' => simp only [List.map_nil, List.nil_append, List.map_cons, List.cons_append, List.cons.injEq] at h; exact absurd h.1.symm (hx a)
  | cons a V ih =>
    intro V' r r' h
    cases V' with
    | nil => simp only [List.map_nil, List.nil_append, List.map_cons, List.cons_append, List.cons.injEq] at h; exact absurd h.1 (hy a)
    | cons b V' =>
      simp only [List.map_cons, List.cons_append, List.cons.injEq] at h
      obtain ⟨h1, h2⟩ := ih V' r r' h.2
      exact ⟨by rw [hf h.1, h1], h2⟩

theorem roundsLog_inj : ∀ (a b : List (G × G)), (roundsLog a : Transcript F G) = roundsLog b → a = b := by
  intro a
  induction a with
  | nil => intro b h; cases b with
    | nil => rfl
    | cons p b => simp [roundsLog] at h
  | cons p a ih => intro b h; cases b with
    | nil => simp [roundsLog] at h
    | cons q b =>
      simp only [roundsLog, List.flatMap_cons, List.cons_append, List.nil_append, List.cons.injEq, TEvent.point.injEq, true_and] at h
      rw [ih b h.2.2]
      rw [Prod.ext h.1 h.2.1]

/-- C09: the log determines everything sent: label of the transcript, all commitments (so also their number), the phase separator and the
callback challenges, all commitments, scalars and rounds of the proof. -/
theorem c09_log_binds (lab lab' : String) (V V' : List G) (pr pr' : R1CSProof F G) (two two' : Bool) (labels labels' : List String) (N N' : ℕ)
    (hl : pr.ipp.L.length = pr.ipp.R.length) (hl' : pr'.ipp.L.length = pr'.ipp.R.length)
    (h : fullLog [.init lab] V pr two labels N = fullLog [.init lab'] V' pr' two' labels' N') :
    lab = lab' ∧ V = V' ∧ two = two' ∧ labels = labels' ∧ N = N' ∧
    pr.A_I1 = pr'.A_I1 ∧ pr.A_O1 = pr'.A_O1 ∧ pr.S1 = pr'.S1 ∧ pr.A_I2 = pr'.A_I2 ∧ pr.A_O2 = pr'.A_O2 ∧ pr.S2 = pr'.S2 ∧
    pr.T_1 = pr'.T_1 ∧ pr.T_3 = pr'.T_3 ∧ pr.T_4 = pr'.T_4 ∧ pr.T_5 = pr'.T_5 ∧ pr.T_6 = pr'.T_6 ∧
    pr.t_x = pr'.t_x ∧ pr.t_x_blinding = pr'.t_x_blinding ∧ pr.e_blinding = pr'.e_blinding ∧ pr.ipp.L = pr'.ipp.L ∧ pr.ipp.R = pr'.ipp.R := by
  unfold fullLog preLog at h
  simp only [List.append_assoc, List.cons_append, List.nil_append, List.cons.injEq, TEvent.init.injEq, true_and] at h
  obtain ⟨rfl, h⟩ := h
  obtain ⟨rfl, -, h⟩ := map_cons_inj (TEvent.point "V") (fun a b h => by simpa using h) _ _ (by simp) (by simp) _ _ _ _ h
  simp only [List.cons.injEq, TEvent.point.injEq, TEvent.domSep.injEq, true_and] at h
  obtain ⟨e1, e2, e3, e4, h⟩ := h
  have etwo : two = two' := by
    revert e4
    cases two <;> cases two' <;> decide
  obtain ⟨rfl, -, h⟩ := map_cons_inj TEvent.challenge (fun a b h => by simpa using h) _ _ (by simp) (by simp) _ _ _ _ h
  simp only [List.cons.injEq, TEvent.point.injEq, TEvent.scalar.injEq, TEvent.u64.injEq, true_and] at h
  obtain ⟨f1, f2, f3, f4, f5, f6, f7, f8, f9, f10, f11, h⟩ := h
  have hz := roundsLog_inj _ _ h
  have hL := congrArg (List.map Prod.fst) hz
  have hR := congrArg (List.map Prod.snd) hz
  rw [List.map_fst_zip hl.le, List.map_fst_zip hl'.le] at hL
  rw [List.map_snd_zip hl.ge, List.map_snd_zip hl'.ge] at hR
  simp_all

/-- The hypotheses of C09 and C20 are met by the demo session: the verifier is reachable and accepts for two different batching scalars; its
log has two commitments, a second phase with one callback challenge, and one round. -/
example (c : Coins Z101) : ∃ (pr : R1CSProof Z101 Z101) (t : Transcript Z101 Z101),
    (demoV (commitScalar 1 5 (3 : Z101) 7) (commitScalar 1 5 (4 : Z101) 8)).verify (Env.std (fun _ => 2)) pr 1 5 [1, 2, 3, 4] [5, 6, 7, 8] 3 = .ok t ∧
    (demoV (commitScalar 1 5 (3 : Z101) 7) (commitScalar 1 5 (4 : Z101) 8)).verify (Env.std (fun _ => 2)) pr 1 5 [1, 2, 3, 4] [5, 6, 7, 8] 4 = .ok t ∧
    ∃ labels, t = fullLog [.init "demo"] [commitScalar 1 5 (3 : Z101) 7, commitScalar 1 5 (4 : Z101) 8] pr true labels (2 ^ pr.ipp.L.length) := by
  obtain ⟨pr, t, -, h⟩ := demo_accepts c
  have hr : (demoV (commitScalar 1 5 (3 : Z101) 7) (commitScalar 1 5 (4 : Z101) 8)).Reach (Env.std (fun _ => 2)) [.init "demo"] :=
    .gadget (a := ()) (c := demoProduct (.committed 0, .committed 1)) (.commit _ (.commit _ (.new 0))) rfl
  obtain ⟨labels, -, h1, -⟩ := c09_verify_log _ _ _ hr pr 1 5 _ _ 3 t (h 3)
  exact ⟨pr, t, h 3, h 4, labels, h1⟩

end Bp
