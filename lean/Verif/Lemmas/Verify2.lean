import Verif.Lemmas.Verify

set_option linter.unusedSectionVars false
set_option linter.unusedSimpArgs false

/-! # Case analysis of `verify` without assumptions on the proof -/

namespace Bp
variable {F G : Type} [Field F] [AddCommGroup G] [SMul F G]
open Finset

/-- The tail of `verify` once the flattened weights are known. -/
def verifyTail [DecidableEq G] (env : Env F G) (s : Verifier F G) (s2 : Verifier F G) (pr : R1CSProof F G) (g h : G) (Gs Hs : List G) (r : F)
    (wt : Weights F) (ch : Chals F) : Res (Transcript F G) :=
  match verificationScalars env pr.ipp.L pr.ipp.R (nextPowerOfTwo s2.numVars) (logW s2.transcript pr) with
  | .error (.err _) => Res.err .verificationError
  | .error (.panic w) => Res.panic w
  | .ok ((uSq, uInvSq, sv), t) =>
    if Hs.length < nextPowerOfTwo s2.numVars then Res.panic "slice out of range" else
    match multiScalarMul
      (Verifier.checkArgs s.numVars s2.numVars (nextPowerOfTwo s2.numVars) s2.V pr g h (Gs.take (nextPowerOfTwo s2.numVars))
        (Hs.take (nextPowerOfTwo s2.numVars)) wt (vandermonde ch.y⁻¹ (nextPowerOfTwo s2.numVars))
        ((List.range (nextPowerOfTwo s2.numVars)).map (fun i => vpow ch.y⁻¹ i * wt.wR.getD i 0)) (delta wt ch.y s2.numVars) ch uSq uInvSq sv r).1
      (Verifier.checkArgs s.numVars s2.numVars (nextPowerOfTwo s2.numVars) s2.V pr g h (Gs.take (nextPowerOfTwo s2.numVars))
        (Hs.take (nextPowerOfTwo s2.numVars)) wt (vandermonde ch.y⁻¹ (nextPowerOfTwo s2.numVars))
        ((List.range (nextPowerOfTwo s2.numVars)).map (fun i => vpow ch.y⁻¹ i * wt.wR.getD i 0)) (delta wt ch.y s2.numVars) ch uSq uInvSq sv r).2 with
    | .error e => .error e
    | .ok res => if res = 0 then .ok t else Res.err .verificationError

theorem verify_norm [DecidableEq G] (env : Env F G) (s : Verifier F G) (pr : R1CSProof F G) (g h : G) (Gs Hs : List G) (r : F) :
    Verifier.verify env s pr g h Gs Hs r =
      match (s.start pr).createRandomizedConstraints env with
      | .error e => .error e
      | .ok s2 =>
        if Gs.length < nextPowerOfTwo s2.numVars then Res.err .invalidGeneratorsLength else
        match s2.flattenedConstraints (drawn env.oracle s2.transcript pr).z with
        | .error e => .error e
        | .ok wt => verifyTail env s s2 pr g h Gs Hs r wt (drawn env.oracle s2.transcript pr) := by
  have e0 : s.start pr = { s with transcript := s.transcript ++ [.u64 "m" s.V.length, .point "A_I1" pr.A_I1,
      .point "A_O1" pr.A_O1, .point "S1" pr.S1] } := rfl
  unfold Verifier.verify
  simp only [bind, Except.bind, Transcript.challengeScalar, Transcript.commitPoint, Transcript.commitScalar, Transcript.appendU64,
    List.append_assoc, List.cons_append, List.nil_append]
  rw [← e0]
  cases hcrc : (s.start pr).createRandomizedConstraints env with
  | error e => rfl
  | ok s2 =>
    have hY := logY_norm s2.transcript pr
    have hZ := logZ_norm s2.transcript pr
    have hU := logU_norm s2.transcript pr
    have hX := logX_norm s2.transcript pr
    have hW := logW_norm s2.transcript pr
    simp only
    rw [← hY, ← hZ, ← hU, ← hX, ← hW]
    by_cases hG : Gs.length < nextPowerOfTwo s2.numVars
    · rw [if_pos hG, if_pos hG]
    rw [if_neg hG, if_neg hG]
    obtain ⟨ch, hch⟩ : ∃ ch, ch = drawn env.oracle s2.transcript pr := ⟨_, rfl⟩
    have hz : env.oracle (logZ s2.transcript pr) = ch.z := by rw [hch]; rfl
    have hy : env.oracle (logY s2.transcript pr) = ch.y := by rw [hch]; rfl
    have hu' : env.oracle (logU s2.transcript pr) = ch.u := by rw [hch]; rfl
    have hx : env.oracle (logX s2.transcript pr) = ch.x := by rw [hch]; rfl
    have hw : env.oracle (logW s2.transcript pr) = ch.w := by rw [hch]; rfl
    rw [← hch, hz, hy, hu', hx, hw]
    cases hwt : s2.flattenedConstraints ch.z with
    | error e => rfl
    | ok wt =>
      have hlw : wt.Len s2.numVars s2.V.length := (Verifier.flattened_ok hwt).2.1
      simp only
      rw [yTerms_ok wt ch.y s2.numVars _ s2.V.length (nextPowerOfTwo_ge _) hlw]
      simp only [verifyTail]
      cases hvs : verificationScalars env pr.ipp.L pr.ipp.R (nextPowerOfTwo s2.numVars) (logW s2.transcript pr) with
      | error e => cases e <;> rfl
      | ok q =>
        obtain ⟨⟨a, b, c⟩, t⟩ := q
        simp only
        rw [slice_ok (by omega)]
        simp only
        by_cases hH : Hs.length < nextPowerOfTwo s2.numVars
        · rw [if_pos hH, slice, if_neg (by omega)]; rfl
        · rw [if_neg hH, slice_ok (by omega)]
          simp only
          generalize (multiScalarMul (_ : List F) (_ : List G)) = m
          cases m <;> rfl

theorem mapM_length {α β : Type} (f : α → Res β) : ∀ (xs : List α) (ys : List β), xs.mapM f = .ok ys → ys.length = xs.length := by
  intro xs
  induction xs with
  | nil => intro ys h; simp [pure, Except.pure] at h; subst h; rfl
  | cons x xs ih =>
    intro ys h
    rw [List.mapM_cons] at h
    simp only [bind, Except.bind] at h
    cases hx : f x with
    | error e => rw [hx] at h; simp at h
    | ok y =>
      rw [hx] at h
      cases hxs : xs.mapM f with
      | error e => rw [hxs] at h; simp at h
      | ok zs =>
        rw [hxs] at h
        simp [pure, Except.pure] at h
        subst h
        simp [ih zs hxs]

theorem foldlM_length {α β : Type} (f : List β → α → Res (List β)) (hf : ∀ s a s', f s a = .ok s' → s'.length = s.length + 1) :
    ∀ (xs : List α) (s s' : List β), xs.foldlM f s = .ok s' → s'.length = s.length + xs.length := by
  intro xs
  induction xs with
  | nil => intro s s' h; simp [pure, Except.pure] at h; subst h; rfl
  | cons x xs ih =>
    intro s s' h
    rw [List.foldlM_cons] at h
    simp only [bind, Except.bind] at h
    cases hx : f s x with
    | error e => rw [hx] at h; simp at h
    | ok y =>
      rw [hx] at h
      have := ih y s' h
      rw [this, hf _ _ _ hx, List.length_cons]; omega

theorem sLoop_length {lgN : ℕ} {sq : List F} {s0 : F} {n : ℕ} {s : List F} (hn : 1 ≤ n) (h : sLoop lgN sq s0 n = .ok s) : s.length = n := by
  unfold sLoop at h
  have := foldlM_length _ (by
    intro s a s' h
    simp only [bind, Except.bind] at h
    cases h1 : idx sq (lgN - 1 - Nat.log 2 a) with
    | error e => rw [h1] at h; simp at h
    | ok u =>
      rw [h1] at h
      simp only at h
      cases h2 : idx s (a - 2 ^ Nat.log 2 a) with
      | error e => rw [h2] at h; simp at h
      | ok u =>
        rw [h2] at h
        simp [pure, Except.pure] at h
        subst h
        simp) _ _ _ h
  rw [this]; simp; omega

theorem verificationScalars_shape {env : Env F G} {L R : List G} {n : ℕ} {t t' : Transcript F G} {a b c : List F}
    (h : verificationScalars env L R n t = .ok ((a, b, c), t')) :
    L.length < 32 ∧ n = 2 ^ L.length ∧ a.length = min L.length R.length ∧ b.length = min L.length R.length ∧ c.length = n ∧
    t' = (ippChallenges env.oracle (t.ippDomainSep n) (L.zip R)).2 := by
  unfold verificationScalars at h
  simp only at h
  split at h
  · exact absurd h (by simp [Res.err])
  rename_i h1
  split at h
  · exact absurd h (by simp [Res.err])
  rename_i h2
  simp only [not_not] at h2
  simp only [bind, Except.bind] at h
  have hl := length_ippChallenges env.oracle (L.zip R) (t.ippDomainSep n)
  generalize hc : ippChallenges env.oracle (t.ippDomainSep n) (L.zip R) = q at *
  unfold ippScalars at h
  simp only [bind, Except.bind] at h
  cases hb : env.batchInvert q.1 with
  | error e => rw [hb] at h; simp at h
  | ok bi =>
    rw [hb] at h
    simp only at h
    split at h
    · simp at h
    rename_i x hx
    split at hx
    · simp at hx
    rename_i y hy
    split at hx
    · simp at hx
    rename_i z hz
    simp only [pure, Except.pure, Except.ok.injEq] at hx h
    have hmb := mapM_length _ _ _ hy
    subst hx
    simp only [Prod.mk.injEq] at h
    obtain ⟨⟨rfl, rfl, rfl⟩, rfl⟩ := h
    rw [List.length_zip] at hl
    refine ⟨by omega, h2, by simpa using hl, by rw [hmb]; simpa using hl, ?_, rfl⟩
    exact sLoop_length (by rw [h2]; exact Nat.one_le_two_pow) hz

theorem checkArgs_length (n1 n N : ℕ) (hn1 : n1 ≤ n) (hn : n ≤ N) (V : List G) (pr : R1CSProof F G) (g h : G) (GN HN : List G)
    (hG : GN.length = N) (hH : HN.length = N) (wt : Weights F) (hl : wt.Len n V.length) (ch : Chals F) (a b c : List F) (f : ℕ → F)
    (hc : c.length = N) (r : F) :
    (Verifier.checkArgs n1 n N V pr g h GN HN wt (vandermonde ch.y⁻¹ N) ((List.range N).map f) (delta wt ch.y n) ch a b c r).1.length
      = 13 + V.length + N + N + a.length + b.length ∧
    (Verifier.checkArgs n1 n N V pr g h GN HN wt (vandermonde ch.y⁻¹ N) ((List.range N).map f) (delta wt ch.y n) ch a b c r).2.length
      = 13 + V.length + N + N + pr.ipp.L.length + pr.ipp.R.length := by
  unfold Verifier.checkArgs Verifier.gScalars Verifier.hScalars Verifier.uFactors
  simp only [List.length_append, List.length_cons, List.length_nil, List.length_map, hl.V, hl.L, hl.O, List.length_zipWith, List.length_zip,
    List.length_replicate, List.length_range, List.length_take, hc, vandermonde, List.length_reverse, hG, hH]
  have e1 : n1 + (n - n1 + (N - n)) = N := by omega
  have e2 : n + (N - n) = N := by omega
  simp only [e1, e2, min_self]
  omega

/-- What an accepting run of `verify` guarantees, for any proof. -/
theorem verify_inv [DecidableEq G] {env : Env F G} {s : Verifier F G} {pr : R1CSProof F G} {g h : G} {Gs Hs : List G} {r : F} {t : Transcript F G}
    (hv : Verifier.verify env s pr g h Gs Hs r = .ok t) :
    ∃ s2 wt k, (s.start pr).createRandomizedConstraints env = .ok s2 ∧ nextPowerOfTwo s2.numVars = 2 ^ k ∧ k < 32 ∧ 2 ^ k ≤ Gs.length ∧
      2 ^ k ≤ Hs.length ∧ s2.flattenedConstraints (drawn env.oracle s2.transcript pr).z = .ok wt ∧ pr.ipp.L.length = k ∧ pr.ipp.R.length = k ∧
      t = (ippChallenges env.oracle ((logW s2.transcript pr).ippDomainSep (2 ^ k)) (pr.ipp.L.zip pr.ipp.R)).2 := by
  rw [verify_norm] at hv
  cases hcrc : (s.start pr).createRandomizedConstraints env with
  | error e => rw [hcrc] at hv; simp at hv
  | ok s2 =>
    rw [hcrc] at hv
    simp only at hv
    split at hv
    · exact absurd hv (by simp [Res.err])
    rename_i hG
    cases hwt : s2.flattenedConstraints (drawn env.oracle s2.transcript pr).z with
    | error e => rw [hwt] at hv; simp at hv
    | ok wt =>
      rw [hwt] at hv
      simp only [verifyTail] at hv
      split at hv
      · exact absurd hv (by simp [Res.err])
      · exact absurd hv (by simp [Res.panic])
      · rename_i a b c t1 hvs
        obtain ⟨v1, v2, v3, v4, v5, v6⟩ := verificationScalars_shape hvs
        split at hv
        · exact absurd hv (by simp [Res.panic])
        rename_i hH
        have hlw : wt.Len s2.numVars s2.V.length := (Verifier.flattened_ok hwt).2.1
        have hn1 : s.numVars ≤ s2.numVars := by
          obtain ⟨vs, hv⟩ := Verifier.createRandomizedConstraints_steps hcrc
          exact hv.ext.num
        split at hv
        · simp at hv
        · rename_i res hres
          unfold multiScalarMul at hres
          split at hres
          · rename_i hlen
            obtain ⟨l1, l2⟩ := checkArgs_length s.numVars s2.numVars (nextPowerOfTwo s2.numVars) hn1 (nextPowerOfTwo_ge _) s2.V pr g h
              (Gs.take (nextPowerOfTwo s2.numVars)) (Hs.take (nextPowerOfTwo s2.numVars)) (by simp; omega) (by simp; omega) wt hlw
              (drawn env.oracle s2.transcript pr) a b c (fun i => vpow (drawn env.oracle s2.transcript pr).y⁻¹ i * wt.wR.getD i 0) v5 r
            rw [l1, l2, v3, v4] at hlen
            have hLR : pr.ipp.R.length = pr.ipp.L.length := by
              rcases Nat.le_total pr.ipp.L.length pr.ipp.R.length with h | h
              · rw [min_eq_left h] at hlen; omega
              · rw [min_eq_right h] at hlen; omega
            split at hv
            · simp only [Except.ok.injEq] at hv
              refine ⟨s2, wt, pr.ipp.L.length, rfl, v2, v1, by omega, by omega, hwt, rfl, hLR, ?_⟩
              rw [← v2, ← v6, hv]
            · exact absurd hv (by simp [Res.err])
          · exact absurd hres (by simp [Res.panic])

end Bp
