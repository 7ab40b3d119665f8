import Verif.Spec.Algebraic
import Verif.Lemmas.Verify2

/-! # The verifier does not see how a point was made -/

set_option linter.unusedSectionVars false

namespace Bp
variable {F G M : Type} [Field F] [AddCommGroup G] [SMul F G] [AddCommGroup M] [SMul F M]

/-- `verify` is `residual` followed by the comparison. -/
theorem verify_residual [DecidableEq G] (env : Env F G) (s : Verifier F G) (pr : R1CSProof F G) (g h : G) (Gs Hs : List G) (r : F) :
    s.verify env pr g h Gs Hs r = match s.residual env pr g h Gs Hs r with
      | .error e => .error e
      | .ok (ρ, t) => if ρ = 0 then .ok t else Res.err .verificationError := by
  unfold Verifier.verify Verifier.residual
  simp only [bind, Except.bind]
  cases Verifier.createRandomizedConstraints env _ with
  | error e => rfl
  | ok s2 =>
    simp only
    by_cases hG : Gs.length < nextPowerOfTwo s2.numVars
    · rw [if_pos hG, if_pos hG]; rfl
    rw [if_neg hG, if_neg hG]
    cases Verifier.flattenedConstraints s2 _ with
    | error e => rfl
    | ok wt =>
      simp only
      cases Verifier.yTerms wt _ _ _ with
      | error e => rfl
      | ok yt =>
        obtain ⟨y1, y2, y3⟩ := yt
        simp only
        cases verificationScalars env _ _ _ _ with
        | error e => cases e <;> rfl
        | ok vs =>
          obtain ⟨⟨u1, u2, u3⟩, t⟩ := vs
          simp only
          cases slice Gs _ _ with
          | error e => rfl
          | ok GN =>
            simp only
            cases slice Hs _ _ with
            | error e => rfl
            | ok HN =>
              simp only
              cases multiScalarMul (F := F) (G := G) _ _ with
              | error e => rfl
              | ok res => rfl

/-! ## Naturality -/

theorem mapG_append (f : M → G) (t t' : Transcript F M) : Transcript.mapG f (t ++ t') = Transcript.mapG f t ++ Transcript.mapG f t' := List.map_append

theorem mapG_allocate (f : M → G) (s : Verifier F M) (x : Option F) : (s.mapG f).allocate x = ((s.allocate x).1, (s.allocate x).2.mapG f) := by
  unfold Verifier.allocate
  cases h : s.pending <;> simp [Verifier.mapG, h]

theorem mapG_allocateSingle (f : M → G) (s : Verifier F M) (x : Option F) : (s.mapG f).allocateSingle x = ((s.allocateSingle x).1, (s.allocateSingle x).2.mapG f) := by
  unfold Verifier.allocateSingle
  rw [mapG_allocate]
  rcases s.allocate none with ⟨r, s'⟩
  rcases r with e | v
  · rfl
  · cases v <;> rfl

theorem mapG_run (f : M → G) (env : Env F G) {C : Type} {rnd : Bool} {α : Type} (onSpec : C → Verifier F G → Verifier F G) (onSpec' : C → Verifier F M → Verifier F M)
    (hs : ∀ c s, onSpec c (s.mapG f) = (onSpec' c s).mapG f) (c : Prog F C rnd α) (s : Verifier F M) :
    (s.mapG f).run env onSpec c = (s.run (env.pull f) onSpec' c).map fun p => (p.1, p.2.mapG f) := by
  induction c generalizing s with
  | ret a => rfl
  | err e => rfl
  | panic w => rfl
  | multiply l r k ih => rw [Verifier.run, Verifier.run]; exact ih (s.multiply l r).1 (s.multiply l r).2
  | allocate x k ih => rw [Verifier.run, Verifier.run, mapG_allocate]; exact ih _ _
  | allocateMultiplier x k ih => rw [Verifier.run, Verifier.run]; exact ih (s.allocateMultiplier x).1 (s.allocateMultiplier x).2
  | constrain lc k ih => rw [Verifier.run, Verifier.run]; exact ih (s.constrain lc)
  | specify cb k ih => rw [Verifier.run, Verifier.run, hs]; exact ih _
  | evaluateLc lc k ih => rw [Verifier.run, Verifier.run]; exact ih _ _
  | allocateSingle x k ih => rw [Verifier.run, Verifier.run, mapG_allocateSingle]; exact ih _ _
  | challenge h l k ih =>
    rw [Verifier.run, Verifier.run]
    have e : Transcript.challengeScalar env.oracle (s.mapG f).transcript l = ((Transcript.challengeScalar (env.pull f).oracle s.transcript l).1, (Transcript.challengeScalar (env.pull f).oracle s.transcript l).2.mapG f) := by
      simp [Transcript.challengeScalar, Env.pull, Verifier.mapG, Transcript.mapG, TEvent.mapG]
    rw [e]
    exact ih _ { s with transcript := _ }
  | simplify lc k ih => rw [Verifier.run, Verifier.run]; exact ih _ { s with seed := s.seed + 1 }

theorem mapG_run1 (f : M → G) (env : Env F G) {α : Type} (c : Prog1 F α) (s : Verifier F M) : (s.mapG f).run1 env c = (s.run1 (env.pull f) c).map fun p => (p.1, p.2.mapG f) :=
  mapG_run f env _ _ (fun _ _ => rfl) c s

theorem mapG_runCallbacks (f : M → G) (env : Env F G) (cbs : List (Callback F)) (s : Verifier F M) : (s.mapG f).runCallbacks env cbs = (s.runCallbacks (env.pull f) cbs).map fun p => p.mapG f := by
  induction cbs generalizing s with
  | nil => rfl
  | cons cb cbs ih =>
    rw [Verifier.runCallbacks, Verifier.runCallbacks, Verifier.run2, Verifier.run2, mapG_run f env _ (fun (e : Empty) _ => e.elim) (fun e => e.elim)]
    cases Verifier.run (env.pull f) _ cb s with
    | error e => rfl
    | ok p => exact ih _

theorem mapG_crc (f : M → G) (env : Env F G) (s : Verifier F M) : (s.mapG f).createRandomizedConstraints env = (s.createRandomizedConstraints (env.pull f)).map fun p => p.mapG f := by
  unfold Verifier.createRandomizedConstraints
  by_cases hd : s.deferred.length = 0
  · simp only [Verifier.mapG, hd, if_true]
    simp [Transcript.r1cs1PhaseDomainSep, Transcript.mapG, TEvent.mapG, Except.map]
  · simp only [show (s.mapG f).deferred = s.deferred from rfl, hd, if_false]
    refine Eq.trans ?_ (mapG_runCallbacks f env s.deferred { s with transcript := s.transcript.r1cs2PhaseDomainSep, deferred := [], pending := none })
    simp [Verifier.mapG, Transcript.r1cs2PhaseDomainSep, Transcript.mapG, TEvent.mapG]

theorem mapG_flattened (f : M → G) (s : Verifier F M) (z : F) : (s.mapG f).flattenedConstraints z = s.flattenedConstraints z := by
  simp [Verifier.flattenedConstraints, Verifier.mapG]

theorem mapG_ippChallenges (f : M → G) (O : Oracle F G) (l : List (M × M)) (t : Transcript F M) :
    ippChallenges O (t.mapG f) (l.map fun p => (f p.1, f p.2)) = ((ippChallenges (fun t => O (t.mapG f)) t l).1, (ippChallenges (fun t => O (t.mapG f)) t l).2.mapG f) := by
  induction l generalizing t with
  | nil => rfl
  | cons a l ih =>
    obtain ⟨L, R⟩ := a
    rw [List.map_cons, ippChallenges, ippChallenges]
    have e : Transcript.challengeScalar O ((Transcript.commitPoint (t.mapG f) "L" (f L)).commitPoint "R" (f R)) "u" =
      ((Transcript.challengeScalar (fun t => O (t.mapG f)) ((t.commitPoint "L" L).commitPoint "R" R) "u").1, (Transcript.challengeScalar (fun t => O (t.mapG f)) ((t.commitPoint "L" L).commitPoint "R" R) "u").2.mapG f) := by
      simp [Transcript.challengeScalar, Transcript.commitPoint, Transcript.mapG, TEvent.mapG]
    simp only [e]
    rw [ih]

theorem mapG_ippScalars (f : M → G) (env : Env F G) (k : ℕ) (us : List F) (n : ℕ) : ippScalars (env.pull f) k us n = ippScalars env k us n := rfl

theorem mapG_verificationScalars (f : M → G) (env : Env F G) (L R : List M) (n : ℕ) (t : Transcript F M) :
    verificationScalars env (L.map f) (R.map f) n (t.mapG f) = (verificationScalars (env.pull f) L R n t).map fun p => (p.1, p.2.mapG f) := by
  unfold verificationScalars
  simp only [List.length_map]
  split
  · rfl
  split
  · rfl
  have e1 : Transcript.ippDomainSep (t.mapG f) n = (t.ippDomainSep n).mapG f := by simp [Transcript.ippDomainSep, Transcript.mapG, TEvent.mapG]
  have e2 : (L.map f).zip (R.map f) = (L.zip R).map fun p => (f p.1, f p.2) := by rw [List.zip_map]; rfl
  rw [e1, e2, mapG_ippChallenges]
  simp only [bind, Except.bind, mapG_ippScalars]
  rw [show (env.pull f).oracle = fun t => env.oracle (t.mapG f) from rfl]
  cases ippScalars env L.length (ippChallenges (fun t => env.oracle (t.mapG f)) (t.ippDomainSep n) (L.zip R)).1 n with
  | error e => rfl
  | ok sc => rfl

theorem mapG_msm {Φ : Type} [FunLike Φ M G] [AddMonoidHomClass Φ M G] [MulActionHomClass Φ F M G] (φ : Φ) (xs : List F) (ps : List M) : msm xs (ps.map φ) = φ (msm xs ps) := by
  induction xs generalizing ps with
  | nil => simp [msm]
  | cons x xs ih =>
    cases ps with
    | nil => simp [msm]
    | cons p ps => simpa [msm] using ih ps

theorem mapG_multiScalarMul {Φ : Type} [FunLike Φ M G] [AddMonoidHomClass Φ M G] [MulActionHomClass Φ F M G] (φ : Φ) (xs : List F) (ps : List M) : multiScalarMul xs (ps.map φ) = (multiScalarMul xs ps).map φ := by
  unfold multiScalarMul
  rw [List.length_map, mapG_msm]
  split <;> rfl

theorem mapG_slice (f : M → G) (l : List M) (i j : ℕ) : slice (l.map f) i j = (slice l i j).map (List.map f) := by
  unfold slice
  rw [List.length_map]
  split
  · simp [Except.map]
  · rfl

theorem mapG_checkArgs {Φ : Type} [FunLike Φ M G] [AddMonoidHomClass Φ M G] [MulActionHomClass Φ F M G] (φ : Φ) (n1 n N : ℕ) (V : List M) (pr : R1CSProof F M) (g h : M) (GN HN : List M) (wt : Weights F) (yInvs yInvWR : List F) (delta : F) (ch : Chals F) (uSq uInvSq s : List F) (r : F) :
    Verifier.checkArgs n1 n N (V.map φ) (pr.mapG φ) (φ g) (φ h) (GN.map φ) (HN.map φ) wt yInvs yInvWR delta ch uSq uInvSq s r =
      ((Verifier.checkArgs n1 n N V pr g h GN HN wt yInvs yInvWR delta ch uSq uInvSq s r).1, (Verifier.checkArgs n1 n N V pr g h GN HN wt yInvs yInvWR delta ch uSq uInvSq s r).2.map φ) := by
  simp [Verifier.checkArgs, R1CSProof.mapG, IppProof.mapG]

theorem mapG_commitPoint (f : M → G) (t : Transcript F M) (l : String) (p : M) : Transcript.commitPoint (t.mapG f) l (f p) = (t.commitPoint l p).mapG f := by
  simp [Transcript.commitPoint, Transcript.mapG, TEvent.mapG]

theorem mapG_commitScalar (f : M → G) (t : Transcript F M) (l : String) (x : F) : Transcript.commitScalar (t.mapG f) l x = (t.commitScalar l x).mapG f := by
  simp [Transcript.commitScalar, Transcript.mapG, TEvent.mapG]

theorem mapG_challengeScalar (f : M → G) (env : Env F G) (t : Transcript F M) (l : String) :
    Transcript.challengeScalar env.oracle (t.mapG f) l = ((t.challengeScalar (env.pull f).oracle l).1, (t.challengeScalar (env.pull f).oracle l).2.mapG f) := by
  simp [Transcript.challengeScalar, Env.pull, Transcript.mapG, TEvent.mapG]

/-- What is compared with the identity for the points is what a prover gets that calculates with the combinations. -/
theorem mapG_residual {Φ : Type} [FunLike Φ M G] [AddMonoidHomClass Φ M G] [MulActionHomClass Φ F M G] (φ : Φ) (env : Env F G) (s : Verifier F M) (pr : R1CSProof F M) (g h : M) (Gs Hs : List M) (r : F) :
    (s.mapG φ).residual env (pr.mapG φ) (φ g) (φ h) (Gs.map φ) (Hs.map φ) r = (s.residual (env.pull φ) pr g h Gs Hs r).map fun p => (φ p.1, p.2.mapG φ) := by
  unfold Verifier.residual
  simp only [bind, Except.bind, List.length_map]
  have e0 : ({ s.mapG φ with transcript := (((Transcript.appendU64 (s.mapG φ).transcript "m" (s.mapG φ).V.length).commitPoint "A_I1" (pr.mapG φ).A_I1).commitPoint "A_O1" (pr.mapG φ).A_O1).commitPoint "S1" (pr.mapG φ).S1 } : Verifier F G) =
      ({ s with transcript := (((Transcript.appendU64 s.transcript "m" s.V.length).commitPoint "A_I1" pr.A_I1).commitPoint "A_O1" pr.A_O1).commitPoint "S1" pr.S1 } : Verifier F M).mapG φ := by
    simp [Verifier.mapG, Transcript.appendU64, Transcript.commitPoint, Transcript.mapG, TEvent.mapG, R1CSProof.mapG]
  rw [e0, mapG_crc]
  cases Verifier.createRandomizedConstraints (env.pull φ) _ with
  | error e => rfl
  | ok s2 =>
    have e1 : (s2.mapG φ).transcript = s2.transcript.mapG φ := rfl
    simp only [Except.map, e1, R1CSProof.mapG, mapG_commitPoint, mapG_challengeScalar, mapG_commitScalar, mapG_flattened]
    rw [show (s2.mapG φ).numVars = s2.numVars from rfl]
    by_cases hG : Gs.length < nextPowerOfTwo s2.numVars
    · rw [if_pos hG, if_pos hG]; rfl
    rw [if_neg hG, if_neg hG]
    cases Verifier.flattenedConstraints s2 _ with
    | error e => rfl
    | ok wt =>
      simp only
      cases Verifier.yTerms wt _ _ _ with
      | error e => rfl
      | ok yt =>
        obtain ⟨y1, y2, y3⟩ := yt
        simp only
        rw [show (pr.ipp.mapG φ).L = pr.ipp.L.map φ from rfl, show (pr.ipp.mapG φ).R = pr.ipp.R.map φ from rfl, mapG_verificationScalars]
        cases verificationScalars (env.pull φ) _ _ _ _ with
        | error e => cases e <;> rfl
        | ok vs =>
          obtain ⟨⟨u1, u2, u3⟩, t⟩ := vs
          simp only [Except.map, mapG_slice]
          cases slice Gs _ _ with
          | error e => rfl
          | ok GN =>
            simp only
            cases slice Hs _ _ with
            | error e => rfl
            | ok HN =>
              simp only
              have e2 := mapG_checkArgs φ s.numVars s2.numVars (nextPowerOfTwo s2.numVars) s2.V pr g h GN HN wt y1 y2 y3
              unfold R1CSProof.mapG at e2
              rw [show (s2.mapG φ).V = s2.V.map φ from rfl, show (s.mapG φ).numVars = s.numVars from rfl, e2]
              simp only
              rw [mapG_multiScalarMul]
              cases multiScalarMul (F := F) (G := M) _ _ with
              | error e => rfl
              | ok res => rfl

end Bp
