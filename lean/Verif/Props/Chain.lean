import Verif.Lemmas.Chain
import Verif.Props.RandomOracle
import Verif.Props.SoundnessExample
import Verif.Lemmas.Statements

/-! # C67: several proofs over one transcript -/

set_option linter.unusedSectionVars false

namespace Bp
variable {F G : Type} [Field F] [AddCommGroup G] [Module F G]

/-- **C67**, completeness: honest provers that make one proof after the other over one transcript always succeed, return the Pedersen commitments to what they open, and unless one of the challenges is zero, verifiers
that check one proof after the other over the same transcript accept all of them, for all random scalars, and leave the transcript as the provers did. -/
theorem c67_complete [DecidableEq G] {env env' : Env F G} (hO : env.oracle = env'.oracle) (hb : env'.batchInvert [] = .ok ([], 1)) (g h : G) (Gs Hs : List G) (parts : List (Part F G × Coins F))
    (hp : ∀ a ∈ parts, HonestPair env env' none a.1.gates a.1.openings a.1.dp a.1.dv a.1.statics ∧ (∀ coms, OnePhase (a.1.dv coms)) ∧ nextPowerOfTwo a.1.gates < 2 ^ 32 ∧
      nextPowerOfTwo a.1.gates ≤ Gs.length ∧ nextPowerOfTwo a.1.gates ≤ Hs.length) (t : Transcript F G) :
    ∃ out T, proveChain env g h Gs Hs parts t = .ok (out, T) ∧ t <+: T ∧ (out.map Prod.fst = parts.map fun a => a.1.openings.map fun q => q.1 • g + q.2 • h) ∧
      ((∀ d ∈ newDraws t T, env.oracle d ≠ 0) → ∀ rs : List F, rs.length = parts.length → verifyChain env' g h Gs Hs (checksOf parts out rs) t = .ok T) := by
  induction parts generalizing t with
  | nil => exact ⟨[], t, rfl, List.prefix_rfl, rfl, fun _ _ _ => rfl⟩
  | cons a parts ih =>
    obtain ⟨q1, q2, q3, q4, q5⟩ := hp a (by simp)
    obtain ⟨coms, p, s, pr, T, e1, e2, e3, e4, e5, e6⟩ := q1.link hO q2 t g h Gs Hs q3 q4 q5 (.inr hb) a.2
    obtain ⟨out, T', f1, f2, f3, f4⟩ := ih (fun b hb => hp b (by simp [hb])) T
    refine ⟨(coms, pr) :: out, T', ?_, e5.trans f2, ?_, fun h0 rs hr => ?_⟩
    · simp only [proveChain, e1, e4, f1]
    · rw [List.map_cons, List.map_cons, f3, e3]
    · cases rs with
      | nil => simp at hr
      | cons r rs =>
        simp only [checksOf, List.zip_cons_cons, List.map_cons, verifyChain, e2]
        rw [e6 (fun d hd => h0 d (newDraws_mono f2 e5 d hd)) r]
        exact f4 (fun d hd => h0 d (newDraws_later e5 f2 d hd)) rs (by simpa using hr)

/-- **C67**, the log of a chain that was accepted lists all the commitments and all the proofs, in order. -/
theorem c67_log [DecidableEq G] (env : Env F G) (g h : G) (Gs Hs : List G) (cs : List (Check F G)) (hd : ∀ a ∈ cs, OnePhase a.dv) (t T : Transcript F G) (hv : verifyChain env g h Gs Hs cs t = .ok T) :
    ∃ Vs : List (List G), List.Forall₂ (fun a V => ∃ t0 s, a.dv (Verifier.new t0 0) = (.ok (), s) ∧ s.V = V) cs Vs ∧ T = chainLog t (Vs.zip (cs.map Check.proof)) ∧
      ∀ a ∈ cs, a.proof.ipp.L.length = a.proof.ipp.R.length := by
  induction cs generalizing t with
  | nil =>
    simp only [verifyChain, Except.ok.injEq] at hv
    exact ⟨[], .nil, hv.symm, by simp⟩
  | cons a cs ih =>
    rw [verifyChain] at hv
    rcases e1 : a.dv (Verifier.new t 0) with ⟨_ | u, s⟩
    · rw [e1] at hv; simp at hv
    · simp only [e1] at hv
      cases e2 : s.verify env a.proof g h Gs Hs a.r with
      | error e => rw [e2] at hv; simp at hv
      | ok t' =>
        simp only [e2] at hv
        obtain ⟨Vs, f1, f2, f3⟩ := ih (fun b hb => hd b (by simp [hb])) t' hv
        obtain ⟨d1, V, d2, d3⟩ := hd a (by simp) _ _ _ e1
        obtain ⟨l1, l2, l3⟩ := verify_proofLog (by rw [d1]; rfl) e2
        refine ⟨s.V :: Vs, .cons ⟨t, s, e1, rfl⟩ f1, ?_, ?_⟩
        · rw [List.map_cons, List.zip_cons_cons, chainLog, f2, l1, proofLog_eq_fullLog s a.proof t s.V rfl (by
            rw [d3, d2]; simp [Verifier.new]) l2]
        · intro b hb
          rcases List.mem_cons.mp hb with rfl | hb
          · rw [l2, l3]
          · exact f3 b hb

/-- **C67**, binding: the log of a chain determines the label of the transcript, the number of proofs, their order, and all of their commitments and messages; all but the final scalars of the inner-product arguments. -/
theorem c67_binds (lab lab' : String) (l l' : List (List G × R1CSProof F G)) (hl : ∀ q ∈ l, q.2.ipp.L.length = q.2.ipp.R.length) (hl' : ∀ q ∈ l', q.2.ipp.L.length = q.2.ipp.R.length)
    (h : chainLog [.init lab] l = chainLog [.init lab'] l') : lab = lab' ∧ (l.map fun q => (q.1, q.2.withFinal 0 0)) = l'.map fun q => (q.1, q.2.withFinal 0 0) := by
  rw [chainLog_append, chainLog_append [.init lab']] at h
  simp only [List.cons_append, List.nil_append, List.cons.injEq, TEvent.init.injEq] at h
  exact ⟨h.1, chainLog_inj l l' hl hl' h.2⟩

/-- **C67**, the final scalars: if a proof is accepted with two different pairs of final scalars (with the same random scalar, and with challenges that are not zero), then a non-trivial linear relation between the
generators can be computed from these scalars and the challenges. -/
theorem c67_final_scalars [DecidableEq G] (env : Env F G) (s s2 : Verifier F G) (pr : R1CSProof F G) (a b : F) (g h : G) (Gs Hs : List G) (r : F) (T T' : Transcript F G) (hb : env.batchInvert [] = .ok ([], 1))
    (hv : s.verify env pr g h Gs Hs r = .ok T) (hv' : s.verify env (pr.withFinal a b) g h Gs Hs r = .ok T') (hcrc : (s.start pr).createRandomizedConstraints env = .ok s2)
    (hy : (drawn env.oracle s2.transcript pr).y ≠ 0) (hu : (drawn env.oracle s2.transcript pr).u ≠ 0) (h0 : ∀ u ∈ ippRounds env.oracle s2.transcript pr (nextPowerOfTwo s2.numVars), u ≠ 0)
    (hne : ¬ (a = pr.ipp.a ∧ b = pr.ipp.b)) :
    let ρ := pr.finalRelation s.numVars (drawn env.oracle s2.transcript pr) (ippRounds env.oracle s2.transcript pr (nextPowerOfTwo s2.numVars)) a b
    let N := nextPowerOfTwo s2.numVars
    ¬ ρ.Trivial N ∧ ρ.value N g h (Gs.take N) (Hs.take N) = 0 := by
  intro ρ N
  obtain ⟨s2', wt, k, i1, i2, i3, i4, i5, i6, i7, i8, -⟩ := verify_inv hv
  rw [hcrc] at i1
  obtain rfl : s2 = s2' := by simpa using i1
  have hN : N = 2 ^ k := i2
  have hus : (ippRounds env.oracle s2.transcript pr N).length = k := by rw [ippRounds, length_ippChallenges]; simp [i7, i8]
  refine ⟨fun ht => hne ?_, ?_⟩
  · obtain ⟨t1, t2, -, -⟩ := ht
    have hp : 0 < N := by rw [hN]; positivity
    have g1 := t1 0 hp
    have g2 := t2 0 hp
    have hf : ufac s.numVars (drawn env.oracle s2.transcript pr).u 0 ≠ 0 := by
      unfold ufac; split
      · exact one_ne_zero
      · exact hu
    simp only [ρ, R1CSProof.finalRelation, vpow_inv hy, pow_zero, one_mul, mul_eq_zero] at g1 g2
    have c1 := foldCoeff_ne_zero h0
    have c2 : foldCoeff ((ippRounds env.oracle s2.transcript pr N).map (·⁻¹)) 0 ≠ 0 := foldCoeff_ne_zero fun u hu => by
      obtain ⟨v, hv1, rfl⟩ := List.mem_map.mp hu
      exact inv_ne_zero (h0 v hv1)
    constructor
    · rcases g1 with g1 | g1 | g1
      · exact (sub_eq_zero.mp g1).symm
      · exact absurd g1 c1
      · exact absurd g1 hf
    · rcases g2 with g2 | g2 | g2
      · exact (sub_eq_zero.mp g2).symm
      · exact absurd g2 c2
      · exact absurd g2 hf
  · have h0' : ∀ u ∈ (ippChallenges env.oracle ((logW s2.transcript pr).ippDomainSep (2 ^ k)) (pr.ipp.L.zip pr.ipp.R)).1, u ≠ 0 := by rw [← i2]; exact h0
    rw [verify_eq env s s2 pr g h Gs Hs r hcrc k i2 i3 i4 i5 _ rfl wt i6 i7 i8 _ rfl h0' (.inr hb)] at hv
    rw [verify_eq env s s2 (pr.withFinal a b) g h Gs Hs r hcrc k i2 i3 i4 i5 _ rfl wt i6 i7 i8 _ rfl h0' (.inr hb)] at hv'
    split at hv
    rotate_left
    · simp [Res.err] at hv
    split at hv'
    rotate_left
    · simp [Res.err] at hv'
    rename_i w1 w2
    rw [hN]
    have := ippCheck_final s.numVars k pr g h (Gs.take (2 ^ k)) (Hs.take (2 ^ k)) wt (drawn env.oracle s2.transcript pr) (ippRounds env.oracle s2.transcript pr N) hus (by simpa using i4) (by simpa using i5) a b
    refine this.symm.trans ?_
    have e1 := eq_neg_of_add_eq_zero_left w1
    have e2 := eq_neg_of_add_eq_zero_left w2
    rw [ippRounds, hN]
    exact sub_eq_zero.mpr (e2.trans e1.symm)

/-- **C67**, uniqueness: if there is no linear relation between the generators, nobody can find two accepted proofs that only differ in the final scalars. -/
theorem c67_unique [DecidableEq G] (env : Env F G) (s s2 : Verifier F G) (pr : R1CSProof F G) (a b : F) (g h : G) (Gs Hs : List G) (r : F) (T T' : Transcript F G) (hb : env.batchInvert [] = .ok ([], 1))
    (hv : s.verify env pr g h Gs Hs r = .ok T) (hv' : s.verify env (pr.withFinal a b) g h Gs Hs r = .ok T') (hcrc : (s.start pr).createRandomizedConstraints env = .ok s2)
    (hy : (drawn env.oracle s2.transcript pr).y ≠ 0) (hu : (drawn env.oracle s2.transcript pr).u ≠ 0) (h0 : ∀ u ∈ ippRounds env.oracle s2.transcript pr (nextPowerOfTwo s2.numVars), u ≠ 0)
    (hi : Independent F (Gs.take (nextPowerOfTwo s2.numVars) ++ Hs.take (nextPowerOfTwo s2.numVars) ++ [g, h])) : pr.withFinal a b = pr := by
  by_contra hne
  obtain ⟨s2', wt, k, i1, i2, i3, i4, i5, -⟩ := verify_inv hv
  rw [hcrc] at i1
  obtain rfl : s2 = s2' := by simpa using i1
  obtain ⟨h1, h2⟩ := c67_final_scalars env s s2 pr a b g h Gs Hs r T T' hb hv hv' hcrc hy hu h0 (fun ⟨ha, hb⟩ => hne (by rw [ha, hb]; rfl))
  exact h1 (hi.no_gen_relation (by rw [i2]; simpa using i4) (by rw [i2]; simpa using i5) _ h2)

/-! ## The hypotheses are met -/

/-- Two statements about products, `x * y = 48` and `x * y * z = 30`. -/
def demoChain (c c' : Coins Z101) : List (Part Z101 Z101 × Coins Z101) :=
  [(⟨proveFactors (Env.std fun _ => 2) (3, 7) (16, 8) [] 48, verifyFactors (Env.std fun _ => 2) 0 48, 1, [(3, 7), (16, 8)], []⟩, c),
   (⟨proveFactors (Env.std fun _ => 2) (2, 9) (3, 1) [(5, 4)] 30, verifyFactors (Env.std fun _ => 2) 1 30, 2, [(2, 9), (3, 1), (5, 4)], []⟩, c')]

/-- A chain of two proofs over one transcript is accepted, and its log lists both. -/
example (c c' : Coins Z101) (r r' : Z101) : ∃ out T, proveChain (Env.std fun _ => 2) 1 5 [2, 3] [4, 6] (demoChain c c') [.init "chain"] = .ok (out, T) ∧ out.map Prod.fst = [[38, 56], [47, 8, 25]] ∧
    verifyChain (Env.std fun _ => 2) 1 5 [2, 3] [4, 6] (checksOf (demoChain c c') out [r, r']) [.init "chain"] = .ok T ∧ ∃ Vs : List (List Z101), T = chainLog [.init "chain"] (Vs.zip (out.map Prod.snd)) ∧ Vs.length = 2 := by
  have hp : ∀ a ∈ demoChain c c', HonestPair (Env.std fun _ => 2) (Env.std fun _ => 2) none a.1.gates a.1.openings a.1.dp a.1.dv a.1.statics ∧ (∀ coms, OnePhase (a.1.dv coms)) ∧ nextPowerOfTwo a.1.gates < 2 ^ 32 ∧
      nextPowerOfTwo a.1.gates ≤ [(2 : Z101), 3].length ∧ nextPowerOfTwo a.1.gates ≤ [(4 : Z101), 6].length := by
    intro a ha
    have n1 : nextPowerOfTwo 1 ≤ 2 ∧ nextPowerOfTwo 1 < 2 ^ 32 := by decide +kernel
    have n2 : nextPowerOfTwo 2 ≤ 2 ∧ nextPowerOfTwo 2 < 2 ^ 32 := by decide +kernel
    simp only [demoChain, List.mem_cons, List.not_mem_nil, or_false] at ha
    rcases ha with rfl | rfl
    · exact ⟨c60_complete _ _ rfl (3, 7) (16, 8) [] 48 (by decide) none, fun coms => OnePhase.factors _ 0 48 coms, n1.2, n1.1, n1.1⟩
    · exact ⟨c60_complete _ _ rfl (2, 9) (3, 1) [(5, 4)] 30 (by decide) none, fun coms => OnePhase.factors _ 1 30 coms, n2.2, n2.1, n2.1⟩
  obtain ⟨out, T, e1, -, e2, e3⟩ := c67_complete (env := (Env.std fun _ => 2)) rfl (by simp [Env.std]) (1 : Z101) 5 [2, 3] [4, 6] (demoChain c c') hp [.init "chain"]
  have e4 := e3 (fun _ _ => by show (2 : Z101) ≠ 0; decide) [r, r'] rfl
  have hl : out.length = 2 := by simpa [demoChain] using congrArg List.length e2
  obtain ⟨Vs, f1, f2, -⟩ := c67_log _ 1 5 [2, 3] [4, 6] _ (fun a ha => by
    obtain ⟨x, hx, rfl⟩ := List.mem_map.mp ha
    exact (hp x.1 (List.of_mem_zip hx).1).2.1 _) _ _ e4
  refine ⟨out, T, e1, e2, e4, Vs, ?_, ?_⟩
  · rw [f2]
    congr 2
    obtain ⟨q, q', rfl⟩ := List.length_eq_two.mp hl
    rfl
  · rw [← f1.length_eq]
    obtain ⟨q, q', rfl⟩ := List.length_eq_two.mp hl
    rfl

/-- A proof that `x * y = 48`. -/
def demoFactorsProof : R1CSProof Z101 Z101 := ⟨59, 5, 38, 0, 0, 0, 48, 53, 15, 7, 95, 86, 35, 34, ⟨[], [], 20, 75⟩⟩

/-- In a group where relations between the generators are easy to find, there is another proof with different final scalars, and the relation is found again. -/
example : ((demoFactorsVt [.init "f"] [38, 56]).verify (Env.std fun _ => 2) demoFactorsProof 1 5 [2] [3] 4).isOk ∧ ((demoFactorsVt [.init "f"] [38, 56]).verify (Env.std fun _ => 2) (demoFactorsProof.withFinal 1 87) 1 5 [2] [3] 4).isOk ∧
    ∃ ρ : GenRep Z101, ρ.1 0 = 19 ∧ ρ.2.1 0 = 89 ∧ ρ.2.2.1 = 99 ∧ ρ.value 1 1 5 [(2 : Z101)] [3] = 0 := by
  have h1 : ((demoFactorsVt [.init "f"] [38, 56]).verify (Env.std fun _ => 2) demoFactorsProof 1 5 [2] [3] 4).isOk = true := by decide +kernel
  have h2 : ((demoFactorsVt [.init "f"] [38, 56]).verify (Env.std fun _ => 2) (demoFactorsProof.withFinal 1 87) 1 5 [2] [3] 4).isOk = true := by decide +kernel
  refine ⟨h1, h2, ?_⟩
  obtain ⟨T, e1⟩ := isOk_elim h1
  obtain ⟨T', e2⟩ := isOk_elim h2
  obtain ⟨s2, -, -, i1, -⟩ := verify_inv e1
  have hn : s2.numVars = 1 := by
    rw [crc_onePhase (by decide +kernel) i1]
    decide +kernel
  have hN : nextPowerOfTwo s2.numVars = 1 := by rw [hn]; decide +kernel
  obtain ⟨-, f2⟩ := c67_final_scalars _ _ s2 _ 1 87 1 5 [2] [3] 4 T T' (by simp [Env.std]) e1 e2 i1 (show (2 : Z101) ≠ 0 by decide) (show (2 : Z101) ≠ 0 by decide) (fun u hu => by simp [ippRounds, demoFactorsProof, ippChallenges] at hu) (by decide)
  rw [hN] at f2
  have hv : (demoFactorsVt [.init "f"] [38, 56]).numVars = 1 := by decide +kernel
  rw [hv] at f2
  have f3 : (demoFactorsProof.finalRelation 1 ⟨2, 2, 2, 2, 2⟩ [] 1 87).value 1 (1 : Z101) 5 [2] [3] = 0 := f2
  exact ⟨demoFactorsProof.finalRelation 1 ⟨2, 2, 2, 2, 2⟩ [] 1 87, by decide +kernel, by decide +kernel, by decide +kernel, f3⟩

/-- With independent generators there is no other proof. -/
example (a b : Z101) (T : Transcript Z101 V4)
    (h : squareV.verify (Env.std (labelOracle (squareTree.chals 0 0 0 0 0))) ((squareTree.proof 0 0 0 0 ⟨[], [], 16, 10⟩).withFinal a b) (unit4 0) (unit4 1) [unit4 2] [unit4 3] 1 = .ok T) : a = 16 ∧ b = 10 := by
  have h1 : (squareV.verify (Env.std (labelOracle (squareTree.chals 0 0 0 0 0))) (squareTree.proof 0 0 0 0 ⟨[], [], 16, 10⟩) (unit4 0) (unit4 1) [unit4 2] [unit4 3] 1).isOk = true := by decide +kernel
  obtain ⟨T', e1⟩ := isOk_elim h1
  obtain ⟨s2, -, -, i1, -⟩ := verify_inv e1
  have es := crc_onePhase (by decide +kernel) i1
  have hN : nextPowerOfTwo s2.numVars = 1 := by
    rw [show s2.numVars = 1 by rw [es]; decide +kernel]
    decide +kernel
  have := c67_unique _ _ s2 _ a b _ _ _ _ 1 T' T (by simp [Env.std]) e1 h i1 (by rw [es]; decide +kernel) (by rw [es]; decide +kernel) (fun u hu => by simp [ippRounds, R1CSTree.proof, ippChallenges] at hu) (by rw [hN]; exact unit4_independent)
  have := congrArg (fun pr => (pr.ipp.a, pr.ipp.b)) this
  simpa [R1CSProof.withFinal, R1CSTree.proof] using this

end Bp
