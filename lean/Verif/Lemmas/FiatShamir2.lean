import Verif.Lemmas.FiatShamir
import Verif.Props.SoundnessR1CS

/-! # The Fiat-Shamir game of the R1CS argument: a living proof gives a tree of accepted answers -/

set_option linter.unusedSectionVars false

namespace Bp
variable {F G : Type} [Field F] [AddCommGroup G] [Module F G]

/-! ## The messages of a proof -/

def roundMsgs : Transcript F G → List (G × G) → List (Transcript F G)
  | _, [] => []
  | pre, q :: rest => (pre ++ [.point "L" q.1, .point "R" q.2, .challenge "u"]) :: roundMsgs [] rest

def proofMsgs (N : ℕ) (pr : R1CSProof F G) : List (Transcript F G) :=
  [.point "A_I2" pr.A_I2, .point "A_O2" pr.A_O2, .point "S2" pr.S2, .challenge "y"] :: [.challenge "z"] ::
  [.point "T_1" pr.T_1, .point "T_3" pr.T_3, .point "T_4" pr.T_4, .point "T_5" pr.T_5, .point "T_6" pr.T_6, .challenge "u"] :: [.challenge "x"] ::
  [.scalar "t_x" pr.t_x, .scalar "t_x_blinding" pr.t_x_blinding, .scalar "e_blinding" pr.e_blinding, .challenge "w"] ::
  roundMsgs [.domSep "ipp v1", .u64 "n" N] (pr.ipp.L.zip pr.ipp.R)

theorem roundMsgs_isMsg : ∀ (pre : Transcript F G) ps, (∀ e ∈ pre, e.isDraw = false) → ∀ m ∈ roundMsgs pre ps, IsMsg m
  | _, [], _, m, hm => by simp [roundMsgs] at hm
  | pre, q :: ps, hp, m, hm => by
    rcases List.mem_cons.mp hm with rfl | hm
    · refine ⟨pre ++ [.point "L" q.1, .point "R" q.2], "u", by simp, fun e he => ?_⟩
      rcases List.mem_append.mp he with he | he
      · exact hp e he
      · simp only [List.mem_cons, List.not_mem_nil, or_false] at he
        rcases he with rfl | rfl <;> rfl
    · exact roundMsgs_isMsg [] ps (by simp) m hm

theorem proofMsgs_isMsg (N : ℕ) (pr : R1CSProof F G) : ∀ m ∈ proofMsgs N pr, IsMsg m := by
  intro m hm
  simp only [proofMsgs, List.mem_cons] at hm
  rcases hm with rfl | rfl | rfl | rfl | rfl | hm
  · exact ⟨[.point "A_I2" pr.A_I2, .point "A_O2" pr.A_O2, .point "S2" pr.S2], "y", rfl, by simp [TEvent.isDraw]⟩
  · exact ⟨[], "z", rfl, by simp⟩
  · exact ⟨[.point "T_1" pr.T_1, .point "T_3" pr.T_3, .point "T_4" pr.T_4, .point "T_5" pr.T_5, .point "T_6" pr.T_6], "u", rfl, by simp [TEvent.isDraw]⟩
  · exact ⟨[], "x", rfl, by simp⟩
  · exact ⟨[.scalar "t_x" pr.t_x, .scalar "t_x_blinding" pr.t_x_blinding, .scalar "e_blinding" pr.e_blinding], "w", rfl, by simp [TEvent.isDraw]⟩
  · exact roundMsgs_isMsg _ _ (by simp [TEvent.isDraw]) m hm

theorem roundMsgs_length : ∀ (pre : Transcript F G) ps, (roundMsgs pre ps).length = ps.length
  | _, [] => rfl
  | pre, q :: ps => by simp [roundMsgs, roundMsgs_length [] ps]

theorem chalsOf_rounds (O : Oracle F G) : ∀ (t pre : Transcript F G) ps, chalsOf O t (roundMsgs pre ps) = (ippChallenges O (t ++ pre) ps).1
  | _, _, [] => rfl
  | t, pre, q :: ps => by
    have := chalsOf_rounds O (t ++ (pre ++ [.point "L" q.1, .point "R" q.2, .challenge "u"])) [] ps
    simp only [roundMsgs, chalsOf, this, ippChallenges, Transcript.commitPoint, Transcript.challengeScalar, List.append_assoc, List.cons_append, List.nil_append, List.append_nil]

theorem roundMsgs_flatten : ∀ (pre : Transcript F G) ps, (roundMsgs pre ps).flatten <+: pre ++ roundsLog ps
  | _, [] => by simp [roundMsgs]
  | pre, q :: ps => by
    have := roundMsgs_flatten ([] : Transcript F G) ps
    simp only [roundMsgs, List.flatten_cons, roundsLog, List.flatMap_cons, List.append_assoc, List.prefix_append_right_inj, List.cons_append, List.nil_append] at this ⊢
    simpa using this

theorem chalsOf_proof (O : Oracle F G) (t : Transcript F G) (N : ℕ) (pr : R1CSProof F G) :
    chalsOf O t (proofMsgs N pr) = (drawn O t pr).y :: (drawn O t pr).z :: (drawn O t pr).u :: (drawn O t pr).x :: (drawn O t pr).w :: ippRounds O t pr N := by
  simp only [proofMsgs, chalsOf, drawn, chalsOf_rounds, ippRounds, logY, logZ, logU, logX, logW, Transcript.ippDomainSep]

theorem proofMsgs_flatten (t : Transcript F G) (N : ℕ) (pr : R1CSProof F G) : t ++ (proofMsgs N pr).flatten <+: (logW t pr).ippDomainSep N ++ roundsLog (pr.ipp.L.zip pr.ipp.R) := by
  have := roundMsgs_flatten ([.domSep "ipp v1", .u64 "n" N] : Transcript F G) (pr.ipp.L.zip pr.ipp.R)
  simp only [proofMsgs, List.flatten_cons, logY, logZ, logU, logX, logW, Transcript.ippDomainSep, List.append_assoc, List.prefix_append_right_inj, List.cons_append, List.nil_append,
    List.cons_prefix_cons, true_and] at this ⊢
  exact this

/-! ## Reading messages -/

def ptAt (m : Transcript F G) (i : ℕ) : G := match m[i]? with
  | some (.point _ p) => p
  | _ => 0
def scAt (m : Transcript F G) (i : ℕ) : F := match m[i]? with
  | some (.scalar _ p) => p
  | _ => 0

def lOf (m : Transcript F G) : G := ptAt m.reverse 2
def rOf (m : Transcript F G) : G := ptAt m.reverse 1

theorem roundMsgs_lOf : ∀ (pre : Transcript F G) ps, (roundMsgs pre ps).map lOf = ps.map Prod.fst
  | _, [] => rfl
  | pre, q :: ps => by simp [roundMsgs, roundMsgs_lOf [] ps, lOf, ptAt]
theorem roundMsgs_rOf : ∀ (pre : Transcript F G) ps, (roundMsgs pre ps).map rOf = ps.map Prod.snd
  | _, [] => rfl
  | pre, q :: ps => by simp [roundMsgs, roundMsgs_rOf [] ps, rOf, ptAt]

/-! ## Acceptance -/

section
variable [DecidableEq G] (s s2 : Verifier F G) (g h : G) (Gs Hs : List G) (k q : ℕ)

/-- A complete proof, accepted for two values of `r`. -/
def FullAcc (ms : List (Transcript F G)) (cs : List F) (pr : R1CSProof F G) : Prop := ∃ (env : Env F G) (r r' : F) (T T' : Transcript F G), ms = proofMsgs (2 ^ k) pr ∧ chalsOf env.oracle s2.transcript ms = cs ∧ r ≠ r' ∧
  (k ≠ 0 ∨ env.batchInvert [] = .ok ([], 1)) ∧ (s.start pr).createRandomizedConstraints env = .ok s2 ∧ s.verify env pr g h Gs Hs r = .ok T ∧ s.verify env pr g h Gs Hs r' = .ok T'

def Accs (ms : List (Transcript F G)) (cs : List F) : Prop := ∃ pr, FullAcc s s2 g h Gs Hs k ms cs pr

variable {s s2 g h Gs Hs k q}

theorem live_rounds : ∀ (j : ℕ) (ms : List (Transcript F G)) (cs : List F), Live (Accs s s2 g h Gs Hs k) (List.replicate j 7) ms cs →
    ∃ tree : IppTree F G, tree.Full j ∧ ∀ L R us a b, tree.Path L R us a b → ∃ rm pr, FullAcc s s2 g h Gs Hs k (ms ++ rm) (cs ++ us) pr ∧ rm.map lOf = L ∧ rm.map rOf = R ∧ pr.ipp.a = a ∧ pr.ipp.b = b
  | 0, ms, cs, hl => by
    obtain ⟨pr, hp⟩ := hl
    refine ⟨.leaf pr.ipp.a pr.ipp.b, trivial, fun L R us a b hpath => ?_⟩
    cases hpath
    exact ⟨[], pr, by simpa using hp, rfl, rfl, rfl, rfl⟩
  | j + 1, ms, cs, hl => by
    obtain ⟨msg, hl⟩ := hl
    obtain ⟨f, h1, h2, h3⟩ := pick_squares hl
    choose tree t1 t2 using fun i => live_rounds j _ _ (h3 i)
    refine ⟨.node (lOf msg) (rOf msg) f tree, ⟨h1, h2, t1⟩, fun L R us a b hpath => ?_⟩
    cases hpath with
    | node i hp =>
      obtain ⟨rm, pr, h4, rfl, rfl, h5, h6⟩ := t2 i _ _ _ _ _ hp
      exact ⟨msg :: rm, pr, by simpa using h4, rfl, rfl, h5, h6⟩

theorem fullAcc_proof {ms : List (Transcript F G)} {cs : List F} {pr : R1CSProof F G} (hN : nextPowerOfTwo s2.numVars = 2 ^ k) (hf : FullAcc s s2 g h Gs Hs k ms cs pr) {m1 m2 m3 m4 m5 : Transcript F G}
    {rm : List (Transcript F G)} (he : ms = m1 :: m2 :: m3 :: m4 :: m5 :: rm) : pr =
      ⟨ptAt s2.transcript (s.transcript.length + 1), ptAt s2.transcript (s.transcript.length + 2), ptAt s2.transcript (s.transcript.length + 3), ptAt m1 0, ptAt m1 1, ptAt m1 2,
        ptAt m3 0, ptAt m3 1, ptAt m3 2, ptAt m3 3, ptAt m3 4, scAt m5 0, scAt m5 1, scAt m5 2, ⟨rm.map lOf, rm.map rOf, pr.ipp.a, pr.ipp.b⟩⟩ := by
  obtain ⟨env, r, r', T, T', h1, h2, h3, h4, h5, h6, h7⟩ := hf
  obtain ⟨s2', wt', k', i1, i2, -, -, -, -, i6, i7, -⟩ := verify_inv h6
  obtain rfl : s2 = s2' := by rw [h5] at i1; exact Except.ok.inj i1
  obtain rfl : k = k' := Nat.pow_right_injective (le_refl 2) (hN.symm.trans i2)
  obtain ⟨ls, e, -⟩ := Verifier.crc_log h5
  rw [he, proofMsgs] at h1
  simp only [List.cons.injEq] at h1
  obtain ⟨rfl, rfl, rfl, rfl, rfl, rfl⟩ := h1
  rw [roundMsgs_lOf, roundMsgs_rOf, List.map_fst_zip (by omega), List.map_snd_zip (by omega), e]
  rcases pr with ⟨_, _, _, _, _, _, _, _, _, _, _, _, _, _, ⟨_, _, _, _⟩⟩
  simp [Verifier.start, log1, ptAt, scAt]

theorem live_tree (hN : nextPowerOfTwo s2.numVars = 2 ^ k) (hl : Live (Accs s s2 g h Gs Hs k) (2 ^ k :: q :: 5 :: 6 :: 2 :: List.replicate k 7) [] []) :
    ∃ t : R1CSTree F G k q, t.Full ∧ t.Accepted s s2 g h Gs Hs := by
  obtain ⟨m1, hl⟩ := hl
  obtain ⟨y, y1, y2, y3⟩ := pick_nonzero (Nat.two_pow_pos k) hl
  choose m2 hz using y2
  choose z z1 z2 using fun a => pick_distinct (hz a)
  choose m3 hu using z2
  choose u u1 u2 u3 using fun a b => pick_nonzero (by decide) (hu a b)
  choose m4 hx using u2
  choose x x1 x2 x3 using fun a b c => pick_nonzero (by decide) (hx a b c)
  choose m5 hw using x2
  choose w w1 w2 w3 using fun a b c d => pick_nonzero (by decide) (hw a b c d)
  choose tr t1 t2 using fun a b c d e => live_rounds k _ _ (w2 a b c d e)
  refine ⟨⟨ptAt s2.transcript (s.transcript.length + 1), ptAt s2.transcript (s.transcript.length + 2), ptAt s2.transcript (s.transcript.length + 3), ptAt m1 0, ptAt m1 1, ptAt m1 2, fun a =>
    ⟨y a, fun b => ⟨z a b, ptAt (m3 a b) 0, ptAt (m3 a b) 1, ptAt (m3 a b) 2, ptAt (m3 a b) 3, ptAt (m3 a b) 4, fun c => ⟨u a b c, fun d =>
      ⟨x a b c d, scAt (m5 a b c d) 0, scAt (m5 a b c d) 1, scAt (m5 a b c d) 2, w a b c d, tr a b c d⟩⟩⟩⟩⟩, ?_, ?_⟩
  · exact ⟨y3, fun a a' hn h => hn (y1 h), fun a b b' hn h => hn (z1 a h), u3, fun a b c c' hn h => hn (u1 a b h), x3, fun a b c d d' hn h => hn (x1 a b c h), w3,
      fun a b c d h => absurd (w1 a b c d h) (by decide), t1⟩
  · intro a b c d e L R us α β hp
    obtain ⟨rm, pr, hf, rfl, rfl, rfl, rfl⟩ := t2 a b c d e _ _ _ _ _ hp
    have hpr := fullAcc_proof hN hf rfl
    obtain ⟨env, r, r', T, T', h1, h2, h3, h4, h5, h6, h7⟩ := hf
    rw [h1, chalsOf_proof] at h2
    simp only [List.nil_append, List.cons_append, List.cons.injEq] at h2
    obtain ⟨c1, c2, c3, c4, c5, c6⟩ := h2
    have hpr' : R1CSTree.proof ⟨ptAt s2.transcript (s.transcript.length + 1), ptAt s2.transcript (s.transcript.length + 2), ptAt s2.transcript (s.transcript.length + 3), ptAt m1 0, ptAt m1 1, ptAt m1 2, fun a =>
      ⟨y a, fun b => ⟨z a b, ptAt (m3 a b) 0, ptAt (m3 a b) 1, ptAt (m3 a b) 2, ptAt (m3 a b) 3, ptAt (m3 a b) 4, fun c => ⟨u a b c, fun d =>
      ⟨x a b c d, scAt (m5 a b c d) 0, scAt (m5 a b c d) 1, scAt (m5 a b c d) 2, w a b c d, tr a b c d⟩⟩⟩⟩⟩ a b c d ⟨rm.map lOf, rm.map rOf, pr.ipp.a, pr.ipp.b⟩ = pr := hpr.symm
    refine ⟨env, r, r', T, T', h3, ?_⟩
    rw [hpr']
    refine ⟨h5, ?_, c6, h4, h6, h7⟩
    simp only [R1CSTree.chals]
    rw [← c1, ← c2, ← c3, ← c4, ← c5]

end

end Bp
