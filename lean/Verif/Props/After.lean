import Verif.Spec.After
import Verif.Props.Replay
import Verif.Props.Statements

/-! # C80: proofs that have been seen do not help to forge others -/

namespace Bp
variable {F G : Type} [Field F] [AddCommGroup G] [Module F G]

/-! ## The commitments of a list of statements can be read off the verifier -/

section stmts
variable [ByteRep F] {env : Env F G} {g h : G}

theorem stmts_coms : ∀ {stmts : List (Stmt F)} {a b : List G} {s s' t t' : Verifier F G}, (∀ st ∈ stmts, st.Ok) → totalSize stmts ≤ a.length → a.length = b.length → s.mapG (0 : G →ₗ[F] G) = t.mapG (0 : G →ₗ[F] G) → s.V = t.V →
    verifyStmts env g h stmts a s = (.ok (), s') → verifyStmts env g h stmts b t = (.ok (), t') → s'.V = t'.V → a.take (totalSize stmts) = b.take (totalSize stmts)
  | [], _, _, _, _, _, _, _, _, _, _, _, _, _, _ => rfl
  | st :: stmts, a, b, s, s', t, t', hok, hl, hab, hm, hV, ha, hb, hV' => by
    obtain ⟨⟨⟩, s1, h1, ha⟩ := Drv.bind_ok.mp ha
    obtain ⟨⟨⟩, t1, k1, hb⟩ := Drv.bind_ok.mp hb
    simp only [totalSize, List.map_cons, List.sum_cons] at hl
    have hla : totalSize stmts ≤ (a.drop st.size).length := by rw [List.length_drop, totalSize]; omega
    have hlb : totalSize stmts ≤ (b.drop st.size).length := by rw [List.length_drop, totalSize]; omega
    have hm1 : s1.mapG (0 : G →ₗ[F] G) = t1.mapG (0 : G →ₗ[F] G) := by
      have e1 := DrvNat.stmt (0 : G →ₗ[F] G) env g h st (a.take st.size) s
      have e2 := DrvNat.stmt (0 : G →ₗ[F] G) env g h st (b.take st.size) t
      rw [Stmt.verify_pull, h1] at e1
      rw [Stmt.verify_pull, k1, ← hm, ← map_zero_eq (F := F) (a := a.take st.size) (by simp [hab]), e1] at e2
      exact (Prod.mk.inj e2).2
    have hlen : s1.V.length = t1.V.length := by simpa [Verifier.mapG] using congrArg (fun s : Verifier F G => s.V.length) hm1
    obtain ⟨-, p1⟩ := verifyStmts_prefix (fun x hx => hok x (.tail _ hx)) hla ha
    obtain ⟨-, p2⟩ := verifyStmts_prefix (fun x hx => hok x (.tail _ hx)) hlb hb
    have hV1 : s1.V = t1.V := (List.prefix_of_prefix_length_le p1 (hV' ▸ p2) hlen.le).eq_of_length hlen
    obtain ⟨statics, points, -, hs, -⟩ := st.spec env g h (hok _ (.head _))
    have la : (a.take st.size).length = st.size := by rw [List.length_take]; omega
    have lb : (b.take st.size).length = st.size := by rw [List.length_take]; omega
    obtain ⟨-, q1, -⟩ := hs _ _ _ la h1
    obtain ⟨-, q2, -⟩ := hs _ _ _ lb k1
    have first : a.take st.size = b.take st.size := by
      have q1' := (List.prefix_append _ _).trans q1
      have q2' := (List.prefix_append _ _).trans q2
      rw [← hV1, ← hV] at q2'
      exact List.append_cancel_left ((List.prefix_of_prefix_length_le q1' q2' (by simp [hab])).eq_of_length (by simp [hab]))
    have rest := stmts_coms (fun x hx => hok x (.tail _ hx)) hla (by simp [hab]) hm1 hV1 ha hb hV'
    simp only [totalSize, List.map_cons, List.sum_cons] at rest ⊢
    rw [List.take_add, List.take_add, first, rest]

theorem allHold_take : ∀ {stmts : List (Stmt F)} {a b : List G}, a.take (totalSize stmts) = b.take (totalSize stmts) → AllHold g h stmts a → AllHold g h stmts b
  | [], _, _, _, _ => trivial
  | st :: stmts, a, b, e, ⟨h1, h2⟩ => by
    simp only [totalSize, List.map_cons, List.sum_cons] at e
    have e1 : a.take st.size = b.take st.size := by
      have := congrArg (List.take st.size) e
      simpa [List.take_take] using this
    have e2 : (a.drop st.size).take (totalSize stmts) = (b.drop st.size).take (totalSize stmts) := by
      have := congrArg (List.drop st.size) e
      simpa [List.drop_take, totalSize] using this
    exact ⟨e1 ▸ h1, allHold_take e2 h2⟩

end stmts

variable [DecidableEq G]

/-! ## The game -/

/-- A log of a transcript with some label and commitments. -/
theorem Made.log_eq {env : Env F G} {g h : G} {Gs Hs : List G} (q : Made env g h Gs Hs) :
    ∃ n rest, q.log = .init q.label :: .domSep "r1cs v1" :: q.commitments.map (TEvent.point "V") ++ .u64 "m" n :: rest := by
  obtain ⟨labels, -, hT⟩ := c09_prove_log env g h [.init q.label] q.prover q.reach q.coins Gs Hs q.proof q.log q.made
  rw [hT]
  unfold fullLog preLog
  simp only [List.append_assoc, List.cons_append, List.nil_append]
  exact ⟨_, _, rfl⟩

/-- **C80**, whatever the statement (without randomized constraints): proofs have been made by any provers with the same oracle.  If each of them is for another label, or about commitments of which the claim is true, then somebody who
knows them forges with no other answers than somebody who does not. -/
theorem c80_forges {env : Env F G} {label : String} {dv : List G → Drv (Verifier F G) Unit} {m : ℕ} (hu : ∀ a, OnePhase (dv a)) {g h : G} {Gs Hs : List G} {claim : List G → Prop}
    (proofs : List (Made env g h Gs Hs)) (hok : ∀ q ∈ proofs, q.label = label → ∀ coms s, coms.length = m → dv coms (Verifier.new [.init label]) = (.ok (), s) → s.V = q.commitments → claim coms) (A : Forger F G) {Q : ℕ} {cs : List F} {r : F}
    (hf : A.ForgesAfter (proofs.map (·.log)) env label dv m claim g h Gs Hs Q cs r) : A.Forges env label dv m claim g h Gs Hs Q cs r := by
  obtain ⟨hm, hc, O, s, T, hs, ha, hv⟩ := hf
  refine ⟨hm, hc, O, s, T, ⟨hs, ha, ?_⟩⟩
  have hd : s.deferred = [] := (hu _ _ _ _ hs).1
  obtain ⟨e, -, -⟩ := verify_proofLog hd hv
  refine c09_verify_challenges { env with oracle := known env.oracle (proofs.map (·.log)) O } _ _ g h Gs Hs r T hv O fun pre l hpre => ?_
  show known env.oracle (proofs.map (·.log)) O _ = _
  unfold known
  rw [if_neg]
  rintro ⟨T', hT', hd'⟩
  obtain ⟨q, hq, rfl⟩ := List.mem_map.mp hT'
  obtain ⟨n, rest, eT⟩ := q.log_eq
  have h2 := mem_draws hpre
  rw [e] at h2
  unfold Verifier.proofLog at h2
  rw [(hu _).log hs] at h2
  rw [eT] at hd'
  refine labelled_disjoint (fun hne => hc ?_) hd' (by simpa only [List.append_assoc, List.cons_append, List.nil_append] using h2)
  exact hok q hq hne.1 _ s hm hs hne.2.symm

/-- **C80**, counted: with at most as many answers (see C58 for the bounds). -/
theorem c80_game [Fintype F] {env : Env F G} {label : String} {dv : List G → Drv (Verifier F G) Unit} {m : ℕ} (hu : ∀ a, OnePhase (dv a)) {g h : G} {Gs Hs : List G} {claim : List G → Prop}
    (proofs : List (Made env g h Gs Hs)) (hok : ∀ q ∈ proofs, q.label = label → ∀ coms s, coms.length = m → dv coms (Verifier.new [.init label]) = (.ok (), s) → s.V = q.commitments → claim coms) (A : Forger F G) (Q D : ℕ) :
    A.forgingAfter (proofs.map (·.log)) env label dv m claim g h Gs Hs Q D ≤ A.forging env label dv m claim g h Gs Hs Q D := by
  classical
  unfold Forger.forgingAfter Forger.forging
  exact Nat.card_le_card_of_injective (fun p => ⟨p.1, c80_forges hu proofs hok A p.2⟩) fun p q hpq => Subtype.ext (congrArg (fun x => x.1) hpq)

/-- **C80**, for any list of the crate's statements: proofs have been made by any provers with the same oracle, each for another label, or about commitments of which these statements hold.  Somebody who knows them, asks the oracle `Q`
questions, and then chooses the commitments and a proof, makes the verifier accept a statement that does not hold with at most `(Q + D) B + 1` in `|F|` of the answers, as without them (C61). -/
theorem c80_statements [Fintype F] [ByteRep F] (env : Env F G) (hb : env.batchInvert [] = .ok ([], 1)) (label : String) {stmts : List (Stmt F)} (hok : ∀ st ∈ stmts, st.Ok) (g h : G) (Gs Hs : List G)
    (hind : Independent F (Gs ++ Hs ++ [g, h])) (coms0 : List G) (hl : totalSize stmts ≤ coms0.length) (s0 : Verifier F G) (hs0 : verifyStmts env g h stmts coms0 (Verifier.new [.init label]) = (.ok (), s0))
    (proofs : List (Made env g h Gs Hs))
    (hproofs : ∀ q ∈ proofs, q.label ≠ label ∨ ∃ coms s, coms.length = coms0.length ∧ verifyStmts env g h stmts coms (Verifier.new [.init label]) = (.ok (), s) ∧ s.V = q.commitments ∧ AllHold g h stmts coms) (A : Forger F G) (Q : ℕ) :
    A.forgingAfter (proofs.map (·.log)) env label (verifyStmts env g h stmts) coms0.length (AllHold g h stmts) g h Gs Hs Q s0.numDraws ≤ ((Q + s0.numDraws) * s0.badBound + 1) * Fintype.card F ^ (Q + s0.numDraws) := by
  refine (c80_game (fun _ => OnePhase.stmts _ _ _ _ _) proofs (fun q hq hlabel coms s hlen hs hV => ?_) A Q _).trans (c61_game env hb label hok g h Gs Hs hind coms0 hl s0 hs0 A Q)
  rcases hproofs q hq with hne | ⟨coms', s', hlen', hs', hV', hall⟩
  · exact absurd hlabel hne
  · exact allHold_take (stmts_coms hok (by rw [hlen']; exact hl) (hlen'.trans hlen.symm) rfl rfl hs' hs (hV'.trans hV.symm)) hall

/-! ## The hypotheses are met -/

/-- The proof of `demoP6_proves`, with its log. -/
theorem demoP6_made : ∃ q : Made (Env.std fun _ => 2 : Env Z101 V6) (unit6 4) (unit6 5) [unit6 0, unit6 1] [unit6 2, unit6 3], q.label = "demo" ∧ q.commitments = [commitScalar (unit6 4) (unit6 5) (3 : Z101) 7, commitScalar (unit6 4) (unit6 5) (4 : Z101) 8] := by
  obtain ⟨pr, T, hp⟩ := demoP6_proves
  have hc : List.zipWith (commitScalar (unit6 4) (unit6 5)) demoP6.v demoP6.vBlinding = [commitScalar (unit6 4) (unit6 5) (3 : Z101) 7, commitScalar (unit6 4) (unit6 5) (4 : Z101) 8] := by decide +kernel
  exact ⟨⟨"demo", demoP6, _, pr, T, demoP6_reach, hp⟩, rfl, hc⟩

/-- The verifier of the statement that the first of two committed values is not zero. -/
def afterV : Verifier Z101 V6 := (verifyStmts (Env.std fun _ => 2) (unit6 4) (unit6 5) [.nonZero] [commitScalar (unit6 4) (unit6 5) (3 : Z101) 7, commitScalar (unit6 4) (unit6 5) (4 : Z101) 8] (Verifier.new [.init "demo"])).2

/-- A proof about commitments to 3 and 4 has been seen, with the same label.  It does not help to forge the statement that a committed value is not zero. -/
example (A : Forger Z101 V6) (Q : ℕ) : ∃ q : Made (Env.std fun _ => 2 : Env Z101 V6) (unit6 4) (unit6 5) [unit6 0, unit6 1] [unit6 2, unit6 3], q.label = "demo" ∧
    A.forgingAfter [q.log] (Env.std fun _ => 2) "demo" (verifyStmts (Env.std fun _ => 2) (unit6 4) (unit6 5) [.nonZero]) 2 (AllHold (F := Z101) (unit6 4) (unit6 5) [.nonZero]) (unit6 4) (unit6 5) [unit6 0, unit6 1] [unit6 2, unit6 3] Q afterV.numDraws ≤
      ((Q + afterV.numDraws) * afterV.badBound + 1) * Fintype.card Z101 ^ (Q + afterV.numDraws) := by
  obtain ⟨q, h1, h2⟩ := demoP6_made
  have hV : verifyStmts (Env.std fun _ => 2) (unit6 4) (unit6 5) [.nonZero] [commitScalar (unit6 4) (unit6 5) (3 : Z101) 7, commitScalar (unit6 4) (unit6 5) (4 : Z101) 8] (Verifier.new [.init "demo"]) = (.ok (), afterV) := by
    unfold afterV; exact built_of_ok _ (by decide +kernel)
  refine ⟨q, h1, c80_statements (Env.std fun _ => 2) (by simp [Env.std]) "demo" (by simp [Stmt.Ok]) _ _ _ _ unit6_independent _ (by decide) afterV hV [q] (fun q' hq' => .inr ⟨_, afterV, rfl, hV, ?_, ?_⟩) A Q⟩
  · rw [List.mem_singleton.mp hq', h2]
    decide +kernel
  · refine ⟨⟨fun _ => ⟨fun i => [3, 4].getD i 0, fun i P hP => ?_, show (3 : Z101) ≠ 0 by decide⟩, fun _ => 3, show (3 : Z101) ≠ 0 by decide⟩, trivial⟩
    match i with
    | 0 => exact ⟨7, by simpa [Stmt.size, commitScalar] using hP.symm⟩
    | 1 => exact ⟨8, by simpa [Stmt.size, commitScalar] using hP.symm⟩
    | i + 2 => simp [Stmt.size] at hP

end Bp
