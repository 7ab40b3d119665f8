import Verif.Lemmas.Sizes
import Verif.Props.Statements
import Verif.Props.Interactive

/-! # C65: how large the statements are, and what follows -/

namespace Bp
variable {F G : Type} [Field F] [AddCommGroup G] [Module F G] [ByteRep F]

/-- **C65**, one statement: a call that succeeds adds exactly the claimed numbers of gates, constraints and commitments, and does not leave a half-allocated gate. -/
theorem c65_statement (env : Env F G) (g h : G) (st : Stmt F) (coms : List G) (hl : coms.length = st.size) {s s' : Verifier F G} (hp : s.pending = none) (hr : st.verify env g h coms s = (.ok (), s')) :
    Grown s s' st.gates st.constraints st.commitments := (DC.stmt env g h st coms hl s () s' hr hp).1

/-- **C65**, a list of statements in one proof. -/
theorem c65_list (env : Env F G) (g h : G) (label : String) (stmts : List (Stmt F)) (coms : List G) (hl : totalSize stmts ≤ coms.length) {s : Verifier F G}
    (hr : verifyStmts env g h stmts coms (Verifier.new [.init label]) = (.ok (), s)) :
    s.numVars = totalGates stmts ∧ s.constraints.length = totalConstraints stmts ∧ s.V.length = totalCommitments stmts ∧ s.pending = none := by
  have h := (DC.stmts env g h stmts coms hl _ () s hr rfl).1
  exact ⟨h.gates.trans (Nat.zero_add _), h.constraints.trans (Nat.zero_add _), h.commitments.trans (Nat.zero_add _), h.pending⟩

/-- **C65**, the prover's side: a prover in step with the verifier has as many gates, constraints and commitments. -/
theorem c65_prover (env : Env F G) (g h : G) (label : String) (stmts : List (Stmt F)) (coms : List G) (hl : totalSize stmts ≤ coms.length) {s : Verifier F G}
    (hr : verifyStmts env g h stmts coms (Verifier.new [.init label]) = (.ok (), s)) {p : Prover F G} (hi : InStep p s) :
    p.numMultipliers = totalGates stmts ∧ p.numConstraints = totalConstraints stmts ∧ p.aL.length = totalGates stmts ∧ p.aR.length = totalGates stmts ∧ p.v.length = totalCommitments stmts := by
  obtain ⟨h1, h2, h3, -⟩ := c65_list env g h label stmts coms hl hr
  have e : p.aL.length = totalGates stmts := by rw [← hi.num, h1]
  refine ⟨hi.lenO.trans e, hi.cons.length_eq.trans h2, e, hi.lenR.trans e, ?_⟩
  rw [← h3, hi.V, List.length_zipWith, hi.lenB, Nat.min_self]

/-- **C65**, generators: the verifier reports too few generators exactly if there are fewer than the number of gates, rounded up to a power of two. -/
theorem c65_generators [DecidableEq G] (env : Env F G) (g h : G) (label : String) (stmts : List (Stmt F)) (coms : List G) (hl : totalSize stmts ≤ coms.length) {s : Verifier F G}
    (hr : verifyStmts env g h stmts coms (Verifier.new [.init label]) = (.ok (), s)) (pr : R1CSProof F G) (g' h' : G) (Gs Hs : List G) (r : F) :
    s.verify env pr g' h' Gs Hs r = Res.err .invalidGeneratorsLength ↔ Gs.length < nextPowerOfTwo (totalGates stmts) := by
  have hn := (c65_list env g h label stmts coms hl hr).1
  have hdef : (s.start pr).deferred = [] := (OnePhase.stmts env g h stmts coms _ _ _ hr).1
  have hcrc : (s.start pr).createRandomizedConstraints env = .ok { s.start pr with pending := none, transcript := (s.start pr).transcript.r1cs1PhaseDomainSep } := by
    unfold Verifier.createRandomizedConstraints
    simp only [hdef, List.length_nil, if_true]
  constructor
  · intro he
    by_contra hge
    exact c19_verify_enough env s _ pr g' h' Gs Hs r hcrc (by show nextPowerOfTwo s.numVars ≤ _; rw [hn]; omega) he
  · intro hlt
    exact c19_verify_short env s _ pr g' h' Gs Hs r hcrc (by show _ < nextPowerOfTwo s.numVars; rw [hn]; exact hlt)

/-- **C65**, proofs: an accepted proof has 11 points and 2 more for each doubling that it takes to reach the number of gates, and 5 scalars. -/
theorem c65_proof [DecidableEq G] (env env' : Env F G) (g h : G) (label : String) (stmts : List (Stmt F)) (coms : List G) (hl : totalSize stmts ≤ coms.length) {s : Verifier F G}
    (hr : verifyStmts env g h stmts coms (Verifier.new [.init label]) = (.ok (), s)) {pr : R1CSProof F G} {g' h' : G} {Gs Hs : List G} {r : F} {T : Transcript F G} (ha : s.verify env' pr g' h' Gs Hs r = .ok T) :
    pr.ipp.L.length = Nat.clog 2 (totalGates stmts) ∧ pr.ipp.R.length = Nat.clog 2 (totalGates stmts) := by
  have hn := (c65_list env g h label stmts coms hl hr).1
  have := verify_proofLog ((OnePhase.stmts env g h stmts coms _ _ _ hr).1) ha
  rw [hn] at this
  exact this.2

/-- **C65**, what a cheating prover can gain, in closed form (see C61): with `m` gates and `n` constraints, a prover that asks `Q` questions makes the verifier accept a false statement with at most
`(Q + 5 + log m) max(7, m', n) + 1` in `|F|` of the answers, `m'` being `m` rounded up to a power of two. -/
theorem c65_game [DecidableEq G] [Fintype F] (env : Env F G) (hb : env.batchInvert [] = .ok ([], 1)) (label : String) {stmts : List (Stmt F)} (hok : ∀ st ∈ stmts, st.Ok) (g h : G) (Gs Hs : List G)
    (hind : Independent F (Gs ++ Hs ++ [g, h])) (coms0 : List G) (hl : totalSize stmts ≤ coms0.length) (s0 : Verifier F G) (hs0 : verifyStmts env g h stmts coms0 (Verifier.new [.init label]) = (.ok (), s0))
    (A : Forger F G) (Q : ℕ) :
    A.forging env label (verifyStmts env g h stmts) coms0.length (AllHold g h stmts) g h Gs Hs Q (5 + Nat.clog 2 (totalGates stmts)) ≤
      ((Q + (5 + Nat.clog 2 (totalGates stmts))) * max 7 (max (nextPowerOfTwo (totalGates stmts)) (totalConstraints stmts)) + 1) * Fintype.card F ^ (Q + (5 + Nat.clog 2 (totalGates stmts))) := by
  obtain ⟨h1, h2, -⟩ := c65_list env g h label stmts coms0 hl hs0
  have := c61_game env hb label hok g h Gs Hs hind coms0 hl s0 hs0 A Q
  simpa only [Verifier.numDraws, Verifier.badBound, h1, h2] using this

/-- **C65**, interactive provers, in closed form (see C62): a prover that is accepted with probability more than `(2^k + n + 7 k + 14) / |F|`, where `k = log m`, knows openings of all commitments for which all statements hold, if the
generators are independent. -/
theorem c65_interactive [DecidableEq G] [Fintype F] {env : Env F G} (hb : env.batchInvert [] = .ok ([], 1)) (P : Interactive F G) {label : String} {stmts : List (Stmt F)} (hok : ∀ st ∈ stmts, st.Ok) {coms : List G}
    (hl : totalSize stmts ≤ coms.length) {g h : G} {Gs Hs : List G} (hind : Independent F (Gs ++ Hs ++ [g, h])) {s : Verifier F G} (hs : verifyStmts env g h stmts coms (Verifier.new [.init label]) = (.ok (), s))
    (hc : (2 ^ Nat.clog 2 (totalGates stmts) + totalConstraints stmts + 7 * Nat.clog 2 (totalGates stmts) + 14) * Fintype.card F ^ (5 + Nat.clog 2 (totalGates stmts)) <
      Nat.card {p : (Fin (5 + Nat.clog 2 (totalGates stmts)) → F) × F // P.Convinces env s g h Gs Hs 0 (Nat.clog 2 (totalGates stmts)) (List.ofFn p.1) p.2}) : AllHold g h stmts coms := by
  obtain ⟨h1, h2, -⟩ := c65_list env g h label stmts coms hl hs
  rw [← h1, ← h2] at hc
  obtain ⟨t, s2, hcon, -⟩ := c62_statement hb P (OnePhase.stmts env g h stmts coms) hs hc
  exact c61_knowledge env hok hl ⟨_, _, t, s, s2, hcon, hind.take _⟩

/-! ## Examples -/

theorem set_run : verifyStmts (Env.std fun _ => 2) (unit4 0) (unit4 1) [.setMembership [(9 : Z101)]] setComs (Verifier.new [.init "set"]) = (.ok (), setV) := rfl

example : setV.numVars = 1 ∧ setV.constraints.length = 4 ∧ setV.V.length = 2 ∧ setV.pending = none := c65_list _ _ _ _ _ _ (by decide) set_run

example : Grown (Verifier.new [.init "set"] : Verifier Z101 V4) setV 1 4 2 :=
  c65_statement (Env.std fun _ => 2) (unit4 0) (unit4 1) (.setMembership [(9 : Z101)]) setComs rfl rfl rfl

/-- Without generators there is an error, with one generator there is another one or none. -/
example (pr : R1CSProof Z101 V4) (r : Z101) : setV.verify (Env.std fun _ => 2) pr (unit4 0) (unit4 1) [] [] r = Res.err .invalidGeneratorsLength :=
  (c65_generators _ _ _ _ _ _ (by decide) set_run pr _ _ _ _ r).mpr (by decide +kernel)
example (pr : R1CSProof Z101 V4) (r : Z101) : setV.verify (Env.std fun _ => 2) pr (unit4 0) (unit4 1) [unit4 2] [unit4 3] r ≠ Res.err .invalidGeneratorsLength := fun h =>
  absurd ((c65_generators _ _ _ _ _ _ (by decide) set_run pr _ _ _ _ r).mp h) (by decide +kernel)

/-- The proof of the honest prover for one of the challenges has no points in its inner-product part. -/
example : ∃ (O : Oracle Z101 V4) (pr : R1CSProof Z101 V4) (T : Transcript Z101 V4), setV.verify (Env.std O) pr (unit4 0) (unit4 1) [unit4 2] [unit4 3] 1 = .ok T ∧ pr.ipp.L.length = 0 := by
  obtain ⟨T, hT⟩ := isOk_elim (List.all_eq_true.mp (show ([0, 1].all fun r => (setV.verify (Env.std (labelOracle (setTree.chals 0 0 0 0 0))) (setTree.proof 0 0 0 0 ⟨[], [], _, _⟩) (unit4 0) (unit4 1) [unit4 2] [unit4 3] r).isOk) = true
    from set_ok 0 0 0 0) 1 (by simp))
  exact ⟨_, _, T, hT, (c65_proof (Env.std fun _ => 2) _ _ _ _ _ _ (by decide) set_run hT).1⟩

example (A : Forger Z101 V4) (Q : ℕ) :
    A.forging (Env.std fun _ => 2) "set" (verifyStmts (Env.std fun _ => 2) (unit4 0) (unit4 1) [.setMembership [(9 : Z101)]]) 2 (AllHold (unit4 0) (unit4 1) [.setMembership [(9 : Z101)]]) (unit4 0) (unit4 1) [unit4 2] [unit4 3] Q 5 ≤
      ((Q + 5) * 7 + 1) * Fintype.card Z101 ^ (Q + 5) :=
  c65_game (Env.std fun _ => 2) (by simp [Env.std]) "set" (by simp [Stmt.Ok]) (unit4 0) (unit4 1) [unit4 2] [unit4 3] unit4_independent setComs (by decide) setV set_run A Q

/-- A proof of inclusion in a tree of the depth and with the rounds of sparse_merkle_tree_4_ary.rs:224-242 (quintic S-box). -/
example (root : Fr) (p : PoseidonParams Fr) (h1 : p.width = 5) (h2 : p.fullRoundsBeginning = 4) (h3 : p.fullRoundsEnd = 4) (h4 : p.partialRounds = 56) :
    totalGates [.inclusion4 root 12 p .quint] = 3612 ∧ totalConstraints [.inclusion4 root 12 p .quint] = 7226 ∧ totalCommitments [.inclusion4 root 12 p .quint] = 39 := by
  simp [totalGates, totalConstraints, totalCommitments, Stmt.gates, Stmt.constraints, Stmt.commitments, Stmt.size, PoseidonParams.sboxes, SboxType.gateCount, SboxType.constraintCount, h1, h2, h3, h4]

/-- The code's prover for `3 * 16 = 48`: being accepted often, it convinces. -/
example (c : Coins Z101) : AllHold (unit4 0) (unit4 1) [.factors 0 (48 : Z101)] [(3 : Z101) • unit4 0 + (7 : Z101) • unit4 1, (16 : Z101) • unit4 0 + (8 : Z101) • unit4 1] := by
  obtain ⟨coms, p, s, -, e2, e3, e4, e5⟩ := c62_gadget (c60_complete (Env.std fun _ => (2 : Z101)) (Env.std fun _ => 2) rfl (3, 7) (16, 8) [] 48 (by decide) none) rfl (OnePhase.factors _ 0 48) (by decide +kernel)
    (.inr (by simp [Env.std])) "f" (unit4 0) (unit4 1) c [unit4 2] [unit4 3] (by decide +kernel) (by decide +kernel)
  have e4 : coms = [(3 : Z101) • unit4 0 + (7 : Z101) • unit4 1, (16 : Z101) • unit4 0 + (8 : Z101) • unit4 1] := e4
  subst e4
  refine c65_interactive (by simp [Env.std]) (p.interactive (Env.std fun _ => 2) c [unit4 2] [unit4 3] 0) (by simp [Stmt.Ok]) (by decide) unit4_independent (s := s) (label := "f") (env := Env.std fun _ => 2) ?_
    (lt_of_lt_of_le (b := (Fintype.card Z101 - 1) ^ (1 + 0) * Fintype.card Z101 ^ 5) (by
    show (1 + 3 + 0 + 14) * Fintype.card Z101 ^ (5 + 0) < _
    rw [ZMod.card]
    norm_num) e5)
  exact Drv.bind_ok.mpr ⟨(), s, e2, rfl⟩

/-- The prover of the same statement has one gate and three constraints. -/
example : ∃ p : Prover Z101 V4, (∃ coms, proveFactors (Env.std fun _ => 2) (3, 7) (16, 8) [] 48 (Prover.new (unit4 0) (unit4 1) [.init "f"] 0) = (.ok coms, p)) ∧ p.numMultipliers = 1 ∧ p.numConstraints = 3 := by
  obtain ⟨coms, p, s, e1, e2, J, -, hl, o⟩ := c60_complete (Env.std fun _ => (2 : Z101)) (Env.std fun _ => 2) rfl (3, 7) (16, 8) [] 48 (by decide) none _ _ (Joint.new _ _ (unit4 0) (unit4 1) [.init "f"] 0 0) rfl
  have hc : totalSize [Stmt.factors 0 (48 : Z101)] ≤ coms.length := by rw [o.points]; decide
  have := c65_prover (Env.std fun _ => 2) (unit4 0) (unit4 1) "f" [.factors 0 (48 : Z101)] coms hc (Drv.bind_ok.mpr ⟨(), s, by rw [o.points] at e2 ⊢; exact e2, rfl⟩) (J.session.inStep rfl).2
  exact ⟨p, ⟨coms, e1⟩, this.1, this.2.1⟩

end Bp
