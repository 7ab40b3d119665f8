import Verif.Spec.Chosen
import Verif.Lemmas.Verify
import Verif.Props.Range
import Verif.Props.Flatten
import Verif.Lemmas.Statements
import Verif.Lemmas.Replay
import Verif.Props.Statements
import Verif.Props.Linked

set_option linter.unusedSectionVars false

/-! # C86: proofs do not depend on the generators -/

namespace Bp
variable {F G : Type} [Field F] [AddCommGroup G] [Module F G]

theorem sVec_zero : ∀ us : List F, ∃ rest, sVec us = us.prod⁻¹ :: rest
  | [] => ⟨[], by simp [sVec]⟩
  | u :: us => by
    obtain ⟨rest, e⟩ := sVec_zero us
    exact ⟨_, by rw [sVec, e, List.map_cons, List.cons_append, List.prod_cons, mul_inv]⟩

/-- The second equation is linear in the first generator. -/
theorem ippCheck_first (n1 m : ℕ) (pr : R1CSProof F G) (g h P : G) (GN HN : List G) (wt : Weights F) (ch : Chals F) (us : List F) (hy : ch.y ≠ 0) (hm : m + 1 = 2 ^ us.length) (hl : GN.length = m) :
    ippCheck n1 (m + 1) pr g h (P :: GN) HN wt ch us = ippCheck n1 (m + 1) pr g h (0 :: GN) HN wt ch us +
      (ufac n1 ch.u 0 * (ch.x * wt.wR.getD 0 0) - pr.ipp.a * (us.prod⁻¹ * ufac n1 ch.u 0)) • P := by
  have hfold : ∀ Q : G, foldAll us (ippG n1 (m + 1) ch.u (Q :: GN)) = (us.prod⁻¹ * ufac n1 ch.u 0) • Q + foldAll us (ippG n1 (m + 1) ch.u (0 :: GN)) := by
    intro Q
    have hlen : ∀ Q : G, (ippG n1 (m + 1) ch.u (Q :: GN)).length = 2 ^ us.length := fun Q => by simp [ippG, scaled, hl, hm]
    obtain ⟨rest, e⟩ := sVec_zero us
    rw [← msm_sVec us _ (hlen Q), ← msm_sVec us _ (hlen 0), e]
    simp only [ippG, scaled, List.range_succ_eq_map, List.map_cons, List.zipWith_cons_cons, msm, List.sum_cons, smul_zero, _root_.zero_add, mul_smul]
  have hsum : ∀ Q : G, ∑ i ∈ Finset.range (m + 1), (ufac n1 ch.u i * (ch.x * (vpow ch.y⁻¹ i * wt.wR.getD i 0))) • (Q :: GN).getD i 0 =
      ∑ i ∈ Finset.range m, (ufac n1 ch.u (i + 1) * (ch.x * (vpow ch.y⁻¹ (i + 1) * wt.wR.getD (i + 1) 0))) • GN.getD i 0 + (ufac n1 ch.u 0 * (ch.x * wt.wR.getD 0 0)) • Q := by
    intro Q
    rw [Finset.sum_range_succ']
    simp [vpow_inv hy]
  unfold ippCheck ippPoint
  unfold ippPoint.y
  rw [hsum P, hsum 0, hfold P]
  module

theorem blank_drawn (O : Oracle F G) (t : Transcript F G) (k k' : ℕ) (a b c a' b' c' : F) : (drawn O t (hollowProof k a b c)).y = (drawn O t (hollowProof k' a' b' c')).y ∧ (drawn O t (hollowProof k a b c)).z = (drawn O t (hollowProof k' a' b' c')).z ∧
    (drawn O t (hollowProof k a b c)).u = (drawn O t (hollowProof k' a' b' c')).u ∧ (drawn O t (hollowProof k a b c)).x = (drawn O t (hollowProof k' a' b' c')).x := ⟨rfl, rfl, rfl, rfl⟩

/-- **C86** is false, for any verifier: all its commitments have openings that are known, with whatever values; the constraints, of one phase or two, may be ones that these values do not satisfy.  The generators are any.  Then `chooseGenerator` gives a proof
and a point, and with this point in place of `G[0]`, and all other generators as they were, `verify` accepts the proof. -/
theorem c86_verifier [DecidableEq G] (env : Env F G) (hb : env.batchInvert [] = .ok ([], 1)) (h0 : ∀ l, env.oracle l ≠ 0) (s s2 : Verifier F G) (openings : List (F × F)) (g h : G) (Gs Hs : List G)
    (hcrc : (s.start (hollowProof 0 0 0 0)).createRandomizedConstraints env = .ok s2) (hin : ∀ lc ∈ s2.constraints, ∀ t ∈ lc.terms, Var.InRange s2.numVars s2.V.length t.1)
    (hV : s2.V = openings.map fun o => commitScalar g h o.1 o.2) (hsize : nextPowerOfTwo s2.numVars < 2 ^ 32) (hG : nextPowerOfTwo s2.numVars ≤ Gs.length) (hH : nextPowerOfTwo s2.numVars ≤ Hs.length) :
    ∃ pr G0, s.chooseGenerator env openings g h Gs Hs = .ok (pr, G0) ∧ ∀ r, ∃ t, s.verify env pr g h (Gs.set 0 G0) Hs r = .ok t := by
  have hN : nextPowerOfTwo s2.numVars = 2 ^ Nat.clog 2 s2.numVars := rfl
  obtain ⟨wt, hwt⟩ := (c10_verifier_flatten_total s2 (drawn env.oracle s2.transcript (hollowProof (Nat.clog 2 s2.numVars) 0 0 0)).z).mpr hin
  unfold Verifier.chooseGenerator
  rw [hcrc]
  simp only [bind, Except.bind, pure, Except.pure]
  rw [hwt]
  simp only
  refine ⟨_, _, rfl, fun r => ?_⟩
  generalize hk : Nat.clog 2 s2.numVars = k at *
  generalize htx : (drawn env.oracle s2.transcript (hollowProof k 0 0 0)).x ^ 2 * ((∑ j ∈ Finset.range openings.length, wt.wV.getD j 0 * (openings.getD j (0, 0)).1) +
    (wt.wc + delta wt (drawn env.oracle s2.transcript (hollowProof k 0 0 0)).y s2.numVars)) = tx
  generalize htb : (drawn env.oracle s2.transcript (hollowProof k 0 0 0)).x ^ 2 * ∑ j ∈ Finset.range openings.length, wt.wV.getD j 0 * (openings.getD j (0, 0)).2 = tb
  generalize hch : drawn env.oracle s2.transcript (hollowProof k tx tb 0) = ch
  generalize hus : ippRounds env.oracle s2.transcript (hollowProof k tx tb 0) (2 ^ k) = us
  generalize ha : (ufac s.numVars ch.u 0 * (ch.x * wt.wR.getD 0 0) - 1) / (us.prod⁻¹ * ufac s.numVars ch.u 0) = a
  have hlen : us.length = k := by
    rw [← hus]
    unfold ippRounds
    rw [length_ippChallenges]
    simp [hollowProof]
  have hne : ∀ u ∈ us, u ≠ 0 := fun u hu => by
    rw [← hus] at hu
    exact ippChallenges_ne_zero h0 hu
  obtain ⟨-, -, -, ex⟩ := blank_drawn env.oracle s2.transcript k k tx tb 0 0 0 0
  rw [hch] at ex
  obtain ⟨ey, ez, -, -⟩ := blank_drawn env.oracle s2.transcript k k tx tb 0 0 0 0
  rw [hch] at ey ez
  have hve := verify_eq env s s2 (hollowProof k tx tb a) g h (Gs.set 0 (-ippCheck s.numVars (2 ^ k) (hollowProof k tx tb a) g h (List.take (2 ^ k) (Gs.set 0 0)) (List.take (2 ^ k) Hs) wt ch us)) Hs r hcrc k hN
    ((Nat.pow_lt_pow_iff_right (by omega)).mp (hN ▸ hsize)) (by rw [List.length_set, ← hN]; exact hG) (hN ▸ hH) ch hch.symm wt (by rw [ez]; exact hwt) (by simp [hollowProof]) (by simp [hollowProof]) us hus.symm hne (.inr hb)
  rw [hve, if_pos]
  · exact ⟨_, rfl⟩
  have hpoly : polyCheck s2.V (hollowProof k tx tb a) g h wt s2.numVars ch = 0 := by
    have hs : ∑ j ∈ Finset.range s2.V.length, wt.wV.getD j 0 • s2.V.getD j 0 = (∑ j ∈ Finset.range openings.length, wt.wV.getD j 0 * (openings.getD j (0, 0)).1) • g +
        (∑ j ∈ Finset.range openings.length, wt.wV.getD j 0 * (openings.getD j (0, 0)).2) • h := by
      rw [hV, List.length_map, Finset.sum_smul, Finset.sum_smul, ← Finset.sum_add_distrib]
      refine Finset.sum_congr rfl fun j hj => ?_
      have hj' := Finset.mem_range.mp hj
      simp only [List.getD_eq_getElem?_getD, List.getElem?_map, List.getElem?_eq_getElem hj', Option.map_some, Option.getD_some, commitScalar, mul_smul, smul_add]
    unfold polyCheck
    rw [hs]
    simp only [hollowProof, smul_zero, _root_.add_zero]
    rw [← htx, ← htb, ← ex, ← ey]
    module
  have hipp : ∀ P : G, ippCheck s.numVars (2 ^ k) (hollowProof k tx tb a) g h (List.take (2 ^ k) (Gs.set 0 P)) (List.take (2 ^ k) Hs) wt ch us =
      ippCheck s.numVars (2 ^ k) (hollowProof k tx tb a) g h (List.take (2 ^ k) (Gs.set 0 0)) (List.take (2 ^ k) Hs) wt ch us + P := by
    intro P
    obtain ⟨m, hm⟩ : ∃ m, 2 ^ k = m + 1 := ⟨2 ^ k - 1, by have := Nat.two_pow_pos k; omega⟩
    match Gs, hG with
    | [], hG => simp [hN] at hG
    | Q :: Gs, hG =>
      simp only [List.set_cons_zero, hm, List.take_succ_cons]
      rw [ippCheck_first s.numVars m _ g h P _ _ wt ch us (by rw [← hch]; exact h0 _) (by rw [← hm, hlen]) (by rw [List.length_take]; simp [hN, hm] at hG; omega)]
      have hu : us.prod ≠ 0 := List.prod_ne_zero fun h => hne 0 h rfl
      have hf : ufac s.numVars ch.u 0 ≠ 0 := by
        unfold ufac
        split
        · exact one_ne_zero
        · rw [← hch]; exact h0 _
      have hc : ufac s.numVars ch.u 0 * (ch.x * wt.wR.getD 0 0) - (hollowProof (G := G) k tx tb a).ipp.a * (us.prod⁻¹ * ufac s.numVars ch.u 0) = 1 := by
        show _ - a * _ = _
        rw [← ha, div_mul_cancel₀ _ (mul_ne_zero (inv_ne_zero hu) hf)]
        ring
      rw [hc, one_smul]
  rw [hpoly, hipp, smul_zero]
  simp

/-! ## Statements -/

/-- The point that a pair of scalars commits to. -/
def pairPoint (g h : G) : F × F →ₗ[F] G := (LinearMap.toSpanSingleton F G g).coprod (LinearMap.toSpanSingleton F G h)

theorem pairPoint_apply (g h : G) (o : F × F) : pairPoint g h o = commitScalar g h o.1 o.2 := by simp [pairPoint, commitScalar]

variable [ByteRep F]

/-- If the commitments given to the verifying functions are opened, then all that the verifier has are. -/
theorem stmts_opened (env : Env F G) (label : String) (g h : G) (stmts : List (Stmt F)) (openings : List (F × F)) {s : Verifier F G}
    (hs : verifyStmts env g h stmts (openings.map fun o => commitScalar g h o.1 o.2) (Verifier.new [.init label]) = (.ok (), s)) : ∃ os : List (F × F), s.V = os.map fun o => commitScalar g h o.1 o.2 := by
  have e1 : pairPoint (F := F) g h (1, 0) = g := by simp [pairPoint_apply, commitScalar]
  have e2 : pairPoint (F := F) g h (0, 1) = h := by simp [pairPoint_apply, commitScalar]
  have e3 : (openings.map fun o => commitScalar g h o.1 o.2) = openings.map (pairPoint (F := F) g h) := List.map_congr_left fun o _ => (pairPoint_apply g h o).symm
  have hn := DrvNat.stmts (pairPoint (F := F) g h) env (1, 0) (0, 1) stmts openings (Verifier.new [.init label])
  rw [e1, e2, ← e3] at hn
  have e4 : (Verifier.new [.init label] : Verifier F (F × F)).mapG (pairPoint (F := F) g h) = Verifier.new [.init label] := rfl
  rw [e4, hs] at hn
  refine ⟨(verifyStmts (env.pull (pairPoint (F := F) g h)) (1, 0) (0, 1) stmts openings (Verifier.new [.init label])).2.V, ?_⟩
  rw [(Prod.mk.inj hn).2]
  exact List.map_congr_left fun o _ => pairPoint_apply g h o

/-- **C86** is false, for the statements of the crate, one or several in one proof: the commitments are honest ones, to any values, also values for which the statements are false.  `chooseGenerator` gives a proof and a point, and with this point in place of
`G[0]` the verifying functions accept the proof. -/
theorem c86_statements [DecidableEq G] (env : Env F G) (hb : env.batchInvert [] = .ok ([], 1)) (h0 : ∀ l, env.oracle l ≠ 0) (label : String) (g h : G) (stmts : List (Stmt F)) (hr : ∀ st ∈ stmts, st.Runs) (openings : List (F × F))
    (hl : openings.length = totalSize stmts) (Gs Hs : List G) (hsize : nextPowerOfTwo (totalGates stmts) < 2 ^ 32) (hG : nextPowerOfTwo (totalGates stmts) ≤ Gs.length) (hH : nextPowerOfTwo (totalGates stmts) ≤ Hs.length) :
    ∃ s os pr G0, verifyStmts env g h stmts (openings.map fun o => commitScalar g h o.1 o.2) (Verifier.new [.init label]) = (.ok (), s) ∧ s.V = (os.map fun o => commitScalar g h o.1 o.2) ∧
      s.chooseGenerator env os g h Gs Hs = .ok (pr, G0) ∧
      ∀ r, verifyProof env label (verifyStmts env g h stmts (openings.map fun o => commitScalar g h o.1 o.2)) pr g h (Gs.set 0 G0) Hs r = .ok () := by
  obtain ⟨s, hs, -⟩ := c81_statements env g h stmts hr (openings.map fun o => commitScalar g h o.1 o.2) (by rw [List.length_map, hl]) (Verifier.new [.init label]) rfl
  have hn : s.numVars = totalGates stmts := by
    have hg := (DC.stmts (env := env) g h stmts _ (by rw [List.length_map, hl]) _ _ _ hs rfl).1
    rw [hg.gates]
    simp [Verifier.new]
  obtain ⟨os, hos⟩ := stmts_opened env label g h stmts openings hs
  have hd : s.deferred = [] := ((OnePhase.stmts env g h stmts _) _ _ _ hs).1
  have hcrc : ∃ s2, (s.start (hollowProof 0 0 0 0)).createRandomizedConstraints env = .ok s2 := by
    have : (s.start (hollowProof 0 0 0 0)).deferred = [] := hd
    unfold Verifier.createRandomizedConstraints
    simp only [this, List.length_nil, if_true]
    exact ⟨_, rfl⟩
  obtain ⟨s2, hcrc⟩ := hcrc
  have e := crc_onePhase (s := s.start (hollowProof 0 0 0 0)) hd hcrc
  have en : s2.numVars = totalGates stmts := by rw [← hn, e]; rfl
  have eV : s2.V = s.V := by rw [e]; rfl
  obtain ⟨pr, G0, h1, h2⟩ := c86_verifier env hb h0 s s2 os g h Gs Hs hcrc
    (by rw [show s2.numVars = s.numVars by rw [e]; rfl, show s2.constraints = s.constraints by rw [e]; rfl, eV]; exact c82_in_range env label g h stmts _ s hs) (by rw [eV, hos]) (by rw [en]; exact hsize) (by rw [en]; exact hG) (by rw [en]; exact hH)
  refine ⟨s, os, pr, G0, hs, hos, h1, fun r => ?_⟩
  obtain ⟨t, ht⟩ := h2 r
  unfold verifyProof
  rw [hs]
  simp only [ht]

omit [ByteRep F] in
theorem msm_zeros (xs : List F) (k : ℕ) : msm xs (List.replicate k (0 : G)) = 0 := by
  have : msm xs (List.replicate k (0 : G)) ∈ (⊥ : Submodule F G) := msm_mem _ _ fun P hP => by simp [List.eq_of_mem_replicate hP]
  simpa using this

omit [ByteRep F] in
theorem ippCheck_mem {S : Submodule F G} {GN HN : List G} {g h : G} (hG : ∀ P ∈ GN, P ∈ S) (hH : ∀ P ∈ HN, P ∈ S) (hg : g ∈ S) (hh : h ∈ S) (n1 N k : ℕ) (tx tb a : F) (wt : Weights F) (ch : Chals F) (us : List F) :
    ippCheck n1 N (hollowProof k tx tb a) g h GN HN wt ch us ∈ S := by
  have hz : ∀ (f : List F) (Gs : List G), (∀ P ∈ Gs, P ∈ S) → ∀ P ∈ scaled f Gs, P ∈ S := fun f Gs h => zipWith_mem fun x _ y hy => S.smul_mem _ (h y hy)
  unfold ippCheck ippPoint
  simp only [hollowProof, msm_zeros, smul_zero, _root_.add_zero, zero_smul, zero_mul, mul_zero, _root_.sub_zero, _root_.zero_add]
  refine S.sub_mem (S.add_mem (S.add_mem (S.sum_mem fun i _ => S.smul_mem _ (getD_mem hG i)) (S.sum_mem fun i _ => S.smul_mem _ (getD_mem hH i))) (S.smul_mem _ hg)) (S.smul_mem _ (foldAll_mem _ _ (hz _ _ hG)))

omit [ByteRep F] in
/-- **C86**, the generator it takes: it is a combination of the other generators.  (So a verifier is safe from this who takes generators of which nobody knows a relation.) -/
theorem c86_related (env : Env F G) (s : Verifier F G) (openings : List (F × F)) (g h : G) (Gs Hs : List G) (pr : R1CSProof F G) (G0 : G) (hc : s.chooseGenerator env openings g h Gs Hs = .ok (pr, G0)) :
    G0 ∈ Submodule.span F {P | P ∈ Gs.set 0 0 ++ Hs ++ [g, h]} := by
  unfold Verifier.chooseGenerator at hc
  cases hcrc : (s.start (hollowProof 0 0 0 0)).createRandomizedConstraints env with
  | error e => rw [hcrc] at hc; cases hc
  | ok s2 =>
    rw [hcrc] at hc
    simp only [bind, Except.bind, pure, Except.pure] at hc
    cases hwt : s2.flattenedConstraints (drawn env.oracle s2.transcript (hollowProof (Nat.clog 2 s2.numVars) 0 0 0)).z with
    | error e => rw [hwt] at hc; cases hc
    | ok wt =>
      rw [hwt] at hc
      simp only [Except.ok.injEq, Prod.mk.injEq] at hc
      obtain ⟨-, rfl⟩ := hc
      have hS : ∀ P ∈ Gs.set 0 0 ++ Hs ++ [g, h], P ∈ Submodule.span F {P | P ∈ Gs.set 0 0 ++ Hs ++ [g, h]} := fun P hP => Submodule.subset_span hP
      generalize Submodule.span F {P | P ∈ Gs.set 0 0 ++ Hs ++ [g, h]} = S at *
      refine S.neg_mem (ippCheck_mem (fun P hP => hS P (by simp only [List.mem_append]; exact .inl (.inl (List.mem_of_mem_take hP)))) (fun P hP => hS P (by simp only [List.mem_append]; exact .inl (.inr (List.mem_of_mem_take hP))))
        (hS g (by simp)) (hS h (by simp)) _ _ _ _ _ _ _ _ _)

/-- **C86**, what does hold: if the prover can only choose among sets of generators given beforehand, each without relations, then its chance is at most as many times larger as there are sets. -/
theorem c86_family_partial [DecidableEq G] [Fintype F] {J : Type} [Fintype J] (env : Env F G) (hb : env.batchInvert [] = .ok ([], 1)) (label : String) {stmts : List (Stmt F)} (hok : ∀ st ∈ stmts, st.Ok) (hr : ∀ st ∈ stmts, st.Runs)
    (gens : J → Generators G) (hind : ∀ j, Independent F ((gens j).Gs ++ (gens j).Hs ++ [(gens j).g, (gens j).h])) (A : Forger F G) (pick : List F → J) (Q : ℕ) :
    A.forgingOver pick gens env label (fun j => verifyStmts env (gens j).g (gens j).h stmts) (totalSize stmts) (fun j => AllHold (gens j).g (gens j).h stmts) Q (5 + Nat.clog 2 (totalGates stmts)) ≤
      Fintype.card J * (((Q + (5 + Nat.clog 2 (totalGates stmts))) * max 7 (max (nextPowerOfTwo (totalGates stmts)) (totalConstraints stmts)) + 1) * Fintype.card F ^ (Q + (5 + Nat.clog 2 (totalGates stmts)))) := by
  classical
  have key : ∀ j, Nat.card {p : (Fin (Q + (5 + Nat.clog 2 (totalGates stmts))) → F) × F // A.Forges env label (verifyStmts env (gens j).g (gens j).h stmts) (totalSize stmts) (AllHold (gens j).g (gens j).h stmts) (gens j).g (gens j).h (gens j).Gs (gens j).Hs Q
      (List.ofFn p.1) p.2} ≤ ((Q + (5 + Nat.clog 2 (totalGates stmts))) * max 7 (max (nextPowerOfTwo (totalGates stmts)) (totalConstraints stmts)) + 1) * Fintype.card F ^ (Q + (5 + Nat.clog 2 (totalGates stmts))) := by
    intro j
    obtain ⟨s0, hs0, -⟩ := c81_statements env (gens j).g (gens j).h stmts hr (List.replicate (totalSize stmts) 0) (by simp) (Verifier.new [.init label]) rfl
    have hg := (DC.stmts (env := env) (gens j).g (gens j).h stmts _ (by simp) _ _ _ hs0 rfl).1
    have e1 : s0.numVars = totalGates stmts := by rw [hg.gates]; simp [Verifier.new]
    have e2 : s0.constraints.length = totalConstraints stmts := by rw [hg.constraints]; simp [Verifier.new]
    have h1 := c61_game env hb label hok (gens j).g (gens j).h (gens j).Gs (gens j).Hs (hind j) (List.replicate (totalSize stmts) 0) (by simp) s0 hs0 A Q
    simp only [Verifier.numDraws, Verifier.badBound, e1, e2, List.length_replicate] at h1
    exact h1
  unfold Forger.forgingOver
  let f : {p : (Fin (Q + (5 + Nat.clog 2 (totalGates stmts))) → F) × F // A.ForgesOver pick gens env label (fun j => verifyStmts env (gens j).g (gens j).h stmts) (totalSize stmts) (fun j => AllHold (gens j).g (gens j).h stmts) Q (List.ofFn p.1) p.2} →
      Σ j, {p : (Fin (Q + (5 + Nat.clog 2 (totalGates stmts))) → F) × F // A.Forges env label (verifyStmts env (gens j).g (gens j).h stmts) (totalSize stmts) (AllHold (gens j).g (gens j).h stmts) (gens j).g (gens j).h (gens j).Gs (gens j).Hs Q
        (List.ofFn p.1) p.2} := fun p => ⟨pick ((List.ofFn p.1.1).take Q), p.1, p.2⟩
  have hf : Function.Injective f := by
    intro p q e
    have : (f p).2.1 = (f q).2.1 := by rw [e]
    exact Subtype.ext this
  refine (Nat.card_le_card_of_injective f hf).trans ?_
  rw [Nat.card_sigma]
  refine (Finset.sum_le_card_nsmul _ _ _ fun j _ => key j).trans ?_
  simp

/-! ## Cases -/

/-- Somebody commits to 0 and 5. -/
def zeroOpenings : List (Z101 × Z101) := [(0, 7), (5, 8)]

/-- The claim that the first committed value is not zero is false. -/
theorem zeroOpenings_false : ¬ AllHold (F := Z101) (unit6 4) (unit6 5) [.nonZero] (zeroOpenings.map fun o => commitScalar (unit6 4) (unit6 5) o.1 o.2) := by
  intro h
  obtain ⟨v, hv, hc⟩ := h.1.1 trivial
  obtain ⟨ρ, hρ⟩ := hv 0 (commitScalar (unit6 4) (unit6 5) (0 : Z101) 7) rfl
  have e : v 0 = 0 := by simpa [unit6, commitScalar] using (congrFun hρ 4).symm
  exact hc e

/-- The generators are independent to begin with; one of them is replaced, and the verifier accepts. -/
example : ¬ AllHold (F := Z101) (unit6 4) (unit6 5) [.nonZero] (zeroOpenings.map fun o => commitScalar (unit6 4) (unit6 5) o.1 o.2) ∧ ∃ pr G0, ∀ r, verifyProof (Env.std fun _ => 2 : Env Z101 V6) "demo" (verifyStmts (Env.std fun _ => 2) (unit6 4) (unit6 5) [.nonZero] (zeroOpenings.map fun o => commitScalar (unit6 4) (unit6 5) o.1 o.2)) pr (unit6 4) (unit6 5)
    ([unit6 0, unit6 1].set 0 G0) [unit6 2, unit6 3] r = .ok () := by
  obtain ⟨_, _, pr, G0, -, -, -, h⟩ := c86_statements (Env.std fun _ => 2 : Env Z101 V6) (by simp [Env.std]) (fun l => show (2 : Z101) ≠ 0 by decide) "demo" (unit6 4) (unit6 5) [.nonZero] (by simp [Stmt.Runs]) zeroOpenings rfl [unit6 0, unit6 1]
    [unit6 2, unit6 3] (by decide +kernel) (by decide +kernel) (by decide +kernel)
  exact ⟨zeroOpenings_false, pr, G0, h⟩

/-- Two sets of generators to choose from: those of the other examples, and the same with the G and the H exchanged. -/
def swapGens : Bool → Generators V6
  | true => ⟨unit6 4, unit6 5, [unit6 0, unit6 1], [unit6 2, unit6 3]⟩
  | false => ⟨unit6 4, unit6 5, [unit6 2, unit6 3], [unit6 0, unit6 1]⟩

theorem swapGens_independent : ∀ j, Independent Z101 ((swapGens j).Gs ++ (swapGens j).Hs ++ [(swapGens j).g, (swapGens j).h])
  | true => unit6_independent
  | false => by
    intro c h i hi
    have hi : i < 6 := hi
    have e : ∀ j : Fin 6, (∑ i ∈ Finset.range 6, c i • [unit6 2, unit6 3, unit6 0, unit6 1, unit6 4, unit6 5].getD i 0) j = 0 := fun j => congrFun h j
    simp only [Finset.sum_range_succ, Finset.sum_range_zero] at e
    have e0 := e 0; have e1 := e 1; have e2 := e 2; have e3 := e 3; have e4 := e 4; have e5 := e 5
    simp [unit6] at e0 e1 e2 e3 e4 e5
    interval_cases i <;> assumption

/-- With the statement that a value is not zero, and both sets to choose from. -/
example (A : Forger Z101 V6) (pick : List Z101 → Bool) (Q : ℕ) :
    A.forgingOver pick swapGens (Env.std fun _ => 2) "demo" (fun j => verifyStmts (Env.std fun _ => 2) (swapGens j).g (swapGens j).h [.nonZero]) 2 (fun j => AllHold (F := Z101) (swapGens j).g (swapGens j).h [.nonZero]) Q 6 ≤ 2 * (((Q + 6) * 7 + 1) * 101 ^ (Q + 6)) := by
  have h := c86_family_partial (Env.std fun _ => 2 : Env Z101 V6) (by simp [Env.std]) "demo" (stmts := [.nonZero]) (by simp [Stmt.Ok]) (by simp [Stmt.Runs]) swapGens swapGens_independent A pick Q
  have e1 : totalGates (F := Z101) [.nonZero] = 2 := by decide +kernel
  have e2 : totalConstraints (F := Z101) [.nonZero] ≤ 7 := by decide +kernel
  have e3 : nextPowerOfTwo 2 = 2 := by decide +kernel
  have e4 : Nat.clog 2 2 = 1 := by decide +kernel
  have e5 : max 7 (max 2 (totalConstraints (F := Z101) [.nonZero])) = 7 := by omega
  rw [e1, e3, e4, e5, Fintype.card_bool, ZMod.card] at h
  exact h

end Bp
