import Verif.Props.Api

/-! # C83 for the Hamming distance and the randomizer -/

set_option linter.unusedSectionVars false

namespace Bp
variable {F G : Type} [Field F] [AddCommGroup G] [Module F G] [ByteRep F]

/-! ## Hamming distance -/

/-- **C83** for the Hamming distance: although the statement binds no cheating prover to the committed values (C31), `gen_proof_for_hamming_distance` itself fills in the true differences.  Called with another number of differences it makes
a proof that `verify_proof_for_hamming_distance` refuses, but for at most as many values of one challenge as there are constraints. -/
theorem c83_hamming [DecidableEq F] [DecidableEq G] (env : Env F G) (hb : env.batchInvert [] = .ok ([], 1)) (original new : List F) (count : ℕ) (hcount : (diffCount original new : F) ≠ count) (sys : ℕ → F)
    (label : String) (g h : G) (hg : g ≠ 0) (hsize : nextPowerOfTwo (2 * new.length) < 2 ^ 32) (c : Coins F) (Gs Hs : List G) :
    ∃ (log : Transcript F G) (bad : Finset F), bad.card ≤ 3 * new.length + 1 ∧ ∀ O : Oracle F G, (∀ l, O l ≠ 0) → ∀ pr coms,
      genProofHammingDistance (env.withOracle O) original new count sys label g h c Gs Hs = .ok (pr, coms) → O log ∉ bad → ∀ r : F, r ≠ 0 →
        verifyProofHammingDistance (env.withOracle O) new count pr coms label g h Gs Hs r = Res.err .verificationError := by
  obtain ⟨log, bad, h1, h2⟩ := rejected_core env hb label g h hg hsize (q := 3 * new.length + 1) (dp := fun e => proveHammingDistance e original new count sys) (dv := fun e => verifyHammingDistance e new count)
    (fun e O => by simp only [proveHammingDistance, Prover.gadget_withOracle]) (fun e coms p hd => by
      have hlen : original.length = new.length := by
        by_contra hn
        unfold proveHammingDistance at hd
        rw [if_pos hn] at hd
        cases (Drv.lift_ok.mp hd).1
      unfold proveHammingDistance at hd
      rw [if_neg (by simp [hlen])] at hd
      obtain ⟨cs, p1, s1, c1, c2, J1, hp1, hl1, e1, o1, hf⟩ := (Joint.new e e g h [.init label] 0 0).commitAll rfl (original.zip ((List.range original.length).map sys))
      obtain ⟨cs', p1', c1', hd⟩ := Drv.bind_ok.mp hd
      rw [c1] at c1'
      obtain ⟨ec, rfl⟩ := Prod.mk.inj c1'
      cases ec
      obtain ⟨⟨⟩, p2, g1, hd⟩ := Drv.bind_ok.mp hd
      obtain ⟨rfl, rfl⟩ := Drv.pure_ok.mp hd
      rw [zip_map_fst (by simp)] at hf
      have hcl : cs.length = original.length := by simpa using hf.length_eq
      obtain ⟨⟨⟩, p2', hr, hns⟩ := PS.hammingWrong (env := e) (onSpec := fun cb p => p.specify cb) (C := Callback F) (rnd := false) (count := count) J1.good (by rw [hp1]; rfl) (hasA_zip hf) hlen (by rw [differs_sum]; exact hcount)
      have hr' := Prover.gadget_ok.mp g1
      have ep : p2 = p2' := (Prod.mk.inj (Except.ok.inj (hr'.symm.trans hr))).2
      subst ep
      have S1 : Shared e e g h p1 s1 := ⟨J1.session, o1.g, o1.h⟩
      obtain ⟨⟨⟩, s2, g2, J2, -, -⟩ := S1.gadgetOk rfl (Prog.Same.hamming (pair_zip hcl) new count) g1
      have hv : verifyHammingDistance e new count (cs.map Prod.fst) (Verifier.new [.init label]) = (.ok (), s2) := Drv.bind_ok.mpr ⟨_, s1, c2, g2⟩
      obtain ⟨-, hi⟩ := J2.inStep rfl
      have hsz := (DC.hammingDistance e new count (cs.map Prod.fst) _ () s2 hv rfl).1
      exact ⟨s2, hv, J2, (OnePhase.hammingDistance _ _ _ _ _ _ _ hv).1, by rw [← hi.num, hsz.gates]; exact Nat.zero_add _, by rw [hi.cons.length_eq, hsz.constraints]; exact Nat.zero_add _, hns⟩) c Gs Hs
  exact ⟨log, bad, h1, fun O hO pr coms e hlog r hr => h2 O hO pr coms ((c78_same_proofs _ _ _ _ _ _ _ _ _).mp e) hlog r hr⟩

/-! ## Randomizer -/

/-- The contents of the new tree with the original ones put back at the listed indices. -/
def putBack (depth : ℕ) (indices : List F) (o c : ℕ → F) (i : ℕ) : F := if ∃ x ∈ indices, IntRep.rep x % 4 ^ depth = i then o i else c i

theorem overlay_putBack (depth : ℕ) (indices : List F) (o c : ℕ → F) (v : ℕ → F) (hv : ∀ i x, indices[i]? = some x → v (randVal depth i) = o (IntRep.rep x % 4 ^ depth)) :
    overlay (4 ^ depth) (origPairs depth indices v) c = putBack depth indices o c := by
  funext i
  unfold overlay putBack
  split
  · next w hw =>
    have e1 := List.find?_some hw
    have e2 := List.mem_reverse.mp (List.mem_of_find?_eq_some hw)
    simp only [decide_eq_true_eq] at e1
    obtain ⟨j, hj, rfl⟩ := List.mem_iff_getElem.mp e2
    have hj' : j < indices.length := by simpa [origPairs] using hj
    simp only [origPairs, List.getElem_mapIdx] at e1 ⊢
    rw [if_pos ⟨_, List.getElem_mem hj', e1⟩, hv j _ (List.getElem?_eq_getElem hj'), e1]
  · next hn =>
    rw [if_neg]
    rintro ⟨x, hx, e⟩
    obtain ⟨j, hj, rfl⟩ := List.mem_iff_getElem.mp hx
    rw [List.find?_eq_none] at hn
    have := hn (indices[j], v (randVal depth j)) (by
      rw [List.mem_reverse]
      exact List.mem_iff_getElem.mpr ⟨j, by simpa [origPairs] using hj, by simp [origPairs]⟩)
    simp [e] at this

theorem origCommitted_getElem? [DecidableEq F] (H : List F → F) (depth : ℕ) (o : ℕ → F) : ∀ (indices : List F) (i : ℕ) (x : F), indices[i]? = some x →
    (origCommitted H depth o indices)[i * (1 + 3 * depth)]? = some (o (IntRep.rep x % 4 ^ depth))
  | [], i, x, hx => by simp at hx
  | y :: ys, 0, x, hx => by
    simp only [List.getElem?_cons_zero, Option.some.injEq] at hx
    subst hx
    simp [origCommitted]
  | y :: ys, i + 1, x, hx => by
    rw [List.getElem?_cons_succ] at hx
    have hl := sides_flatten_length H depth o (IntRep.rep y)
    have e : origCommitted H depth o (y :: ys) = (o (IntRep.rep y % 4 ^ depth) :: (sides H 4 depth o (IntRep.rep y)).flatten) ++ origCommitted H depth o ys := by simp [origCommitted]
    have e2 : (i + 1) * (1 + 3 * depth) = i * (1 + 3 * depth) + (1 + 3 * depth) := by ring
    rw [e, List.getElem?_append_right (by rw [List.length_cons, hl, e2]; omega), List.length_cons, hl, e2, show i * (1 + 3 * depth) + (1 + 3 * depth) - (3 * depth + 1) = i * (1 + 3 * depth) by omega]
    exact origCommitted_getElem? H depth o ys i x hx

/-- **C83** for the randomizer: two trees of the crate, after any histories, differ at an index that is not listed.  If `gen_proof_for_randomizer` makes a proof, `verify_proof_for_randomizer` refuses it, but for at most as many values of one
challenge as there are constraints.  (No hash collision between the original tree and the new tree with the listed values put back.) -/
theorem c83_randomizer [DecidableEq F] [DecidableEq G] (env : Env F G) (hb : env.batchInvert [] = .ok ([], 1)) (p : PoseidonParams F) (hp : p.Valid) (hw : p.width = 5) (depth : ℕ) (hd : depth ≤ 4 * ByteRep.modBytes F)
    (db0 db0' : HashDb (List F)) (hist hist' : History F) (hc : (tree4 p).CollisionFree depth hist) (hc' : (tree4 p).CollisionFree depth hist') (t t' : SparseTree F) (db db' : HashDb (List F))
    (hrun : runHistory (tree4 p) depth db0 hist = .ok (t, db)) (hrun' : runHistory (tree4 p) depth db0' hist' = .ok (t', db')) (indices : List F)
    (hdiff : ∃ i < 4 ^ depth, (∀ x ∈ indices, IntRep.rep x % 4 ^ depth ≠ i) ∧ written (4 ^ depth) hist' i ≠ written (4 ^ depth) hist i)
    (hno : NoCollision (tree4 p).digest (childLists (tree4 p).digest 4 depth (putBack depth indices (written (4 ^ depth) hist) (written (4 ^ depth) hist')) ++ childLists (tree4 p).digest 4 depth (written (4 ^ depth) hist)))
    (sys : ℕ → F) (label : String) (g h : G) (hg : g ≠ 0) (hsize : nextPowerOfTwo (Stmt.randomizer t' db' indices depth p).gates < 2 ^ 32) (c : Coins F) (Gs Hs : List G) :
    ∃ (log : Transcript F G) (bad : Finset F), bad.card ≤ (Stmt.randomizer t' db' indices depth p).constraints ∧ ∀ O : Oracle F G, (∀ l, O l ≠ 0) → ∀ pr coms,
      genProofRandomizer (env.withOracle O) t db t' db' indices (indices.map fun x => written (4 ^ depth) hist (IntRep.rep x % 4 ^ depth)) depth p .quint sys label g h c Gs Hs = .ok (pr, coms) → O log ∉ bad → ∀ r : F, r ≠ 0 →
        verifyProofRandomizer (env.withOracle O) t' db' indices depth p .quint pr coms label g h Gs Hs r = Res.err .verificationError := by
  have hT : (tree4 p).IsTree p depth := .inl ⟨rfl, hw, hd⟩
  obtain ⟨db1, e, k⟩ := run_ok hp hT db0 hist hc
  rw [hrun] at e
  injection e with e; injection e with e1 e2
  obtain ⟨db1', e', k'⟩ := run_ok hp hT db0' hist' hc'
  rw [hrun'] at e'
  injection e' with e'; injection e' with e1' e2'
  subst e1 e2 e1' e2'
  have hbs : getByteSize depth 4 ≤ ByteRep.modBytes F := getByteSize_4 hd
  have hdb : ∀ l ∈ childLists (tree4 p).digest 4 depth (written (4 ^ depth) hist), db.Has (tree4 p).digest l := k hist List.prefix_rfl
  have hdb' : ∀ l ∈ childLists (tree4 p).digest 4 depth (written (4 ^ depth) hist'), db'.Has (tree4 p).digest l := k' hist' List.prefix_rfl
  generalize ht : (⟨depth, rootOf (tree4 p).digest (tree4 p).arity depth (written ((tree4 p).arity ^ depth) hist)⟩ : SparseTree F) = t at *
  generalize ht' : (⟨depth, rootOf (tree4 p).digest (tree4 p).arity depth (written ((tree4 p).arity ^ depth) hist')⟩ : SparseTree F) = t' at *
  have htd : t.depth = depth := by rw [← ht]
  have htr : t.root = rootOf (tree4 p).digest 4 depth (written (4 ^ depth) hist) := by rw [← ht]; rfl
  have htr' : t'.root = rootOf (tree4 p).digest 4 depth (written (4 ^ depth) hist') := by rw [← ht']; rfl
  obtain ⟨log, bad, h1, h2⟩ := rejected_core env hb label g h hg hsize (q := (Stmt.randomizer t' db' indices depth p).constraints)
    (dp := fun e => proveRandomizer e t db t' db' indices (indices.map fun x => written (4 ^ depth) hist (IntRep.rep x % 4 ^ depth)) depth p .quint sys) (dv := fun e => verifyRandomizer e t' db' indices depth p .quint g h)
    (fun e O => by simp only [proveRandomizer, Prover.gadget_withOracle]) (fun e coms q hdp => by
      unfold proveRandomizer at hdp
      obtain ⟨c0, p1, s1, a1, a2, J1, hp1, hl1, x1, o1, f1⟩ := (Joint.new e e g h [.init label] 0 0).commitAll rfl [(t.root, sys 0)]
      obtain ⟨cs, vs, ps, p2, s2, b1, b2, J2, hp2, hl2, x2, o2, f2, f3⟩ := commitOrig_ok (T := tree4 p) (db := db) rfl rfl htd hbs htr hdb sys indices 1 J1
      obtain ⟨ds, p3, s3, d1, d2, J3, hp3, hl3, x3, o3, f4⟩ := J2.commitAll rfl [((0 : F), (0 : F))]
      obtain ⟨⟨cr, w⟩, rfl⟩ : ∃ x, c0 = [x] := List.length_eq_one_iff.mp (by simpa using f1.length_eq)
      obtain ⟨⟨cz, vz⟩, rfl⟩ : ∃ x, ds = [x] := List.length_eq_one_iff.mp (by simpa using f4.length_eq)
      rw [Drv.bind_of_ok a1, Drv.bind_of_ok b1] at hdp
      have hst : allocateStaticsForProver 1 p2 = (.ok [vz], p3) := by
        unfold allocateStaticsForProver
        refine Drv.bind_ok.mpr ⟨[(cz, vz)], p3, ?_, rfl⟩
        simpa [staticValues, zeroConst] using d1
      simp only at hdp
      rw [Drv.bind_of_ok hst] at hdp
      simp only [List.map_cons, List.map_nil] at hdp
      obtain ⟨⟨⟩, p4, g1, hdp⟩ := Drv.bind_ok.mp hdp
      obtain ⟨rfl, rfl⟩ := Drv.pure_ok.mp hdp
      have o := (o1.trans o2).statics o3
      have S3 : Shared e e g h p3 s3 := ⟨J3.session, o.g, o.h⟩
      obtain ⟨⟨⟩, s4, g2, J4, -, ev⟩ := S3.gadgetOk rfl (Prog.Same.randomizerGadget .quint p depth w t' db' indices vs ps [vz]) g1
      have hv : verifyRandomizer e t' db' indices depth p .quint g h ([cr] ++ cs) (Verifier.new [.init label]) = (.ok (), s4) := by
        unfold verifyRandomizer
        refine Drv.bind_ok.mpr ⟨[cr], _, Drv.lift_ok.mpr ⟨takeComms_ok.mpr ⟨by simp, by simp⟩, rfl⟩, Drv.bind_ok.mpr ⟨[w], s1, a2, Drv.bind_ok.mpr ⟨(vs, ps), s2, ?_, Drv.bind_ok.mpr ⟨[vz], s3, ?_, g2⟩⟩⟩⟩
        · have := b2 []
          simpa using this
        · rw [allocateStaticsForVerifier_one]
          have hcz := o3.points
          simp only [List.map_cons, List.map_nil, zero_smul, add_zero, List.cons.injEq, and_true] at hcz
          simp only [List.map_cons, List.map_nil, hcz] at d2
          exact d2
      obtain ⟨hwf, hi⟩ := J4.inStep rfl
      have hsz := (DC.randomizer e t' db' indices depth p .quint g h ([cr] ++ cs) _ () s4 hv rfl).1
      refine ⟨s4, hv, J4, (OnePhase.randomizer _ _ _ _ _ _ _ _ _ _ _ _ _ hv).1, by rw [← hi.num, hsz.gates]; exact Nat.zero_add _, by rw [hi.cons.length_eq, hsz.constraints]; exact Nat.zero_add _, fun hsat => ?_⟩
      have vals : p4.v = (t.root :: origCommitted (tree4 p).digest depth (written (4 ^ depth) hist) indices) ++ [0] := by
        rw [ev, o.values]
        have : ∀ l : List F, (l.mapIdx fun j x => (x, sys (1 + j))).map Prod.fst = l := fun l => by apply List.ext_getElem <;> simp
        simp [Prover.new, this]
      have hlc : (origCommitted (tree4 p).digest depth (written (4 ^ depth) hist) indices).length = indices.length * (1 + 3 * depth) := by
        simp only [origCommitted, List.length_flatMap, List.length_cons, sides_flatten_length, List.map_const', List.sum_replicate, smul_eq_mul]
        ring
      obtain ⟨-, -, -, hR⟩ := c46_sound e g h .quint (by decide) p depth (written (4 ^ depth) hist') t' db' htr' hdb' indices ([cr] ++ cs) _ s4 hv
      have hcom : ∀ (i : ℕ) x, p4.v[i]? = some x → p4.assignment.committed i = x := fun i x hx => by
        show p4.v.getD i 0 = x
        rw [List.getD_eq_getElem?_getD, hx]; rfl
      have hR := hR p4.assignment hwf.gatesA (((c04_same_circuit p4 s4 hi).2.2.2 _).mp hsat) (fun i x hx => by
        match i, hx with
        | 0, hx =>
          simp only [List.getElem?_cons_zero, Option.some.injEq] at hx
          subst hx
          refine hcom _ _ ?_
          rw [vals, List.getElem?_append_right (by rw [List.length_cons, hlc]; show _ ≤ 0 + (1 + indices.length * (1 + 3 * depth)) + 0; omega), List.length_cons, hlc]
          rw [show (Verifier.new (F := F) (G := G) [.init label]).V.length + (1 + indices.length * (1 + 3 * depth)) + 0 - (indices.length * (1 + 3 * depth) + 1) = 0 by show 0 + _ + 0 - _ = 0; omega]
          rfl)
      have hV : ∀ i, (Verifier.new (F := F) (G := G) [.init label]).V.length + i = i := fun i => Nat.zero_add i
      simp only [hV] at hR
      have h0 : p4.assignment.committed 0 = t.root := hcom _ _ (by rw [vals]; rfl)
      have hvi : ∀ i x, indices[i]? = some x → p4.assignment.committed (randVal depth i) = written (4 ^ depth) hist (IntRep.rep x % 4 ^ depth) := fun i x hx => by
        refine hcom _ _ ?_
        have hx' := origCommitted_getElem? (tree4 p).digest depth (written (4 ^ depth) hist) indices i x hx
        rw [vals, List.cons_append, randVal, Nat.add_comm 1, List.getElem?_cons_succ, List.getElem?_append_left (List.getElem?_eq_some_iff.mp hx').1]
        exact hx'
      have hroot := hR.2.trans (h0.trans htr)
      have hroot : rootOf (tree4 p).digest 4 depth (overlay (4 ^ depth) (origPairs depth indices fun i => p4.assignment.committed i) (written (4 ^ depth) hist')) = rootOf (tree4 p).digest 4 depth (written (4 ^ depth) hist) := hroot
      rw [overlay_putBack depth indices (written (4 ^ depth) hist) _ _ hvi] at hroot
      obtain ⟨i, hi, hni, hne⟩ := hdiff
      rcases rootOf_binding depth _ _ hroot with hsame | ⟨a, ha, b, hb, hab, hH⟩
      · apply hne
        rw [← hsame i hi, putBack, if_neg]
        rintro ⟨x, hx, e⟩
        exact hni x hx e
      · exact hab (hno a (List.mem_append_left _ ha) b (List.mem_append_right _ hb) hH)) c Gs Hs
  exact ⟨log, bad, h1, fun O hO pr coms e hlog r hr => h2 O hO pr coms ((c78_same_proofs _ _ _ _ _ _ _ _ _).mp e) hlog r hr⟩

/-! ## The hypotheses are met -/

/-- Two places differ; three are claimed. -/
example : ∃ (log : Transcript Z101 Z101) (bad : Finset Z101), bad.card ≤ 10 ∧ ∀ O : Oracle Z101 Z101, (∀ l, O l ≠ 0) → ∀ pr coms,
    genProofHammingDistance ((Env.std fun _ => 2).withOracle O) [1, 2, 3] [1, 7, 8] 3 (fun i => (i : Z101)) "bits" 1 5 refutedCoins [2, 3, 4, 5, 6, 7, 8, 9] [11, 12, 13, 14, 15, 16, 17, 18] = .ok (pr, coms) → O log ∉ bad → ∀ r : Z101, r ≠ 0 →
      verifyProofHammingDistance ((Env.std fun _ => 2).withOracle O) [1, 7, 8] 3 pr coms "bits" 1 5 [2, 3, 4, 5, 6, 7, 8, 9] [11, 12, 13, 14, 15, 16, 17, 18] r = Res.err .verificationError :=
  c83_hamming (Env.std fun _ => 2) (by simp [Env.std]) [1, 2, 3] [1, 7, 8] 3 (by decide) (fun i => (i : Z101)) "bits" 1 5 (by decide) (by decide +kernel) refutedCoins _ _
example : (genProofHammingDistance (Env.std fun _ => 2) [1, 2, 3] [1, 7, 8] 3 (fun i => (i : Z101)) "bits" (1 : Z101) 5 refutedCoins [2, 3, 4, 5, 6, 7, 8, 9] [11, 12, 13, 14, 15, 16, 17, 18]).isOk = true := by decide +kernel

theorem demo_putBack : NoCollision (tree4 demoParams5).digest
    (childLists (tree4 demoParams5).digest 4 2 (putBack 2 [14] (written (4 ^ 2) demoHistory) (written (4 ^ 2) demoHistory')) ++ childLists (tree4 demoParams5).digest 4 2 (written (4 ^ 2) demoHistory)) := by
  have e : childLists (tree4 demoParams5).digest 4 2 (putBack 2 [14] (written (4 ^ 2) demoHistory) (written (4 ^ 2) demoHistory')) =
      childLists (tree4 demoParams5).digest 4 2 (written (4 ^ 2) (demoHistory'.take 4)) := by
    refine childLists_congr _ 4 2 _ _ fun i hi => ?_
    norm_num at hi
    interval_cases i <;> decide +kernel
  rw [e]
  have sub : ∀ k, ∀ a ∈ childLists (tree4 demoParams5).digest 4 2 (written (4 ^ 2) (demoHistory'.take k)), a ∈ historyLists (tree4 demoParams5).digest (tree4 demoParams5).arity 2 demoHistory' := fun k a ha =>
    List.mem_flatMap.mpr ⟨_, (List.mem_inits _ _).mpr (List.take_prefix k _), ha⟩
  have sub' : ∀ a ∈ childLists (tree4 demoParams5).digest 4 2 (written (4 ^ 2) (demoHistory'.take 4)) ++ childLists (tree4 demoParams5).digest 4 2 (written (4 ^ 2) demoHistory),
      a ∈ historyLists (tree4 demoParams5).digest (tree4 demoParams5).arity 2 demoHistory' := fun a ha => by
    rcases List.mem_append.mp ha with ha | ha
    · exact sub 4 a ha
    · exact sub 3 a ha
  exact fun a ha b hb => demo_collisionFree' a (sub' a ha) b (sub' b hb)

/-- Index 1, where the contents differ, is not listed. -/
example (c : Coins Fr) : ∃ t db t' db', runHistory (tree4 demoParams5) 2 HashDb.new demoHistory = .ok (t, db) ∧ runHistory (tree4 demoParams5) 2 HashDb.new demoHistory' = .ok (t', db') ∧
    ∃ (log : Transcript Fr Fr) (bad : Finset Fr), bad.card ≤ (Stmt.randomizer t' db' ([14] : List Fr) 2 demoParams5).constraints ∧ ∀ O : Oracle Fr Fr, (∀ l, O l ≠ 0) → ∀ pr coms,
      genProofRandomizer (demoEnv.withOracle O) t db t' db' [14] (([14] : List Fr).map fun x => written (4 ^ 2) demoHistory (IntRep.rep x % 4 ^ 2)) 2 demoParams5 .quint (fun j => (j : Fr)) "data" 5 6 c [1, 2] [3, 4] = .ok (pr, coms) → O log ∉ bad → ∀ r : Fr, r ≠ 0 →
        verifyProofRandomizer (demoEnv.withOracle O) t' db' [14] 2 demoParams5 .quint pr coms "data" 5 6 [1, 2] [3, 4] r = Res.err .verificationError := by
  have hT : (tree4 demoParams5).IsTree demoParams5 2 := .inl ⟨rfl, rfl, by decide⟩
  obtain ⟨db, e, -⟩ := run_ok demoParams5_valid hT HashDb.new demoHistory demo_collisionFree
  obtain ⟨db', e', -⟩ := run_ok demoParams5_valid hT HashDb.new demoHistory' demo_collisionFree'
  have h1 : ∃ i < 4 ^ 2, (∀ x ∈ ([14] : List Fr), IntRep.rep x % 4 ^ 2 ≠ i) ∧ written (4 ^ 2) demoHistory' i ≠ written (4 ^ 2) demoHistory i := ⟨1, by decide, fun x hx => by rw [List.mem_singleton.mp hx]; decide +kernel, by decide +kernel⟩
  have h2 : (5 : Fr) ≠ 0 := by decide +kernel
  have h3 : nextPowerOfTwo (2 * 1 * 2 * (demoParams5.sboxes * SboxType.quint.gateCount)) < 2 ^ 32 := by decide +kernel
  generalize (⟨2, rootOf (tree4 demoParams5).digest (tree4 demoParams5).arity 2 (written ((tree4 demoParams5).arity ^ 2) demoHistory)⟩ : SparseTree Fr) = t at e
  generalize (⟨2, rootOf (tree4 demoParams5).digest (tree4 demoParams5).arity 2 (written ((tree4 demoParams5).arity ^ 2) demoHistory')⟩ : SparseTree Fr) = t' at e'
  exact ⟨t, db, t', db', e, e', c83_randomizer demoEnv (by simp [demoEnv, Env.std]) demoParams5 demoParams5_valid rfl 2 (by decide) HashDb.new HashDb.new demoHistory demoHistory' demo_collisionFree demo_collisionFree' t t' db db' e e' [14]
    h1 demo_putBack (fun j => (j : Fr)) "data" 5 6 h2 h3 c [1, 2] [3, 4]⟩

end Bp
