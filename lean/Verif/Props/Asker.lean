import Verif.Lemmas.Asker
import Verif.Props.Api
import Verif.Props.DiscreteLog

/-! # C91: whoever gets a verifying function to accept something false computes discrete logarithms -/

namespace Bp
variable {F G M ι : Type} [Field F] [AddCommGroup G] [Module F G] [ByteRep F]

omit [ByteRep F] in
theorem length_draws_snoc' (t : Transcript F G) (e : TEvent F G) : (draws (t ++ [e])).length = (draws t).length + if e.isChallenge then 1 else 0 := by
  rw [draws, drawsFrom_append, List.length_append, draws]
  simp only [drawsFrom]
  split <;> rfl

omit [ByteRep F] in
theorem length_draws_get : ∀ (t acc : Transcript F G) (j : ℕ) (d : Transcript F G), (drawsFrom acc t)[j]? = some d → (draws d).length = (draws acc).length + j + 1
  | [], acc, j, d, h => by simp [drawsFrom] at h
  | e :: t, acc, j, d, h => by
    rw [drawsFrom] at h
    have hs := length_draws_snoc' acc e
    split at h
    · rename_i he
      rw [if_pos he] at hs
      cases j with
      | zero =>
        simp only [List.getElem?_cons_zero, Option.some.injEq] at h
        rw [← h, hs]
      | succ j =>
        rw [List.getElem?_cons_succ] at h
        rw [length_draws_get t _ j d h, hs]
        omega
    · rename_i he
      rw [if_neg he] at hs
      rw [length_draws_get t _ j d h, hs]
      omega

/-- The game in which answers are drawn when they are needed is the game of C58. -/
theorem Asker.acceptedWith [AddCommGroup M] [DecidableEq G] {st : Stmt F} {env : Env F G} {label : String} {f : M → G} {g h : G} {Gs Hs : List G} {A : Asker F M (List M × R1CSProof F M)} {Q : ℕ} {cs w : List F} (hcs : cs.length = Q) {r : F}
    (hl : ((A.forger f).coms cs).length = st.size)
    (hc : st.check (env.withOracle ((A.walk f (fun _ => none) cs).2.over (nextCoins [] w))) (((A.forger f).out cs).mapG f) (((A.forger f).coms cs).map f) label g h Gs Hs r = .ok ()) :
    ∃ O s T, ((A.forger f).mapG f).AcceptedWith env label (verifyStmts env g h [st]) g h Gs Hs Q (cs ++ w) r O s T := by
  classical
  rw [c89_check _ _ _ (by rw [List.length_map]; exact hl)] at hc
  set O0 := (A.walk f (fun _ => none) cs).2.over (nextCoins [] w) with hO0
  unfold verifyProof at hc
  rw [verifyStmts_oracle] at hc
  have et : (cs ++ w).take Q = cs := by rw [← hcs]; exact List.take_left
  rcases hb : verifyStmts env g h [st] (((A.forger f).coms cs).map f) (Verifier.new [.init label]) with ⟨e | ⟨⟩, s⟩
  · rw [hb] at hc; cases hc
  rw [hb] at hc
  rcases hv : s.verify (env.withOracle O0) (((A.forger f).out cs).mapG f) g h Gs Hs r with e | T
  · simp only [hv] at hc; cases hc
  set game := ((A.forger f).mapG f).game s Q with hgame
  refine ⟨fun t => if t = [] then answersOf game (cs ++ w) [] else O0 t, s, T, ?_, ?_, ?_⟩
  · rw [et]; exact hb
  · intro i c hi hnew
    change game _ ∉ askedBy game _ at hnew
    change (fun t => if t = [] then answersOf game (cs ++ w) [] else O0 t) (game _) = c
    by_cases hq : game ((cs ++ w).take i) = []
    · show (if _ then _ else _) = _
      rw [if_pos hq]
      have := answersOf_answers game (cs ++ w) i c hi hnew
      rwa [hq] at this
    · show (if _ then _ else _) = _
      rw [if_neg hq]
      have hlt : i < (cs ++ w).length := (List.getElem?_eq_some_iff.mp hi).1
      by_cases hiQ : i < Q
      · have ei : (cs ++ w).take i = cs.take i := List.take_append_of_le_length (by omega)
        have eg : game ((cs ++ w).take i) = (A.walk f (fun _ => none) (cs.take i)).1.question.mapG f := by
          rw [hgame, Forger.game, if_pos (by rw [List.length_take]; omega), ei]
          rfl
        rw [eg] at hq ⊢
        cases hA : (A.walk f (fun _ => none) (cs.take i)).1 with
        | done a => rw [hA] at hq; exact absurd rfl hq
        | ask q next =>
          have := Asker.walk_answer A (fun _ => none) (f := f) (cs := cs) (i := i) (c := c) (by rwa [List.getElem?_append_left (by omega)] at hi) hA
          show ((A.walk f (fun _ => none) cs).2 (q.mapG f)).getD _ = c
          rw [this]
          rfl
      · have eg : game ((cs ++ w).take i) = (draws (s.proofLog (((A.forger f).out cs).mapG f))).getD (i - Q) [] := by
          rw [hgame, Forger.game, if_neg (by rw [List.length_take]; omega), List.take_take, Nat.min_eq_left (by omega), et]
          congr 1
          rw [List.length_take]
          omega
        have hnone : (A.walk f (fun _ => none) cs).2 (game ((cs ++ w).take i)) = none := by
          by_contra hk
          rcases Asker.walk_asked A (fun _ => none) cs hk with h1 | h1
          · exact h1 rfl
          · obtain ⟨j, hj, e⟩ := mem_askedBy h1
            refine hnew (List.mem_map.mpr ⟨j, List.mem_range.mpr (by rw [List.length_take]; omega), ?_⟩)
            rw [← e, List.take_take, Nat.min_eq_left (by omega), List.take_append_of_le_length hj.le, hgame, Forger.game, if_pos (by rw [List.length_take]; omega)]
            rfl
        show ((A.walk f (fun _ => none) cs).2 (game ((cs ++ w).take i))).getD _ = c
        rw [hnone]
        show nextCoins [] w (game ((cs ++ w).take i)) = c
        have hd : (draws (s.proofLog (((A.forger f).out cs).mapG f)))[i - Q]? = some (game ((cs ++ w).take i)) := by
          rw [eg, List.getD_eq_getElem?_getD] at hq ⊢
          rcases hx : (draws (s.proofLog (((A.forger f).out cs).mapG f)))[i - Q]? with _ | d
          · rw [hx] at hq; exact absurd rfl hq
          · rfl
        have hlen := length_draws_get _ _ _ _ hd
        have h0 : (draws ([] : Transcript F G)).length = 0 := rfl
        rw [nextCoins, publicCoins, hlen, h0, List.replicate_zero, List.nil_append, Nat.zero_add, Nat.add_sub_cancel, List.getD_eq_getElem?_getD]
        rw [List.getElem?_append_right (by omega), hcs] at hi
        rw [hi]
        rfl
  · rw [et]
    exact c09_verify_challenges (env.withOracle O0) _ _ _ _ _ _ _ _ hv _ fun pre l _ => by
      show O0 _ = if _ then _ else _
      rw [if_neg (by simp)]

theorem Asker.forger_coms [AddCommGroup M] (f : M → G) (A : Asker F M (List M × R1CSProof F M)) {Q : ℕ} (hA : A.Within Q) {cs : List F} (hcs : Q ≤ cs.length) (dflt : List M × R1CSProof F M) :
    (A.walk f (fun _ => none) cs).1.result dflt = ((A.forger f).coms cs, (A.forger f).out cs) := by
  obtain ⟨a, e⟩ := Asker.walk_done (f := f) A Q (fun _ => none) cs hA hcs
  rw [Asker.forger]
  simp only [e, Asker.result]

theorem allHold_single {st : Stmt F} {g h : G} {coms : List G} (hl : coms.length = st.size) : AllHold g h [st] coms ↔ Stmt.Holds g h coms st := by
  unfold AllHold
  rw [← hl, List.take_length]
  exact ⟨fun h => h.1, fun h => ⟨h, trivial⟩⟩

/-- **C91** The points `P` are random, the generators are some of them, and a prover (which may look at all of them) makes its points as combinations of them.  It asks the hash at most `Q` questions, one after the other, and hands over
commitments and a proof.  If the verifying function accepts them with probability `ε` although the commitments have not been made as openings of which the statement is true, then the prover's runs can be used to compute the logarithm of any
point to any base, with a probability of about `ε`. -/
theorem c91_forge [Fintype ι] [Fintype F] [DecidableEq F] [DecidableEq G] [DecidableEq ι] {B : G} (hB : Function.Bijective fun a : F => a • B) (env : Env F G) (hb : env.batchInvert [] = .ok ([], 1)) (label : String)
    {st : Stmt F} (hok : st.Ok) (g h : ι) (Gs Hs : List ι) (hd : (Gs ++ Hs ++ [g, h]).Nodup) (A : (ι → G) → Asker F (ι → F) (List (ι → F) × R1CSProof F (ι → F))) (Q : ℕ) (hA : ∀ P, (A P).Within Q) (x : F) :
    (1 - 1 / Fintype.card F) * (avg (fun P : ι → G => (A P).chance (combine P) (st.fooled env label (combine P) (fun coms => Stmt.Holds (unitOf g) (unitOf h) coms st) (P g) (P h) (Gs.map P) (Hs.map P)) fun _ => none) -
        ((Q + drawsOf [st]) * badOf [st] + 1 : ℕ) / Fintype.card F) ≤
      prob fun p : ((Fin (Q + drawsOf [st]) → F) × F) × (ι → F) × (ι → F) => logOf (finderOf env label [st] g h Gs Hs Q fun P => (A P).forger (combine P)) B p.1 p.2.1 p.2.2 (x • B) = x := by
  have := finite_of_base hB
  have hF : (0 : ℚ) < Fintype.card F := by exact_mod_cast Fintype.card_pos
  have hF1 : (1 : ℚ) ≤ Fintype.card F := by exact_mod_cast Fintype.card_pos (α := F)
  refine le_trans ?_ (c74_statements hB env hb label (stmts := [st]) (by simpa using hok) g h Gs Hs hd (fun P => (A P).forger (combine P)) Q x)
  refine mul_le_mul_of_nonneg_left ?_ (sub_nonneg.mpr ((div_le_one hF).mpr hF1))
  refine sub_le_sub_right ?_ _
  rw [← prob_equiv (Equiv.prodComm (ι → G) ((Fin (Q + drawsOf [st]) → F) × F)), prob_prod]
  refine avg_mono fun P => ?_
  rw [Asker.chance_eq (combine P) _ ([], ⟨0, 0, 0, 0, 0, 0, 0, 0, 0, 0, 0, 0, 0, 0, ⟨[], [], 0, 0⟩⟩) (A P) Q _ (hA P)]
  rw [← prob_equiv ((Fin.appendEquiv Q (drawsOf [st])).prodCongr (Equiv.refl F)), ← prob_equiv (Equiv.prodAssoc _ _ _).symm, prob_prod]
  refine avg_mono fun y => ?_
  refine prob_mono fun z hz => ?_
  obtain ⟨h1, h2, h3⟩ := hz
  have hlen : (List.ofFn y).length = Q := List.length_ofFn
  rw [Asker.forger_coms _ _ (hA P) hlen.ge] at h1 h2 h3
  have e : List.ofFn (Fin.append y z.1) = List.ofFn y ++ List.ofFn z.1 := List.ofFn_fin_append _ _
  have et : (List.ofFn y ++ List.ofFn z.1).take Q = List.ofFn y := List.take_left' hlen
  show ((A P).forger (combine P)).Deceives env label _ _ _ P g h Gs Hs Q (List.ofFn (Fin.append y z.1)) z.2
  rw [e]
  refine ⟨?_, ?_, ?_⟩
  · rw [et, h1]; simp [totalSize]
  · rw [et, allHold_single h1]; exact h2
  · exact Asker.acceptedWith hlen h1 h3

/-- **C91**, with the generators of the tests: hashes of different messages, made with a hash function that behaves like a random one. -/
theorem c91_generators [Fintype F] [DecidableEq F] [DecidableEq G] {B : G} (hB : Function.Bijective fun a : F => a • B) (env : Env F G) (hb : env.batchInvert [] = .ok ([], 1)) (label : String) {st : Stmt F} (hok : st.Ok) (n : ℕ)
    (A : (messages n → G) → Asker F (messages n → F) (List (messages n → F) × R1CSProof F (messages n → F))) (Q : ℕ) (hA : ∀ P, (A P).Within Q) (x : F) :
    ∃ g h : messages n, ∃ finder : (Fin (Q + drawsOf [st]) → F) × F → (messages n → G) → messages n → F,
      (1 - 1 / Fintype.card F) * (avg (fun P : messages n → G => (A P).chance (combine P) (st.fooled env label (combine P) (fun coms => Stmt.Holds (unitOf g) (unitOf h) coms st)
          (hashOn _ P "g") (hashOn _ P "h") (getGenerators (hashOn _ P) "G" n) (getGenerators (hashOn _ P) "H" n)) fun _ => none) - ((Q + drawsOf [st]) * badOf [st] + 1 : ℕ) / Fintype.card F) ≤
        prob fun p : ((Fin (Q + drawsOf [st]) → F) × F) × (messages n → F) × (messages n → F) => logOf finder B p.1 p.2.1 p.2.2 (x • B) = x := by
  obtain ⟨g, h, Gs, Hs, hd, hP⟩ := c74_generators (G := G) n
  refine ⟨g, h, _, le_of_eq_of_le ?_ (c91_forge hB env hb label hok g h Gs Hs hd A Q hA x)⟩
  congr 3
  funext P
  obtain ⟨h1, h2, h3, h4⟩ := hP P
  rw [h1, h2, h3, h4]

omit [Field F] [AddCommGroup G] [Module F G] [ByteRep F] in
theorem mapG_id_transcript (t : Transcript F G) : t.mapG id = t := by
  unfold Transcript.mapG
  conv_rhs => rw [← List.map_id t]
  refine List.map_congr_left fun e _ => ?_
  cases e <;> rfl

omit [Field F] [AddCommGroup G] [Module F G] [ByteRep F] in
theorem mapG_id_proof (pr : R1CSProof F G) : pr.mapG id = pr := by
  simp [R1CSProof.mapG, IppProof.mapG]

omit [Field F] [AddCommGroup G] [Module F G] [ByteRep F] in
theorem Forger.mapG_id (A : Forger F G) : A.mapG id = A := by
  obtain ⟨⟨ask, out⟩, coms⟩ := A
  simp [Forger.mapG, mapG_id_transcript, mapG_id_proof]

/-- **C91**, for generators without any relation (where points need not be made from the generators): what is handed over is accepted and false with at most the probability `((Q + D) b + 1) / |F|`. -/
theorem c91_game [Fintype F] [DecidableEq G] (env : Env F G) (hb : env.batchInvert [] = .ok ([], 1)) (label : String) {st : Stmt F} (hok : st.Ok) (g h : G) (Gs Hs : List G) (hind : Independent F (Gs ++ Hs ++ [g, h]))
    (A : Asker F G (List G × R1CSProof F G)) (Q : ℕ) (hA : A.Within Q) :
    A.chance id (st.fooled env label id (fun coms => Stmt.Holds g h coms st) g h Gs Hs) (fun _ => none) ≤ ((Q + drawsOf [st]) * badOf [st] + 1 : ℕ) / Fintype.card F := by
  have hF : (0 : ℚ) < Fintype.card F := by exact_mod_cast Fintype.card_pos
  have h0 : A.chance id (st.fooled env label id (fun coms => Stmt.Holds g h coms st) g h Gs Hs) (fun _ => none) ≤
      prob fun p : (Fin (Q + drawsOf [st]) → F) × F => (A.forger id).Forges env label (verifyStmts env g h [st]) st.size (AllHold g h [st]) g h Gs Hs Q (List.ofFn p.1) p.2 := by
    rw [Asker.chance_eq id _ ([], ⟨0, 0, 0, 0, 0, 0, 0, 0, 0, 0, 0, 0, 0, 0, ⟨[], [], 0, 0⟩⟩) A Q _ hA]
    rw [← prob_equiv ((Fin.appendEquiv Q (drawsOf [st])).prodCongr (Equiv.refl F)), ← prob_equiv (Equiv.prodAssoc _ _ _).symm, prob_prod]
    refine avg_mono fun y => prob_mono fun z hz => ?_
    obtain ⟨h1, h2, h3⟩ := hz
    have hlen : (List.ofFn y).length = Q := List.length_ofFn
    rw [Asker.forger_coms _ _ hA hlen.ge] at h1 h2 h3
    have e : List.ofFn (Fin.append y z.1) = List.ofFn y ++ List.ofFn z.1 := List.ofFn_fin_append _ _
    have et : (List.ofFn y ++ List.ofFn z.1).take Q = List.ofFn y := List.take_left' hlen
    show (A.forger id).Forges env label _ _ _ g h Gs Hs Q (List.ofFn (Fin.append y z.1)) z.2
    rw [e]
    refine ⟨by rw [et, h1], by rw [et, allHold_single h1]; exact h2, ?_⟩
    have := Asker.acceptedWith hlen h1 h3
    rwa [Forger.mapG_id] at this
  refine h0.trans ?_
  have hle : Nat.card {p : (Fin (Q + drawsOf [st]) → F) × F // (A.forger id).Forges env label (verifyStmts env g h [st]) st.size (AllHold g h [st]) g h Gs Hs Q (List.ofFn p.1) p.2} ≤
      ((Q + drawsOf [st]) * badOf [st] + 1) * Fintype.card F ^ (Q + drawsOf [st]) := by
    by_cases hex : ∃ coms s, coms.length = st.size ∧ verifyStmts env g h [st] coms (Verifier.new [.init label]) = (.ok (), s)
    · obtain ⟨coms, s, hm, hs⟩ := hex
      have hts : totalSize [st] = st.size := by simp [totalSize]
      obtain ⟨h1, h2, -, -⟩ := c65_list env g h label [st] coms (by rw [hts, hm]) hs
      have := c61_game env hb label (stmts := [st]) (by simpa using hok) g h Gs Hs hind coms (by rw [hts, hm]) s hs (A.forger id) Q
      rw [Verifier.numDraws, Verifier.badBound, h1, h2, hm] at this
      exact this
    · have : IsEmpty {p : (Fin (Q + drawsOf [st]) → F) × F // (A.forger id).Forges env label (verifyStmts env g h [st]) st.size (AllHold g h [st]) g h Gs Hs Q (List.ofFn p.1) p.2} :=
        ⟨fun ⟨_, hm, _, _, s, _, hw⟩ => hex ⟨_, s, hm, hw.built⟩⟩
      rw [Nat.card_eq_zero.mpr (.inl this)]
      exact Nat.zero_le _
  rw [prob_card, Nat.card_prod, Nat.card_eq_fintype_card (α := F), Nat.card_fun, Nat.card_fin, Nat.card_eq_fintype_card (α := F), Nat.cast_mul, Nat.cast_pow, div_le_div_iff₀ (mul_pos (pow_pos hF _) hF) hF]
  refine (mul_le_mul_of_nonneg_right (Nat.cast_le.mpr hle) hF.le).trans (le_of_eq ?_)
  rw [Nat.cast_mul, Nat.cast_pow, mul_assoc]

/-- **C91**, the same verdict for honest provers: commitments and a proof which the verifying function accepts with the hash function `O` are accepted with probability 1 once the hash has answered as `O` does. -/
theorem c91_honest [Finite F] [DecidableEq G] (st : Stmt F) (env : Env F G) (label : String) (g h : G) (Gs Hs : List G) (O : Oracle F G) (coms : List G) (hl : coms.length = st.size) (pr : R1CSProof F G)
    (hc : ∀ r, st.check (env.withOracle O) pr coms label g h Gs Hs r = .ok ()) : st.fooled env label id (fun _ => False) g h Gs Hs (fun t => some (O t)) (coms, pr) = 1 := by
  have e : ∀ w : List F, Answered.over (fun t => some (O t)) (nextCoins [] w : Oracle F G) = O := fun w => rfl
  unfold Stmt.fooled prob
  simp only [e, mapG_id_proof, List.map_id, hl, hc, not_false_eq_true, and_self, if_true]
  exact avg_const 1

/-! ## The hypotheses are met -/

/-- Somebody who asks for two challenges, the second one depending on the answer to the first, and hands over commitments that depend on both. -/
def demoAsker {M : Type} [AddCommGroup M] [Module F M] (P : M) : Asker F M (List M × R1CSProof F M) :=
  .ask [.init "data", .point "V" P, .challenge "y"] fun a => .ask [.init "data", .point "V" (a • P), .challenge "z"] fun b => .done ([a • P, b • P, P], ⟨P, P, P, P, P, P, P, P, P, P, P, a, b, 0, ⟨[], [], a, b⟩⟩)

omit [ByteRep F] in
theorem demoAsker_within {M : Type} [AddCommGroup M] [Module F M] (P : M) : (demoAsker (F := F) P).Within 2 := ⟨1, rfl, fun _ => ⟨0, rfl, fun _ => trivial⟩⟩

/-- `verify_proof_of_bounded_num` with the bounds and the generators of the tests. -/
example (x : Fr) : ∃ g h : messages 128, ∃ finder : (Fin (2 + drawsOf [(.boundedNum true 18 65 64 : Stmt Fr)]) → Fr) × Fr → (messages 128 → Fr) → messages 128 → Fr,
    (1 - 1 / Fintype.card Fr) * (avg (fun P : messages 128 → Fr => (demoAsker fun i => P i).chance (combine P) (Stmt.fooled (F := Fr) (.boundedNum true 18 65 64) demoEnv "data" (combine P) (fun coms => Stmt.Holds (F := Fr) (unitOf g) (unitOf h) coms (.boundedNum true 18 65 64))
        (hashOn _ P "g") (hashOn _ P "h") (getGenerators (hashOn _ P) "G" 128) (getGenerators (hashOn _ P) "H" 128)) fun _ => none) -
        ((2 + drawsOf [(.boundedNum true 18 65 64 : Stmt Fr)]) * badOf [(.boundedNum true 18 65 64 : Stmt Fr)] + 1 : ℕ) / Fintype.card Fr) ≤
      prob fun p : ((Fin (2 + drawsOf [(.boundedNum true 18 65 64 : Stmt Fr)]) → Fr) × Fr) × (messages 128 → Fr) × (messages 128 → Fr) => logOf finder 1 p.1 p.2.1 p.2.2 (x • (1 : Fr)) = x :=
  c91_generators (B := (1 : Fr)) ⟨fun a b e => by simpa using e, fun b => ⟨b, by simp⟩⟩ demoEnv (by simp [demoEnv, Env.std]) "data" (st := .boundedNum true 18 65 64) ⟨by decide, by decide, by decide +kernel, by decide +kernel⟩ 128
    (fun P => demoAsker fun i => P i) 2 (fun _ => demoAsker_within _) x

example : drawsOf [(.boundedNum true 18 65 64 : Stmt Fr)] = 12 ∧ badOf [(.boundedNum true 18 65 64 : Stmt Fr)] = 261 := by decide +kernel

/-- In the group `Z101 ^ 6`, with `verify_proof_of_non_zero_val`. -/
example : (demoAsker (unit6 4)).chance id (Stmt.fooled (F := Z101) .nonZero (Env.std fun _ => 2) "data" id (fun coms => Stmt.Holds (F := Z101) (unit6 4) (unit6 5) coms .nonZero) (unit6 4) (unit6 5) [unit6 0, unit6 1] [unit6 2, unit6 3]) (fun _ => none) ≤ 57 / 101 := by
  have := c91_game (Env.std fun _ => (2 : Z101)) (by simp [Env.std]) "data" (st := .nonZero) trivial (unit6 4) (unit6 5) [unit6 0, unit6 1] [unit6 2, unit6 3] unit6_independent (demoAsker (unit6 4)) 2 (demoAsker_within _)
  rw [ZMod.card, show drawsOf [(.nonZero : Stmt Z101)] = 6 by decide +kernel, show badOf [(.nonZero : Stmt Z101)] = 7 by decide +kernel] at this
  norm_num at this ⊢
  exact this

/-- What `gen_proof_of_non_zero_val` makes from the value 5. -/
example : ∃ pr coms, genProofNonZeroVal demoEnv (5 : Fr) none (some fun i => i) (fun i => (i : Fr)) "data" 5 6 ⟨1, 2, 3, fun i => 4 + i, fun i => 6 + i, 8, 9, 10, fun _ => 0, fun _ => 0, 11, 12, 13, 14, 15⟩ [1, 2] [3, 4] = .ok (pr, coms) ∧
    Stmt.fooled (F := Fr) .nonZero demoEnv "data" id (fun _ => False) 5 6 [1, 2] [3, 4] (fun t => some (demoEnv.oracle t)) (coms, pr) = 1 := by
  have key := fun r => c89_non_zero demo_peers (value := (5 : Fr)) (by decide +kernel) none (some fun i => i) (fun i => (i : Fr)) (.inr rfl) "data" 5 6 ⟨1, 2, 3, fun i => 4 + i, fun i => 6 + i, 8, 9, 10, fun _ => 0, fun _ => 0, 11, 12, 13, 14, 15⟩ [1, 2] [3, 4] r (by decide +kernel) (by decide +kernel)
  obtain ⟨pr, coms, h1, -, h3⟩ := key 0
  refine ⟨pr, coms, h1, c91_honest .nonZero demoEnv "data" 5 6 [1, 2] [3, 4] demoEnv.oracle coms (by rw [h3]; rfl) pr fun r => ?_⟩
  obtain ⟨pr', coms', h1', h2', -⟩ := key r
  rw [h1] at h1'
  cases h1'
  exact h2'

end Bp
