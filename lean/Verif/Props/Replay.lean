import Verif.Lemmas.Replay
import Verif.Props.FiatShamir
import Verif.Props.PublicInputs
import Verif.Props.FiatShamirExample

/-! # C76: a proof is good for its own transcript only -/

namespace Bp
open Finset
variable {F G : Type} [Field F] [AddCommGroup G] [Module F G] [DecidableEq G]

theorem Independent.hiding {g h : G} {Gs Hs : List G} (hi : Independent F (Gs ++ Hs ++ [g, h])) : Hiding F g h Gs Hs := by
  have span : ∀ (l : List G) (P : G), P ∈ Submodule.span F {P | P ∈ l} → ∃ c : ℕ → F, ∑ i ∈ range l.length, c i • l.getD i 0 = P := by
    intro l P hP
    induction hP using Submodule.span_induction with
    | mem x hx =>
      obtain ⟨i, hi, rfl⟩ := List.mem_iff_getElem.mp hx
      refine ⟨fun j => if j = i then 1 else 0, ?_⟩
      rw [Finset.sum_eq_single i (fun j _ hj => by simp [hj]) (fun hn => absurd (Finset.mem_range.mpr hi) hn)]
      simp [List.getD_eq_getElem?_getD, hi]
    | zero => exact ⟨fun _ => 0, by simp⟩
    | add x y _ _ hx hy =>
      obtain ⟨c, rfl⟩ := hx
      obtain ⟨d, rfl⟩ := hy
      exact ⟨fun i => c i + d i, by simp only [add_smul, Finset.sum_add_distrib]⟩
    | smul a x _ hx =>
      obtain ⟨c, rfl⟩ := hx
      exact ⟨fun i => a * c i, by simp only [mul_smul, Finset.smul_sum]⟩
  intro hh
  have hset : {P | P = g ∨ P ∈ Gs ∨ P ∈ Hs} = {P | P ∈ Gs ++ Hs ++ [g]} := by
    ext P
    simp only [Set.mem_ofPred_eq, List.mem_append, List.mem_singleton]
    tauto
  rw [hset] at hh
  obtain ⟨c, hc⟩ := span _ _ hh
  have e : Gs ++ Hs ++ [g, h] = (Gs ++ Hs ++ [g]) ++ [h] := by simp
  rw [e] at hi
  have := hi (fun i => if i < (Gs ++ Hs ++ [g]).length then c i else -1) (by
    rw [List.length_append, List.length_singleton, Finset.sum_range_succ]
    rw [Finset.sum_congr rfl (g := fun i => c i • (Gs ++ Hs ++ [g]).getD i 0) (fun i hi => by
      have hi := Finset.mem_range.mp hi
      rw [if_pos hi, List.getD_eq_getElem?_getD, List.getElem?_append_left hi, List.getD_eq_getElem?_getD]), hc, if_neg (lt_irrefl _), List.getD_eq_getElem?_getD, List.getElem?_append_right (le_refl _)]
    simp) (Gs ++ Hs ++ [g]).length (by rw [List.length_append (bs := [h])]; simp)
  rw [if_neg (lt_irrefl _)] at this
  exact one_ne_zero (neg_eq_zero.mp this)

/-- **C76**, the equation: take a proof made by the code's `prove`, with the blindings `c`.  Whatever verifier (any label, any commitments, any constraints, in one or two phases, any challenges) accepts it, for two values of its random scalar,
has drawn challenges `u` and `x` that satisfy a fixed equation, of degree 3 in `x`. -/
theorem c76_equation {env : Env F G} {p : Prover F G} (hw : p.WF) {c : Coins F} {Gs Hs : List G} {pr : R1CSProof F G} {T : Transcript F G} (hp : p.prove env c Gs Hs = .ok (pr, T)) (hh : Hiding F p.g p.h Gs Hs) :
    ∃ i2 o2 s2 : F, ∀ (env' : Env F G), (pr.ipp.L ≠ [] ∨ env'.batchInvert [] = .ok ([], 1)) → ∀ (s : Verifier F G) (r r' : F) (t t' : Transcript F G), r ≠ r' → s.verify env' pr p.g p.h Gs Hs r = .ok t →
      s.verify env' pr p.g p.h Gs Hs r' = .ok t' → ∃ sr, (s.start pr).createRandomizedConstraints env' = .ok sr ∧
        ((∀ u ∈ ippRounds env'.oracle sr.transcript pr (nextPowerOfTwo sr.numVars), u ≠ 0) → ∀ u x, u = (drawn env'.oracle sr.transcript pr).u → x = (drawn env'.oracle sr.transcript pr).x →
          x * (c.iB1 + u * i2) + x ^ 2 * (c.oB1 + u * o2) + x ^ 3 * (c.sB1 + u * s2) = pr.e_blinding) := by
  have m1 : p.g ∈ Submodule.span F {P | P = p.g ∨ P ∈ Gs ∨ P ∈ Hs} := Submodule.subset_span (.inl rfl)
  have m2 : ∀ P ∈ Gs, P ∈ Submodule.span F {P | P = p.g ∨ P ∈ Gs ∨ P ∈ Hs} := fun P hP => Submodule.subset_span (.inr (.inl hP))
  have m3 : ∀ P ∈ Hs, P ∈ Submodule.span F {P | P = p.g ∨ P ∈ Gs ∨ P ∈ Hs} := fun P hP => Submodule.subset_span (.inr (.inr hP))
  obtain ⟨i2, o2, s2, B⟩ := prove_blinds hw hp m1 m2 m3
  refine ⟨i2, o2, s2, fun env' hb s r r' t t' hr h1 h2 => ?_⟩
  obtain ⟨sr, wt, k, j1, -⟩ := verify_inv h1
  refine ⟨sr, j1, fun h0 u x hu hx => ?_⟩
  obtain ⟨sr', wt', k1, -, -, k4⟩ := c20_two_scalars env' s pr p.g p.h Gs Hs r r' hr t t' h1 h2 (fun s2 e => by
    rw [j1] at e
    rw [← Except.ok.inj e]
    exact h0) hb
  rw [j1] at k1
  obtain rfl := Except.ok.inj k1
  rw [hu, hx]
  exact blinds_equation m1 hh (fun P hP => m2 P (List.mem_of_mem_take hP)) (fun P hP => m3 P (List.mem_of_mem_take hP)) B k4

omit [Field F] [AddCommGroup G] [Module F G] [DecidableEq G] in
theorem ippChallenges_at {O : Oracle F G} : ∀ (ps : List (G × G)) (t : Transcript F G) (u : F), u ∈ (ippChallenges O t ps).1 → ∃ pre, pre ++ [TEvent.challenge "u"] <+: t ++ roundsLog ps ∧ u = O (pre ++ [.challenge "u"])
  | [], _, _, h => by simp [ippChallenges] at h
  | (L, R) :: ps, t, u, h => by
    simp only [ippChallenges, Transcript.commitPoint, Transcript.challengeScalar, List.mem_cons] at h
    rcases h with rfl | h
    · exact ⟨t ++ [.point "L" L] ++ [.point "R" R], ⟨roundsLog ps, by simp [roundsLog]⟩, rfl⟩
    · obtain ⟨pre, h1, h2⟩ := ippChallenges_at ps _ u h
      exact ⟨pre, by simpa [roundsLog] using h1, h2⟩

/-- The answers with which a proof with these blindings is accepted: those that satisfy the equation (unless `u` has cancelled the blindings), the `u` that do that, and zeros. -/
def replayBad (i1 o1 s1 i2 o2 s2 e : F) (O : Oracle F G) (t : Transcript F G) : Set F :=
  {a | (∃ q, t = q ++ [.challenge "u", .challenge "x"] ∧ ¬ Dead (O (q ++ [.challenge "u"])) ∧ Eqn (O (q ++ [.challenge "u"])) a) ∨ ∃ q, t = q ++ [.challenge "u"] ∧ (a = 0 ∨ Dead a)}
where
  Dead (u : F) : Prop := i1 + u * i2 = 0 ∧ o1 + u * o2 = 0 ∧ s1 + u * s2 = 0
  Eqn (u x : F) : Prop := x * (i1 + u * i2) + x ^ 2 * (o1 + u * o2) + x ^ 3 * (s1 + u * s2) = e

omit [AddCommGroup G] [Module F G] [DecidableEq G] in
theorem replayBad_few {i1 o1 s1 : F} (h : i1 ≠ 0 ∨ o1 ≠ 0 ∨ s1 ≠ 0) (i2 o2 s2 e : F) (O : Oracle F G) (t : Transcript F G) : (replayBad i1 o1 s1 i2 o2 s2 e O t).encard ≤ 3 := by
  classical
  have last : ∀ q q' : Transcript F G, q ++ [.challenge "u", .challenge "x"] ≠ q' ++ [.challenge "u"] := by
    intro q q' e
    have e' : (q ++ [.challenge "u"]) ++ [.challenge "x"] = q' ++ [.challenge "u"] := by rw [← e]; simp
    have := (List.append_inj' e' rfl).2
    simp at this
  by_cases h1 : ∃ q, t = q ++ [.challenge "u", .challenge "x"]
  · obtain ⟨q, rfl⟩ := h1
    by_cases hd : replayBad.Dead i1 o1 s1 i2 o2 s2 (O (q ++ [.challenge "u"]))
    · refine le_trans (Set.encard_le_encard (t := ∅) ?_) (by simp)
      rintro a (⟨q', e, h2, -⟩ | ⟨q', e, -⟩)
      · obtain ⟨rfl, -⟩ := List.append_inj' e rfl
        exact absurd hd h2
      · exact absurd e (last _ _)
    · generalize hu : O (q ++ [.challenge "u"]) = u at hd
      have h3 : i1 + u * i2 ≠ 0 ∨ o1 + u * o2 ≠ 0 ∨ s1 + u * s2 ≠ 0 := by
        by_contra hn
        push Not at hn
        exact hd hn
      have hc := cubic_few (i1 + u * i2) (o1 + u * o2) (s1 + u * s2) e h3
      refine le_trans (Set.encard_le_encard ?_) hc
      · rintro a (⟨q', e, -, h3⟩ | ⟨q', e, -⟩)
        · obtain ⟨rfl, -⟩ := List.append_inj' e rfl
          rw [hu] at h3
          exact h3
        · exact absurd e (last _ _)
  · refine le_trans (Set.encard_le_encard (t := {0} ∪ {u | i1 + u * i2 = 0 ∧ o1 + u * o2 = 0 ∧ s1 + u * s2 = 0}) ?_) ?_
    · rintro a (⟨q', e, -⟩ | ⟨q', -, h3⟩)
      · exact absurd ⟨q', e⟩ h1
      · exact h3.imp id id
    · refine (Set.encard_union_le _ _).trans ?_
      rw [Set.encard_singleton]
      refine (add_le_add (le_refl 1) (dead_few _ _ _ _ _ _ h)).trans ?_
      norm_num

omit [AddCommGroup G] [Module F G] [DecidableEq G] in
theorem replayBad_before (i1 o1 s1 i2 o2 s2 e : F) (O O' : Oracle F G) (pre : Transcript F G) (l : String) (hO : AgreeOn O O' pre) :
    replayBad i1 o1 s1 i2 o2 s2 e O (pre ++ [.challenge l]) = replayBad i1 o1 s1 i2 o2 s2 e O' (pre ++ [.challenge l]) := by
  ext a
  unfold replayBad
  simp only [Set.mem_ofPred_eq]
  refine or_congr (exists_congr fun q => and_congr_right fun e => ?_) Iff.rfl
  have e' : pre ++ [.challenge l] = (q ++ [.challenge "u"]) ++ [.challenge "x"] := by rw [e]; simp
  obtain ⟨rfl, -⟩ := List.append_inj' e' rfl
  rw [hO q "u" (List.prefix_refl _)]

/-- **C76**, the rule: for every proof made by `prove` there are bad answers, at most three for each draw, such that every verifier that accepts the proof (for two values of its random scalar) has got a bad answer. -/
theorem c76_rule {env : Env F G} (hb : env.batchInvert [] = .ok ([], 1)) {p : Prover F G} (hw : p.WF) {c : Coins F} (hcoins : c.Blind) {Gs Hs : List G} {pr : R1CSProof F G} {T : Transcript F G} (hp : p.prove env c Gs Hs = .ok (pr, T))
    (hh : Hiding F p.g p.h Gs Hs) :
    ∃ bad : BadRule F G 3, ∀ (O : Oracle F G) (s : Verifier F G) (r r' : F) (t t' : Transcript F G), r ≠ r' → s.verify { env with oracle := O } pr p.g p.h Gs Hs r = .ok t →
      s.verify { env with oracle := O } pr p.g p.h Gs Hs r' = .ok t' → bad.Hit O t := by
  classical
  obtain ⟨i2, o2, s2, H⟩ := c76_equation hw hp hh
  refine ⟨⟨replayBad c.iB1 c.oB1 c.sB1 i2 o2 s2 pr.e_blinding, replayBad_few hcoins _ _ _ _, replayBad_before _ _ _ _ _ _ _⟩, fun O s r r' t t' hr h1 h2 => ?_⟩
  obtain ⟨sr, wt, k, j1, j2, -, -, -, -, -, -, j9⟩ := verify_inv h1
  rw [(ippChallenges_log _ _ _).1] at j9
  obtain ⟨sr', k1, k2⟩ := H { env with oracle := O } (.inr hb) s r r' t t' hr h1 h2
  rw [j1] at k1
  obtain rfl := Except.ok.inj k1
  have pW : logW sr.transcript pr <+: t := by
    rw [j9, Transcript.ippDomainSep]
    simp only [List.append_assoc]
    exact List.prefix_append _ _
  have pX : logU sr.transcript pr ++ [.challenge "x"] <+: t := (List.prefix_append (logX sr.transcript pr) _).trans pW
  have pU : logZ sr.transcript pr ++ [.point "T_1" pr.T_1, .point "T_3" pr.T_3, .point "T_4" pr.T_4, .point "T_5" pr.T_5, .point "T_6" pr.T_6] ++ [.challenge "u"] <+: t := by
    refine List.IsPrefix.trans ?_ pX
    simp [logU, List.append_assoc]
  have eU : logU sr.transcript pr = logZ sr.transcript pr ++ [.point "T_1" pr.T_1, .point "T_3" pr.T_3, .point "T_4" pr.T_4, .point "T_5" pr.T_5, .point "T_6" pr.T_6] ++ [.challenge "u"] := by simp [logU]
  by_cases h0 : ∀ u ∈ ippRounds O sr.transcript pr (nextPowerOfTwo sr.numVars), u ≠ 0
  · by_cases hd : replayBad.Dead c.iB1 c.oB1 c.sB1 i2 o2 s2 (drawn O sr.transcript pr).u
    · refine ⟨_, _, pU, .inr ⟨_, rfl, .inr ?_⟩⟩
      rw [← eU]; exact hd
    · refine ⟨_, _, pX, .inl ⟨logZ sr.transcript pr ++ [.point "T_1" pr.T_1, .point "T_3" pr.T_3, .point "T_4" pr.T_4, .point "T_5" pr.T_5, .point "T_6" pr.T_6], ?_, ?_, ?_⟩⟩
      · simp [logU]
      · rw [← eU]; exact hd
      · rw [← eU]; exact k2 h0 _ _ rfl rfl
  · push Not at h0
    obtain ⟨u, hu, rfl⟩ := h0
    obtain ⟨pre, q1, q2⟩ := ippChallenges_at _ _ _ hu
    rw [j2] at q1
    rw [← j9] at q1
    exact ⟨pre, "u", q1, .inr ⟨pre, rfl, .inl q2.symm⟩⟩

omit [Field F] [AddCommGroup G] [Module F G] [DecidableEq G] in
theorem prefix_of_mem_drawsFrom : ∀ (t acc d : Transcript F G), d ∈ drawsFrom acc t → acc <+: d
  | [], _, _, h => by simp [drawsFrom] at h
  | e :: t, acc, d, h => by
    rw [drawsFrom] at h
    split at h
    · rcases List.mem_cons.mp h with rfl | h
      · exact List.prefix_append _ _
      · exact (List.prefix_append _ _).trans (prefix_of_mem_drawsFrom t _ d h)
    · exact (List.prefix_append _ _).trans (prefix_of_mem_drawsFrom t _ d h)

omit [DecidableEq G] in
/-- The draws along the logs of verifiers with different labels or commitments are different. -/
theorem labelled_disjoint {label label' : String} {V V' : List G} {rest rest' : Transcript F G} (hne : ¬ (label = label' ∧ V = V')) {d : Transcript F G} {n n' : ℕ}
    (h1 : d ∈ draws (.init label :: .domSep "r1cs v1" :: V.map (TEvent.point "V") ++ .u64 "m" n :: rest)) (h2 : d ∈ draws (.init label' :: .domSep "r1cs v1" :: V'.map (TEvent.point "V") ++ .u64 "m" n' :: rest')) : False := by
  have key : ∀ (l : String) (W : List G) (k : ℕ) (q : Transcript F G), d ∈ draws (.init l :: .domSep "r1cs v1" :: W.map (TEvent.point "V") ++ .u64 "m" k :: q) → (.init l :: .domSep "r1cs v1" :: (W.map (TEvent.point "V") ++ [.u64 "m" k]) : Transcript F G) <+: d := by
    intro l W k q hd
    unfold draws at hd
    have h0 : drawsFrom [] (.init l :: .domSep "r1cs v1" :: (W.map (TEvent.point "V") ++ [.u64 "m" k]) : Transcript F G) = [] := drawsFrom_none _ _ (by
      intro e he
      simp only [List.mem_cons, List.mem_append, List.mem_map, List.mem_nil_iff, or_false] at he
      rcases he with rfl | rfl | ⟨P, -, rfl⟩ | rfl <;> rfl)
    rw [show (.init l :: .domSep "r1cs v1" :: W.map (TEvent.point "V") ++ .u64 "m" k :: q : Transcript F G) = (.init l :: .domSep "r1cs v1" :: (W.map (TEvent.point "V") ++ [.u64 "m" k])) ++ q by simp, drawsFrom_append, h0, List.nil_append, List.nil_append] at hd
    exact prefix_of_mem_drawsFrom _ _ _ hd
  obtain ⟨a, ha⟩ := key _ _ _ _ h1
  obtain ⟨b, hb⟩ := key _ _ _ _ h2
  rw [← ha] at hb
  simp only [List.cons_append, List.cons.injEq, TEvent.init.injEq] at hb
  exact hne ⟨hb.1.symm, points_inj (n := n) (n' := n') (t := V.map (TEvent.point "V") ++ [.u64 "m" n] ++ a) ⟨a, rfl⟩ ⟨b, hb.2.2⟩⟩

/-- **C76**, the game: a proof has been made (by the code's `prove`) for a transcript with some label and commitments.  Somebody who knows everything about it, asks the oracle `Q` more questions, and sends the proof to a verifier of
their choice, whose label or commitments are different (and who checks any statement), has it accepted with at most `3 (Q + D) + 1` in `|F|` of the answers. -/
theorem c76_game [Fintype F] {env : Env F G} (hb : env.batchInvert [] = .ok ([], 1)) {g h : G} {label : String} {p : Prover F G} (hr : p.Reach env g h [.init label]) {c : Coins F} (hcoins : c.Blind) {Gs Hs : List G}
    {pr : R1CSProof F G} {T : Transcript F G} (hp : p.prove env c Gs Hs = .ok (pr, T)) (hh : Hiding F g h Gs Hs) (A : Replayer F G)
    (hA : ∀ cs, ∃ label', (A.target cs).Labelled label' ∧ ¬ (label = label' ∧ List.zipWith (commitScalar g h) p.v p.vBlinding = (A.target cs).V)) (Q : ℕ) :
    A.successes env pr T g h Gs Hs Q (5 + pr.ipp.L.length) ≤ ((Q + (5 + pr.ipp.L.length)) * 3 + 1) * Fintype.card F ^ (Q + (5 + pr.ipp.L.length)) := by
  classical
  obtain ⟨hw, hg, hh', -, -⟩ := hr.inv
  obtain ⟨labels, -, hT⟩ := c09_prove_log env g h [.init label] p hr c Gs Hs pr T hp
  obtain ⟨bad, hbad⟩ := c76_rule hb hw hcoins hp (by rw [hg, hh']; exact hh)
  rw [hg, hh'] at hbad
  have hT' : ∃ n rest, T = .init label :: .domSep "r1cs v1" :: (List.zipWith (commitScalar g h) p.v p.vBlinding).map (TEvent.point "V") ++ .u64 "m" n :: rest := by
    rw [hT]
    unfold fullLog preLog
    simp only [List.append_assoc, List.cons_append, List.nil_append]
    exact ⟨_, _, rfl⟩
  obtain ⟨n, rest, hT'⟩ := hT'
  have free : ∀ (cs : List F) (O : Oracle F G), AgreeOn (seen env.oracle T O) O ((A.target cs).proofLog pr) := by
    intro cs O pre l hpre
    unfold seen
    rw [if_neg]
    intro hd
    obtain ⟨label', ⟨-, e⟩, hne⟩ := hA cs
    have h2 := mem_draws hpre
    unfold Verifier.proofLog at h2
    rw [e] at h2
    rw [hT'] at hd
    exact labelled_disjoint hne hd (by simpa only [List.append_assoc, List.cons_append, List.nil_append] using h2)
  have acc : ∀ (cs : List F) (O : Oracle F G) (r : F) (T' : Transcript F G), (A.target cs).verify { env with oracle := seen env.oracle T O } pr g h Gs Hs r = .ok T' →
      T' = (A.target cs).proofLog pr ∧ ∀ O', AgreeOn O O' T' → (A.target cs).verify { env with oracle := O' } pr g h Gs Hs r = .ok T' := by
    intro cs O r T' hv
    obtain ⟨label', ⟨hd, -⟩, -⟩ := hA cs
    obtain ⟨e, -, -⟩ := verify_proofLog hd hv
    refine ⟨e, fun O' hO' => ?_⟩
    refine c09_verify_challenges { env with oracle := seen env.oracle T O } _ _ g h Gs Hs r T' hv O' fun pre l hpre => ?_
    rw [← hO' pre l hpre]
    exact free cs O pre l (e ▸ hpre)
  refine count_wins _ (count_hit bad (A.game pr Q) (Q + (5 + pr.ipp.L.length))) (fun cs r => A.Succeeds env pr T g h Gs Hs Q (List.ofFn cs) r) fun cs r r' hrr h1 h2 => ?_
  obtain ⟨O, T1, a1, a2⟩ := h1
  obtain ⟨O', T2, b1, b2⟩ := h2
  have hlen : (List.ofFn cs).length = Q + (5 + pr.ipp.L.length) := by simp
  generalize List.ofFn cs = l at *
  obtain ⟨e1, f1⟩ := acc _ _ _ _ a2
  obtain ⟨e2, f2⟩ := acc _ _ _ _ b2
  have hlog : ∀ e ∈ (A.target (l.take Q)).transcript, e.isChallenge = false := by
    obtain ⟨label', ⟨-, e⟩, -⟩ := hA (l.take Q)
    rw [e]
    intro ev hev
    simp only [List.mem_cons, List.mem_map] at hev
    rcases hev with rfl | rfl | ⟨P, -, rfl⟩ <;> rfl
  have asked : ∀ d ∈ draws T1, d ∈ askedBy (A.game pr Q) l := by
    have hg := Forger.game_asked (⟨⟨A.ask, fun _ => pr⟩, fun _ => []⟩ : Forger F G) (A.target (l.take Q)) Q hlen (by
      rw [length_draws_proofLog _ _ hlog]
      have := Nat.min_le_left pr.ipp.L.length pr.ipp.R.length
      exact Nat.add_le_add_left this 5)
    intro d hd
    rw [e1] at hd
    have hd := hg d hd
    have e : askedBy (A.game pr Q) l = askedBy (Forger.game (⟨⟨A.ask, fun _ => pr⟩, fun _ => []⟩ : Forger F G) (A.target (l.take Q)) Q) l := by
      unfold askedBy
      refine List.map_congr_left fun i _ => ?_
      unfold Replayer.game Forger.game
      split
      · rfl
      · rename_i hge
        rw [List.length_take] at hge
        rw [List.take_take, Nat.min_eq_left (by omega)]
    rw [e]
    exact hd
  have hO : AgreeOn O O' T1 := fun pre l' hpre => a1.agree b1 (asked _ (mem_draws hpre))
  have g1 := f1 O' hO
  have g2 := f2 O' fun _ _ _ => rfl
  exact ⟨O', T1, b1, asked, hbad O' _ r r' T1 T2 hrr g1 g2⟩

/-! ## The same transcript, another parameter -/

omit [AddCommGroup G] [Module F G] [DecidableEq G] in
/-- The verifier's weights with another constant in the last constraint: only `wc` changes. -/
theorem verifier_flattenLoop_const (z a a' : F) (lc : LC F) : ∀ (pre : List (LC F)) (e : F) (w wt : Weights F), Verifier.flattenLoop z e (pre ++ [lc.sub (LC.ofScalar a)]) w = .ok wt →
    Verifier.flattenLoop z e (pre ++ [lc.sub (LC.ofScalar a')]) w = .ok { wt with wc := wt.wc + e * z ^ pre.length * (a' - a) }
  | [], e, w, wt, h => by
    simp only [List.nil_append, Verifier.flattenLoop, LC.sub, LC.ofScalar, List.map_cons, List.map_nil, List.foldlM_append, List.foldlM_cons, List.foldlM_nil, Verifier.flattenTerm, bind, Except.bind, pure, Except.pure] at h ⊢
    cases hf : List.foldlM (Verifier.flattenTerm e) w lc.terms with
    | error err => rw [hf] at h; cases h
    | ok w1 =>
      rw [hf] at h
      simp only at h ⊢
      obtain rfl := Except.ok.inj h
      simp only [List.length_nil, pow_zero, Except.ok.injEq]
      congr 1
      ring
  | c :: cs, e, w, wt, h => by
    simp only [List.cons_append, Verifier.flattenLoop, bind, Except.bind] at h ⊢
    cases hf : List.foldlM (Verifier.flattenTerm e) w c.terms with
    | error err => rw [hf] at h; cases h
    | ok w1 =>
      rw [hf] at h
      simp only at h ⊢
      rw [verifier_flattenLoop_const z a a' lc cs _ w1 wt h, List.length_cons, pow_succ']
      congr 3
      ring

/-- **C76**, one parameter: a proof is accepted for one public parameter only.  For every gadget that uses its parameter in the last constraint only (`Closes`), two verifiers of the same commitments that accept the same bytes (for two values of
their random scalars) have the same parameter, if no challenge is zero. -/
theorem c76_one_parameter {env : Env F G} {dv : F → List G → Drv (Verifier F G) Unit} (hdv : Closes dv) {a a' : F} {coms : List G} {s0 s s' : Verifier F G} (h1 : dv a coms s0 = (.ok (), s)) (h1' : dv a' coms s0 = (.ok (), s'))
    (hd : s.deferred = []) {pr : R1CSProof F G} (hb : pr.ipp.L ≠ [] ∨ env.batchInvert [] = .ok ([], 1)) {g h : G} (hg : g ≠ 0) {Gs Hs : List G} {r₁ r₂ r₁' r₂' : F} (hr : r₁ ≠ r₂) (hr' : r₁' ≠ r₂') {t₁ t₂ t₁' t₂' : Transcript F G}
    (a₁ : s.verify env pr g h Gs Hs r₁ = .ok t₁) (a₂ : s.verify env pr g h Gs Hs r₂ = .ok t₂) (b₁ : s'.verify env pr g h Gs Hs r₁' = .ok t₁') (b₂ : s'.verify env pr g h Gs Hs r₂' = .ok t₂')
    (h0 : ∀ pre l, pre ++ [TEvent.challenge l] <+: t₁ → env.oracle (pre ++ [.challenge l]) ≠ 0) : a = a' := by
  obtain ⟨pre, lc, hc, hall⟩ := hdv a coms s0 s h1
  obtain rfl : s' = { s with constraints := pre ++ [lc.sub (LC.ofScalar a')] } := by
    have := hall a'
    rw [h1'] at this
    exact (Prod.mk.inj this).2
  obtain ⟨sr, wt, k, j1, j2, -, -, -, -, -, -, j9⟩ := verify_inv a₁
  rw [(ippChallenges_log _ _ _).1] at j9
  have pW : logW sr.transcript pr <+: t₁ := by
    rw [j9, Transcript.ippDomainSep]
    simp only [List.append_assoc]
    exact List.prefix_append _ _
  have pX : logU sr.transcript pr ++ [.challenge "x"] <+: t₁ := (List.prefix_append (logX sr.transcript pr) _).trans pW
  have pU : logU sr.transcript pr <+: t₁ := (List.prefix_append _ _).trans pX
  have pZ : logY sr.transcript pr ++ [.challenge "z"] <+: t₁ := (List.prefix_append (logZ sr.transcript pr) _).trans pU
  have hx : (drawn env.oracle sr.transcript pr).x ≠ 0 := h0 _ _ pX
  have hz : (drawn env.oracle sr.transcript pr).z ≠ 0 := h0 _ _ pZ
  have hu : ∀ u ∈ ippRounds env.oracle sr.transcript pr (nextPowerOfTwo sr.numVars), u ≠ 0 := by
    intro u hu
    obtain ⟨q, q1, q2⟩ := ippChallenges_at _ _ _ hu
    rw [j2, ← j9] at q1
    rw [q2]
    exact h0 _ _ q1
  obtain ⟨sr1, wt1, k1, k2, k3, -⟩ := c20_two_scalars env s pr g h Gs Hs r₁ r₂ hr t₁ t₂ a₁ a₂ (fun s2 e => by
    rw [j1] at e
    rw [← Except.ok.inj e]
    exact hu) hb
  rw [j1] at k1
  obtain rfl := Except.ok.inj k1
  have e1 := crc_onePhase (s := s.start pr) hd j1
  have hu' : ∀ s2, (Verifier.start { s with constraints := pre ++ [lc.sub (LC.ofScalar a')] } pr).createRandomizedConstraints env = .ok s2 → s2 = { sr with constraints := pre ++ [lc.sub (LC.ofScalar a')] } := by
    intro s2 e2
    rw [crc_onePhase (s := Verifier.start { s with constraints := pre ++ [lc.sub (LC.ofScalar a')] } pr) hd e2, e1]
    rfl
  obtain ⟨sr2, wt2, l1, l2, l3, -⟩ := c20_two_scalars env _ pr g h Gs Hs r₁' r₂' hr' t₁' t₂' b₁ b₂ (fun s2 e => by
    rw [hu' s2 e]
    exact hu) hb
  obtain rfl := hu' sr2 l1
  have hsr : sr.constraints = pre ++ [lc.sub (LC.ofScalar a)] := by rw [e1]; exact hc
  unfold Verifier.flattenedConstraints at k2 l2
  rw [hsr] at k2
  have l2' := verifier_flattenLoop_const (drawn env.oracle sr.transcript pr).z a a' lc pre _ _ _ k2
  rw [show Verifier.flattenLoop _ _ _ _ = _ from l2'] at l2
  obtain rfl := Except.ok.inj l2
  unfold polyCheck at k3 l3
  have key : ((drawn env.oracle sr.transcript pr).x ^ 2 * ((drawn env.oracle sr.transcript pr).z * (drawn env.oracle sr.transcript pr).z ^ pre.length * (a' - a))) • g = 0 := by
    refine Eq.trans ?_ (sub_eq_zero.mpr (l3.trans k3.symm))
    simp only [delta]
    module
  rcases smul_eq_zero.mp key with h | h
  · rcases mul_eq_zero.mp h with h | h
    · exact absurd (pow_eq_zero_iff (by norm_num) |>.mp h) hx
    · rcases mul_eq_zero.mp h with h | h
      · exact absurd h (mul_ne_zero hz (pow_ne_zero _ hz))
      · exact (sub_eq_zero.mp h).symm
  · exact absurd h hg

omit [Module F G] in
theorem verifyProof_inv [Module F G] {env : Env F G} {label : String} {d : Drv (Verifier F G) Unit} {pr : R1CSProof F G} {g h : G} {Gs Hs : List G} {r : F} (hv : verifyProof env label d pr g h Gs Hs r = .ok ()) :
    ∃ s t, d (Verifier.new [.init label]) = (.ok (), s) ∧ s.verify env pr g h Gs Hs r = .ok t := by
  unfold verifyProof at hv
  rcases hd : d (Verifier.new [.init label]) with ⟨_ | ⟨⟩, s⟩
  · rw [hd] at hv; cases hv
  · rw [hd] at hv
    simp only at hv
    cases ht : s.verify env pr g h Gs Hs r with
    | error e => rw [ht] at hv; cases hv
    | ok t => exact ⟨s, t, rfl, ht⟩

/-- **C76**, one parameter, for `verify_proof`. -/
theorem c76_verify_proof {env : Env F G} (hb : env.batchInvert [] = .ok ([], 1)) (hO : ∀ t, env.oracle t ≠ 0) {dv : F → List G → Drv (Verifier F G) Unit} (hdv : Closes dv) (h1p : ∀ a coms, OnePhase (dv a coms)) {a a' : F} {coms : List G}
    {label : String} {pr : R1CSProof F G} {g h : G} (hg : g ≠ 0) {Gs Hs : List G} {r₁ r₂ r₁' r₂' : F} (hr : r₁ ≠ r₂) (hr' : r₁' ≠ r₂')
    (a₁ : verifyProof env label (dv a coms) pr g h Gs Hs r₁ = .ok ()) (a₂ : verifyProof env label (dv a coms) pr g h Gs Hs r₂ = .ok ())
    (b₁ : verifyProof env label (dv a' coms) pr g h Gs Hs r₁' = .ok ()) (b₂ : verifyProof env label (dv a' coms) pr g h Gs Hs r₂' = .ok ()) : a = a' := by
  obtain ⟨s, t₁, e1, a₁⟩ := verifyProof_inv a₁
  obtain ⟨s2, t₂, e2, a₂⟩ := verifyProof_inv a₂
  obtain ⟨s3, t₃, e3, b₁⟩ := verifyProof_inv b₁
  obtain ⟨s4, t₄, e4, b₂⟩ := verifyProof_inv b₂
  obtain rfl : s = s2 := by rw [e1] at e2; exact (Prod.mk.inj e2).2
  obtain rfl : s3 = s4 := by rw [e3] at e4; exact (Prod.mk.inj e4).2
  exact c76_one_parameter hdv e1 e3 ((h1p a coms).new e1) (.inr hb) hg hr hr' a₁ a₂ b₁ b₂ fun _ _ _ => hO _

/-- `verify_proof` accepts these bytes, with the parameter `a`, for two values of its random scalar. -/
def AcceptedTwice (env : Env F G) (label : String) (d : Drv (Verifier F G) Unit) (pr : R1CSProof F G) (g h : G) (Gs Hs : List G) : Prop :=
  ∃ r r' : F, r ≠ r' ∧ verifyProof env label d pr g h Gs Hs r = .ok () ∧ verifyProof env label d pr g h Gs Hs r' = .ok ()

/-- **C76**, one parameter: the gadgets of the code that take the parameter. -/
theorem c76_gadgets [ByteRep F] {env : Env F G} (hb : env.batchInvert [] = .ok ([], 1)) (hO : ∀ t, env.oracle t ≠ 0) {a a' : F} {coms : List G} {label : String} {pr : R1CSProof F G} {g h : G} (hg : g ≠ 0) {Gs Hs : List G}
    (dv : F → List G → Drv (Verifier F G) Unit)
    (hdv : (∃ constants rounds, dv = fun a => verifyMimcPreimage env a constants rounds) ∨ ∃ (p : PoseidonParams F) (sbox : SboxType), (dv = fun a => verifyPoseidon2 env a p sbox g h) ∨ (dv = fun a => verifyPoseidon4 env a p sbox g h) ∨
      (dv = fun a => verifyPoseidon8 env a p sbox g h) ∨ ∃ depth, (dv = fun a => verifyInclusion4 env a depth p sbox g h) ∨ dv = fun a => verifyInclusion8 env a depth p sbox g h)
    (h1 : AcceptedTwice env label (dv a coms) pr g h Gs Hs) (h2 : AcceptedTwice env label (dv a' coms) pr g h Gs Hs) : a = a' := by
  obtain ⟨r₁, r₂, hr, a₁, a₂⟩ := h1
  obtain ⟨r₁', r₂', hr', b₁, b₂⟩ := h2
  rcases hdv with ⟨k, n, rfl⟩ | ⟨p, sbox, rfl | rfl | rfl | ⟨depth, rfl | rfl⟩⟩
  · exact c76_verify_proof hb hO (Closes.mimc env k n) (fun _ _ => OnePhase.mimcPreimage _ _ _ _ _) hg hr hr' a₁ a₂ b₁ b₂
  · exact c76_verify_proof hb hO (Closes.poseidon2 env p sbox g h) (fun _ _ => OnePhase.poseidon2 _ _ _ _ _ _ _) hg hr hr' a₁ a₂ b₁ b₂
  · exact c76_verify_proof hb hO (Closes.poseidon4 env p sbox g h) (fun _ _ => OnePhase.poseidon4 _ _ _ _ _ _ _) hg hr hr' a₁ a₂ b₁ b₂
  · exact c76_verify_proof hb hO (Closes.poseidon8 env p sbox g h) (fun _ _ => OnePhase.poseidon8 _ _ _ _ _ _ _) hg hr hr' a₁ a₂ b₁ b₂
  · exact c76_verify_proof hb hO (Closes.inclusion4 env depth p sbox g h) (fun _ _ => OnePhase.inclusion4 _ _ _ _ _ _ _ _) hg hr hr' a₁ a₂ b₁ b₂
  · exact c76_verify_proof hb hO (Closes.inclusion8 env depth p sbox g h) (fun _ _ => OnePhase.inclusion8 _ _ _ _ _ _ _ _) hg hr hr' a₁ a₂ b₁ b₂

/-! ## The theorems apply -/

/-- An honest proof that 3 and 4 hash to 68 (one round of MiMC) is accepted for 68, and for no other image. -/
example (c : Coins Z101) : ∃ (pr : R1CSProof Z101 V6) (coms : List V6), genProof (Env.std fun _ => 2) "mimc" (unit6 4) (unit6 5) c [unit6 0, unit6 1] [unit6 2, unit6 3] (proveMimcPreimage (Env.std fun _ => 2) [3, 4] (some [8, 9]) 68 [1] 1 none) = .ok (pr, coms) ∧
    ∀ image, AcceptedTwice (Env.std fun _ => 2) "mimc" (verifyMimcPreimage (Env.std fun _ => 2) image [1] 1 coms) pr (unit6 4) (unit6 5) [unit6 0, unit6 1] [unit6 2, unit6 3] ↔ image = 68 := by
  have hE : EndToEnd (Env.std fun _ => (2 : Z101)) (Env.std fun _ => (2 : Z101)) 2 [(3, 8), (4, 9)] (proveMimcPreimage (G := V6) (Env.std fun _ => 2) [3, 4] (some [8, 9]) 68 [1] 1 none) (verifyMimcPreimage (Env.std fun _ => 2) 68 [1] 1) :=
    HonestPair.endToEnd (c32_complete (F := Z101) _ _ rfl 3 4 68 [1] 1 (by decide +kernel) 8 9 _ _ (.inl rfl) none) rfl (fun _ => show (2 : Z101) ≠ 0 by decide) (by decide) (.inl (by decide))
  obtain ⟨pr, coms, h1, h2, -⟩ := hE "mimc" (unit6 4) (unit6 5) c [unit6 0, unit6 1] [unit6 2, unit6 3] 0 (by decide) (by decide)
  obtain ⟨pr', coms', h1', h2', -⟩ := hE "mimc" (unit6 4) (unit6 5) c [unit6 0, unit6 1] [unit6 2, unit6 3] 1 (by decide) (by decide)
  obtain ⟨rfl, rfl⟩ : pr = pr' ∧ coms = coms' := by rw [h1] at h1'; exact Prod.mk.inj (Except.ok.inj h1')
  have h68 : AcceptedTwice (Env.std fun _ => 2) "mimc" (verifyMimcPreimage (Env.std fun _ => 2) 68 [1] 1 coms) pr (unit6 4) (unit6 5) [unit6 0, unit6 1] [unit6 2, unit6 3] := ⟨0, 1, by decide, h2, h2'⟩
  refine ⟨pr, coms, h1, fun image => ⟨fun h => ?_, fun h => h ▸ h68⟩⟩
  obtain ⟨r₁, r₂, hr, a₁, a₂⟩ := h
  obtain ⟨r₁', r₂', hr', b₁, b₂⟩ := h68
  exact c76_verify_proof (by simp [Env.std]) (fun _ => show (2 : Z101) ≠ 0 by decide) (Closes.mimc _ [1] 1) (fun _ _ => OnePhase.mimcPreimage _ _ _ _ _) (by decide) hr hr' a₁ a₂ b₁ b₂

/-- A prover with two committed values (and randomized constraints), over the six generators. -/
def demoP6 : Prover Z101 V6 :=
  match (((Prover.new (unit6 4) (unit6 5) [.init "demo"] 0 : Prover Z101 V6).commit 3 7).2.commit 4 8).2.run1 (Env.std (fun _ => 2)) (demoProduct (.committed 0, .committed 1)) with
  | .ok (_, p) => p
  | .error _ => Prover.new 0 0 [] 0

theorem demoP6_reach : demoP6.Reach (Env.std fun _ => 2) (unit6 4) (unit6 5) [.init "demo"] :=
  .gadget (a := ()) (c := demoProduct (.committed 0, .committed 1)) (.commit _ _ (.commit _ _ (.new 0))) rfl

theorem demoP6_proves : ∃ pr T, demoP6.prove (Env.std fun _ => 2) ⟨1, 2, 3, fun _ => 4, fun _ => 5, 6, 7, 8, fun _ => 9, fun _ => 10, 11, 12, 13, 14, 15⟩ [unit6 0, unit6 1] [unit6 2, unit6 3] = .ok (pr, T) := by
  have : (demoP6.prove (Env.std fun _ => 2) ⟨1, 2, 3, fun _ => 4, fun _ => 5, 6, 7, 8, fun _ => 9, fun _ => 10, 11, 12, 13, 14, 15⟩ [unit6 0, unit6 1] [unit6 2, unit6 3]).isOk = true := by decide +kernel
  rcases h : demoP6.prove (Env.std fun _ => 2) ⟨1, 2, 3, fun _ => 4, fun _ => 5, 6, 7, 8, fun _ => 9, fun _ => 10, 11, 12, 13, 14, 15⟩ [unit6 0, unit6 1] [unit6 2, unit6 3] with e | ⟨pr, T⟩
  · rw [h] at this; cases this
  · exact ⟨pr, T, rfl⟩

/-- A verifier for another label, with two commitments, and any constraints. -/
def otherV (q : V6 × V6 × ℕ × List (LC Z101)) : Verifier Z101 V6 :=
  { (((Verifier.new [.init "other"] 0 : Verifier Z101 V6).commit q.1).2.commit q.2.1).2 with numVars := q.2.2.1, constraints := q.2.2.2 }

/-- Somebody who sends the proof to such a verifier (chosen after five questions) succeeds with at most 3 D + 16 in 101 of the answers. -/
example (ask : List Z101 → Transcript Z101 V6) (choice : List Z101 → V6 × V6 × ℕ × List (LC Z101)) : ∃ pr T, demoP6.prove (Env.std fun _ => 2)
      ⟨1, 2, 3, fun _ => 4, fun _ => 5, 6, 7, 8, fun _ => 9, fun _ => 10, 11, 12, 13, 14, 15⟩ [unit6 0, unit6 1] [unit6 2, unit6 3] = .ok (pr, T) ∧
    Replayer.successes ⟨ask, fun cs => otherV (choice cs)⟩ (Env.std fun _ => 2) pr T (unit6 4) (unit6 5) [unit6 0, unit6 1] [unit6 2, unit6 3] 5 (5 + pr.ipp.L.length) ≤ ((5 + (5 + pr.ipp.L.length)) * 3 + 1) * 101 ^ (5 + (5 + pr.ipp.L.length)) := by
  obtain ⟨pr, T, h⟩ := demoP6_proves
  refine ⟨pr, T, h, ?_⟩
  have := c76_game (by simp [Env.std]) demoP6_reach (.inl (by decide)) h unit6_independent.hiding ⟨ask, fun cs => otherV (choice cs)⟩ (fun cs => ⟨"other", ⟨rfl, rfl⟩, fun hc => absurd hc.1 (by decide)⟩) 5
  rw [ZMod.card] at this
  exact this

end Bp
