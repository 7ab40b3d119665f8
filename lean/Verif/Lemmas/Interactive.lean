import Verif.Spec.Interactive
import Verif.Lemmas.FiatShamir2
import Verif.Lemmas.Attack
import Mathlib.Tactic.Linarith

set_option linter.unusedSectionVars false

/-! # Rewinding an interactive prover -/

namespace Bp
variable {F G : Type} [Field F]

/-! ## Counting -/

/-- Enough challenges at each draw lead on. -/
def Alive (W : List F → Prop) : List ℕ → List F → Prop
  | [], cs => W cs
  | m :: thr, cs => (m : ℕ∞) < {c | Alive W thr (cs ++ [c])}.encard

theorem dead_count [Fintype F] {W : List F → Prop} : ∀ (thr : List ℕ) (cs : List F), ¬ Alive W thr cs → count thr.length (fun x => W (cs ++ x)) * Fintype.card F ≤ thr.sum * Fintype.card F ^ thr.length
  | [], cs, h => by
    rw [count_none]
    · simp
    · intro x hx hw
      obtain rfl := List.length_eq_zero_iff.mp hx
      exact h (by simpa [Alive] using hw)
  | m :: thr, cs, h => by
    classical
    have hle : {c | Alive W thr (cs ++ [c])}.encard ≤ m := not_lt.mp h
    have hcard : (Finset.univ.filter fun c : F => Alive W thr (cs ++ [c])).card ≤ m := by
      have e : ((Finset.univ.filter fun c : F => Alive W thr (cs ++ [c]) : Finset F) : Set F) = {c | Alive W thr (cs ++ [c])} := by ext; simp
      rw [← e, Set.encard_coe_eq_coe_finsetCard] at hle
      exact_mod_cast hle
    rw [List.length_cons, count_succ, Finset.sum_mul, List.sum_cons]
    have hb : ∀ c ∈ Finset.univ, count thr.length (fun x => W (cs ++ c :: x)) * Fintype.card F ≤ (if Alive W thr (cs ++ [c]) then Fintype.card F ^ thr.length * Fintype.card F else 0) + thr.sum * Fintype.card F ^ thr.length := by
      intro c _
      split
      · exact (Nat.mul_le_mul_right _ (count_le _)).trans (Nat.le_add_right _ _)
      · rename_i hd
        have := dead_count thr (cs ++ [c]) hd
        simpa using this
    refine (Finset.sum_le_sum hb).trans ?_
    rw [Finset.sum_add_distrib, Finset.sum_const, ← Finset.sum_filter, Finset.sum_const, Finset.card_univ, smul_eq_mul, smul_eq_mul, pow_succ, add_mul]
    refine Nat.add_le_add (Nat.mul_le_mul_right _ hcard) (le_of_eq (by ring))

theorem count_pairs [Fintype F] {Q S : ℕ} (P : List F → Prop) (hP : count Q P * Fintype.card F ≤ S * Fintype.card F ^ Q) (W : (Fin Q → F) → F → Prop) (hW : ∀ cs r r', r ≠ r' → W cs r → W cs r' → P (List.ofFn cs)) :
    Nat.card {p : (Fin Q → F) × F // W p.1 p.2} ≤ (S + 1) * Fintype.card F ^ Q := by
  classical
  have hbad := hP
  unfold count at hbad
  rw [Nat.card_eq_fintype_card, Fintype.card_subtype] at hbad ⊢
  have hsub : (Finset.univ.filter fun p : (Fin Q → F) × F => W p.1 p.2) ⊆ (Finset.univ.filter fun cs : Fin Q → F => P (List.ofFn cs)) ×ˢ Finset.univ ∪
      Finset.univ.filter fun p : (Fin Q → F) × F => W p.1 p.2 ∧ ¬ P (List.ofFn p.1) := by
    intro p hp
    simp only [Finset.mem_filter, Finset.mem_univ, true_and] at hp
    by_cases h : P (List.ofFn p.1)
    · exact Finset.mem_union_left _ (by simpa using h)
    · exact Finset.mem_union_right _ (by simpa using ⟨hp, h⟩)
  refine (Finset.card_le_card hsub).trans ((Finset.card_union_le _ _).trans ?_)
  rw [Nat.add_mul, one_mul]
  refine Nat.add_le_add ?_ ?_
  · rw [Finset.card_product, Finset.card_univ]
    exact hbad
  · have : (Finset.univ : Finset (Fin Q → F)).card = Fintype.card F ^ Q := by simp
    rw [← this]
    refine Finset.card_le_card_of_injOn (fun p => p.1) (fun _ _ => Finset.mem_coe.mpr (Finset.mem_univ _)) ?_
    intro p hp p' hp' e
    simp only [Finset.coe_filter, Finset.mem_univ, true_and, Set.mem_ofPred_eq] at hp hp'
    obtain ⟨c, r⟩ := p
    obtain ⟨c', r'⟩ := p'
    obtain rfl : c = c' := e
    by_contra hne
    exact hp.2 (hW c r r' (fun h => hne (by rw [h])) hp.1 hp'.1)

/-! ## The messages of the prover -/

variable [AddCommGroup G] [Module F G]

theorem roundMsgs_range : ∀ (k : ℕ) (l r : ℕ → G), roundMsgs (F := F) [] ((List.range k).map fun i => (l i, r i)) = (List.range k).map fun i => [.point "L" (l i), .point "R" (r i), .challenge "u"]
  | 0, _, _ => rfl
  | k + 1, l, r => by
    rw [List.range_succ_eq_map]
    simp only [List.map_cons, List.map_map, roundMsgs, List.nil_append]
    rw [show ((fun i => (l i, r i)) ∘ Nat.succ) = fun i => (l (i + 1), r (i + 1)) from rfl, roundMsgs_range k]
    rfl

theorem roundMsgs_range' (pre : Transcript F G) : ∀ (k : ℕ) (l r : ℕ → G), roundMsgs pre ((List.range k).map fun i => (l i, r i)) =
    (List.range k).map fun i => (if i = 0 then pre else []) ++ [.point "L" (l i), .point "R" (r i), .challenge "u"]
  | 0, _, _ => rfl
  | k + 1, l, r => by
    rw [List.range_succ_eq_map]
    simp only [List.map_cons, List.map_map, roundMsgs, if_pos]
    rw [show ((fun i => (l i, r i)) ∘ Nat.succ) = fun i => (l (i + 1), r (i + 1)) from rfl, roundMsgs_range k]
    simp [Function.comp_def]

/-- The message that is sent after the challenges `pre ++ cs`. -/
def Interactive.msg (P : Interactive F G) (pre : List F) (N : ℕ) (cs : List F) : Transcript F G :=
  if cs.length = 0 then [.point "A_I2" (P.A_I2 (pre ++ cs)), .point "A_O2" (P.A_O2 (pre ++ cs)), .point "S2" (P.S2 (pre ++ cs)), .challenge "y"] else
  if cs.length = 1 then [.challenge "z"] else
  if cs.length = 2 then [.point "T_1" (P.T_1 (pre ++ cs)), .point "T_3" (P.T_3 (pre ++ cs)), .point "T_4" (P.T_4 (pre ++ cs)), .point "T_5" (P.T_5 (pre ++ cs)), .point "T_6" (P.T_6 (pre ++ cs)), .challenge "u"] else
  if cs.length = 3 then [.challenge "x"] else
  if cs.length = 4 then [.scalar "t_x" (P.t_x (pre ++ cs)), .scalar "t_x_blinding" (P.t_x_blinding (pre ++ cs)), .scalar "e_blinding" (P.e_blinding (pre ++ cs)), .challenge "w"] else
  (if cs.length = 5 then [.domSep "ipp v1", .u64 "n" N] else []) ++ [.point "L" (P.L (pre ++ cs)), .point "R" (P.R (pre ++ cs)), .challenge "u"]

/-- The messages sent so far. -/
def Interactive.sent (P : Interactive F G) (pre : List F) (N : ℕ) (cs : List F) : List (Transcript F G) := (List.range cs.length).map fun i => P.msg pre N (cs.take i)

theorem Interactive.sent_snoc (P : Interactive F G) (pre : List F) (N : ℕ) (cs : List F) (c : F) : P.sent pre N (cs ++ [c]) = P.sent pre N cs ++ [P.msg pre N cs] := by
  simp only [sent, List.length_append, List.length_singleton, List.range_succ, List.map_append, List.map_cons, List.map_nil]
  congr 1
  · refine List.map_congr_left fun i hi => ?_
    rw [List.take_append_of_le_length (le_of_lt (List.mem_range.mp hi))]
  · rw [List.take_append_of_le_length le_rfl, List.take_length]

theorem take_pre {pre cs : List F} {i j : ℕ} (h : i = pre.length + j) : (pre ++ cs).take i = pre ++ cs.take j := by
  subst h
  exact List.take_length_add_append j

theorem Interactive.sent_all (P : Interactive F G) (pre : List F) (k : ℕ) (cs : List F) (h : cs.length = 5 + k) : P.sent pre (2 ^ k) cs = proofMsgs (2 ^ k) (P.proof pre.length k (pre ++ cs)) := by
  have hz : ∀ (l r : ℕ → G), ((List.range k).map l).zip ((List.range k).map r) = (List.range k).map fun i => (l i, r i) := fun l r => List.zip_map'
  have hlen : ∀ i, i ≤ 5 + k → (cs.take i).length = i := fun i hi => by rw [List.length_take]; omega
  rw [proofMsgs, sent, h, Nat.add_comm 5 k]
  simp only [proof, hz]
  rw [roundMsgs_range', List.range_succ_eq_map, List.range_succ_eq_map, List.range_succ_eq_map, List.range_succ_eq_map, List.range_succ_eq_map]
  simp only [List.map_cons, List.map_map]
  rw [take_pre (i := pre.length) (j := 0) rfl, take_pre (j := 2) rfl, take_pre (j := 4) rfl]
  refine congrArg₂ _ ?_ (congrArg₂ _ ?_ (congrArg₂ _ ?_ (congrArg₂ _ ?_ (congrArg₂ _ ?_ ?_))))
  · simp [msg]
  · simp [msg, hlen 1 (by omega)]
  · simp [msg, hlen 2 (by omega)]
  · simp [msg, hlen 3 (by omega)]
  · simp [msg, hlen 4 (by omega)]
  · refine List.map_congr_left fun i hi => ?_
    have hi := List.mem_range.mp hi
    have e : (cs.take (i + 5)).length = i + 5 := hlen _ (by omega)
    simp only [Function.comp_apply, Nat.succ_eq_add_one]
    rw [show i + 1 + 1 + 1 + 1 + 1 = i + 5 by omega, msg, e, if_neg (by omega), if_neg (by omega), if_neg (by omega), if_neg (by omega), if_neg (by omega), take_pre (j := i + 5) (by omega)]
    congr 1
    simp

theorem alive_live {W : List F → Prop} {Acc : List (Transcript F G) → List F → Prop} (P : Interactive F G) (pre : List F) (N D : ℕ) (hW : ∀ cs, cs.length = D → W cs → Acc (P.sent pre N cs) cs) :
    ∀ (thr : List ℕ) (cs : List F), cs.length + thr.length = D → Alive W thr cs → Live Acc thr (P.sent pre N cs) cs
  | [], cs, hl, h => hW cs (by simpa using hl) h
  | m :: thr, cs, hl, h => by
    refine ⟨P.msg pre N cs, lt_of_lt_of_le h (Set.encard_le_encard fun c hc => ?_)⟩
    have := alive_live P pre N D hW thr (cs ++ [c]) (by simp at hl ⊢; omega) hc
    rwa [P.sent_snoc] at this

/-! ## The coins -/

theorem draws_append_msg {t m : Transcript F G} (hm : IsMsg m) : (draws (t ++ m)).length = (draws t).length + 1 := by
  obtain ⟨p, l, rfl, hp⟩ := hm
  have h0 : ∀ (p acc : Transcript F G), (∀ e ∈ p, e.isDraw = false) → drawsFrom acc p = [] := by
    intro p
    induction p with
    | nil => intros; rfl
    | cons e p ih =>
      intro acc hp
      have : e.isChallenge = false := by
        have := hp e List.mem_cons_self
        cases e <;> simp_all [TEvent.isDraw, TEvent.isChallenge]
      rw [drawsFrom, this, if_neg (by simp)]
      exact ih _ fun x hx => hp x (List.mem_cons_of_mem _ hx)
  simp [draws, drawsFrom_append, h0 p _ hp, drawsFrom, TEvent.isChallenge]

theorem chalsOf_coins : ∀ (ms : List (Transcript F G)) (t : Transcript F G) (pre cs : List F), (∀ m ∈ ms, IsMsg m) → (draws t).length = pre.length → cs.length = ms.length → chalsOf (publicCoins (pre ++ cs)) t ms = cs
  | [], t, pre, cs, _, _, hl => by
    rw [List.length_eq_zero_iff.mp hl]; rfl
  | m :: ms, t, pre, cs, hm, hd, hl => by
    cases cs with
    | nil => simp at hl
    | cons c cs =>
      have hd' := draws_append_msg (t := t) (hm m List.mem_cons_self)
      have ih := chalsOf_coins ms (t ++ m) (pre ++ [c]) cs (fun x hx => hm x (List.mem_cons_of_mem _ hx)) (by rw [hd', hd]; simp) (by simpa using hl)
      rw [List.append_assoc, List.singleton_append] at ih
      rw [chalsOf, ih]
      congr 1
      rw [publicCoins, hd', hd]
      simp

theorem length_draws_prefix {t t' : Transcript F G} (h : t <+: t') : (draws t).length ≤ (draws t').length := by
  obtain ⟨r, rfl⟩ := h
  simp [draws, drawsFrom_append]

theorem coins_agree {t : Transcript F G} {pre cs : List F} (h : (draws t).length ≤ pre.length) : AgreeOn (publicCoins (G := G) pre) (publicCoins (pre ++ cs)) t := by
  intro p l hp
  have h1 := length_draws_prefix hp
  have h2 : (draws (p ++ [TEvent.challenge (F := F) (G := G) l])).length = (draws p).length + 1 := draws_append_msg ⟨[], l, rfl, by simp⟩
  rw [publicCoins, publicCoins, List.getD_eq_getElem?_getD, List.getD_eq_getElem?_getD, List.getElem?_append_left (by omega)]

/-! ## The tree -/

section
variable [DecidableEq G] {s s2 : Verifier F G} {g h : G} {Gs Hs : List G} {k q : ℕ}

/-- Accepted, with a property of the challenges and the proof. -/
def AccsW (s s2 : Verifier F G) (g h : G) (Gs Hs : List G) (k : ℕ) (own : List F → R1CSProof F G → Prop) (ms : List (Transcript F G)) (cs : List F) : Prop := ∃ pr, FullAcc s s2 g h Gs Hs k ms cs pr ∧ own cs pr

theorem live_roundsW {own : List F → R1CSProof F G → Prop} : ∀ (j : ℕ) (ms : List (Transcript F G)) (cs : List F), Live (AccsW s s2 g h Gs Hs k own) (List.replicate j 7) ms cs →
    ∃ tree : IppTree F G, tree.Full j ∧ ∀ L R us a b, tree.Path L R us a b → ∃ rm pr, FullAcc s s2 g h Gs Hs k (ms ++ rm) (cs ++ us) pr ∧ own (cs ++ us) pr ∧ rm.map lOf = L ∧ rm.map rOf = R ∧ pr.ipp.a = a ∧ pr.ipp.b = b
  | 0, ms, cs, hl => by
    obtain ⟨pr, hp, ho⟩ := hl
    refine ⟨.leaf pr.ipp.a pr.ipp.b, trivial, fun L R us a b hpath => ?_⟩
    cases hpath
    exact ⟨[], pr, by simpa using hp, by simpa using ho, rfl, rfl, rfl, rfl⟩
  | j + 1, ms, cs, hl => by
    obtain ⟨msg, hl⟩ := hl
    obtain ⟨f, h1, h2, h3⟩ := pick_squares hl
    choose tree t1 t2 using fun i => live_roundsW j _ _ (h3 i)
    refine ⟨.node (lOf msg) (rOf msg) f tree, ⟨h1, h2, t1⟩, fun L R us a b hpath => ?_⟩
    cases hpath with
    | node i hp =>
      obtain ⟨rm, pr, h4, h7, rfl, rfl, h5, h6⟩ := t2 i _ _ _ _ _ hp
      exact ⟨msg :: rm, pr, by simpa using h4, by simpa using h7, rfl, rfl, h5, h6⟩

theorem live_treeW {own : List F → R1CSProof F G → Prop} (hN : nextPowerOfTwo s2.numVars = 2 ^ k) (hl : Live (AccsW s s2 g h Gs Hs k own) (2 ^ k :: q :: 5 :: 6 :: 2 :: List.replicate k 7) [] []) :
    ∃ t : R1CSTree F G k q, t.Full ∧ t.Accepted s s2 g h Gs Hs ∧
      ∀ a b c d e L R us α β, (((((t.ys a).zs b).us c).xs d).ipp e).Path L R us α β → own (t.challenges a b c d e us) (t.proof a b c d ⟨L, R, α, β⟩) := by
  obtain ⟨m1, hl⟩ := hl
  obtain ⟨y, y1, y2, y3⟩ := pick_nonzero (Nat.two_pow_pos k) hl
  choose m2 hz using y2
  choose z z1 z2 using fun a => pick_distinct (hz a)
  choose m3 hu using z2
  choose u u1 u2 u3 using fun a b => pick_nonzero (by decide) (hu a b)
  choose m4 hx using u2
  choose x x1 x2 x3 using fun a b c => pick_nonzero (by decide) (hx a b c)
  choose m5 hw using x2
  choose w w1 w2 w3 using fun a b c d => pick_nonzero (by decide) (hw a b c d)
  choose tr t1 t2 using fun a b c d e => live_roundsW k _ _ (w2 a b c d e)
  let t : R1CSTree F G k q := ⟨ptAt s2.transcript (s.transcript.length + 1), ptAt s2.transcript (s.transcript.length + 2), ptAt s2.transcript (s.transcript.length + 3), ptAt m1 0, ptAt m1 1, ptAt m1 2, fun a =>
    ⟨y a, fun b => ⟨z a b, ptAt (m3 a b) 0, ptAt (m3 a b) 1, ptAt (m3 a b) 2, ptAt (m3 a b) 3, ptAt (m3 a b) 4, fun c => ⟨u a b c, fun d =>
      ⟨x a b c d, scAt (m5 a b c d) 0, scAt (m5 a b c d) 1, scAt (m5 a b c d) 2, w a b c d, tr a b c d⟩⟩⟩⟩⟩
  refine ⟨t, ?_, ?_, ?_⟩
  · exact ⟨y3, fun a a' hn h => hn (y1 h), fun a b b' hn h => hn (z1 a h), u3, fun a b c c' hn h => hn (u1 a b h), x3, fun a b c d d' hn h => hn (x1 a b c h), w3,
      fun a b c d h => absurd (w1 a b c d h) (by decide), t1⟩
  · intro a b c d e L R us α β hp
    obtain ⟨rm, pr, hf, -, rfl, rfl, rfl, rfl⟩ := t2 a b c d e _ _ _ _ _ hp
    have hpr := fullAcc_proof hN hf rfl
    obtain ⟨env, r, r', T, T', h1, h2, h3, h4, h5, h6, h7⟩ := hf
    rw [h1, chalsOf_proof] at h2
    simp only [List.nil_append, List.cons_append, List.cons.injEq] at h2
    obtain ⟨c1, c2, c3, c4, c5, c6⟩ := h2
    have hpr' : t.proof a b c d ⟨rm.map lOf, rm.map rOf, pr.ipp.a, pr.ipp.b⟩ = pr := hpr.symm
    refine ⟨env, r, r', T, T', h3, ?_⟩
    rw [hpr']
    refine ⟨h5, ?_, c6, h4, h6, h7⟩
    simp only [R1CSTree.chals, t]
    rw [← c1, ← c2, ← c3, ← c4, ← c5]
  · intro a b c d e L R us α β hp
    obtain ⟨rm, pr, hf, ho, rfl, rfl, rfl, rfl⟩ := t2 a b c d e _ _ _ _ _ hp
    have hpr := fullAcc_proof hN hf rfl
    have hpr' : t.proof a b c d ⟨rm.map lOf, rm.map rOf, pr.ipp.a, pr.ipp.b⟩ = pr := hpr.symm
    rw [hpr']
    exact ho

/-- A prover that is accepted often enough has given a full tree of accepted answers. -/
theorem rewind [Fintype F] {env : Env F G} (hb : env.batchInvert [] = .ok ([], 1)) (P : Interactive F G) (pre : List F) (hd : (draws s2.transcript).length = pre.length)
    (hcrc : (s.start (P.proof 0 0 [])).createRandomizedConstraints { env with oracle := publicCoins pre } = .ok s2) (hN : nextPowerOfTwo s2.numVars = 2 ^ k)
    (hc : knowledgeError k s2.constraints.length * Fintype.card F ^ (5 + k) < Nat.card {p : (Fin (5 + k) → F) × F // P.Convinces env s g h Gs Hs pre.length k (pre ++ List.ofFn p.1) p.2}) :
    ∃ t : R1CSTree F G k s2.constraints.length, t.Full ∧ t.Accepted s s2 g h Gs Hs ∧ t.AnswersOf P pre := by
  let thr : List ℕ := 2 ^ k :: s2.constraints.length :: 5 :: 6 :: 2 :: List.replicate k 7
  have hthr : thr.length = 5 + k := by simp [thr]; omega
  let W : List F → Prop := fun cs => ∃ r r', r ≠ r' ∧ P.Convinces env s g h Gs Hs pre.length k (pre ++ cs) r ∧ P.Convinces env s g h Gs Hs pre.length k (pre ++ cs) r'
  by_cases ha : Alive W thr []
  · have hl := alive_live (Acc := AccsW s s2 g h Gs Hs k fun cs pr => pr = P.proof pre.length k (pre ++ cs)) P pre (2 ^ k) (5 + k) (fun cs hcs hw => by
      obtain ⟨r, r', hr, ⟨T, h1⟩, T', h2⟩ := hw
      refine ⟨_, ⟨{ env with oracle := publicCoins (pre ++ cs) }, r, r', T, T', P.sent_all pre k cs hcs, ?_, hr, .inr hb, ?_, h1, h2⟩, rfl⟩
      · rw [P.sent_all pre k cs hcs]
        refine chalsOf_coins _ _ _ _ (proofMsgs_isMsg _ _) hd ?_
        rw [← P.sent_all pre k cs hcs]; simp [Interactive.sent]
      · obtain ⟨-, -, -, hO⟩ := Verifier.crc_log hcrc
        exact hO _ (coins_agree hd.le)) thr [] (by simpa using hthr) ha
    exact live_treeW hN hl
  · exfalso
    have h1 := dead_count thr [] ha
    rw [hthr] at h1
    have h2 := count_pairs _ h1 (fun cs r => P.Convinces env s g h Gs Hs pre.length k (pre ++ List.ofFn cs) r) fun cs r r' hr h h' => ⟨r, r', hr, by simpa using h, by simpa using h'⟩
    have h3 : thr.sum + 1 = knowledgeError k s2.constraints.length := by simp [thr, knowledgeError]; ring
    rw [h3] at h2
    omega

end

end Bp
