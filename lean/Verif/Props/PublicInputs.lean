import Verif.Lemmas.PublicInputs
import Verif.Props.Gadgets.Mimc
import Verif.Props.Gadgets.Merkle
import Verif.Props.Sizes

/-! # C75: public parameters that are not part of the log, chosen by the prover

Soundness (C58, C61) fixes the statement first.  If the prover may choose the public parameter of the statement (the expected hash, the root) together with the proof, the claim is false: the parameter is not hashed, so that it can
be computed from the challenges, after everything else in the proof (`c75_forgery`, and, for MiMC and Merkle trees, `c75_mimc`, `c75_merkle_4`, `c75_merkle_8`).  What remains true is proved as `c75_labels_partial` (every parameter has
its own label) and `c75_family_partial` (few parameters). -/

namespace Bp
variable {F G : Type} [Field F] [AddCommGroup G] [Module F G] [DecidableEq G]

/-- **C75**: the proof does not depend on the parameter. -/
theorem c75_prove_ignores (env : Env F G) (p : Prover F G) (hd : p.deferred = []) (pre : List (LC F)) (lc : LC F) (a a' : F) (c : Coins F) (Gs Hs : List G) :
    Prover.prove env { p with constraints := pre ++ [lc.sub (LC.ofScalar a)] } c Gs Hs = Prover.prove env { p with constraints := pre ++ [lc.sub (LC.ofScalar a')] } c Gs Hs :=
  prove_const env p hd pre lc a a' c Gs Hs

/-- **C75**, the attack: take any statement that ends with its parameter, any commitments whose openings one knows, and any wires at all that violate a constraint (for the parameter `a`).  The code's `prove` makes a proof from them; and
then there is another parameter, `a'`, for which the verifier accepts this proof.  (The challenge `z` must not be one of few values, which are fixed in advance; the challenges to be inverted must not be zero.) -/
theorem c75_forgery (env : Env F G) (hb : env.batchInvert [] = .ok ([], 1)) {dv : F → List G → Drv (Verifier F G) Unit} (hc : Closes dv) {a : F} {coms : List G} {s0 s : Verifier F G} (hs : dv a coms s0 = (.ok (), s))
    (hd : s.deferred = []) (hp : s.pending = none) (hin : ∀ lc ∈ s.constraints, ∀ t ∈ lc.terms, Var.InRange s.numVars s.V.length t.1) (g h : G) (openings : List (F × F))
    (hV : s.V = openings.map fun o => commitScalar g h o.1 o.2) (aL aR : List F) (hL : aL.length = s.numVars) (hR : aR.length = s.numVars) (hw : ¬ (s.madeUp g h openings aL aR).Satisfied) (Gs Hs : List G)
    (hsize : nextPowerOfTwo s.numVars < 2 ^ 32) (hG : nextPowerOfTwo s.numVars ≤ Gs.length) (hH : nextPowerOfTwo s.numVars ≤ Hs.length) :
    ∃ bad : Finset F, bad.card ≤ s.constraints.length + 1 ∧ 0 ∈ bad ∧ ∀ (O : Oracle F G) (c : Coins F), ∃ pr T, (s.madeUp g h openings aL aR).prove { env with oracle := O } c Gs Hs = .ok (pr, T) ∧
      ((drawn O (s.firstLog g h openings aL aR c Gs Hs) pr).y ≠ 0 → (∀ u ∈ ippRounds O (s.firstLog g h openings aL aR c Gs Hs) pr (nextPowerOfTwo s.numVars), u ≠ 0) →
        (drawn O (s.firstLog g h openings aL aR c Gs Hs) pr).z ∉ bad → ∃ a' s',
          a' = fitting a (drawn O (s.firstLog g h openings aL aR c Gs Hs) pr).z s.constraints (s.madeUp g h openings aL aR).assignment ∧ a' ≠ a ∧ dv a' coms s0 = (.ok (), s') ∧
          ∀ r, s'.verify { env with oracle := O } pr g h Gs Hs r = .ok T) := by
  classical
  obtain ⟨pre, lc, h1, h2⟩ := hc a coms s0 s hs
  obtain ⟨bad, hb1, hb2⟩ := c11_violation_survives s.constraints (s.madeUp g h openings aL aR).assignment hw
  refine ⟨insert 0 bad, (Finset.card_insert_le _ _).trans (by omega), Finset.mem_insert_self _ _, fun O c => ?_⟩
  obtain ⟨pr, T, h3, h4⟩ := made_accepted { env with oracle := O } hb s pre lc a h1 hd hp hin g h openings hV aL aR hL hR c Gs Hs hsize hG hH
  refine ⟨pr, T, h3, fun hy hu hz => ?_⟩
  have hz0 : (drawn O (s.firstLog g h openings aL aR c Gs Hs) pr).z ≠ 0 := fun e => hz (by rw [e]; exact Finset.mem_insert_self _ _)
  refine ⟨_, _, rfl, ?_, h2 _, h4 hy hu _ rfl hz0 _ rfl⟩
  intro e
  unfold fitting at e
  have e2 := sub_eq_zero.mpr e
  rw [add_sub_cancel_left, div_eq_zero_iff] at e2
  rcases e2 with e2 | e2
  · exact hz (Finset.mem_insert_of_mem (hb2 _ e2))
  · exact pow_ne_zero _ hz0 e2

theorem forgery_zero (env : Env F G) (hb : env.batchInvert [] = .ok ([], 1)) {dv : F → List G → Drv (Verifier F G) Unit} (hc : Closes dv) {a : F} {m : ℕ} {openings statics : List (F × F)} {dp : Drv (Prover F G) (List G)}
    (H : HonestPair env env none m openings dp (dv a) statics) (label : String) (g h : G) (Gs Hs : List G)
    (hw : ∀ s : Verifier F G, dv a (openings.map fun o => commitScalar g h o.1 o.2) (Verifier.new [.init label]) = (.ok (), s) → ∀ σ : Assignment F, (∀ i, σ.left i = 0) → (∀ i, σ.right i = 0) → (∀ i, σ.committed i = ((openings ++ statics).map Prod.fst).getD i 0) → ¬ σ.Sat s.constraints)
    (n : ℕ) (hn : ∀ s : Verifier F G, dv a (openings.map fun o => commitScalar g h o.1 o.2) (Verifier.new [.init label]) = (.ok (), s) → s.constraints.length = n)
    (hsize : nextPowerOfTwo m < 2 ^ 32) (hG : nextPowerOfTwo m ≤ Gs.length) (hH : nextPowerOfTwo m ≤ Hs.length) :
    ∃ bad : Finset F, bad.card ≤ n + 1 ∧ ZeroForges dv a openings statics label env g h Gs Hs bad := by
  obtain ⟨s, h1, h2, h3, h4, h5, h6⟩ := honest_shape H label g h
  subst h4
  obtain ⟨bad, b1, b2, b3⟩ := c75_forgery env hb hc h1 h2 h3 h6 g h (openings ++ statics) h5 (List.replicate s.numVars 0) (List.replicate s.numVars 0) (by simp) (by simp)
    (fun hsat => hw s h1 _ (madeUp_zero s g h _ _).1 (madeUp_zero s g h _ _).2 (fun _ => rfl) hsat) Gs Hs hsize hG hH
  refine ⟨bad, hn s h1 ▸ b1, s, h1, fun O c hO => ?_⟩
  obtain ⟨pr, T, e1, e2⟩ := b3 O c
  have h0 : ∀ t, O t ≠ 0 := fun t e => hO t (e ▸ b2)
  obtain ⟨a', s', k0, k1, k2, k3⟩ := e2 (h0 _) (fun u hu => ippChallenges_ne_zero h0 hu) (hO _)
  exact ⟨pr, T, a', s', e1, k0, k1, k2, k3⟩

/-- **C75**, MiMC: for all inputs (and all constants) there are few values such that, whenever no challenge is one of these, the code's prover (with wires that
are all zero) makes a proof with which the verifier accepts an image that is not the image of the committed inputs. -/
theorem c75_mimc (env : Env F G) (hb : env.batchInvert [] = .ok ([], 1)) (label : String) (g h : G) (x y r1 r2 image : F) (constants : List F) (rounds : ℕ) (hi : mimc x y constants rounds = .ok image)
    (c0 : F) (h0 : constants[0]? = some c0) (hx : x + c0 ≠ 0) (Gs Hs : List G) (hsize : nextPowerOfTwo (2 * rounds) < 2 ^ 32) (hG : nextPowerOfTwo (2 * rounds) ≤ Gs.length) (hH : nextPowerOfTwo (2 * rounds) ≤ Hs.length) :
    ∃ bad : Finset F, bad.card ≤ 4 * rounds + 2 ∧ ZeroForges (fun a => verifyMimcPreimage env a constants rounds) image [(x, r1), (y, r2)] [] label env g h Gs Hs bad := by
  have hlen : constants.length = rounds := by
    unfold mimc at hi
    split at hi
    · simp [Res.panic] at hi
    · rename_i h; simpa using h
  refine forgery_zero (openings := [(x, r1), (y, r2)]) (n := 4 * rounds + 1) env hb (Closes.mimc env constants rounds)
    (c32_complete env env rfl x y image constants rounds hi r1 r2 (some [r1, r2]) none (.inl rfl) none) label g h Gs Hs ?_ ?_ hsize hG hH
  · intro s hs σ hl _ hv hsat
    change verifyMimcPreimage env image constants rounds _ _ = _ at hs
    unfold verifyMimcPreimage at hs
    obtain ⟨cs, s1, h1, hs⟩ := Drv.bind_ok.mp hs
    rw [Drv.lift_ok, takeComms_ok] at h1
    obtain ⟨⟨-, rfl⟩, rfl⟩ := h1
    obtain ⟨vars, s2, h2, hs⟩ := Drv.bind_ok.mp hs
    rw [Verifier.commits_ok] at h2
    obtain ⟨rfl, rfl⟩ := h2
    obtain ⟨-, -, a3⟩ := Verifier.gadget_sound hs
    have hr : rounds ≠ 0 := by
      rintro rfl
      rw [List.length_eq_zero_iff.mp hlen] at h0
      simp at h0
    refine hx ?_
    have := a3 (vs_mimc_zero hl _ _ hr constants image) hsat c0 h0
    simpa [Assignment.val, Verifier.new, hv] using this
  · intro s hs
    have := (DC.mimcPreimage env image constants rounds _ _ _ _ hs rfl).1.constraints
    simpa [Verifier.new] using this

theorem inclusion_zero {env : Env F G} {g h : G} {call : Var → Alloc F → List Var → List Var → Prog1 F Unit} {coms : List G} {s0 s : Verifier F G} (hs : verifyInclusion env g h call coms s0 = (.ok (), s)) (hl : 2 < coms.length)
    {σ : Assignment F} (hσ : ∀ l i ns st, ns ≠ [] → st ≠ [] → VS env σ (call l i ns st) fun _ => False) : ¬ σ.Sat s.constraints := by
  intro hsat
  match coms, hl with
  | cl :: ci :: nodes, hl =>
    obtain ⟨vars, s1, h1, hs⟩ := Drv.bind_ok.mp hs
    obtain ⟨ns, s2, h2, hs⟩ := Drv.bind_ok.mp hs
    obtain ⟨st, s3, h3, hs⟩ := Drv.bind_ok.mp hs
    rw [Verifier.commits_ok] at h1 h2
    obtain ⟨rfl, rfl⟩ := h1
    obtain ⟨rfl, rfl⟩ := h2
    unfold allocateStaticsForVerifier at h3
    rw [Verifier.commits_ok] at h3
    obtain ⟨rfl, rfl⟩ := h3
    obtain ⟨-, -, a3⟩ := Verifier.gadget_sound hs
    refine a3 (hσ _ _ _ _ ?_ ?_) hsat
    · simpa [List.map_eq_nil_iff, List.range_eq_nil] using List.ne_nil_of_length_pos (l := nodes) (by simpa using hl)
    · simp [staticValues]

/-- **C75**, Merkle trees with 4 children: for every leaf, every index and whatever sibling nodes (so for leaves that are in no tree) the code's prover, with wires that are all zero, makes a proof that the verifier accepts for a root
which the committed values do not hash to. -/
theorem c75_merkle_4 [ByteRep F] (env : Env F G) (hb : env.batchInvert [] = .ok ([], 1)) (label : String) (g h : G) (leaf leafIndex root : F) (merkleProof : List (List F)) (depth : ℕ) (h0 : depth ≠ 0) (hd : depth ≤ 4 * ByteRep.modBytes F)
    (hl : merkleProof.length = depth) (hn : ∀ s ∈ merkleProof, s.length = 3) (p : PoseidonParams F) (hp : p.Valid) (hw : p.width = 5) (sbox : SboxType) (hs : sbox ≠ .inverse) (hi : IntRep.rep leafIndex < 4 ^ depth)
    (hr : merkleRoot (hasher4 p sbox).digest ((digitsOf 4 depth (IntRep.rep leafIndex)).zip merkleProof) leaf = root) (r0 r1 : F) (coins : ℕ → F) (Gs Hs : List G)
    (hsize : nextPowerOfTwo (depth * gates4 p sbox) < 2 ^ 32) (hG : nextPowerOfTwo (depth * gates4 p sbox) ≤ Gs.length) (hH : nextPowerOfTwo (depth * gates4 p sbox) ≤ Hs.length) :
    ∃ bad : Finset F, bad.card ≤ depth * (26 + p.sboxes * sbox.constraintCount) + 3 ∧
      ZeroForges (fun a => verifyInclusion4 env a depth p sbox g h) root ([(leaf, r0), (leafIndex, r1)] ++ merkleProof.flatten.mapIdx fun i x => (x, coins i)) [(0, 0)] label env g h Gs Hs bad := by
  have hlen : merkleProof.flatten.length = 3 * depth := by
    rw [List.length_flatten, List.map_congr_left (g := fun _ => 3) hn]
    simp [hl, mul_comm]
  refine forgery_zero (n := depth * (26 + p.sboxes * sbox.constraintCount) + 2) env hb (Closes.inclusion4 env depth p sbox g h)
    (c41_complete rfl leaf leafIndex root merkleProof depth hd hl hn p hp hw sbox hs hi hr g h r0 r1 coins (some [r0, r1]) none (.inl rfl) none) label g h Gs Hs ?_ ?_ hsize hG hH
  · intro s hr σ hl hr' _
    exact inclusion_zero hr (by simp [hlen]; omega) fun l i ns st h1 _ => vs_merkle4_zero hl hr' h0 root l i ns st h1 p _
  · intro s hr
    have := (DC.stmt env g h (.inclusion4 root depth p sbox) _ (by simp [Stmt.size, hlen]; omega) _ _ _ hr rfl).1.constraints
    simpa [Verifier.new, Stmt.constraints] using this

/-- **C75**, Merkle trees with 8 children. -/
theorem c75_merkle_8 [ByteRep F] (env : Env F G) (hb : env.batchInvert [] = .ok ([], 1)) (label : String) (g h : G) (leaf leafIndex root : F) (merkleProof : List (List F)) (depth : ℕ) (h0 : depth ≠ 0) (hd : 3 * depth ≤ 8 * ByteRep.modBytes F)
    (hl : merkleProof.length = depth) (hn : ∀ s ∈ merkleProof, s.length = 7) (p : PoseidonParams F) (hp : p.Valid) (hw : p.width = 9) (sbox : SboxType) (hs : sbox ≠ .inverse) (hi : IntRep.rep leafIndex < 8 ^ depth)
    (hr : merkleRoot (hasher8 p sbox).digest ((digitsOf 8 depth (IntRep.rep leafIndex)).zip merkleProof) leaf = root) (r0 r1 : F) (coins : ℕ → F) (Gs Hs : List G)
    (hsize : nextPowerOfTwo (depth * gates8 p sbox) < 2 ^ 32) (hG : nextPowerOfTwo (depth * gates8 p sbox) ≤ Gs.length) (hH : nextPowerOfTwo (depth * gates8 p sbox) ≤ Hs.length) :
    ∃ bad : Finset F, bad.card ≤ (Stmt.inclusion8 root depth p sbox).constraints + 1 ∧
      ZeroForges (fun a => verifyInclusion8 env a depth p sbox g h) root ([(leaf, r0), (leafIndex, r1)] ++ merkleProof.flatten.mapIdx fun i x => (x, coins i)) [(0, 0)] label env g h Gs Hs bad := by
  have hlen : merkleProof.flatten.length = 7 * depth := by
    rw [List.length_flatten, List.map_congr_left (g := fun _ => 7) hn]
    simp [hl, mul_comm]
  refine forgery_zero (n := (Stmt.inclusion8 root depth p sbox).constraints) env hb (Closes.inclusion8 env depth p sbox g h)
    (c42_complete rfl leaf leafIndex root merkleProof depth hd hl hn p hp hw sbox hs hi hr g h r0 r1 coins (some [r0, r1]) none (.inl rfl) none) label g h Gs Hs ?_ ?_ hsize hG hH
  · intro s hr σ hl hr' _
    refine inclusion_zero hr (by simp [hlen]; omega) fun l i ns st h1 h2 => ?_
    match st, h2 with
    | zero :: _, _ => exact vs_merkle8_zero hl hr' h0 root l i ns zero h1 p _
  · intro s hr
    have := (DC.stmt env g h (.inclusion8 root depth p sbox) _ (by simp [Stmt.size, hlen]; omega) _ _ _ hr rfl).1.constraints
    simpa [Verifier.new] using this

/-! ## What is true -/

/-- The log of a statement begins with its label. -/
theorem starts_with {label : String} {dv : Drv (Verifier F G) Unit} (h1 : OnePhase dv) {s : Verifier F G} (hs : dv (Verifier.new [.init label]) = (.ok (), s)) (pr : R1CSProof F G) : (s.proofLog pr).head? = some (.init label) := by
  obtain ⟨-, Vs, -, e⟩ := h1 _ _ _ hs
  unfold Verifier.proofLog
  rw [e]
  rfl

/-- **C75**, labels: if every parameter has a label of its own (and all have the same size), then a prover that asks `Q` questions, and then chooses the parameter, the commitments and the proof, makes the verifier accept a false
statement with at most `(Q + D) B + 1` in `|F|` of the answers. -/
theorem c75_labels_partial [Fintype F] {J : Type} (env : Env F G) (hb : env.batchInvert [] = .ok ([], 1)) (label : J → String) (hlab : Function.Injective label) (m : ℕ) (dv : J → List G → Drv (Verifier F G) Unit)
    (hu : ∀ j, Uniform (label j) m (dv j)) (coms0 : List G) (h0 : coms0.length = m) (s0 : J → Verifier F G) (hs0 : ∀ j, dv j coms0 (Verifier.new [.init (label j)]) = (.ok (), s0 j)) (D B : ℕ) (hD : ∀ j, (s0 j).numDraws = D)
    (hB : ∀ j, (s0 j).badBound ≤ B) (g h : G) (Gs Hs : List G) (hind : Independent F (Gs ++ Hs ++ [g, h])) (claim : J → List G → Prop)
    (hc : ∀ j coms, coms.length = m → Convinced (label j) (dv j coms) g h Gs Hs → claim j coms) (A : Forger F G) (pick : List F → J) (Q : ℕ) :
    A.forgingFor pick env label dv m claim g h Gs Hs Q D ≤ ((Q + D) * B + 1) * Fintype.card F ^ (Q + D) := by
  classical
  choose bad1 hbad1 using fun j => c58_game_rule env hb (label j) m (dv j) (hu j) coms0 h0 (s0 j) (hs0 j) g h Gs Hs hind
  let bad : BadRule F G B := {
    bad := fun O t => {c | ∃ j, t.head? = some (.init (label j)) ∧ c ∈ (bad1 j).bad O t}
    few := fun O t => by
      by_cases ht : ∃ j, t.head? = some (.init (label j))
      · obtain ⟨j, hj⟩ := ht
        refine le_trans (Set.encard_le_encard (t := (bad1 j).bad O t) ?_) (((bad1 j).few O t).trans (by exact_mod_cast hB j))
        rintro c ⟨j', hj', hc'⟩
        rw [hj] at hj'
        have e : label j = label j' := by simpa using hj'
        rwa [hlab e]
      · have : {c | ∃ j, t.head? = some (.init (label j)) ∧ c ∈ (bad1 j).bad O t} = ∅ := by
          ext c
          simp only [Set.mem_ofPred_eq, Set.mem_empty_iff_false, iff_false]
          rintro ⟨j, hj, -⟩
          exact ht ⟨j, hj⟩
        rw [this]
        simp
    before := fun O O' pre l hO => by
      ext c
      simp only [Set.mem_ofPred_eq, fun j => (bad1 j).before O O' pre l hO] }
  let st : List F → Verifier F G := fun cs => (dv (pick (cs.take Q)) (A.coms (cs.take Q)) (Verifier.new [.init (label (pick (cs.take Q)))])).2
  let ask : List F → Transcript F G := fun cs => if cs.length < Q then A.ask cs else A.game (st cs) Q cs
  have hask : ∀ (cs : List F) s, dv (pick (cs.take Q)) (A.coms (cs.take Q)) (Verifier.new [.init (label (pick (cs.take Q)))]) = (.ok (), s) → ∀ i, ask (cs.take i) = A.game s Q (cs.take i) := by
    intro cs s hs i
    dsimp only [ask, st]
    split
    · rename_i hlt
      rw [Forger.game, if_pos hlt]
    · rename_i hge
      rw [List.length_take] at hge
      rw [List.take_take, Nat.min_eq_left (by omega), hs]
  have hasked : ∀ (cs : List F) s, dv (pick (cs.take Q)) (A.coms (cs.take Q)) (Verifier.new [.init (label (pick (cs.take Q)))]) = (.ok (), s) → ∀ i, askedBy ask (cs.take i) = askedBy (A.game s Q) (cs.take i) := by
    intro cs s hs i
    unfold askedBy
    refine List.map_congr_left fun j _ => ?_
    rw [List.take_take]
    exact hask cs s hs _
  refine count_wins _ (count_hit bad ask (Q + D)) (fun cs r => A.ForgesFor pick env label dv m claim g h Gs Hs Q (List.ofFn cs) r) fun cs r r' hr h1 h2 => ?_
  unfold Forger.ForgesFor at h1 h2
  obtain ⟨hm, hf, O, s, T, a⟩ := h1
  obtain ⟨-, -, O', s', T', b⟩ := h2
  generalize hcs : List.ofFn cs = l at *
  generalize hj : pick (l.take Q) = j at *
  have hl : l.length = Q + (s0 j).numDraws := by rw [← hcs, hD]; simp
  obtain rfl : s = s' := (Prod.mk.inj (a.built.symm.trans b.built)).2
  have hT := a.asked (hu j) h0 (hs0 j) hm hl
  have hO : AgreeOn O O' T := fun pre l' hp => a.answers.agree b.answers (hT _ (mem_draws hp))
  have hv := c09_verify_challenges { env with oracle := O } s _ g h Gs Hs r T a.accepts O' hO
  have hbuilt := a.built
  rw [← hj] at hbuilt
  have hall : askedBy ask l = askedBy (A.game s Q) l := by simpa [List.take_of_length_le] using hasked l s hbuilt l.length
  rcases hbad1 j _ s hm a.built O' _ r r' T T' hr hv b.accepts with c | ⟨pre, l', hp, hh⟩
  · exact absurd (hc j _ hm c) hf
  · refine ⟨O', T, fun i c hi hn => ?_, fun d hd => hall ▸ hT d hd, pre, l', hp, j, ?_, hh⟩
    · rw [hask l s hbuilt] at hn ⊢
      rw [hasked l s hbuilt] at hn
      exact b.answers i c hi hn
    · obtain ⟨rfl, -, -⟩ := verify_proofLog (OnePhase.new ((hu j).onePhase _) a.built) a.accepts
      rw [← starts_with ((hu j).onePhase _) a.built (A.out (l.take Q))]
      obtain ⟨q, hq⟩ := hp
      rw [← hq]
      cases pre <;> rfl

/-- **C75**, few parameters: under one label, the chance of a prover that may choose among `K` parameters is at most `K` times as large. -/
theorem c75_family_partial [Fintype F] {J : Type} [Fintype J] (env : Env F G) (hb : env.batchInvert [] = .ok ([], 1)) (label : String) (m : ℕ) (dv : J → List G → Drv (Verifier F G) Unit)
    (hu : ∀ j, Uniform label m (dv j)) (coms0 : List G) (h0 : coms0.length = m) (s0 : J → Verifier F G) (hs0 : ∀ j, dv j coms0 (Verifier.new [.init label]) = (.ok (), s0 j)) (D B : ℕ) (hD : ∀ j, (s0 j).numDraws = D)
    (hB : ∀ j, (s0 j).badBound ≤ B) (g h : G) (Gs Hs : List G) (hind : Independent F (Gs ++ Hs ++ [g, h])) (claim : J → List G → Prop)
    (hc : ∀ j coms, coms.length = m → Convinced label (dv j coms) g h Gs Hs → claim j coms) (A : Forger F G) (pick : List F → J) (Q : ℕ) :
    A.forgingFor pick env (fun _ => label) dv m claim g h Gs Hs Q D ≤ Fintype.card J * (((Q + D) * B + 1) * Fintype.card F ^ (Q + D)) := by
  classical
  have key : ∀ j, Nat.card {p : (Fin (Q + D) → F) × F // A.Forges env label (dv j) m (claim j) g h Gs Hs Q (List.ofFn p.1) p.2} ≤ ((Q + D) * B + 1) * Fintype.card F ^ (Q + D) := by
    intro j
    have h1 := c58_game env hb label m (dv j) (hu j) coms0 h0 (s0 j) (hs0 j) g h Gs Hs hind (claim j) (hc j) A Q
    rw [hD j] at h1
    refine le_trans h1 (Nat.mul_le_mul_right _ ?_)
    have := Nat.mul_le_mul_left (Q + D) (hB j)
    omega
  unfold Forger.forgingFor
  let f : {p : (Fin (Q + D) → F) × F // A.ForgesFor pick env (fun _ => label) dv m claim g h Gs Hs Q (List.ofFn p.1) p.2} →
      Σ j, {p : (Fin (Q + D) → F) × F // A.Forges env label (dv j) m (claim j) g h Gs Hs Q (List.ofFn p.1) p.2} := fun p => ⟨pick ((List.ofFn p.1.1).take Q), p.1, p.2⟩
  have hf : Function.Injective f := by
    intro p q e
    have : (f p).2.1 = (f q).2.1 := by rw [e]
    exact Subtype.ext this
  refine (Nat.card_le_card_of_injective f hf).trans ?_
  rw [Nat.card_sigma]
  refine (Finset.sum_le_card_nsmul _ _ _ fun j _ => key j).trans ?_
  simp

/-- The statement about MiMC can be built for every image, from 2 commitments. -/
theorem mimc_built (env : Env F G) (label : String) (constants : List F) (rounds : ℕ) (hr : constants.length = rounds) (image : F) :
    ∃ s : Verifier F G, verifyMimcPreimage env image constants rounds [0, 0] (Verifier.new [.init label]) = (.ok (), s) ∧ s.numDraws = 5 + Nat.clog 2 (2 * rounds) ∧
      s.badBound = max 7 (max (nextPowerOfTwo (2 * rounds)) (4 * rounds + 1)) := by
  have hi : ∃ i, mimc 0 0 constants rounds = .ok i := by
    unfold mimc
    rw [if_neg (by simp [hr])]
    exact ⟨_, rfl⟩
  obtain ⟨i, hi⟩ := hi
  obtain ⟨s, h1, -⟩ := honest_shape (c32_complete env env rfl 0 0 i constants rounds hi 0 0 (some [0, 0]) none (.inl rfl) none) label (0 : G) 0
  obtain ⟨pre, lc, -, h2⟩ := Closes.mimc env constants rounds i _ _ _ h1
  have h3 := h2 image
  simp only [List.map_cons, List.map_nil, commitScalar, zero_smul, add_zero] at h3
  refine ⟨_, h3, ?_⟩
  have g1 := (DC.mimcPreimage env image constants rounds _ _ _ _ h3 rfl).1
  have e1 := g1.gates
  have e2 := g1.constraints
  simp only [Verifier.new, List.length_nil, Nat.zero_add] at e1 e2
  simp only [Verifier.numDraws, Verifier.badBound]
  rw [e1, e2]
  exact ⟨rfl, rfl⟩

/-- **C75**, MiMC with a label for every image: the prover may choose the image. -/
theorem c75_mimc_labels_partial [Fintype F] (env : Env F G) (hb : env.batchInvert [] = .ok ([], 1)) (label : F → String) (hlab : Function.Injective label) (constants : List F) (rounds : ℕ) (hr : constants.length = rounds)
    (g h : G) (Gs Hs : List G) (hind : Independent F (Gs ++ Hs ++ [g, h])) (A : Forger F G) (pick : List F → F) (Q : ℕ) :
    A.forgingFor pick env label (fun image => verifyMimcPreimage env image constants rounds) 2
      (fun image coms => ∀ v : ℕ → F, (∀ (i : ℕ) P, i < 2 → coms[i]? = some P → CommitsTo g h P (v i)) → mimc (v 0) (v 1) constants rounds = .ok image) g h Gs Hs Q (5 + Nat.clog 2 (2 * rounds)) ≤
      ((Q + (5 + Nat.clog 2 (2 * rounds))) * max 7 (max (nextPowerOfTwo (2 * rounds)) (4 * rounds + 1)) + 1) * Fintype.card F ^ (Q + (5 + Nat.clog 2 (2 * rounds))) := by
  choose s0 h1 h2 h3 using fun image => mimc_built env (label image) constants rounds hr image
  exact c75_labels_partial env hb label hlab 2 _ (fun image => Uniform.mimcPreimage env image constants rounds) [0, 0] rfl s0 h1 _ _ h2 (fun j => (h3 j).le) g h Gs Hs hind _
    (fun image coms _ hc => c55_mimc env image constants rounds hr hc) A pick Q

end Bp
