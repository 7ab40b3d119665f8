import Verif.Props.SoundnessR1CS
import Verif.Lemmas.PublicCoin
import Verif.Lemmas.Game
import Verif.Props.R1CS
import Verif.Spec.Knowledge
import Verif.Props.Gadgets.Factors
import Verif.Props.Statements

/-! # C62: an interactive prover that is accepted too often can be rewound -/

namespace Bp
variable {F G : Type} [Field F] [AddCommGroup G] [Module F G]

/-- **C62**: `P` is any interactive prover.  `s` is the verifier when `verify` is called, `s2` after the randomized constraints, for which the challenges were `pre`; it has `q` constraints and at most `2^k` gates.  If `P` is accepted with
more than `κ = 2^k + q + 7 k + 14` in `|F|` of the further challenges and random scalars, then it gives enough answers: there is a full tree of accepted answers of `P`.  (No assumption on the generators, and none on how `P` computes.) -/
theorem c62_tree [DecidableEq G] [Fintype F] {env : Env F G} (hb : env.batchInvert [] = .ok ([], 1)) (P : Interactive F G) {s s2 : Verifier F G} {g h : G} {Gs Hs : List G} {k : ℕ} (pre : List F)
    (hd : (draws s2.transcript).length = pre.length) (hcrc : (s.start (P.proof 0 0 [])).createRandomizedConstraints { env with oracle := publicCoins pre } = .ok s2) (hN : nextPowerOfTwo s2.numVars = 2 ^ k)
    (hc : knowledgeError k s2.constraints.length * Fintype.card F ^ (5 + k) < Nat.card {p : (Fin (5 + k) → F) × F // P.Convinces env s g h Gs Hs pre.length k (pre ++ List.ofFn p.1) p.2}) :
    ∃ t : R1CSTree F G k s2.constraints.length, t.Full ∧ t.Accepted s s2 g h Gs Hs ∧ t.AnswersOf P pre := rewind hb P pre hd hcrc hN hc

/-- **C62**, what this is good for: from the answers one computes (by a fixed formula) values of all gates that satisfy the constraints, up to multiples of `h`, for any values of the committed variables that open the commitments; or one
computes a non-trivial relation between the generators. -/
theorem c62_extract [DecidableEq G] [Fintype F] {env : Env F G} (hb : env.batchInvert [] = .ok ([], 1)) (P : Interactive F G) {s s2 : Verifier F G} {g h : G} {Gs Hs : List G} {k : ℕ} (pre : List F)
    (hd : (draws s2.transcript).length = pre.length) (hcrc : (s.start (P.proof 0 0 [])).createRandomizedConstraints { env with oracle := publicCoins pre } = .ok s2) (hN : nextPowerOfTwo s2.numVars = 2 ^ k)
    (hc : knowledgeError k s2.constraints.length * Fintype.card F ^ (5 + k) < Nat.card {p : (Fin (5 + k) → F) × F // P.Convinces env s g h Gs Hs pre.length k (pre ++ List.ofFn p.1) p.2}) :
    ∃ t : R1CSTree F G k s2.constraints.length, t.AnswersOf P pre ∧
      ((∀ v, (t.assignment s.numVars s2.weights s2.numVars v).Gates ∧
          ∀ j (hj : j < s2.constraints.length), (s2.constraints[j]).commitment (t.assignment s.numVars s2.weights s2.numVars v) g s2.V = t.blinding j • h) ∨
        ∃ ρ ∈ t.relations s.numVars s2.weights, ¬ ρ.Trivial (2 ^ k) ∧ ρ.value (2 ^ k) g h (Gs.take (2 ^ k)) (Hs.take (2 ^ k)) = 0) := by
  obtain ⟨t, h1, h2, h3⟩ := rewind hb P pre hd hcrc hN hc
  refine ⟨t, h3, ?_⟩
  by_cases hr : ∃ ρ ∈ t.relations s.numVars s2.weights, ¬ ρ.Trivial (2 ^ k) ∧ ρ.value (2 ^ k) g h (Gs.take (2 ^ k)) (Hs.take (2 ^ k)) = 0
  · exact .inr hr
  · exact .inl fun v => (c21_special_soundness t s s2 g h Gs Hs hN rfl h1 h2 v).resolve_right hr

/-- **C62** for statements without randomized constraints: the prover convinces the verifier in the sense of C22, C23 and so on, with its own answers. -/
theorem c62_statement [DecidableEq G] [Fintype F] {env : Env F G} (hb : env.batchInvert [] = .ok ([], 1)) (P : Interactive F G) {label : String} {dv : Drv (Verifier F G) Unit} (h1 : OnePhase dv) {s : Verifier F G}
    (hs : dv (Verifier.new [.init label]) = (.ok (), s)) {g h : G} {Gs Hs : List G}
    (hc : knowledgeError (Nat.clog 2 s.numVars) s.constraints.length * Fintype.card F ^ (5 + Nat.clog 2 s.numVars) <
      Nat.card {p : (Fin (5 + Nat.clog 2 s.numVars) → F) × F // P.Convinces env s g h Gs Hs 0 (Nat.clog 2 s.numVars) (List.ofFn p.1) p.2}) :
    ∃ (t : R1CSTree F G (Nat.clog 2 s.numVars) s.constraints.length) (s2 : Verifier F G), Convincing t label dv g h Gs Hs s s2 ∧ t.AnswersOf P [] := by
  have hdef : s.deferred = [] := (h1 _ _ _ hs).1
  have hnd := h1.noDraw hs
  let s2 : Verifier F G := { s.start (P.proof 0 0 []) with pending := none, transcript := (s.start (P.proof 0 0 [])).transcript.r1cs1PhaseDomainSep }
  have hcrc : (s.start (P.proof 0 0 [])).createRandomizedConstraints { env with oracle := publicCoins [] } = .ok s2 := by
    have hdef' : (s.start (P.proof 0 0 [])).deferred = [] := hdef
    unfold Verifier.createRandomizedConstraints
    simp only [hdef', List.length_nil, if_true, s2]
  have hd : (draws s2.transcript).length = 0 := by
    show (drawsFrom [] _).length = 0
    rw [drawsFrom_none]
    · rfl
    · intro e he
      have he : e ∈ (s.transcript : List (TEvent F G)) ++ [.u64 "m" s.V.length, .point "A_I1" P.A_I1, .point "A_O1" P.A_O1, .point "S1" P.S1, .domSep "r1cs-1phase"] := by
        have : s2.transcript = (s.transcript : List (TEvent F G)) ++ [.u64 "m" s.V.length, .point "A_I1" P.A_I1, .point "A_O1" P.A_O1, .point "S1" P.S1, .domSep "r1cs-1phase"] := by
          simp [s2, Transcript.r1cs1PhaseDomainSep, Verifier.start, log1, Interactive.proof]
        rw [← this]; exact he
      rcases List.mem_append.mp he with he | he
      · exact hnd e he
      · simp only [List.mem_cons, List.not_mem_nil, or_false] at he
        rcases he with rfl | rfl | rfl | rfl | rfl <;> rfl
  obtain ⟨t, a, b, c⟩ := rewind (s2 := s2) hb P [] hd hcrc rfl hc
  exact ⟨t, s2, ⟨hs, rfl, rfl, a, b⟩, c⟩

/-- **C62**, the code's prover is an interactive prover: whatever the challenges, each of its messages is what it computes from the challenges drawn before it is sent. -/
theorem c62_public_coin (env env' : Env F G) (p p2 : Prover F G) (s : Verifier F G) (hO : env.oracle = env'.oracle) (hs : Session env env' p s) (c : Coins F) (Gs Hs : List G) (pre : List F)
    (hd : (draws p2.transcript).length = pre.length) (hcrc : (p.start c Gs Hs).createRandomizedConstraints { env with oracle := publicCoins pre } = .ok p2) (k : ℕ) (hkN : nextPowerOfTwo p2.aL.length = 2 ^ k)
    (hG : 2 ^ k ≤ Gs.length) (hH : 2 ^ k ≤ Hs.length) (hin : ∀ lc ∈ p2.constraints, ∀ t ∈ lc.terms, Var.InRange p2.aL.length p2.v.length t.1) (cs : List F) (hcs : cs.length = 5 + k) :
    ∃ T, p.prove { env with oracle := publicCoins (pre ++ cs) } c Gs Hs = .ok ((p.interactive env c Gs Hs pre.length).proof pre.length k (pre ++ cs), T) :=
  prove_interactive env p p2 c Gs Hs (hs.inStep hO).1 pre hd hcrc k hkN hG hH hin cs hcs

/-- **C62**, interactive completeness: with satisfied constraints, the code's prover is accepted unless `y` or a round challenge is zero, that is with probability at least `(1 - 1/|F|)^(1 + k)`. -/
theorem c62_honest [DecidableEq G] [Fintype F] (env env' : Env F G) (p p2 : Prover F G) (s : Verifier F G) (hO : env.oracle = env'.oracle) (hs : Session env env' p s) (c : Coins F) (Gs Hs : List G) (pre : List F)
    (hd : (draws p2.transcript).length = pre.length) (hcrc : (p.start c Gs Hs).createRandomizedConstraints { env with oracle := publicCoins pre } = .ok p2) (hsat : p2.Satisfied)
    (hin : ∀ lc ∈ p2.constraints, ∀ t ∈ lc.terms, Var.InRange p2.aL.length p2.v.length t.1) (k : ℕ) (hkN : nextPowerOfTwo p2.aL.length = 2 ^ k) (hk : k < 32) (hG : 2 ^ k ≤ Gs.length) (hH : 2 ^ k ≤ Hs.length)
    (hb : k ≠ 0 ∨ env'.batchInvert [] = .ok ([], 1)) :
    (Fintype.card F - 1) ^ (1 + k) * Fintype.card F ^ 5 ≤
      Nat.card {q : (Fin (5 + k) → F) × F // (p.interactive env c Gs Hs pre.length).Convinces env' s p.g p.h Gs Hs pre.length k (pre ++ List.ofFn q.1) q.2} := by
  obtain ⟨hw, hst⟩ := hs.inStep hO
  refine card_nonzero k _ fun cs r hy hu => honest_convinces env env' p p2 s hw hst c Gs Hs pre hd hcrc hsat hin k hkN hk hG hH hb (List.ofFn cs) (by simp) ?_ ?_ r
  · rw [List.getD_eq_getElem?_getD, List.getElem?_ofFn]
    rw [dif_pos (by omega)]
    exact hy
  · intro i hi
    rw [List.getD_eq_getElem?_getD, List.getElem?_ofFn, dif_pos (by omega)]
    exact hu ⟨i, hi⟩

/-- **C62**, for the gadgets (and lists of gadgets, C50): whenever honest proving is complete, the code's prover is accepted with this probability as an interactive prover for the statement. -/
theorem c62_gadget [DecidableEq G] [Fintype F] {env env' : Env F G} {m : ℕ} {dp : Drv (Prover F G) (List G)} {dv : List G → Drv (Verifier F G) Unit} {os ss : List (F × F)} (hp : HonestPair env env' none m os dp dv ss)
    (hO : env.oracle = env'.oracle) (h1 : ∀ coms, OnePhase (dv coms)) (hsize : nextPowerOfTwo m < 2 ^ 32) (hb : 1 < m ∨ env'.batchInvert [] = .ok ([], 1)) (label : String) (g h : G) (c : Coins F) (Gs Hs : List G)
    (hG : nextPowerOfTwo m ≤ Gs.length) (hH : nextPowerOfTwo m ≤ Hs.length) :
    ∃ coms p s, dp (Prover.new g h [.init label] 0) = (.ok coms, p) ∧ dv coms (Verifier.new [.init label]) = (.ok (), s) ∧ s.numVars = m ∧ (coms = os.map fun q => q.1 • g + q.2 • h) ∧
      (Fintype.card F - 1) ^ (1 + Nat.clog 2 m) * Fintype.card F ^ 5 ≤
        Nat.card {q : (Fin (5 + Nat.clog 2 m) → F) × F // (p.interactive env c Gs Hs 0).Convinces env' s g h Gs Hs 0 (Nat.clog 2 m) (List.ofFn q.1) q.2} := by
  obtain ⟨coms, p, s, e1, e2, J, -, hl, o⟩ := hp _ _ (Joint.new env env' g h [.init label] 0 0) rfl
  have hl' : p.aL.length = m := by rw [hl]; simp [Prover.new]
  obtain ⟨hw, hst⟩ := J.session.inStep hO
  refine ⟨coms, p, s, e1, e2, by rw [hst.num, hl'], o.points, ?_⟩
  have hcrc : (p.start c Gs Hs).createRandomizedConstraints { env with oracle := publicCoins [] } =
      .ok { (p.start c Gs Hs) with pending := none, transcript := (p.start c Gs Hs).transcript.r1cs1PhaseDomainSep } := by
    unfold Prover.createRandomizedConstraints
    simp only
    rw [if_pos (by simp [Prover.start, J.deferred])]
  have hd : (draws (p.start c Gs Hs).transcript.r1cs1PhaseDomainSep).length = 0 := by
    have hnd := (h1 coms).noDraw e2
    have e : (p.start c Gs Hs).transcript.r1cs1PhaseDomainSep = (s.transcript : List (TEvent F G)) ++ (((p.start c Gs Hs).transcript.r1cs1PhaseDomainSep : List (TEvent F G)).drop s.transcript.length) := by
      rw [hst.transcript]
      simp [Prover.start, log1, Transcript.r1cs1PhaseDomainSep]
    rw [e, draws, drawsFrom_append, drawsFrom_none _ _ hnd, drawsFrom_none]
    · rfl
    · rw [hst.transcript]
      simp [Prover.start, log1, Transcript.r1cs1PhaseDomainSep, TEvent.isChallenge]
  have := c62_honest env env' p _ s hO J.session c Gs Hs [] hd hcrc (fun lc hlc => (J.good.sat lc hlc).2) (fun lc hlc t ht => ((J.good.sat lc hlc).1 t ht).inRange) (Nat.clog 2 m) (by
    show nextPowerOfTwo p.aL.length = _
    rw [hl']; rfl) ((Nat.pow_lt_pow_iff_right (by omega)).mp hsize) hG hH (hb.imp (fun h => Nat.pos_iff_ne_zero.mp (Nat.clog_pos (by omega) h)) id)
  rw [o.g, o.h] at this
  exact this

/-! ## The hypotheses are met

The session of C17, which has a randomized constraint: the code's prover is accepted often enough to be rewound. -/

/-- The prover of the session, as an interactive prover. -/
def demoInteractive (c : Coins Z101) : Interactive Z101 Z101 := (demoP 3 4).interactive (Env.std fun _ => 2) c [1, 2, 3, 4] [5, 6, 7, 8] 1

/-- The verifier of the session. -/
def demoIV : Verifier Z101 Z101 := demoV (commitScalar 1 5 (3 : Z101) 7) (commitScalar 1 5 (4 : Z101) 8)

/-- After the randomized constraints. -/
def demoIV2 (c : Coins Z101) : Verifier Z101 Z101 :=
  match (demoIV.start ((demoInteractive c).proof 0 0 [])).createRandomizedConstraints { (Env.std fun _ => 2 : Env Z101 Z101) with oracle := publicCoins [2] } with
  | .ok s => s
  | .error _ => demoIV

theorem demoInteractive_accepted (c : Coins Z101) : (Fintype.card Z101 - 1) ^ (1 + 1) * Fintype.card Z101 ^ 5 ≤
    Nat.card {q : (Fin (5 + 1) → Z101) × Z101 // (demoInteractive c).Convinces (Env.std fun _ => 2) demoIV 1 5 [1, 2, 3, 4] [5, 6, 7, 8] 1 1 ([2] ++ List.ofFn q.1) q.2} :=
  c62_honest (Env.std fun _ => 2) (Env.std fun _ => 2) (demoP 3 4) (demoP2 3 4 c [1, 2, 3, 4] [5, 6, 7, 8]) _ rfl (demo_session 3 4) c [1, 2, 3, 4] [5, 6, 7, 8] [2] rfl rfl (demo_satisfied c) (demo_inRange 3 4 c) 1
    (by rw [demo_size]; norm_num) (by norm_num) (by simp) (by simp) (.inl (by omega))

example (c : Coins Z101) : ∃ t : R1CSTree Z101 Z101 1 6, t.Full ∧ t.Accepted demoIV (demoIV2 c) 1 5 [1, 2, 3, 4] [5, 6, 7, 8] ∧ t.AnswersOf (demoInteractive c) [2] :=
  c62_tree (by simp [Env.std]) (demoInteractive c) (s2 := demoIV2 c) (k := 1) [2] rfl rfl (show nextPowerOfTwo 2 = 2 ^ 1 by decide +kernel) (by
    refine lt_of_lt_of_le ?_ (demoInteractive_accepted c)
    show knowledgeError 1 6 * Fintype.card Z101 ^ (5 + 1) < _
    rw [ZMod.card]
    norm_num [knowledgeError])

/-- The verifier of the statement `x y = 48`, for commitments to 3 and 16. -/
def demoFactorsV : Verifier Z101 Z101 := (verifyFactors (Env.std fun _ => 2) 0 48 [3 • 1 + 7 • 5, 16 • 1 + 8 • 5] (Verifier.new [.init "f"])).2

/-- The code's prover for `3 * 16 = 48` is accepted often, so that it can be rewound. -/
example (c : Coins Z101) : ∃ (P : Interactive Z101 Z101) (t : R1CSTree Z101 Z101 0 3) (s2 : Verifier Z101 Z101),
    Convincing t "f" (verifyFactors (Env.std fun _ => 2) 0 48 [3 • 1 + 7 • 5, 16 • 1 + 8 • 5]) 1 5 [2] [3] demoFactorsV s2 ∧ t.AnswersOf P [] := by
  obtain ⟨coms, p, s, -, e2, e3, e4, e5⟩ := c62_gadget (c60_complete (Env.std fun _ => (2 : Z101)) (Env.std fun _ => 2) rfl (3, 7) (16, 8) [] 48 (by decide) none) rfl (OnePhase.factors _ 0 48) (by decide +kernel)
    (.inr (by simp [Env.std])) "f" (1 : Z101) 5 c [2] [3] (by decide +kernel) (by decide +kernel)
  have e4 : coms = [(3 : Z101) • 1 + (7 : Z101) • 5, (16 : Z101) • 1 + (8 : Z101) • 5] := e4
  have es : s = demoFactorsV := by
    rw [e4] at e2
    exact (congrArg Prod.snd e2).symm
  subst es
  subst e4
  obtain ⟨t, s2, h1, h2⟩ := c62_statement (by simp [Env.std]) (p.interactive (Env.std fun _ => 2) c [2] [3] 0) (OnePhase.factors _ 0 48 _) e2 (lt_of_lt_of_le (b := (Fintype.card Z101 - 1) ^ (1 + 0) * Fintype.card Z101 ^ 5) (by
    show knowledgeError 0 3 * Fintype.card Z101 ^ (5 + 0) < _
    rw [ZMod.card]
    norm_num [knowledgeError]) e5)
  exact ⟨_, t, s2, h1, h2⟩

end Bp
