import Verif.Spec.Reuse
import Verif.Lemmas.Reuse
import Verif.Props.Request
import Verif.Props.FiatShamirExample
import Mathlib.Tactic.FieldSimp

/-! # C88: proofs made with the same random numbers -/

set_option linter.unusedSectionVars false

namespace Bp
variable {F G : Type} [Field F] [AddCommGroup G] [Module F G] [ByteRep F]

/-- The parts of a proof in terms of the secrets, which are the same whatever the label. -/
theorem observe_spec {stmts : List (Stmt F)} {dp : Env F G → Drv (Prover F G) (List G)} (hq : Requests stmts dp) {env : Env F G} {label label0 : String} {g h : G} {c : Coins F} {Gs Hs : List G} {pr : R1CSProof F G} {coms coms0 : List G}
    {p : Prover F G} (hd : dp env (Prover.new g h [.init label0]) = (.ok coms0, p)) (hgen : genProof env label g h c Gs Hs (dp env) = .ok (pr, coms)) :
    coms = coms0 ∧ ∃ o, observe env label g h stmts coms pr = .ok o ∧ o.V = List.zipWith (commitScalar g h) p.v p.vBlinding ∧ o.wV.length = p.vBlinding.length ∧
      pr.t_x_blinding = (⟨c.t1B, dot o.wV p.vBlinding, c.t3B, c.t4B, c.t5B, c.t6B⟩ : Poly6 F).eval o.x ∧ pr.e_blinding = o.x * (c.iB1 + o.x * (c.oB1 + o.x * c.sB1)) ∧
      pr.A_I1 = vecCommit h (Gs.take p.aL.length) (Hs.take p.aL.length) p.aL p.aR c.iB1 := by
  obtain ⟨t, e⟩ := hq.blind env (Prover.new g h [.init label0]) (Prover.new (F := F) g h [.init label]).transcript
  rw [hd] at e
  have e : dp env (Prover.new g h [.init label]) = (.ok coms0, p.over t) := e
  unfold genProof at hgen
  rw [e] at hgen
  simp only at hgen
  obtain ⟨-, s, hv, J⟩ := hq.verified (.new env env g h [.init label] 0 0) e
  obtain ⟨hw, hi⟩ := J.inStep rfl
  cases hpr : (p.over t).prove env c Gs Hs with
  | error e => rw [hpr] at hgen; cases hgen
  | ok q =>
    obtain ⟨pr', t'⟩ := q
    rw [hpr] at hgen
    simp only [Except.ok.injEq, Prod.mk.injEq] at hgen
    obtain ⟨rfl, rfl⟩ := hgen
    obtain ⟨p2, k, ch, wp, lp, rp, hcrc, hk, hG, hH, hin, H⟩ := prove_inv hw hpr
    have hdef : (p.over t).deferred = [] := by
      have := hi.deferred
      rw [(OnePhase.stmts _ g h stmts coms0 _ _ _ hv).1] at this
      exact List.forall₂_nil_right_iff.mp this
    have e2 : p2 = { (p.over t).start c Gs Hs with pending := none, transcript := ((p.over t).start c Gs Hs).transcript.r1cs1PhaseDomainSep } := by
      have hd0 : ((p.over t).start c Gs Hs).deferred = [] := hdef
      unfold Prover.createRandomizedConstraints at hcrc
      simp only [hd0, List.length_nil, if_true, Except.ok.injEq] at hcrc
      rw [← hcrc]
      simp only [hd0]
    have eL : p2.aL = p.aL := by rw [e2]; rfl
    have eB : p2.vBlinding = p.vBlinding := by rw [e2]; rfl
    have pg : p.g = g := J.g
    have ph : p.h = h := J.h
    have hVlen : s.V.length = p.v.length := by
      have := congrArg List.length hi.V
      rwa [List.length_zipWith, hi.lenB, Nat.min_self] at this
    have eT : p2.transcript = (s.start pr').transcript.r1cs1PhaseDomainSep := by
      have hT : s.transcript = t := hi.transcript
      rw [e2]
      show (log1 t p.v.length _ _ _).r1cs1PhaseDomainSep = (log1 s.transcript s.V.length pr'.A_I1 pr'.A_O1 pr'.S1).r1cs1PhaseDomainSep
      rw [hT, hVlen, H.hA_I1, H.hA_O1, H.hS1]
    have hwp : (p.over t).flattenedConstraints ch.z = .ok wp := by
      have := H.hwp
      rw [e2] at this
      exact this
    obtain ⟨w, hw', -, -, -, eV⟩ := c10_flatten_agree _ _ hi _ _ hwp
    have hlen : wp.wV.length = p.v.length := (Prover.flattened_len hwp).V
    have hB : p.vBlinding.length = p.v.length := hi.lenB
    have hne : ¬ (p.over t).aL.length < p2.aL.length := by rw [eL]; exact lt_irrefl _
    refine ⟨rfl, ⟨ch.x, wp.wV, s.V⟩, ?_, ?_, by rw [hlen, hB], ?_, ?_, ?_⟩
    · unfold observe
      rw [hv]
      simp only
      rw [← eT, ← H.hch, hw', ← eV]
      rfl
    · have := hi.V
      rw [this]
      show List.zipWith (commitScalar p.g p.h) p.v p.vBlinding = _
      rw [pg, ph]
    · rw [H.ht_x_blinding, eB]
    · rw [H.he_blinding]
      simp only [if_neg hne]
      ring
    · rw [H.hA_I1]
      show vecCommit p.h _ _ _ _ _ = _
      rw [ph]
      rfl

/-- **C88**, the negation: the same proving functions are run with the same inputs and the same random numbers under several labels.  Every combination of the `t_x_blinding` in the proofs that cancels the other powers of the challenges `x`
is a combination, with known coefficients, of the blindings of the commitments alone. -/
theorem c88_combination {stmts : List (Stmt F)} {dp : Env F G → Drv (Prover F G) (List G)} (hq : Requests stmts dp) (env : Env F G) (g h : G) (c : Coins F) (Gs Hs : List G) {k : ℕ} (label : Fin k → String) (pr : Fin k → R1CSProof F G)
    (coms : Fin k → List G) (hgen : ∀ i, genProof env (label i) g h c Gs Hs (dp env) = .ok (pr i, coms i)) {label0 : String} {coms0 : List G} {p : Prover F G} (hd : dp env (Prover.new g h [.init label0]) = (.ok coms0, p)) :
    ∃ o : Fin k → Observed F G, (∀ i, observe env (label i) g h stmts (coms i) (pr i) = .ok (o i)) ∧ ∀ a : Fin k → F,
      (∀ n ∈ [1, 3, 4, 5, 6], ∑ i, a i * (o i).x ^ n = 0) → ∑ i, a i * (pr i).t_x_blinding = ∑ i, a i * (o i).x ^ 2 * dot (o i).wV p.vBlinding := by
  choose hc o ho hV hl ht he hA using fun i => observe_spec hq hd (hgen i)
  refine ⟨o, ho, fun a ha => ?_⟩
  have e : ∀ i, a i * (pr i).t_x_blinding = a i * (o i).x ^ 2 * dot (o i).wV p.vBlinding + (c.t1B * (a i * (o i).x ^ 1) + c.t3B * (a i * (o i).x ^ 3) + c.t4B * (a i * (o i).x ^ 4) + c.t5B * (a i * (o i).x ^ 5) + c.t6B * (a i * (o i).x ^ 6)) := fun i => by
    rw [ht i]
    unfold Poly6.eval
    ring
  rw [Finset.sum_congr rfl fun i _ => e i, Finset.sum_add_distrib]
  simp only [Finset.sum_add_distrib, ← Finset.mul_sum]
  rw [ha 1 (by simp), ha 3 (by simp), ha 4 (by simp), ha 5 (by simp), ha 6 (by simp)]
  ring

/-- **C88**, the negation: with enough such proofs the blinding of each commitment comes out, and so what is committed is no longer hidden: `V j` is a known point plus a multiple of `g`. -/
theorem c88_blinding {stmts : List (Stmt F)} {dp : Env F G → Drv (Prover F G) (List G)} (hq : Requests stmts dp) (env : Env F G) (g h : G) (c : Coins F) (Gs Hs : List G) {k : ℕ} (label : Fin k → String) (pr : Fin k → R1CSProof F G)
    (coms : Fin k → List G) (hgen : ∀ i, genProof env (label i) g h c Gs Hs (dp env) = .ok (pr i, coms i)) {label0 : String} {coms0 : List G} {p : Prover F G} (hd : dp env (Prover.new g h [.init label0]) = (.ok coms0, p)) :
    ∃ o : Fin k → Observed F G, (∀ i, observe env (label i) g h stmts (coms i) (pr i) = .ok (o i)) ∧ ∀ (a : Fin k → F) (j : ℕ), j < p.v.length → (∀ n ∈ [1, 3, 4, 5, 6], ∑ i, a i * (o i).x ^ n = 0) →
      (∀ l < p.v.length, ∑ i, a i * (o i).x ^ 2 * (o i).wV.getD l 0 = if l = j then 1 else 0) →
      ∑ i, a i * (pr i).t_x_blinding = p.vBlinding.getD j 0 ∧ ∀ i, (o i).V.getD j 0 = p.v.getD j 0 • g + (∑ i, a i * (pr i).t_x_blinding) • h := by
  obtain ⟨o', ho', hsum⟩ := c88_combination hq env g h c Gs Hs label pr coms hgen hd
  choose hc o ho hV hl ht he hA using fun i => observe_spec hq hd (hgen i)
  have eo : o' = o := funext fun i => by
    have := (ho' i).symm.trans (ho i)
    simpa using this
  subst eo
  have hB : p.vBlinding.length = p.v.length := by
    obtain ⟨-, s, -, J⟩ := hq.verified (.new env env g h [.init label0] 0 0) hd
    exact (J.inStep rfl).2.lenB
  refine ⟨o', ho, fun a j hj ha hw => ?_⟩
  have key : ∑ i, a i * (pr i).t_x_blinding = p.vBlinding.getD j 0 := by
    rw [hsum a ha]
    have e : ∀ i, a i * (o' i).x ^ 2 * dot (o' i).wV p.vBlinding = ∑ l ∈ Finset.range p.v.length, a i * (o' i).x ^ 2 * (o' i).wV.getD l 0 * p.vBlinding.getD l 0 := fun i => by
      rw [dot_eq_sum (n := p.v.length) ((hl i).trans hB) hB, Finset.mul_sum]
      exact Finset.sum_congr rfl fun l _ => by ring
    rw [Finset.sum_congr rfl fun i _ => e i, Finset.sum_comm]
    rw [Finset.sum_congr rfl fun l hl' => show _ = (if l = j then 1 else 0) * p.vBlinding.getD l 0 from by rw [← Finset.sum_mul, hw l (Finset.mem_range.mp hl')]]
    simp [hj]
  refine ⟨key, fun i => ?_⟩
  have hjB : j < p.vBlinding.length := by rw [hB]; exact hj
  rw [key, hV i, List.getD_eq_getElem?_getD, List.getElem?_zipWith, List.getD_eq_getElem?_getD, List.getD_eq_getElem?_getD, List.getElem?_eq_getElem hj, List.getElem?_eq_getElem hjB]
  rfl

theorem unblind_spec (x : Fin 3 → F) (h0 : ∀ i, x i ≠ 0) (h1 : x 0 ≠ x 1) (h2 : x 0 ≠ x 2) (h3 : x 1 ≠ x 2) (i o s : F) : unblind x (fun k => x k * (i + x k * (o + x k * s))) = i := by
  have a0 := h0 0
  have a1 := h0 1
  have a2 := h0 2
  have b1 := sub_ne_zero.mpr h1
  have b2 := sub_ne_zero.mpr h2
  have b3 := sub_ne_zero.mpr h3
  have c1 := sub_ne_zero.mpr h1.symm
  have c2 := sub_ne_zero.mpr h2.symm
  have c3 := sub_ne_zero.mpr h3.symm
  unfold unblind
  rw [show x 0 - x 1 = -(x 1 - x 0) by ring, show x 0 - x 2 = -(x 2 - x 0) by ring, show x 1 - x 2 = -(x 2 - x 1) by ring]
  field_simp
  ring

/-- **C88**, the negation: three proofs are enough to take the blinding off the commitment to the wires: with `e_blinding` of the three, `A_I1` becomes a point that depends on nothing but the wires of the gates. -/
theorem c88_wires {stmts : List (Stmt F)} {dp : Env F G → Drv (Prover F G) (List G)} (hq : Requests stmts dp) (env : Env F G) (g h : G) (c : Coins F) (Gs Hs : List G) (label : Fin 3 → String) (pr : Fin 3 → R1CSProof F G)
    (coms : Fin 3 → List G) (hgen : ∀ i, genProof env (label i) g h c Gs Hs (dp env) = .ok (pr i, coms i)) {label0 : String} {coms0 : List G} {p : Prover F G} (hd : dp env (Prover.new g h [.init label0]) = (.ok coms0, p)) :
    ∃ o : Fin 3 → Observed F G, (∀ i, observe env (label i) g h stmts (coms i) (pr i) = .ok (o i)) ∧
      ((∀ i, (o i).x ≠ 0) → (o 0).x ≠ (o 1).x → (o 0).x ≠ (o 2).x → (o 1).x ≠ (o 2).x →
        ∀ i, (pr i).A_I1 - unblind (fun k => (o k).x) (fun k => (pr k).e_blinding) • h = msm p.aL (Gs.take p.aL.length) + msm p.aR (Hs.take p.aL.length)) := by
  choose hc o ho hV hl ht he hA using fun i => observe_spec hq hd (hgen i)
  refine ⟨o, ho, fun h0 h1 h2 h3 i => ?_⟩
  rw [show (fun k => (pr k).e_blinding) = fun k => (fun k => (o k).x) k * (c.iB1 + (fun k => (o k).x) k * (c.oB1 + (fun k => (o k).x) k * c.sB1)) from funext he, unblind_spec _ h0 h1 h2 h3, hA i]
  unfold vecCommit
  abel

/-- **C88**: such a point belongs to one assignment of the wires only, so that every guess of the secrets can be tested. -/
theorem c88_guess {Gn Hn : List G} (hi : Independent F (Gn ++ Hn)) {aL aR aL' aR' : List F} (h1 : aL.length = Gn.length) (h2 : aR.length = Hn.length) (h1' : aL'.length = Gn.length) (h2' : aR'.length = Hn.length)
    (he : msm aL Gn + msm aR Hn = msm aL' Gn + msm aR' Hn) : aL = aL' ∧ aR = aR' := by
  rw [← msm_append h1, ← msm_append h1', msm_eq_sum (n := (Gn ++ Hn).length) (by simp [h1, h2]) rfl, msm_eq_sum (n := (Gn ++ Hn).length) (by simp [h1', h2']) rfl] at he
  have key := hi (fun i => (aL ++ aR).getD i 0 - (aL' ++ aR').getD i 0) (by simp only [sub_smul, Finset.sum_sub_distrib]; rw [he, _root_.sub_self])
  have e : aL ++ aR = aL' ++ aR' := List.ext_getElem (by simp [h1, h2, h1', h2']) fun i hi1 hi2 => by
    have := key i (by simpa [h1, h2] using hi1)
    simp only [List.getD_eq_getElem?_getD, List.getElem?_eq_getElem hi1, List.getElem?_eq_getElem hi2, Option.getD_some] at this
    exact _root_.sub_eq_zero.mp this
  exact List.append_inj e (by rw [h1, h1'])

/-- **C88**: already two such proofs can be seen to belong together: they have the same commitments and the same `A_I1`. -/
theorem c88_linked {stmts : List (Stmt F)} {dp : Env F G → Drv (Prover F G) (List G)} (hq : Requests stmts dp) (env : Env F G) (g h : G) (c : Coins F) (Gs Hs : List G) {label label' : String} {pr pr' : R1CSProof F G} {coms coms' : List G}
    (h1 : genProof env label g h c Gs Hs (dp env) = .ok (pr, coms)) (h2 : genProof env label' g h c Gs Hs (dp env) = .ok (pr', coms')) : coms = coms' ∧ pr.A_I1 = pr'.A_I1 := by
  rcases hd : dp env (Prover.new g h [.init label]) with ⟨e | coms0, p⟩
  · rw [genProof, hd] at h1; cases h1
  obtain ⟨e1, o, -, -, -, -, -, hA⟩ := observe_spec hq hd h1
  obtain ⟨e2, o', -, -, -, -, -, hA'⟩ := observe_spec hq hd h2
  exact ⟨e1.trans e2.symm, hA.trans hA'.symm⟩

/-- An oracle that answers differently for seven labels. -/
def againOracle (log : Transcript Z101 V6) : Z101 :=
  match log with
  | .init "1" :: _ => 2 + log.length
  | .init "2" :: _ => 3 + log.length * 5
  | .init "3" :: _ => 7 + log.length * 12
  | .init "4" :: _ => 20 + log.length * 23
  | .init "5" :: _ => 31 + log.length * 34
  | .init "6" :: _ => 44 + log.length * 47
  | _ => 50 + log.length * 71

def againLabel (i : Fin 7) : String := ["1", "2", "3", "4", "5", "6", "7"].getD i ""

/-- The non-zero function called on `4` with the blinding `9`. -/
def againRun (env : Env Z101 V6) : Drv (Prover Z101 V6) (List V6) := do
  let cs ← proveNonZeroVal env (4 : Z101) (some 9) none (fun i => i + 20)
  let cs' ← pure []
  return cs ++ cs'

theorem again_requests : Requests [Stmt.nonZero] againRun := .cons (.nonZero (4 : Z101) (some 9) none (.inl rfl) fun i => i + 20) .nil

/-- The seven proofs that come out under the seven labels with the same coins. -/
def again (i : Fin 7) : Res (R1CSProof Z101 V6 × List V6) :=
  genProof (Env.std againOracle) (againLabel i) (unit6 4) (unit6 5) refutedCoins [unit6 0, unit6 1] [unit6 2, unit6 3] (againRun (Env.std againOracle))

def againProof (i : Fin 7) : R1CSProof Z101 V6 := match again i with | .ok q => q.1 | .error _ => ⟨0, 0, 0, 0, 0, 0, 0, 0, 0, 0, 0, 0, 0, 0, ⟨[], [], 0, 0⟩⟩
def againComs (i : Fin 7) : List V6 := match again i with | .ok q => q.2 | .error _ => []

theorem again_ok (i : Fin 7) : genProof (Env.std againOracle) (againLabel i) (unit6 4) (unit6 5) refutedCoins [unit6 0, unit6 1] [unit6 2, unit6 3] (againRun (Env.std againOracle)) = .ok (againProof i, againComs i) := by
  show again i = _
  have hk : (again i).isOk = true := by revert i; decide +kernel
  unfold againProof againComs
  revert hk
  cases again i with
  | error e => intro hk; cases hk
  | ok q => intro; rfl

/-- What an observer of the seven proofs computes. -/
def againSeen (i : Fin 7) : Observed Z101 V6 := match observe (Env.std againOracle) (againLabel i) (unit6 4) (unit6 5) [.nonZero] (againComs i) (againProof i) with | .ok o => o | .error _ => ⟨0, [], []⟩

/-- The combination of the seven proofs. -/
def againCoeff (i : Fin 7) : Z101 := [68, 25, 6, 43, 31, 83, 44].getD i 0

/-- The prover before its proof. -/
def againP : Prover Z101 V6 := (againRun (Env.std againOracle) (Prover.new (unit6 4) (unit6 5) [.init "1"])).2

theorem again_run : againRun (Env.std againOracle) (Prover.new (unit6 4) (unit6 5) [.init "1"]) = (.ok (againComs 0), againP) := by
  have hk := again_ok 0
  unfold genProof at hk
  unfold againP
  rcases hd : againRun (Env.std againOracle) (Prover.new (unit6 4) (unit6 5) [.init (againLabel 0)]) with ⟨e | cs, p⟩
  · rw [hd] at hk; cases hk
  · rw [hd] at hk
    simp only at hk
    have hd : againRun (Env.std againOracle) (Prover.new (unit6 4) (unit6 5) [.init "1"]) = (.ok cs, p) := hd
    rw [hd]
    split at hk <;> cases hk
    rfl

/-- The hypotheses of `c88_blinding` are met: seven proofs about the value `4` give away its blinding `9`. -/
example : ∃ a : Fin 7 → Z101, ∑ i, a i * (againProof i).t_x_blinding = 9 ∧ ∀ i, (againSeen i).V.getD 0 0 = (4 : Z101) • unit6 4 + (∑ i, a i * (againProof i).t_x_blinding) • unit6 5 := by
  obtain ⟨o, ho, hb⟩ := c88_blinding again_requests (Env.std againOracle) (unit6 4) (unit6 5) refutedCoins [unit6 0, unit6 1] [unit6 2, unit6 3] againLabel againProof againComs again_ok again_run
  have eo : o = againSeen := funext fun i => by unfold againSeen; rw [ho i]
  subst eo
  have e : againP.vBlinding.getD 0 0 = 9 ∧ againP.v.getD 0 0 = 4 ∧ againP.v.length = 2 := by decide +kernel
  obtain ⟨h1, h2⟩ := hb againCoeff 0 (by rw [e.2.2]; decide) (by decide +kernel) (by rw [e.2.2]; decide +kernel)
  rw [e.1] at h1
  rw [e.2.1] at h2
  exact ⟨againCoeff, h1, h2⟩

/-- The hypotheses of `c88_wires` are met by the first three of them, and the wires are the two of the one gate and its padding. -/
example (i : Fin 3) : (againProof (i.castLE (by decide))).A_I1 - unblind (fun k : Fin 3 => (againSeen (k.castLE (by decide))).x) (fun k => (againProof (k.castLE (by decide))).e_blinding) • unit6 5 =
    msm againP.aL ([unit6 0, unit6 1].take againP.aL.length) + msm againP.aR ([unit6 2, unit6 3].take againP.aL.length) := by
  obtain ⟨o, ho, hb⟩ := c88_wires again_requests (Env.std againOracle) (unit6 4) (unit6 5) refutedCoins [unit6 0, unit6 1] [unit6 2, unit6 3] (fun k => againLabel (k.castLE (by decide))) (fun k => againProof (k.castLE (by decide)))
    (fun k => againComs (k.castLE (by decide))) (fun k => again_ok _) again_run
  have eo : o = fun k => againSeen (k.castLE (by decide)) := funext fun i => by unfold againSeen; rw [ho i]
  subst eo
  exact hb (by decide +kernel) (by decide +kernel) (by decide +kernel) (by decide +kernel) i

/-- The hypotheses of `c88_linked` are met. -/
example : againComs 0 = againComs 3 ∧ (againProof 0).A_I1 = (againProof 3).A_I1 := c88_linked again_requests (Env.std againOracle) (unit6 4) (unit6 5) refutedCoins [unit6 0, unit6 1] [unit6 2, unit6 3] (again_ok 0) (again_ok 3)

/-- The hypotheses of `c88_guess` are met. -/
example {aL aR : List Z101} (h1 : aL.length = 4) (h2 : aR.length = 2) (he : msm [(1 : Z101), 2, 3, 4] [unit6 0, unit6 1, unit6 2, unit6 3] + msm [(7 : Z101), 8] [unit6 4, unit6 5] = msm aL [unit6 0, unit6 1, unit6 2, unit6 3] + msm aR [unit6 4, unit6 5]) :
    [(1 : Z101), 2, 3, 4] = aL ∧ [(7 : Z101), 8] = aR := c88_guess (Gn := [unit6 0, unit6 1, unit6 2, unit6 3]) unit6_independent rfl rfl h1 h2 he

end Bp
