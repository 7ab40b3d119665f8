import Verif.Lemmas.Gadgets.Frame
import Verif.Props.R1CS

set_option linter.unusedSectionVars false
set_option linter.unusedSimpArgs false

/-! # Reasoning about drivers -/

namespace Bp
variable {F G : Type} [Field F] [AddCommGroup G] [SMul F G]
variable {S α β : Type}

theorem Drv.bind_ok {d : Drv S α} {f : α → Drv S β} {s s' : S} {b : β} : (d >>= f) s = (.ok b, s') ↔ ∃ a s1, d s = (.ok a, s1) ∧ f a s1 = (.ok b, s') := by
  show Drv.bind d f s = _ ↔ _
  unfold Drv.bind
  rcases d s with ⟨_ | a, s1⟩
  · simp
  · constructor
    · intro h; exact ⟨a, s1, rfl, h⟩
    · rintro ⟨a', s1', h1, h2⟩
      simp only [Prod.mk.injEq, Except.ok.injEq] at h1
      obtain ⟨rfl, rfl⟩ := h1
      exact h2

theorem Drv.pure_ok {s s' : S} {a b : α} : (pure a : Drv S α) s = (.ok b, s') ↔ a = b ∧ s = s' := by
  show ((.ok a : Res α), s) = _ ↔ _
  simp

theorem Drv.lift_ok {r : Res α} {s s' : S} {a : α} : Drv.lift r s = (.ok a, s') ↔ r = .ok a ∧ s = s' := by
  simp [Drv.lift]

/-- Committing on the verifier: the points are appended and announced, and the variables are numbered consecutively. -/
theorem Verifier.commitAll_eq : ∀ (Vs : List G) (s : Verifier F G), s.commitAll Vs =
    ((List.range Vs.length).map (fun i => Var.committed (s.V.length + i)),
     { s with V := s.V ++ Vs, transcript := s.transcript ++ Vs.map (TEvent.point "V") })
  | [], s => by simp [commitAll]
  | V :: Vs, s => by
    rw [commitAll, Verifier.commitAll_eq Vs]
    simp only [commit, List.length_append, List.length_singleton, List.length_cons, List.range_succ_eq_map, List.map_cons, List.map_map, Prod.mk.injEq]
    refine ⟨?_, ?_⟩
    · simp [Function.comp_def]; intro a _; omega
    · simp [Transcript.commitPoint]

theorem Prover.commitAll_eq : ∀ (vs : List (F × F)) (p : Prover F G), p.commitAll vs =
    ((vs.zipIdx p.v.length).map (fun q => (commitScalar p.g p.h q.1.1 q.1.2, Var.committed q.2)),
     { p with v := p.v ++ vs.map Prod.fst, vBlinding := p.vBlinding ++ vs.map Prod.snd, transcript := p.transcript ++ vs.map (fun q => TEvent.point "V" (commitScalar p.g p.h q.1 q.2)) })
  | [], p => by simp [commitAll]
  | (v, b) :: vs, p => by
    rw [commitAll, Prover.commitAll_eq vs]
    simp [commit, Transcript.commitPoint]

theorem Verifier.commits_ok {Vs : List G} {s s' : Verifier F G} {vars : List Var} : Verifier.commits Vs s = (.ok vars, s') ↔
    vars = (List.range Vs.length).map (fun i => Var.committed (s.V.length + i)) ∧
    s' = { s with V := s.V ++ Vs, transcript := s.transcript ++ Vs.map (TEvent.point "V") } := by
  rw [Verifier.commits, Verifier.commitAll_eq]
  simp only [Prod.mk.injEq, Except.ok.injEq]
  exact ⟨fun ⟨a, b⟩ => ⟨a.symm, b.symm⟩, fun ⟨a, b⟩ => ⟨a.symm, b.symm⟩⟩

theorem Verifier.gadget_ok {env : Env F G} {c : Prog1 F α} {s s' : Verifier F G} {a : α} : Verifier.gadget env c s = (.ok a, s') ↔ s.run1 env c = .ok (a, s') := by
  unfold Verifier.gadget
  cases s.run1 env c with
  | error e => simp
  | ok q => obtain ⟨b, t⟩ := q; simp

theorem Prover.gadget_ok {env : Env F G} {c : Prog1 F α} {s s' : Prover F G} {a : α} : Prover.gadget env c s = (.ok a, s') ↔ s.run1 env c = .ok (a, s') := by
  unfold Prover.gadget
  cases s.run1 env c with
  | error e => simp
  | ok q => obtain ⟨b, t⟩ := q; simp

theorem checkRandomness_ok {A B : Type} {randomness : Option A} {rng : Option B} (h : randomness.isSome ∨ rng.isSome) : checkRandomness randomness rng = .ok () := by
  unfold checkRandomness
  rw [if_neg]
  rintro ⟨h1, h2⟩
  rcases h with h | h <;> simp_all

theorem pickBlinding_ok {randomness : Option F} {rng : Option (ℕ → F)} (h : randomness.isSome ∨ rng.isSome) :
    pickBlinding randomness rng = .ok (blindingOf randomness rng) ∧ checkRandomness randomness rng = .ok () := by
  have hc := checkRandomness_ok h
  cases randomness with
  | some r => exact ⟨rfl, hc⟩
  | none =>
    cases rng with
    | some g => exact ⟨rfl, hc⟩
    | none => simp at h

theorem takeComms_ok {xs ys : List α} {k : ℕ} : takeComms xs k = .ok ys ↔ k ≤ xs.length ∧ ys = xs.take k := by
  unfold takeComms
  split
  · simp [*, eq_comm]
  · simp [*, Res.panic]

theorem ippChallenges_ne_zero {O : Oracle F G} (h0 : ∀ l, O l ≠ 0) : ∀ {lr : List (G × G)} {t : Transcript F G} {u : F}, u ∈ (ippChallenges O t lr).1 → u ≠ 0
  | [], t, u, hu => by simp [ippChallenges] at hu
  | (L, R) :: rest, t, u, hu => by
    simp only [ippChallenges, List.mem_cons] at hu
    rcases hu with rfl | hu
    · exact h0 _
    · exact ippChallenges_ne_zero h0 hu

/-- A first-phase gadget on the verifier: what its soundness rule says, and that it only adds constraints. -/
theorem Verifier.gadget_sound {env : Env F G} {c : Prog1 F α} {s s' : Verifier F G} {a : α} (h : Verifier.gadget env c s = (.ok a, s')) :
    s.constraints <+: s'.constraints ∧ s'.V = s.V ∧ ∀ {σ : Assignment F} {Q : α → Prop}, VS env σ c Q → σ.Sat s'.constraints → Q a := by
  rw [Verifier.gadget_ok] at h
  refine ⟨Verifier.run_cons (onSpec := fun cb s => s.specify cb) (fun _ _ => rfl) c _ _ _ h, ?_, fun hv hs => hv (fun cb s => s.specify cb) (fun _ _ => rfl) _ _ _ h hs⟩
  exact Verifier.run_V (onSpec := fun cb s => s.specify cb) (fun _ _ => rfl) c _ _ _ h

/-! ## Joint states -/

theorem Joint.new (env env' : Env F G) (g h : G) (t : Transcript F G) (k k' : ℕ) : Joint env env' (Prover.new g h t k) (Verifier.new t k') :=
  ⟨.new g h t k k', ⟨Prover.wf_new g h t k, fun lc hlc => by simp [Prover.new] at hlc⟩, rfl⟩

theorem Prover.Good.commit {p : Prover F G} (h : p.Good) (v b : F) : (p.commit v b).2.Good ∧ (p.commit v b).2.HasV (p.commit v b).1.2 v := by
  have e := Prover.ext_commit p v b
  refine ⟨⟨e.wf h.wf, fun lc hlc => ?_⟩, ?_, ?_⟩
  · obtain ⟨h1, h2⟩ := h.sat lc hlc
    exact ⟨e.stableLC h.wf h1, by rw [e.valueLC h.wf h1, h2]⟩
  · simp [Prover.Stable, Prover.commit]
  · simp [Prover.commit, Prover.assignment, Assignment.val]

section WithModule
variable {F G : Type} [Field F] [AddCommGroup G] [Module F G]
theorem Joint.commitAll {env env' : Env F G} (hO : env.oracle = env'.oracle) : ∀ (vs : List (F × F)) {p : Prover F G} {s : Verifier F G}, Joint env env' p s →
    ∃ cs p' s', Prover.commits vs p = (.ok cs, p') ∧ Verifier.commits (cs.map Prod.fst) s = (.ok (cs.map Prod.snd), s') ∧ Joint env env' p' s' ∧
      p'.pending = p.pending ∧ p'.aL = p.aL ∧ p.Ext p' ∧ Opened p p' vs (cs.map Prod.fst) ∧ List.Forall₂ p'.HasV (cs.map Prod.snd) (vs.map Prod.fst)
  | [], p, s, J => ⟨[], p, s, rfl, rfl, J, rfl, rfl, .refl _, ⟨by simp, by simp, rfl, rfl, rfl⟩, .nil⟩
  | (v, b) :: vs, p, s, J => by
    have J1 : Joint env env' (p.commit v b).2 (s.commit (p.commit v b).1.1).2 := ⟨.commit v b J.session, (J.good.commit v b).1, J.deferred⟩
    obtain ⟨cs, p', s', h1, h2, J', hp, hl, e, o, hf⟩ := Joint.commitAll hO vs J1
    have hv := (c04_commit p s (J.session.inStep hO).2 v b).1
    refine ⟨(p.commit v b).1 :: cs, p', s', ?_, ?_, J', hp, hl, (Prover.ext_commit p v b).trans e, ?_, ?_⟩
    · simp only [Prover.commits, Prover.commitAll, Prod.mk.injEq, Except.ok.injEq] at h1 ⊢
      exact ⟨by rw [h1.1], h1.2⟩
    · simp only [Verifier.commits, Verifier.commitAll, List.map_cons, Prod.mk.injEq, Except.ok.injEq, List.cons.injEq] at h2 ⊢
      exact ⟨⟨hv, h2.1⟩, h2.2⟩
    · exact ⟨by simpa [Prover.commit] using o.values, by simpa [Prover.commit] using o.blindings, by rw [List.map_cons, o.points]; rfl, o.g, o.h⟩
    · exact .cons ((J.good.commit v b).2.ext J1.good.wf e) hf
end WithModule

/-- A gadget does not change what was committed. -/
theorem Opened.next {p p' p'' : Prover F G} {vs ss : List (F × F)} {cs : List G} (o : Opened p p' vs cs ss) (n : p'.Next p'') : Opened p p'' vs cs ss :=
  ⟨by rw [n.v, o.values], by rw [n.vB, o.blindings], o.points, by rw [n.ext.g, o.g], by rw [n.ext.h, o.h]⟩

theorem Opened.trans {p p' p'' : Prover F G} {vs ws : List (F × F)} {cs ds : List G} (o : Opened p p' vs cs) (o' : Opened p' p'' ws ds) : Opened p p'' (vs ++ ws) (cs ++ ds) :=
  ⟨by rw [o'.values, o.values]; simp, by rw [o'.blindings, o.blindings]; simp, by rw [o'.points, o.points, o.g, o.h]; simp, o'.g.trans o.g, o'.h.trans o.h⟩

/-- Committing to publicly known values after the openings. -/
theorem Opened.statics {p p' p'' : Prover F G} {vs ws : List (F × F)} {cs ds : List G} (o : Opened p p' vs cs) (o' : Opened p' p'' ws ds) : Opened p p'' vs cs ws :=
  ⟨by rw [o'.values, o.values]; simp, by rw [o'.blindings, o.blindings]; simp, o.points, o'.g.trans o.g, o'.h.trans o.h⟩

section WithModule
variable {F G : Type} [Field F] [AddCommGroup G] [Module F G]
theorem Joint.gadget {env env' : Env F G} (hO : env.oracle = env'.oracle) {p : Prover F G} {s : Verifier F G} (J : Joint env env' p s) {RA : α → β → Prop}
    {c : Prog1 F α} {c' : Prog1 F β} {Q : α → Prover F G → Prop} (hc : PS env (fun cb p => p.specify cb) p c Q) (hQ : ∀ a p', Q a p' → p.Next p')
    (hs : Prog1.Same RA c c') {k : ℕ} (hk : PC p.pending c k) :
    ∃ a b p' s', Prover.gadget env c p = (.ok a, p') ∧ Verifier.gadget env' c' s = (.ok b, s') ∧ Joint env env' p' s' ∧ RA a b ∧ Q a p' ∧ p.Next p' ∧
      p'.pending = p.pending ∧ p'.aL.length = p.aL.length + k := by
  obtain ⟨a, p', hr, hq⟩ := hc
  have n := hQ a p' hq
  obtain ⟨b, s', hr', hab, -⟩ := run1_same hO hs (J.session.inStep hO).2 hr
  refine ⟨a, b, p', s', Prover.gadget_ok.mpr hr, Verifier.gadget_ok.mpr hr', ⟨.gadget J.session hs hr hr', n.good, n.deferred.trans J.deferred⟩, hab, hq, n, n.pending, ?_⟩
  exact (hk G env (fun cb p => p.specify cb) (fun _ _ => ⟨rfl, rfl⟩) p a p' rfl hr).2
end WithModule

/-! ## From honest pairs to accepted proofs -/

theorem Prover.Stable.inRange {p : Prover F G} {v : Var} (h : p.Stable v) : Var.InRange p.aL.length p.v.length v := by
  cases v with
  | left i => exact h
  | right i => exact h.1
  | out i => exact h.1
  | committed i => exact h
  | one => trivial

section WithModule
variable {F G : Type} [Field F] [AddCommGroup G] [Module F G]
theorem Joint.accepts [DecidableEq G] {env env' : Env F G} (hO : env.oracle = env'.oracle) (h0 : ∀ l, env.oracle l ≠ 0) {p : Prover F G} {s : Verifier F G} (J : Joint env env' p s)
    (c : Coins F) (Gs Hs : List G) (r : F) (hsize : nextPowerOfTwo p.aL.length < 2 ^ 32) (hG : nextPowerOfTwo p.aL.length ≤ Gs.length) (hH : nextPowerOfTwo p.aL.length ≤ Hs.length)
    (hb : 1 < p.aL.length ∨ env'.batchInvert [] = .ok ([], 1)) :
    ∃ pr t', p.prove env c Gs Hs = .ok (pr, t') ∧ s.verify env' pr p.g p.h Gs Hs r = .ok t' := by
  obtain ⟨pr, t', h1, h2⟩ := c17_complete_one_phase env env' hO p s J.session J.deferred c Gs Hs (fun lc hlc => (J.good.sat lc hlc).2)
    (fun lc hlc t ht => ((J.good.sat lc hlc).1 t ht).inRange) hsize hG hH hb
  refine ⟨pr, t', h1, h2 (h0 _) (fun u hu => ?_) r⟩
  exact ippChallenges_ne_zero h0 hu
end WithModule

section WithModule
variable {F G : Type} [Field F] [AddCommGroup G] [Module F G]
theorem HonestPair.endToEnd [DecidableEq G] {env env' : Env F G} {m : ℕ} {dp : Drv (Prover F G) (List G)} {dv : List G → Drv (Verifier F G) Unit}
    {os ss : List (F × F)} (h : HonestPair env env' none m os dp dv ss) (hO : env.oracle = env'.oracle) (h0 : ∀ l, env.oracle l ≠ 0) (hsize : nextPowerOfTwo m < 2 ^ 32)
    (hb : 1 < m ∨ env'.batchInvert [] = .ok ([], 1)) : EndToEnd env env' m os dp dv := by
  intro label g hh c Gs Hs r hG hH
  obtain ⟨coms, p', s', h1, h2, J, -, hl, o⟩ := h _ _ (Joint.new env env' g hh [.init label] 0 0) rfl
  have hl' : p'.aL.length = m := by rw [hl]; simp [Prover.new]
  obtain ⟨pr, t', h3, h4⟩ := J.accepts hO h0 c Gs Hs r (by rwa [hl']) (by rwa [hl']) (by rwa [hl']) (by rwa [hl'])
  rw [o.g, o.h] at h4
  refine ⟨pr, coms, ?_, ?_, o.points⟩
  · simp only [genProof, h1, h3]
  · simp only [verifyProof, h2]
    rw [show s'.verify env' pr g hh Gs Hs r = .ok t' from h4]
end WithModule

section WithModule
variable {F G : Type} [Field F] [AddCommGroup G] [Module F G]
/-- The prover's own assignment satisfies everything the verifier recorded. -/
theorem Joint.satisfies {env env' : Env F G} (hO : env.oracle = env'.oracle) {p : Prover F G} {s : Verifier F G} (J : Joint env env' p s) :
    p.assignment.Gates ∧ p.assignment.Sat s.constraints ∧ s.V.length = p.v.length := by
  obtain ⟨hw, hi⟩ := J.session.inStep hO
  refine ⟨fun i => by simpa [Prover.assignment] using hw.gates i, fun lc hlc => ?_, by rw [hi.V]; simp [hi.lenB]⟩
  obtain ⟨i, hi1, rfl⟩ := List.getElem_of_mem hlc
  have hi2 : i < p.constraints.length := by rw [hi.cons.length_eq]; exact hi1
  have := (List.forall₂_iff_get.mp hi.cons).2 i hi2 hi1
  have hv := LC.Equiv.value this p.assignment
  simp only [List.get_eq_getElem] at hv
  rw [← hv]
  exact (J.good.sat _ (List.getElem_mem hi2)).2
end WithModule

section WithModule
variable {F G : Type} [Field F] [AddCommGroup G] [Module F G]
/-- An honest pair yields an accepted statement together with a satisfying assignment. -/
theorem HonestPair.satisfiable {env env' : Env F G} {m : ℕ} {dp : Drv (Prover F G) (List G)} {dv : List G → Drv (Verifier F G) Unit}
    {os ss : List (F × F)} (h : HonestPair env env' none m os dp dv ss) (hO : env.oracle = env'.oracle) (g hh : G) (t : Transcript F G) :
    ∃ coms s', ∃ σ : Assignment F, dv coms (Verifier.new t 0) = (.ok (), s') ∧ σ.Gates ∧ σ.Sat s'.constraints := by
  obtain ⟨coms, p', s', h1, h2, J, -⟩ := h _ _ (Joint.new env env' g hh t 0 0) rfl
  exact ⟨coms, s', p'.assignment, h2, (J.satisfies hO).1, (J.satisfies hO).2.1⟩
end WithModule

section WithModule
variable {F G : Type} [Field F] [AddCommGroup G] [Module F G]
/-- A complete pair whose opened values violate `R` shows that `dv` is not sound for `R`. -/
theorem HonestPair.not_sound {env env' : Env F G} {m k : ℕ} {dp : Drv (Prover F G) (List G)} {dv : List G → Drv (Verifier F G) Unit} {os ss : List (F × F)}
    (h : HonestPair env env' none m os dp dv ss) (hO : env.oracle = env'.oracle) {R : (ℕ → F) → Prop} (hR : ¬ R fun i => ((os ++ ss).map Prod.fst).getD i 0) :
    ¬ SoundFor k dv R := by
  intro hs
  obtain ⟨coms, p', s', h1, h2, J, -, -, o⟩ := h _ _ (Joint.new env env' (0 : G) (0 : G) [] 0 0) rfl
  have := (hs coms _ s' h2).2.2.2 _ (J.satisfies hO).1 (J.satisfies hO).2.1
  simp only [Prover.assignment, o.values, Verifier.new, Prover.new, List.length_nil, List.nil_append, Nat.zero_add] at this
  exact hR this
end WithModule

end Bp
