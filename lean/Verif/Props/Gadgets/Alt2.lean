import Verif.Props.Gadgets.Alt
import Verif.Props.R1CS

set_option linter.unusedSectionVars false

/-! # C29, continued: what the bitmap has to be, and sets with repeated elements -/

namespace Bp
variable {F G : Type} [Field F] [AddCommGroup G] [Module F G]

theorem verifyBits_sound {env : Env F G} {σ : Assignment F} (hg : σ.Gates) : ∀ {Vs : List G} {s s' : Verifier F G} {vars : List Var}, verifyBits env Vs s = (.ok vars, s') → σ.Sat s'.constraints →
    ∀ v ∈ vars, σ.val v = 0 ∨ σ.val v = 1
  | [], s, s', vars, h, hs => by
    obtain ⟨rfl, rfl⟩ := Drv.pure_ok.mp h
    simp
  | V :: Vs, s, s', vars, h, hs => by
    obtain ⟨vs, s1, h1, h⟩ := Drv.bind_ok.mp h
    rw [Verifier.commits_ok] at h1
    obtain ⟨rfl, rfl⟩ := h1
    simp only [List.length_singleton, List.range_one, List.map_cons, List.map_nil, Nat.add_zero] at h
    obtain ⟨⟨⟩, s2, h2, h⟩ := Drv.bind_ok.mp h
    obtain ⟨rest, s3, h3, h⟩ := Drv.bind_ok.mp h
    obtain ⟨rfl, rfl⟩ := Drv.pure_ok.mp h
    obtain ⟨b1, -, -⟩ := verifyBits_spec h3
    obtain ⟨-, -, a3⟩ := Verifier.gadget_sound h2
    intro v hv
    rcases List.mem_cons.mp hv with rfl | hv
    · exact a3 (VS.bit hg _) (fun lc hlc => hs lc (b1.subset hlc))
    · exact verifyBits_sound hg h3 hs v hv

/-- C29, partial: the committed bitmap consists of zeros and ones with sum one. -/
theorem c29_bitmap_partial (env : Env F G) (set : List ℕ) :
    SoundFor (set.length + 1) (verifySetMembershipAlt env set) (fun v => (∀ i < set.length, v i = 0 ∨ v i = 1) ∧ ((List.range set.length).map v).sum = 1 ∧
      ((∃ x ∈ set, v set.length = (x : F)) ∨ v set.length = 0)) := by
  intro coms s s' h
  obtain ⟨q1, q2, q3, q4⟩ := c29_sound_partial env set coms s s' h
  refine ⟨q1, q2, q3, fun σ hg hs => ⟨?_, ?_, (q4 σ hg hs).imp id And.left⟩⟩
  all_goals
    unfold verifySetMembershipAlt at h
    obtain ⟨cs, s1, h1, h⟩ := Drv.bind_ok.mp h
    rw [Drv.lift_ok, takeComms_ok] at h1
    obtain ⟨⟨hl, rfl⟩, rfl⟩ := h1
    obtain ⟨vars, s2, h2, h⟩ := Drv.bind_ok.mp h
    obtain ⟨b1, b2, b3⟩ := verifyBits_spec h2
    obtain ⟨⟨⟩, s3, h3, h⟩ := Drv.bind_ok.mp h
    obtain ⟨d1, d2, d3⟩ := Verifier.gadget_sound h3
    obtain ⟨vv, s4, h4, h⟩ := Drv.bind_ok.mp h
    rw [Verifier.commits_ok] at h4
    obtain ⟨rfl, rfl⟩ := h4
    have e1 : ((coms.take (set.length + 1)).drop set.length).length = 1 := by simp; omega
    have e2 : ((coms.take (set.length + 1)).take set.length).length = set.length := by simp; omega
    rw [e1] at h
    rw [e2] at b3
    simp only [List.range_one, List.map_cons, List.map_nil, Nat.add_zero] at h
    obtain ⟨a1, a2, a3⟩ := Verifier.gadget_sound h
    have hs3 : σ.Sat s3.constraints := fun lc hlc => hs lc (a1.subset hlc)
    subst b3
  · intro i hi
    exact verifyBits_sound hg h2 (fun lc hlc => hs3 lc (d1.subset hlc)) (.committed (s.V.length + i)) (List.mem_map.mpr ⟨i, List.mem_range.mpr hi, rfl⟩)
  · have := d3 (VS.vectorSum _ _) hs3
    simpa [Function.comp_def, Assignment.val] using this

theorem proveBits_spec {env : Env F G} : ∀ {bs : List (F × F)} {p p' : Prover F G} {cs : List (G × Var)}, p.WF → proveBits env bs p = (.ok cs, p') →
    p.Ext p' ∧ List.Forall₂ p'.HasV (cs.map Prod.snd) (bs.map Prod.fst)
  | [], p, p', cs, hw, h => by
    obtain ⟨rfl, rfl⟩ := Drv.pure_ok.mp h
    exact ⟨.refl _, .nil⟩
  | (b, r) :: bs, p, p', cs, hw, h => by
    obtain ⟨vs, p1, h1, h⟩ := Drv.bind_ok.mp h
    obtain ⟨e1, rfl⟩ := Prod.mk.inj h1
    cases e1
    simp only [Prover.commitAll] at h
    obtain ⟨⟨⟩, p2, h2, h⟩ := Drv.bind_ok.mp h
    obtain ⟨rest, p3, h3, h⟩ := Drv.bind_ok.mp h
    obtain ⟨rfl, rfl⟩ := Drv.pure_ok.mp h
    obtain ⟨vs, hst⟩ := Prover.run1_steps (Prover.gadget_ok.mp h2)
    have x1 : p.Ext (p.commit b r).2 := Prover.ext_commit p b r
    have w1 := x1.wf hw
    have x2 := hst.ext
    obtain ⟨x3, hf⟩ := proveBits_spec (x2.wf w1) h3
    have hv : (p.commit b r).2.HasV (p.commit b r).1.2 b := by
      constructor
      · simp [Prover.commit, Prover.Stable]
      · simp [Prover.commit, Prover.assignment, Assignment.val]
    exact ⟨(x1.trans x2).trans x3, .cons (hv.ext w1 (x2.trans x3)) hf⟩

/-- C29: the set must contain the value exactly once.  If it is missing or repeated, then the honest prover gets a state that is not satisfied
(provided that the number of occurrences is not `1` in the field). -/
theorem c29_once_only (env : Env F G) (value : ℕ) (randomness : Option F) (set : List ℕ) (rng : Option (ℕ → F)) (sys : ℕ → F) (p p' : Prover F G) (hw : p.WF) (coms : List G)
    (h : proveSetMembershipAlt env value randomness set rng sys p = (.ok coms, p')) (hsat : p'.Satisfied) : (set.count value : F) = 1 := by
  unfold proveSetMembershipAlt at h
  obtain ⟨⟨⟩, p0, h0, h⟩ := Drv.bind_ok.mp h
  obtain ⟨-, rfl⟩ := Drv.lift_ok.mp h0
  obtain ⟨cs, p1, h1, h⟩ := Drv.bind_ok.mp h
  obtain ⟨⟨⟩, p2, h2, h⟩ := Drv.bind_ok.mp h
  obtain ⟨bl, p3, h3, h⟩ := Drv.bind_ok.mp h
  obtain ⟨-, rfl⟩ := Drv.lift_ok.mp h3
  obtain ⟨vs, p4, h4, h⟩ := Drv.bind_ok.mp h
  obtain ⟨e4, rfl⟩ := Prod.mk.inj h4
  cases e4
  simp only [Prover.commitAll] at h
  obtain ⟨⟨⟩, p5, h5, h⟩ := Drv.bind_ok.mp h
  obtain ⟨-, rfl⟩ := Drv.pure_ok.mp h
  obtain ⟨x1, hf⟩ := proveBits_spec hw h1
  have w1 := x1.wf hw
  rw [zip_map_fst (by simp)] at hf
  have e2 := Prover.gadget_ok.mp h2
  obtain ⟨us, hst⟩ := Prover.run1_steps (Prover.gadget_ok.mp h5)
  have x2 : p1.Ext p2 := by
    obtain ⟨us, hst⟩ := Prover.run1_steps e2
    exact hst.ext
  have x3 : p2.Ext p5 := (Prover.ext_commit p2 _ _).trans hst.ext
  have hc : LC.ofTerms ((.one, -((1 : ℕ) : F)) :: (cs.map Prod.snd).map fun v => (v, 1)) ∈ p2.constraints := by
    have : p2 = p1.constrain (LC.ofTerms ((.one, -((1 : ℕ) : F)) :: (cs.map Prod.snd).map fun v => (v, 1))) := by
      have := e2
      unfold vectorSumConstraints Prog.con at this
      exact (Prod.mk.inj (Except.ok.inj this)).2.symm
    rw [this]
    simp [Prover.constrain]
  have hv := hsat _ (x3.cons.subset hc)
  have hval : ∀ {vs : List Var} {xs : List F}, List.Forall₂ p1.HasV vs xs → (vs.map p5.assignment.val).sum = xs.sum := by
    intro vs xs h
    induction h with
    | nil => rfl
    | cons a _ ih => rw [List.map_cons, List.sum_cons, List.sum_cons, ih, (a.ext w1 (x2.trans x3)).2]
  have hsum : ∀ t : List ℕ, (t.map fun elem => if elem = value then (1 : F) else 0).sum = (t.count value : ℕ) := by
    intro t
    induction t with
    | nil => simp
    | cons e t ih => rw [List.map_cons, List.sum_cons, ih, List.count_cons]; by_cases h : e = value <;> simp [h, add_comm]
  have e : LC.termsVal p5.assignment ((cs.map Prod.snd).map fun v => (v, (1 : F))) = ((cs.map Prod.snd).map p5.assignment.val).sum := by
    simp [LC.termsVal, Function.comp_def]
  simp only [LC.value_def, LC.ofTerms, LC.termsVal_cons] at hv
  rw [e, hval hf, hsum] at hv
  simp only [Assignment.val, Nat.cast_one] at hv
  linear_combination hv

/-- The set contains 3 twice: the honest prover for 3 runs through, but its state is not satisfied. -/
example : ∃ coms p', proveSetMembershipAlt demoEnv 3 (some 7) [3, 3, 5] none (fun _ => 0) (Prover.new (3 : Fr) (4 : Fr) [] 0) = (.ok coms, p') ∧ ¬ p'.Satisfied := by
  have hok : (proveSetMembershipAlt demoEnv 3 (some 7) [3, 3, 5] none (fun _ => 0) (Prover.new (3 : Fr) (4 : Fr) [] 0)).1.isOk = true := by decide +kernel
  generalize h : proveSetMembershipAlt demoEnv 3 (some 7) [3, 3, 5] none (fun _ => 0) (Prover.new (3 : Fr) (4 : Fr) [] 0) = r at hok
  obtain ⟨c, p'⟩ := r
  cases c with
  | error e => cases hok
  | ok coms => exact ⟨coms, p', rfl, fun hs => absurd (c29_once_only demoEnv 3 (some 7) [3, 3, 5] none (fun _ => 0) _ p' (Prover.wf_new ..) coms h hs) (by decide +kernel)⟩

/-- The verifier's statement for [2, 5, 6] is satisfiable, and its solutions have a bitmap of zeros and ones with sum one. -/
example : ∃ coms s', ∃ σ : Assignment Fr, verifySetMembershipAlt demoEnv [2, 5, 6] coms (Verifier.new [] 0) = (.ok (), s') ∧
    (∀ i < 3, σ.committed i = 0 ∨ σ.committed i = 1) ∧ σ.committed 0 + (σ.committed 1 + σ.committed 2) = 1 := by
  obtain ⟨coms, s', σ, h1, h2, h3⟩ := (c29_complete demoEnv demoEnv rfl 5 [2, 5, 6] (by decide) (some 7) none (fun i => (i : Fr)) (.inl rfl) none).satisfiable rfl 3 4 []
  have := (c29_bitmap_partial demoEnv [2, 5, 6] coms _ s' h1).2.2.2 σ h2 h3
  refine ⟨coms, s', σ, h1, ?_, ?_⟩
  · simpa [Verifier.new] using this.1
  · simpa [Verifier.new, List.range_succ, add_assoc] using this.2.1

end Bp
