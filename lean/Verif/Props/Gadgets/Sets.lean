import Verif.Lemmas.Gadgets.Zip
import Verif.Lemmas.Bls

set_option linter.unusedSectionVars false
set_option linter.unusedSimpArgs false

/-! # C28, C30: set membership and non-membership -/

namespace Bp
variable {F G : Type} [Field F] [AddCommGroup G] [Module F G]

/-! ## C28 -/

/-- C28: whatever `verify_set_membership` accepts has, in every satisfying assignment, a committed value that is an element of the set. -/
theorem c28_sound (env : Env F G) (set : List F) : SoundFor (set.length + 1) (verifySetMembership env set) (fun v => v 0 ∈ set) := by
  intro coms s s' h
  unfold verifySetMembership at h
  obtain ⟨cs, s1, h1, h⟩ := Drv.bind_ok.mp h
  rw [Drv.lift_ok, takeComms_ok] at h1
  obtain ⟨⟨hl, rfl⟩, rfl⟩ := h1
  obtain ⟨vars, s2, h2, h⟩ := Drv.bind_ok.mp h
  rw [Verifier.commits_ok] at h2
  obtain ⟨rfl, rfl⟩ := h2
  rw [List.length_take, Nat.min_eq_left hl, List.range_succ_eq_map, List.map_cons] at h
  obtain ⟨a1, a2, a3⟩ := Verifier.gadget_sound h
  refine ⟨hl, a1, by rw [a2], fun σ hg hs => ?_⟩
  exact a3 (VS.setMembership hg _ _ _) hs

/-- C28: nothing at all satisfies the statement for the empty set. -/
theorem c28_empty (env : Env F G) (coms : List G) (s s' : Verifier F G) (h : verifySetMembership env [] coms s = (.ok (), s')) (σ : Assignment F) (hg : σ.Gates) :
    ¬ σ.Sat s'.constraints := fun hs => by simpa using (c28_sound env [] coms s s' h).2.2.2 σ hg hs

/-- C28: the honest prover succeeds for every member (any set size, duplicates allowed). -/
theorem c28_complete (env env' : Env F G) (hO : env.oracle = env'.oracle) (value : F) (set : List F) (hmem : value ∈ set) (randomness : Option F) (rng : Option (ℕ → F))
    (sys : ℕ → F) (hr : randomness.isSome ∨ rng.isSome) (pd : Option ℕ) :
    HonestPair env env' pd set.length ((value, blindingOf randomness rng) :: (set.map fun x => x - value).zip ((List.range set.length).map sys))
      (proveSetMembership env value randomness set rng sys) (verifySetMembership env' set) := by
  intro p s J hp
  obtain ⟨hbl, hck⟩ := pickBlinding_ok hr
  obtain ⟨cs, p1, s1, c1, c2, J1, hp1, hl1, e1, o1, hf⟩ := J.commitAll hO ((value, blindingOf randomness rng) :: (set.map fun x => x - value).zip ((List.range set.length).map sys))
  rw [List.map_cons, zip_map_fst (by simp)] at hf
  cases cs with
  | nil => simp at hf
  | cons c ds =>
    obtain ⟨cv, vv⟩ := c
    simp only [List.map_cons, List.forall₂_cons] at hf
    obtain ⟨hv, hf⟩ := hf
    have hlen : ds.length = set.length := by simpa using hf.length_eq
    obtain ⟨⟨⟩, ⟨⟩, p2, s2, g1, g2, J2, -, -, n2, hp2, hl2⟩ := J1.gadget hO
      (PS.setMembership (env := env) (onSpec := fun cb p => p.specify cb) (rnd := false) (v := ⟨vv, some value⟩) J1.good ⟨hv, rfl⟩ (hasA_zip hf) hmem) (fun _ _ h => h)
      (Prog.Same.setMembership (Alloc.pair vv _) (pair_zip (by simpa using hlen)) set) (PC.setMembership _ _ _)
    refine ⟨cv :: ds.map Prod.fst, p2, s2, ?_, ?_, J2, by rw [hp2, hp1, hp], by rw [hl2, hl1], o1.next n2⟩
    · unfold proveSetMembership
      exact Drv.bind_ok.mpr ⟨(), p, Drv.lift_ok.mpr ⟨hck, rfl⟩, Drv.bind_ok.mpr ⟨(blindingOf randomness rng), p, Drv.lift_ok.mpr ⟨hbl, rfl⟩, Drv.bind_ok.mpr ⟨_, p1, c1, Drv.bind_ok.mpr ⟨(), p2, g1, rfl⟩⟩⟩⟩
    · unfold verifySetMembership
      exact Drv.bind_ok.mpr ⟨cv :: ds.map Prod.fst, s, Drv.lift_ok.mpr ⟨takeComms_ok.mpr ⟨by simp [hlen], (List.take_of_length_le (by simp [hlen])).symm⟩, rfl⟩, Drv.bind_ok.mpr ⟨_, s1, c2, g2⟩⟩

/-- C28, end to end. -/
theorem c28_end_to_end [DecidableEq G] (env env' : Env F G) (hO : env.oracle = env'.oracle) (h0 : ∀ l, env.oracle l ≠ 0) (value : F) (set : List F) (hmem : value ∈ set)
    (hsz : nextPowerOfTwo set.length < 2 ^ 32) (hb : 1 < set.length ∨ env'.batchInvert [] = .ok ([], 1)) (randomness : Option F) (rng : Option (ℕ → F))
    (sys : ℕ → F) (hr : randomness.isSome ∨ rng.isSome) :
    EndToEnd env env' set.length ((value, blindingOf randomness rng) :: (set.map fun x => x - value).zip ((List.range set.length).map sys))
      (proveSetMembership env value randomness set rng sys) (verifySetMembership env' set) :=
  (c28_complete env env' hO value set hmem randomness rng sys hr none).endToEnd hO h0 hsz hb

/-- Hypotheses of the C28 theorems. -/
example : EndToEnd demoEnv demoEnv 4 [(5, 1), (2 - 5, 0), (0, 1), (0, 2), (1, 3)] (proveSetMembership demoEnv 5 (some 1) [2, 5, 5, 6] none (fun i => i)) (verifySetMembership demoEnv [2, 5, 5, 6]) :=
  c28_end_to_end demoEnv demoEnv rfl demoEnv_ne_zero 5 [2, 5, 5, 6] (by simp) (by decide +kernel) (.inl (by simp)) _ _ _ (.inl rfl)
example : ∃ coms s', ∃ σ : Assignment Fr, verifySetMembership demoEnv [2, 5, 5, 6] coms (Verifier.new [] 0) = (.ok (), s') ∧ σ.Gates ∧ σ.Sat s'.constraints :=
  (c28_complete demoEnv demoEnv rfl 5 [2, 5, 5, 6] (by simp) (some 7) none (fun i => i) (.inl rfl) none).satisfiable rfl 3 4 []
example : ∃ s', verifySetMembership demoEnv [] [9] (Verifier.new [] 0) = (.ok (), s') := ⟨_, rfl⟩

/-! ## C30 -/

/-- C30: whatever `verify_set_non_membership` accepts has, in every satisfying assignment, a committed value outside the set. -/
theorem c30_sound (env : Env F G) (set : List F) : SoundFor (2 * set.length + 1) (verifySetNonMembership env set) (fun v => v 0 ∉ set) := by
  intro coms s s' h
  unfold verifySetNonMembership at h
  obtain ⟨cs, s1, h1, h⟩ := Drv.bind_ok.mp h
  rw [Drv.lift_ok, takeComms_ok] at h1
  obtain ⟨⟨hl, rfl⟩, rfl⟩ := h1
  obtain ⟨vars, s2, h2, h⟩ := Drv.bind_ok.mp h
  rw [Verifier.commits_ok] at h2
  obtain ⟨rfl, rfl⟩ := h2
  rw [List.length_take, Nat.min_eq_left hl, List.range_succ_eq_map, List.map_cons] at h
  obtain ⟨a1, a2, a3⟩ := Verifier.gadget_sound h
  refine ⟨hl, a1, by rw [a2], fun σ hg hs => ?_⟩
  exact a3 (VS.setNonMembership hg _ _ _ _) hs

/-- C30: the honest prover succeeds for every non-member. -/
theorem c30_complete (env env' : Env F G) (hO : env.oracle = env'.oracle) (value : F) (set : List F) (hmem : value ∉ set) (randomness : Option F) (rng : Option (ℕ → F))
    (sys : ℕ → F) (hr : randomness.isSome ∨ rng.isSome) (pd : Option ℕ) :
    HonestPair env env' pd (2 * set.length) ((value, blindingOf randomness rng) :: nonMembershipWitness value set sys)
      (proveSetNonMembership env value randomness set rng sys) (verifySetNonMembership env' set) := by
  intro p s J hp
  obtain ⟨hbl, hck⟩ := pickBlinding_ok hr
  obtain ⟨cs, p1, s1, c1, c2, J1, hp1, hl1, e1, o1, hf⟩ := J.commitAll hO ((value, blindingOf randomness rng) :: nonMembershipWitness value set sys)
  rw [List.map_cons] at hf
  cases cs with
  | nil => simp at hf
  | cons c ds =>
    obtain ⟨cv, vv⟩ := c
    simp only [List.map_cons, List.forall₂_cons] at hf
    obtain ⟨hv, hf⟩ := hf
    have hlen : ds.length = 2 * set.length := by
      have := hf.length_eq
      rw [nonMembershipWitness_fst] at this
      simpa [List.length_flatMap, mul_comm] using this
    have hA := hasA_zip hf
    have hP := pair_zip (F := F) (ds := ds) (xs := (nonMembershipWitness value set sys).map Prod.fst) (by simpa using hf.length_eq)
    have hE := forall₂_evens hA
    have hD := forall₂_odds hA
    rw [nonMembershipWitness_fst, evens_flatMap, map_range_getD (fun x => x - value)] at hE
    rw [nonMembershipWitness_fst, odds_flatMap, map_range_getD (fun x => (x - value)⁻¹)] at hD
    rw [← nonMembershipWitness_fst value set sys] at hE hD
    obtain ⟨⟨⟩, ⟨⟩, p2, s2, g1, g2, J2, -, -, n2, hp2, hl2⟩ := J1.gadget hO
      (PS.setNonMembership (env := env) (onSpec := fun cb p => p.specify cb) (rnd := false) (v := ⟨vv, some value⟩) J1.good ⟨hv, rfl⟩ hE hD hmem) (fun _ _ h => h)
      (Prog.Same.setNonMembership (Alloc.pair vv _) (forall₂_evens hP) (forall₂_odds hP) set) (PC.setNonMembership _ _ _ _)
    refine ⟨cv :: ds.map Prod.fst, p2, s2, ?_, ?_, J2, by rw [hp2, hp1, hp], by rw [hl2, hl1], o1.next n2⟩
    · unfold proveSetNonMembership
      refine Drv.bind_ok.mpr ⟨(), p, Drv.lift_ok.mpr ⟨hck, rfl⟩, Drv.bind_ok.mpr ⟨(blindingOf randomness rng), p, Drv.lift_ok.mpr ⟨hbl, rfl⟩, Drv.bind_ok.mpr ⟨_, p1, c1, Drv.bind_ok.mpr ⟨(), p2, ?_, rfl⟩⟩⟩⟩
      rw [zipWith_fst (fun (d : G × Var) (x : F) => (⟨d.2, some x⟩ : Alloc F))]
      exact g1
    · unfold verifySetNonMembership
      exact Drv.bind_ok.mpr ⟨cv :: ds.map Prod.fst, s, Drv.lift_ok.mpr ⟨takeComms_ok.mpr ⟨by simp [hlen], (List.take_of_length_le (by simp [hlen])).symm⟩, rfl⟩, Drv.bind_ok.mpr ⟨_, s1, c2, g2⟩⟩

/-- C30, end to end. -/
theorem c30_end_to_end [DecidableEq G] (env env' : Env F G) (hO : env.oracle = env'.oracle) (h0 : ∀ l, env.oracle l ≠ 0) (value : F) (set : List F) (hmem : value ∉ set)
    (hsz : nextPowerOfTwo (2 * set.length) < 2 ^ 32) (hb : 1 < 2 * set.length ∨ env'.batchInvert [] = .ok ([], 1)) (randomness : Option F) (rng : Option (ℕ → F))
    (sys : ℕ → F) (hr : randomness.isSome ∨ rng.isSome) :
    EndToEnd env env' (2 * set.length) ((value, blindingOf randomness rng) :: nonMembershipWitness value set sys)
      (proveSetNonMembership env value randomness set rng sys) (verifySetNonMembership env' set) :=
  (c30_complete env env' hO value set hmem randomness rng sys hr none).endToEnd hO h0 hsz hb

/-- Hypotheses of the C30 theorems. -/
example : EndToEnd demoEnv demoEnv 6 [(4, 1), (2 - 4, 0), ((2 - 4)⁻¹, 1), (1, 2), (1⁻¹, 3), (2, 4), (2⁻¹, 5)] (proveSetNonMembership demoEnv 4 (some 1) [2, 5, 6] none (fun i => i)) (verifySetNonMembership demoEnv [2, 5, 6]) :=
  c30_end_to_end demoEnv demoEnv rfl demoEnv_ne_zero 4 [2, 5, 6] (by decide +kernel) (by decide +kernel) (.inl (by simp)) _ _ _ (.inl rfl)
example : ∃ coms s', ∃ σ : Assignment Fr, verifySetNonMembership demoEnv [2, 5, 6] coms (Verifier.new [] 0) = (.ok (), s') ∧ σ.Gates ∧ σ.Sat s'.constraints :=
  (c30_complete demoEnv demoEnv rfl 4 [2, 5, 6] (by decide +kernel) (some 7) none (fun i => i) (.inl rfl) none).satisfiable rfl 3 4 []

end Bp
