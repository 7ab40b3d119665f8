import Verif.Lemmas.Gadgets.Factors
import Verif.Lemmas.Bls

set_option linter.unusedSectionVars false
set_option linter.unusedSimpArgs false

/-! # C60: a circuit written directly with `multiply` and `constrain`: knowledge of factors -/

namespace Bp
variable {F G : Type} [Field F] [AddCommGroup G] [Module F G]

/-- C60: whatever the verifier of the factoring circuit accepts has, in every satisfying assignment, committed values with product `r`, for any number `k + 2` of factors. -/
theorem c60_sound (env : Env F G) (k : ℕ) (r : F) : SoundFor (k + 2) (verifyFactors env k r) (fun v => ((List.range (k + 2)).map v).prod = r) := by
  intro coms s s' h
  unfold verifyFactors at h
  obtain ⟨cs, s1, h1, h⟩ := Drv.bind_ok.mp h
  rw [Drv.lift_ok, takeComms_ok] at h1
  obtain ⟨⟨hl, rfl⟩, rfl⟩ := h1
  obtain ⟨vars, s2, h2, h⟩ := Drv.bind_ok.mp h
  rw [Verifier.commits_ok] at h2
  obtain ⟨rfl, rfl⟩ := h2
  rw [List.length_take, Nat.min_eq_left hl, List.range_succ_eq_map, List.map_cons, List.range_succ_eq_map, List.map_cons, List.map_cons] at h
  obtain ⟨a1, a2, a3⟩ := Verifier.gadget_sound h
  refine ⟨hl, a1, by rw [a2], fun σ hg hs => ?_⟩
  have := a3 (VS.factors hg _ _ _ _) hs
  show ((List.range (k + 2)).map fun i => σ.committed (s.V.length + i)).prod = r
  rw [List.range_succ_eq_map, List.map_cons, List.range_succ_eq_map, List.map_cons, List.map_cons, List.prod_cons, List.prod_cons]
  simpa [Function.comp_def, Assignment.val] using this

/-- C60: the honest prover succeeds whenever the product of the factors is `r`. -/
theorem c60_complete (env env' : Env F G) (hO : env.oracle = env'.oracle) (p q : F × F) (rest : List (F × F)) (r : F) (hr : ((p :: q :: rest).map Prod.fst).prod = r) (pd : Option ℕ) :
    HonestPair env env' pd (rest.length + 1) (p :: q :: rest) (proveFactors env p q rest r) (verifyFactors env' rest.length r) := by
  intro pr s J hp
  obtain ⟨cs, p1, s1, c1, c2, J1, hp1, hl1, e1, o1, hf⟩ := J.commitAll hO (p :: q :: rest)
  have hlen : cs.length = rest.length + 2 := by simpa using hf.length_eq
  match cs, hlen with
  | (cp, vp) :: (cq, vq) :: ds, hlen =>
    have hlen : ds.length = rest.length := by simpa using hlen
    simp only [List.map_cons, List.forall₂_cons] at hf
    obtain ⟨hv, hw, hf⟩ := hf
    obtain ⟨⟨⟩, ⟨⟩, p2, s2, g1, g2, J2, -, -, n2, hp2, hl2⟩ := J1.gadget hO
      (PS.factors (env := env) (onSpec := fun cb p => p.specify cb) (rnd := false) J1.good hv hw hf (by simpa using hr)) (fun _ _ h => h)
      (Prog.Same.factors _ _ _ _) (PC.factors _ _ _ _)
    refine ⟨cp :: cq :: ds.map Prod.fst, p2, s2, ?_, ?_, J2, by rw [hp2, hp1, hp], by rw [hl2, hl1, List.length_map, hlen], o1.next n2⟩
    · unfold proveFactors
      exact Drv.bind_ok.mpr ⟨_, p1, c1, Drv.bind_ok.mpr ⟨(), p2, g1, rfl⟩⟩
    · unfold verifyFactors
      exact Drv.bind_ok.mpr ⟨cp :: cq :: ds.map Prod.fst, s, Drv.lift_ok.mpr ⟨takeComms_ok.mpr ⟨by simp [hlen], (List.take_of_length_le (by simp [hlen])).symm⟩, rfl⟩, Drv.bind_ok.mpr ⟨_, s1, c2, g2⟩⟩

/-- C60, end to end. -/
theorem c60_end_to_end [DecidableEq G] (env env' : Env F G) (hO : env.oracle = env'.oracle) (h0 : ∀ l, env.oracle l ≠ 0) (p q : F × F) (rest : List (F × F)) (r : F) (hr : ((p :: q :: rest).map Prod.fst).prod = r)
    (hsz : nextPowerOfTwo (rest.length + 1) < 2 ^ 32) (hb : 1 < rest.length + 1 ∨ env'.batchInvert [] = .ok ([], 1)) :
    EndToEnd env env' (rest.length + 1) (p :: q :: rest) (proveFactors env p q rest r) (verifyFactors env' rest.length r) :=
  (c60_complete env env' hO p q rest r hr none).endToEnd hO h0 hsz hb

/-- C60: with a wrong product there is no satisfying assignment that opens the commitments to the factors. -/
theorem c60_wrong (env : Env F G) (k : ℕ) (r : F) (coms : List G) (s s' : Verifier F G) (h : verifyFactors env k r coms s = (.ok (), s')) (σ : Assignment F) (hg : σ.Gates) (x : ℕ → F)
    (hx : ∀ i < k + 2, σ.committed (s.V.length + i) = x i) (hne : ((List.range (k + 2)).map x).prod ≠ r) : ¬ σ.Sat s'.constraints := fun hs => by
  refine hne (Eq.trans ?_ ((c60_sound env k r coms s s' h).2.2.2 σ hg hs))
  congr 1
  exact List.map_congr_left fun i hi => (hx i (List.mem_range.mp hi)).symm

/-- The circuits of the tests: `17 * 19 = 323` and `2 * 4 * 6 = 48`. -/
example : EndToEnd demoEnv demoEnv 1 [(17, 3), (19, 4)] (proveFactors demoEnv (17, 3) (19, 4) [] 323) (verifyFactors demoEnv 0 323) :=
  c60_end_to_end demoEnv demoEnv rfl demoEnv_ne_zero (17, 3) (19, 4) [] 323 (by norm_num) (by decide +kernel) (.inr (by simp [demoEnv, Env.std]))
example : EndToEnd demoEnv demoEnv 2 [(2, 3), (4, 4), (6, 5)] (proveFactors demoEnv (2, 3) (4, 4) [(6, 5)] 48) (verifyFactors demoEnv 1 48) :=
  c60_end_to_end demoEnv demoEnv rfl demoEnv_ne_zero (2, 3) (4, 4) [(6, 5)] 48 (by norm_num) (by decide +kernel) (.inl (by simp))
example : ∃ coms s', ∃ σ : Assignment Fr, verifyFactors demoEnv 1 48 coms (Verifier.new [] 0) = (.ok (), s') ∧ σ.Gates ∧ σ.Sat s'.constraints :=
  (c60_complete demoEnv demoEnv rfl (2, 3) (4, 4) [(6, 5)] 48 (by norm_num) none).satisfiable rfl 3 4 []

end Bp
