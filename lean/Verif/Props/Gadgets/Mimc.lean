import Verif.Lemmas.Gadgets.Zip
import Verif.Lemmas.Bls

set_option linter.unusedSectionVars false
set_option linter.unusedSimpArgs false

/-! # C32: MiMC -/

namespace Bp
variable {F G : Type} [Field F] [AddCommGroup G] [Module F G]

/-- C32: whatever `verify_mimc_preimage` accepts has, in every satisfying assignment, committed inputs whose MiMC image under the first `rounds` constants is the
public one. -/
theorem c32_sound (env : Env F G) (image : F) (constants : List F) (rounds : ℕ) :
    SoundFor 2 (verifyMimcPreimage env image constants rounds) (fun v => mimc (v 0) (v 1) (constants.take rounds) rounds = .ok image) := by
  intro coms s s' h
  unfold verifyMimcPreimage at h
  obtain ⟨cs, s1, h1, h⟩ := Drv.bind_ok.mp h
  rw [Drv.lift_ok, takeComms_ok] at h1
  obtain ⟨⟨hl, rfl⟩, rfl⟩ := h1
  obtain ⟨vars, s2, h2, h⟩ := Drv.bind_ok.mp h
  rw [Verifier.commits_ok] at h2
  obtain ⟨rfl, rfl⟩ := h2
  rw [List.length_take, Nat.min_eq_left hl] at h
  obtain ⟨a1, a2, a3⟩ := Verifier.gadget_sound h
  refine ⟨hl, a1, by rw [a2], fun σ hg hs => ?_⟩
  obtain ⟨b1, b2⟩ := a3 (VS.mimc hg _ _ _ _ _) hs
  unfold mimc
  rw [if_neg (by simp [b1])]
  exact congrArg _ b2

/-- C32: with as many constants as rounds, this is the crate's `mimc` itself. -/
theorem c32_sound_exact (env : Env F G) (image : F) (constants : List F) (rounds : ℕ) (h : constants.length = rounds) :
    SoundFor 2 (verifyMimcPreimage env image constants rounds) (fun v => mimc (v 0) (v 1) constants rounds = .ok image) := by
  have := c32_sound env image constants rounds
  rwa [← h, List.take_length, h] at this

/-- C32: the honest prover succeeds for the true image. -/
theorem c32_complete (env env' : Env F G) (hO : env.oracle = env'.oracle) (x y image : F) (constants : List F) (rounds : ℕ) (hi : mimc x y constants rounds = .ok image)
    (r1 r2 : F) (randomness : Option (List F)) (rng : Option (ℕ → F)) (hr : randomness = some [r1, r2] ∨ ∃ g, randomness = none ∧ rng = some g ∧ g 0 = r1 ∧ g 1 = r2)
    (pd : Option ℕ) :
    HonestPair env env' pd (2 * rounds) [(x, r1), (y, r2)] (proveMimcPreimage env [x, y] randomness image constants rounds rng) (verifyMimcPreimage env' image constants rounds) := by
  intro p s J hp
  have hck : checkRandomness randomness rng = .ok () := checkRandomness_ok (by rcases hr with h | ⟨g, h1, h2, -⟩ <;> simp [*])
  have hbl : pickBlindings randomness rng 2 = .ok [r1, r2] := by
    rcases hr with h | ⟨g, h1, h2, h3, h4⟩
    · rw [h]; rfl
    · rw [h1, h2, ← h3, ← h4]; rfl
  have hlen : constants.length = rounds ∧ mimcLoop x y constants = image := by
    unfold mimc at hi
    split at hi
    · simp [Res.panic] at hi
    · rename_i h; exact ⟨by simpa using h, by simpa using hi⟩
  obtain ⟨cs, p1, s1, c1, c2, J1, hp1, hl1, e1, o1, hf⟩ := J.commitAll hO [(x, r1), (y, r2)]
  obtain ⟨⟨cx, vx⟩, ⟨cy, vy⟩, rfl⟩ : ∃ x y, cs = [x, y] := List.length_eq_two.mp (by simpa using hf.length_eq)
  simp only [List.map_cons, List.map_nil, List.forall₂_cons, List.forall₂_nil_left_iff, and_true] at hf
  obtain ⟨hx, hy⟩ := hf
  have hps := PS.mimc (env := env) (onSpec := fun cb p => p.specify cb) (rnd := false) (l := ⟨vx, some x⟩) (r := ⟨vy, some y⟩) (rounds := rounds) (constants := constants) J1.good hx hy hlen.1.ge
  rw [List.take_of_length_le hlen.1.le, hlen.2] at hps
  obtain ⟨⟨⟩, ⟨⟩, p2, s2, g1, g2, J2, -, -, n2, hp2, hl2⟩ := J1.gadget hO hps (fun _ _ h => h)
    (Prog.Same.mimc (l' := ⟨vx, none⟩) (r' := ⟨vy, none⟩) rfl rfl rounds constants image) (PC.mimc _ _ _ _ _)
  refine ⟨[cx, cy], p2, s2, ?_, ?_, J2, by rw [hp2, hp1, hp], by rw [hl2, hl1], o1.next n2⟩
  · unfold proveMimcPreimage
    exact Drv.bind_ok.mpr ⟨(), p, Drv.lift_ok.mpr ⟨hck, rfl⟩, Drv.bind_ok.mpr ⟨_, p, Drv.lift_ok.mpr ⟨hbl, rfl⟩, Drv.bind_ok.mpr ⟨(), p, Drv.lift_ok.mpr ⟨rfl, rfl⟩,
      Drv.bind_ok.mpr ⟨_, p1, c1, Drv.bind_ok.mpr ⟨(), p2, g1, rfl⟩⟩⟩⟩⟩
  · unfold verifyMimcPreimage
    exact Drv.bind_ok.mpr ⟨[cx, cy], s, rfl, Drv.bind_ok.mpr ⟨_, s1, c2, g2⟩⟩

/-- C32, end to end. -/
theorem c32_end_to_end [DecidableEq G] (env env' : Env F G) (hO : env.oracle = env'.oracle) (h0 : ∀ l, env.oracle l ≠ 0) (x y image : F) (constants : List F) (rounds : ℕ)
    (hi : mimc x y constants rounds = .ok image) (hsz : nextPowerOfTwo (2 * rounds) < 2 ^ 32) (hb : 1 < 2 * rounds ∨ env'.batchInvert [] = .ok ([], 1))
    (r1 r2 : F) (randomness : Option (List F)) (rng : Option (ℕ → F)) (hr : randomness = some [r1, r2] ∨ ∃ g, randomness = none ∧ rng = some g ∧ g 0 = r1 ∧ g 1 = r2) :
    EndToEnd env env' (2 * rounds) [(x, r1), (y, r2)] (proveMimcPreimage env [x, y] randomness image constants rounds rng) (verifyMimcPreimage env' image constants rounds) :=
  (c32_complete env env' hO x y image constants rounds hi r1 r2 randomness rng hr none).endToEnd hO h0 hsz hb

/-- Three rounds on inputs 1, 2. -/
example : EndToEnd demoEnv demoEnv 6 [(1, 3), (2, 4)] (proveMimcPreimage demoEnv [1, 2] (some [3, 4]) (mimcLoop 1 2 [5, 6, 7]) [5, 6, 7] 3 none)
    (verifyMimcPreimage demoEnv (mimcLoop 1 2 [5, 6, 7]) [5, 6, 7] 3) :=
  c32_end_to_end demoEnv demoEnv rfl demoEnv_ne_zero 1 2 _ [5, 6, 7] 3 rfl (by decide +kernel) (.inl (by simp)) 3 4 _ _ (.inl rfl)
example : ∃ coms s', ∃ σ : Assignment Fr, verifyMimcPreimage demoEnv (mimcLoop 1 2 [5, 6, 7]) [5, 6, 7] 3 coms (Verifier.new [] 0) = (.ok (), s') ∧ σ.Gates ∧ σ.Sat s'.constraints :=
  (c32_complete demoEnv demoEnv rfl 1 2 _ [5, 6, 7] 3 rfl 3 4 (some [3, 4]) none (.inl rfl) none).satisfiable rfl 3 4 []

end Bp
