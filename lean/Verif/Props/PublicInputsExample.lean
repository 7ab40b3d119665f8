import Verif.Props.PublicInputs
import Verif.Props.FiatShamirExample
import Verif.Props.Gadgets.Merkle

/-! # C75: the theorems apply -/

namespace Bp

/-- Few values do not fill the field. -/
theorem avoids {F : Type} [Fintype F] [DecidableEq F] (bad : Finset F) (h : bad.card < Fintype.card F) : ∃ c, c ∉ bad := by
  by_contra hc
  push Not at hc
  have : bad = Finset.univ := Finset.eq_univ_of_forall hc
  rw [this, Finset.card_univ] at h
  exact absurd h (lt_irrefl _)

/-- One round of MiMC over a small field: 3 and 4 hash to 4 + (3 + 1)^3 = 68.  There is an accepted proof that they hash to something else. -/
example : ∃ image : Z101, mimc 3 4 [1] 1 = .ok image ∧ ∃ (c : Z101) (pr : R1CSProof Z101 V6) (T : Transcript Z101 V6) (image' : Z101) (s' : Verifier Z101 V6), image' ≠ image ∧
    verifyMimcPreimage (Env.std fun _ => c) image' [1] 1 [commitScalar (unit6 4) (unit6 5) (3 : Z101) 8, commitScalar (unit6 4) (unit6 5) (4 : Z101) 9] (Verifier.new [.init "mimc"]) = (.ok (), s') ∧
    ∀ r, s'.verify (Env.std fun _ => c) pr (unit6 4) (unit6 5) [unit6 0, unit6 1] [unit6 2, unit6 3] r = .ok T := by
  refine ⟨68, by decide +kernel, ?_⟩
  obtain ⟨bad, h1, s, -, h2⟩ := c75_mimc (F := Z101) (G := V6) (Env.std fun _ => 2) (by simp [Env.std]) "mimc" (unit6 4) (unit6 5) 3 4 8 9 68 [1] 1 (by decide +kernel) 1 rfl (by decide) [unit6 0, unit6 1] [unit6 2, unit6 3]
    (by decide) (by decide) (by decide)
  obtain ⟨c, hc⟩ := avoids bad (lt_of_le_of_lt h1 (by rw [ZMod.card]; decide))
  obtain ⟨pr, T, a', s', -, -, h3, h4, h5⟩ := h2 (fun _ => c) ⟨0, 0, 0, fun _ => 0, fun _ => 0, 0, 0, 0, fun _ => 0, fun _ => 0, 0, 0, 0, 0, 0⟩ (fun _ => hc)
  exact ⟨c, pr, T, a', s', h3, h4, h5⟩

/-- Depth 1: a leaf and three siblings; an accepted proof for a root that is not their hash. -/
example : ∃ bad : Finset Fr, bad.card < Fintype.card Fr ∧
    ZeroForges (fun a => verifyInclusion4 demoEnv a 1 demoParams5 .quint (5 : Fr) 6) (merkleRoot (hasher4 demoParams5 .quint).digest ((digitsOf 4 1 (IntRep.rep (2 : Fr))).zip [[1, 2, 3]]) (7 : Fr))
      ([(7, 1), (2, 2)] ++ [[1, 2, 3]].flatten.mapIdx fun i x => (x, (i : Fr))) [(0, 0)] "merkle" demoEnv 5 6
      (List.replicate (nextPowerOfTwo (1 * gates4 demoParams5 .quint)) 1) (List.replicate (nextPowerOfTwo (1 * gates4 demoParams5 .quint)) 1) bad := by
  obtain ⟨bad, h1, h2⟩ := c75_merkle_4 demoEnv (by simp [demoEnv, Env.std]) "merkle" (5 : Fr) 6 (7 : Fr) 2 _ [[1, 2, 3]] 1 (by decide) (by decide) rfl (by simp) demoParams5 demoParams5_valid rfl .quint (by decide) (by decide +kernel) rfl 1 2 (fun i => (i : Fr))
    (List.replicate (nextPowerOfTwo (1 * gates4 demoParams5 .quint)) 1) (List.replicate (nextPowerOfTwo (1 * gates4 demoParams5 .quint)) 1) (by decide +kernel) (by simp) (by simp)
  exact ⟨bad, lt_of_le_of_lt h1 (by rw [ZMod.card]; decide +kernel), h2⟩

example : ∃ bad : Finset Fr, bad.card < Fintype.card Fr ∧
    ZeroForges (fun a => verifyInclusion8 demoEnv a 1 demoParams9 .quint (5 : Fr) 6) (merkleRoot (hasher8 demoParams9 .quint).digest ((digitsOf 8 1 (IntRep.rep (2 : Fr))).zip [[1, 2, 3, 4, 5, 6, 7]]) (7 : Fr))
      ([(7, 1), (2, 2)] ++ [[1, 2, 3, 4, 5, 6, 7]].flatten.mapIdx fun i x => (x, (i : Fr))) [(0, 0)] "merkle" demoEnv 5 6
      (List.replicate (nextPowerOfTwo (1 * gates8 demoParams9 .quint)) 1) (List.replicate (nextPowerOfTwo (1 * gates8 demoParams9 .quint)) 1) bad := by
  obtain ⟨bad, h1, h2⟩ := c75_merkle_8 demoEnv (by simp [demoEnv, Env.std]) "merkle" (5 : Fr) 6 (7 : Fr) 2 _ [[1, 2, 3, 4, 5, 6, 7]] 1 (by decide) (by decide) rfl (by simp) demoParams9 demoParams9_valid rfl .quint (by decide) (by decide +kernel) rfl 1 2
    (fun i => (i : Fr)) (List.replicate (nextPowerOfTwo (1 * gates8 demoParams9 .quint)) 1) (List.replicate (nextPowerOfTwo (1 * gates8 demoParams9 .quint)) 1) (by decide +kernel) (by simp) (by simp)
  exact ⟨bad, lt_of_le_of_lt h1 (by rw [ZMod.card]; decide +kernel), h2⟩

/-- A label for every image. -/
def imageLabel (i : Z101) : String := String.ofList (List.replicate i.val 'i')

theorem imageLabel_injective : Function.Injective imageLabel := by
  intro a b h
  have := congrArg List.length (String.ofList_injective h)
  simp only [List.length_replicate] at this
  exact ZMod.val_injective _ this

example (A : Forger Z101 V6) (pick : List Z101 → Z101) (Q : ℕ) :
    A.forgingFor pick (Env.std fun _ => 2) imageLabel (fun image => verifyMimcPreimage (Env.std fun _ => 2) image [1] 1) 2
      (fun image coms => ∀ v : ℕ → Z101, (∀ (i : ℕ) P, i < 2 → coms[i]? = some P → CommitsTo (unit6 4) (unit6 5) P (v i)) → mimc (v 0) (v 1) [1] 1 = .ok image) (unit6 4) (unit6 5) [unit6 0, unit6 1] [unit6 2, unit6 3] Q 6 ≤
      ((Q + 6) * 7 + 1) * 101 ^ (Q + 6) := by
  have := c75_mimc_labels_partial (Env.std fun _ => (2 : Z101)) (by simp [Env.std]) imageLabel imageLabel_injective [1] 1 rfl (unit6 4) (unit6 5) [unit6 0, unit6 1] [unit6 2, unit6 3] unit6_independent A pick Q
  rw [ZMod.card] at this
  exact this

/-- Two images under one label. -/
example (A : Forger Z101 V6) (pick : List Z101 → Bool) (Q : ℕ) :
    A.forgingFor pick (Env.std fun _ => 2) (fun _ => "mimc") (fun b => verifyMimcPreimage (Env.std fun _ => 2) (if b then 68 else 5) [1] 1) 2
      (fun b coms => ∀ v : ℕ → Z101, (∀ (i : ℕ) P, i < 2 → coms[i]? = some P → CommitsTo (unit6 4) (unit6 5) P (v i)) → mimc (v 0) (v 1) [1] 1 = .ok (if b then 68 else 5)) (unit6 4) (unit6 5) [unit6 0, unit6 1] [unit6 2, unit6 3] Q
      6 ≤ 2 * (((Q + 6) * 7 + 1) * 101 ^ (Q + 6)) := by
  choose s0 h1 h2 h3 using fun b : Bool => mimc_built (G := V6) (Env.std fun _ => (2 : Z101)) "mimc" [1] 1 rfl (if b then 68 else 5)
  have := c75_family_partial (Env.std fun _ => (2 : Z101)) (by simp [Env.std]) "mimc" 2 (fun b : Bool => verifyMimcPreimage (Env.std fun _ => 2) (if b then 68 else 5) [1] 1) (fun b => Uniform.mimcPreimage _ _ _ _) [0, 0] rfl s0 h1 _ _ h2
    (fun j => (h3 j).le) (unit6 4) (unit6 5) [unit6 0, unit6 1] [unit6 2, unit6 3] unit6_independent _ (fun b coms _ hc => c55_mimc _ _ [1] 1 rfl hc) A pick Q
  rw [ZMod.card, Fintype.card_bool] at this
  exact this

end Bp
