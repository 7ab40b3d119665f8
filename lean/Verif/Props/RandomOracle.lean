import Verif.Lemmas.RandomOracle3
import Verif.Props.Interactive

/-! # C66: the proofs are zero knowledge when the challenges are computed from the log

C56 is about fixed challenges.  Here the challenges come from an oracle that anybody may ask, before and after they get proofs (random-oracle model), and there may be many proofs, for statements that are chosen on the way. -/

namespace Bp
variable {F G : Type} [Field F] [AddCommGroup G] [Module F G]

/-- **C66**: somebody who asks the oracle at most `Q` questions, and gets at most `P` proofs (with at most `D` challenges each) of provable statements of their choice, cannot tell the proofs of the code from proofs that are made
without the witnesses, except with probability `P * (Q + P * D + 2) / |F|`. -/
theorem c66_zero_knowledge [Fintype F] {g h : G} {Gs Hs : List G} (hb : Function.Bijective fun a : F => a • h) (env env' : Env F G) (A : Distinguisher F G) (Q P D : ℕ) (hA : A.Within g h Gs Hs D Q P) :
    |A.real env Gs Hs (fun _ => none) - A.simulated env' g h Gs Hs (fun _ => none)| ≤ (P * (Q + P * D + 2) : ℕ) / Fintype.card F := by
  have := A.real_simulated hb env env' Q P (fun _ => none) [] hA (fun _ h => absurd rfl h)
  simpa using this

/-- **C66**, witness indistinguishability: which witnesses the provers use makes almost no difference. -/
theorem c66_witness [Fintype F] {g h : G} {Gs Hs : List G} (hb : Function.Bijective fun a : F => a • h) (env : Env F G) (A A' : Distinguisher F G) (hs : A.SameStatements A') (Q P D : ℕ) (hA : A.Within g h Gs Hs D Q P)
    (hA' : A'.Within g h Gs Hs D Q P) :
    |A.real env Gs Hs (fun _ => none) - A'.real env Gs Hs (fun _ => none)| ≤ 2 * ((P * (Q + P * D + 2) : ℕ) / Fintype.card F) := by
  have h1 := c66_zero_knowledge hb env env A Q P D hA
  have h2 := c66_zero_knowledge hb env env A' Q P D hA'
  rw [Distinguisher.simulated_same env hs] at h1
  rw [abs_le] at h1 h2 ⊢
  constructor
  · linarith [h1.1, h2.2]
  · linarith [h1.2, h2.1]

/-- **C66**, the committed values stay secret: the user commits to the values `v`, with random blindings, and makes proofs; or they commit to other values `v'`, for which the statements are also true.  Here `D b` gets commitments and
proofs from the user with the values `v` and the blindings `b`, and `D' b` does the same with `v'`; when the commitments are the same they do the same.  They can hardly tell which values were committed to. -/
theorem c66_private [Fintype F] {g h : G} {Gs Hs : List G} (hb : Function.Bijective fun a : F => a • h) (env : Env F G) {m : ℕ} (v v' : Fin m → F) (D D' : (Fin m → F) → Distinguisher F G)
    (hs : ∀ b b', (∀ i, v i • g + b i • h = v' i • g + b' i • h) → (D b).SameStatements (D' b')) (Q P d : ℕ) (hD : ∀ b, (D b).Within g h Gs Hs d Q P) (hD' : ∀ b, (D' b).Within g h Gs Hs d Q P) :
    |avg (fun b => (D b).real env Gs Hs fun _ => none) - avg (fun b => (D' b).real env Gs Hs fun _ => none)| ≤ 2 * ((P * (Q + P * d + 2) : ℕ) / Fintype.card F) := by
  obtain ⟨γ, hγ⟩ := hb.2 g
  have hγ : g = γ • h := hγ.symm
  rw [← avg_equiv (Equiv.addRight fun i => γ * (v i - v' i)) fun b => (D' b).real env Gs Hs fun _ => none]
  refine (avg_sub_le (d := fun _ => 2 * (((P * (Q + P * d + 2) : ℕ) : ℚ) / Fintype.card F)) fun b => c66_witness hb env (D b) (D' _) (hs _ _ fun i => ?_) Q P d (hD b) (hD' _)).trans (le_of_eq (avg_const _))
  rw [hγ, smul_smul, smul_smul, ← add_smul, ← add_smul]
  congr 1
  simp only [Equiv.coe_addRight, Pi.add_apply]
  ring

/-- **C66**, for the gadgets (and lists of gadgets, C50): whenever honest proving is complete, the prover's statement is provable in the sense used above, over whatever transcript. -/
theorem c66_gadget {env env' : Env F G} {m : ℕ} {dp : Drv (Prover F G) (List G)} {dv : List G → Drv (Verifier F G) Unit} {os ss : List (F × F)} (hp : HonestPair env env' none m os dp dv ss)
    (hO : env.oracle = env'.oracle) (t : Transcript F G) (g h : G) (Gs Hs : List G) (hG : nextPowerOfTwo m ≤ Gs.length) (hH : nextPowerOfTwo m ≤ Hs.length) :
    ∃ coms p s, dp (Prover.new g h t 0) = (.ok coms, p) ∧ dv coms (Verifier.new t) = (.ok (), s) ∧ (coms = os.map fun q => q.1 • g + q.2 • h) ∧
      Provable g h Gs Hs p s ∧ s.numDraws = 5 + Nat.clog 2 m := by
  obtain ⟨coms, p, s, e1, e2, J, -, hl, o⟩ := hp _ _ (Joint.new env env' g h t 0 0) rfl
  have hl' : p.aL.length = m := by rw [hl]; simp [Prover.new]
  obtain ⟨hw, hst⟩ := J.session.inStep hO
  exact ⟨coms, p, s, e1, e2, o.points, ⟨hw, hst, o.g, o.h, fun lc hlc => (J.good.sat lc hlc).2, fun lc hlc t ht => ((J.good.sat lc hlc).1 t ht).inRange, J.deferred, by rw [hl']; exact hG, by rw [hl']; exact hH⟩,
    by rw [Verifier.numDraws, hst.num, hl']⟩

/-! ## The hypotheses are met

Two proofs about commitments whose product is 48, with questions before and between; the second proof goes on with the transcript of the first. -/

/-- The prover that knows `a * b = 48`. -/
def demoFactorsP (t : Transcript Z101 Z101) (a b : Z101 × Z101) : Prover Z101 Z101 := (proveFactors (Env.std fun _ => 2) a b [] 48 (Prover.new 1 5 t 0)).2

/-- The verifier for two commitments. -/
def demoFactorsVt (t : Transcript Z101 Z101) (coms : List Z101) : Verifier Z101 Z101 := (verifyFactors (Env.std fun _ => 2) 0 48 coms (Verifier.new t)).2

theorem demoFactors_provable (t : Transcript Z101 Z101) (a b : Z101 × Z101) (hab : a.1 * b.1 = 48) :
    Provable 1 5 [2] [3] (demoFactorsP t a b) (demoFactorsVt t [a.1 * 1 + a.2 * 5, b.1 * 1 + b.2 * 5]) ∧ (demoFactorsVt t [a.1 * 1 + a.2 * 5, b.1 * 1 + b.2 * 5]).numDraws = 5 := by
  obtain ⟨coms, p, s, e1, e2, e3, h1, h2⟩ := c66_gadget (c60_complete (Env.std fun _ => (2 : Z101)) (Env.std fun _ => 2) rfl a b [] 48 (by simpa using hab) none) rfl t (1 : Z101) 5 [2] [3]
    (by decide +kernel) (by decide +kernel)
  have ep : p = demoFactorsP t a b := by
    unfold demoFactorsP
    rw [e1]
  have es : s = demoFactorsVt t coms := by
    unfold demoFactorsVt
    exact (congrArg Prod.snd e2).symm
  subst ep es e3
  exact ⟨h1, h2.trans (by decide)⟩

theorem demoFactors_provable' (t : Transcript Z101 Z101) (a b : Z101 × Z101) (hab : a.1 * b.1 = 48) (ha : a.1 * 1 + a.2 * 5 = 38) (hb : b.1 * 1 + b.2 * 5 = 56) :
    Provable 1 5 [2] [3] (demoFactorsP t a b) (demoFactorsVt t [38, 56]) ∧ (demoFactorsVt t [38, 56]).numDraws = 5 := by
  have := demoFactors_provable t a b hab
  rw [ha, hb] at this
  exact this

/-- It asks a question, gets a proof, asks another question that depends on the proof, gets another proof, over the same transcript, and decides by looking at the last proof. -/
def demoDistinguisher (a b : Z101 × Z101) : Distinguisher Z101 Z101 :=
  .ask [.init "f", .challenge "y"] fun _ => .prove (demoFactorsP [.init "f"] a b) (demoFactorsVt [.init "f"] [38, 56]) fun pr => .ask [.init "f", .point "A" pr.A_I1, .challenge "y"] fun r =>
    .prove (demoFactorsP ((demoFactorsVt [.init "f"] [38, 56]).proofLog pr) a b) (demoFactorsVt ((demoFactorsVt [.init "f"] [38, 56]).proofLog pr) [38, 56]) fun pr' => .decide (decide (pr'.t_x = r))

theorem demoDistinguisher_within (a b : Z101 × Z101) (hab : a.1 * b.1 = 48) (ha : a.1 * 1 + a.2 * 5 = 38) (hb : b.1 * 1 + b.2 * 5 = 56) : (demoDistinguisher a b).Within 1 5 [2] [3] 5 2 2 := by
  have h := fun t => demoFactors_provable' t a b hab ha hb
  exact ⟨1, rfl, fun _ => ⟨(h _).1, (h _).2.le, 1, rfl, fun pr => ⟨0, rfl, fun _ => ⟨(h _).1, (h _).2.le, 0, rfl, fun _ => trivial⟩⟩⟩⟩

theorem five_bijective : Function.Bijective fun a : Z101 => a • (5 : Z101) :=
  ⟨fun a b h => mul_right_cancel₀ (show (5 : Z101) ≠ 0 by decide) h, fun b => ⟨b * 5⁻¹, by
    show b * 5⁻¹ * 5 = b
    rw [mul_assoc, inv_mul_cancel₀ (show (5 : Z101) ≠ 0 by decide), mul_one]⟩⟩

example : |(demoDistinguisher (3, 7) (16, 8)).real (Env.std fun _ => 0) [2] [3] (fun _ => none) - (demoDistinguisher (3, 7) (16, 8)).simulated (Env.std fun _ => 0) 1 5 [2] [3] (fun _ => none)| ≤ 28 / 101 := by
  have := c66_zero_knowledge five_bijective (Env.std fun _ => 0) (Env.std fun _ => 0) _ 2 2 5 (demoDistinguisher_within (3, 7) (16, 8) (by decide) (by decide) (by decide))
  rw [ZMod.card] at this
  norm_num at this ⊢
  exact this

/-- The same commitments, opened as `3 * 16` and as `6 * 8`. -/
example : |(demoDistinguisher (3, 7) (16, 8)).real (Env.std fun _ => 0) [2] [3] (fun _ => none) - (demoDistinguisher (6, 67) (8, 50)).real (Env.std fun _ => 0) [2] [3] (fun _ => none)| ≤ 56 / 101 := by
  have := c66_witness five_bijective (Env.std fun _ => 0) _ _ (.ask _ fun _ => .prove _ _ _ fun _ => .ask _ fun _ => .prove _ _ _ fun _ => .decide _) 2 2 5
    (demoDistinguisher_within (3, 7) (16, 8) (by decide) (by decide) (by decide)) (demoDistinguisher_within (6, 67) (8, 50) (by decide) (by decide) (by decide))
  rw [ZMod.card] at this
  norm_num at this ⊢
  exact this

/-- The user commits to `x` and `y` with the blindings `b`; the distinguisher asks something about the commitments, gets the proof that the product is 48, asks something about it, and decides. -/
def demoSecret (x y : Z101) (b : Fin 2 → Z101) : Distinguisher Z101 Z101 :=
  .ask [.point "V" (x * 1 + b 0 * 5), .challenge "y"] fun r => .prove (demoFactorsP [.init "f"] (x, b 0) (y, b 1)) (demoFactorsVt [.init "f"] [x * 1 + b 0 * 5, y * 1 + b 1 * 5]) fun pr =>
    .ask [.scalar "t" (pr.t_x + r), .challenge "y"] fun r' => .decide (decide (pr.t_x = r'))

example : |avg (fun b => (demoSecret 3 16 b).real (Env.std fun _ => 0) [2] [3] fun _ => none) - avg (fun b => (demoSecret 6 8 b).real (Env.std fun _ => 0) [2] [3] fun _ => none)| ≤ 18 / 101 := by
  have h1 := fun b : Fin 2 → Z101 => demoFactors_provable [.init "f"] (3, b 0) (16, b 1) (show (3 * 16 : Z101) = 48 by decide)
  have h2 := fun b : Fin 2 → Z101 => demoFactors_provable [.init "f"] (6, b 0) (8, b 1) (show (6 * 8 : Z101) = 48 by decide)
  have := c66_private five_bijective (Env.std fun _ => 0) (g := (1 : Z101)) (Gs := [2]) (Hs := [3]) ![3, 16] ![6, 8] (demoSecret 3 16) (demoSecret 6 8) (fun b b' e => by
      have e0 : (3 * 1 + b 0 * 5 : Z101) = 6 * 1 + b' 0 * 5 := e 0
      have e1 : (16 * 1 + b 1 * 5 : Z101) = 8 * 1 + b' 1 * 5 := e 1
      unfold demoSecret
      rw [e0, e1]
      exact .ask _ fun _ => .prove _ _ _ fun _ => .ask _ fun _ => .decide _) 2 1 5
    (fun b => ⟨1, rfl, fun _ => ⟨(h1 b).1, (h1 b).2.le, 0, rfl, fun _ => ⟨0, rfl, fun _ => trivial⟩⟩⟩)
    (fun b => ⟨1, rfl, fun _ => ⟨(h2 b).1, (h2 b).2.le, 0, rfl, fun _ => ⟨0, rfl, fun _ => trivial⟩⟩⟩)
  rw [ZMod.card] at this
  norm_num at this ⊢
  exact this

end Bp
