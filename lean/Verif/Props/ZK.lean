import Verif.Lemmas.ZK2
import Verif.Props.R1CS

/-! # C22: the proof does not depend on which witness was used

For two provers with satisfying witnesses that run against the same verifier (same circuit, same commitments), the coins of one are in
bijection with the coins of the other such that corresponding coins give the same proof, bit by bit.  So with uniformly random coins the
two proofs have the same distribution. -/

namespace Bp
variable {F G : Type} [Field F] [AddCommGroup G] [Module F G]

/-- Witness indistinguishability: `φ` is a bijection between the coins with which the first prover draws non-zero `x`, `y` and those of the
second; corresponding coins give equal proofs and final transcripts, and coins that are never drawn are left as they are. -/
theorem c22_witness_indistinguishable (env env' : Env F G) (hO : env.oracle = env'.oracle) (p p' : Prover F G) (s : Verifier F G)
    (hs : Session env env' p s) (hs' : Session env env' p' s) (hg : p'.g = p.g) (hh : p'.h = p.h)
    (hb : Function.Bijective fun a : F => a • p.h) (Gs Hs : List G) (hr : p.Ready env Gs Hs) (hr' : p'.Ready env Gs Hs) :
    ∃ φ : { c : Coins F // p.Regular env Gs Hs c } ≃ { c : Coins F // p'.Regular env Gs Hs c },
      ∀ c, Prover.prove env p' (φ c).1 Gs Hs = Prover.prove env p c.1 Gs Hs ∧
        ∀ p2, (p.start c.1 Gs Hs).createRandomizedConstraints env = .ok p2 →
          Coins.SameUnused p.aL.length (p2.aL.length - p.aL.length) c.1 (φ c).1 := by
  obtain ⟨hw, hst⟩ := Session.inStep hO hs
  obtain ⟨hw', hst'⟩ := Session.inStep hO hs'
  have hb' : Function.Bijective fun a : F => a • p'.h := by rw [hh]; exact hb
  have ex := fun c : { c : Coins F // p.Regular env Gs Hs c } => Matches.total hw hw' hst hst' hg hh hb hr hr' c.2
  have ex' := fun c : { c : Coins F // p'.Regular env Gs Hs c } => Matches.total hw' hw hst' hst hg.symm hh.symm hb' hr' hr c.2
  choose f hf using ex
  choose f' hf' using ex'
  refine ⟨⟨fun c => ⟨f c, (hf c).regular⟩, fun c => ⟨f' c, (hf' c).regular⟩, fun c => Subtype.ext ?_, fun c => Subtype.ext ?_⟩, fun c => ⟨(hf c).prove_eq, fun p2 h2 => (hf c).unused h2⟩⟩
  · exact Matches.unique hw hb.1 (hf c) (hf' _).symm
  · exact Matches.unique hw' hb'.1 (hf' c) (hf _).symm

/-- If the oracle never answers zero, this is a bijection of all coins. -/
theorem c22_all_coins (env env' : Env F G) (hO : env.oracle = env'.oracle) (h0 : ∀ t, env.oracle t ≠ 0) (p p' : Prover F G) (s : Verifier F G)
    (hs : Session env env' p s) (hs' : Session env env' p' s) (hg : p'.g = p.g) (hh : p'.h = p.h)
    (hb : Function.Bijective fun a : F => a • p.h) (Gs Hs : List G) (hr : p.Ready env Gs Hs) (hr' : p'.Ready env Gs Hs) :
    ∃ φ : Coins F ≃ Coins F, ∀ c, Prover.prove env p' (φ c) Gs Hs = Prover.prove env p c Gs Hs := by
  obtain ⟨hw, -⟩ := Session.inStep hO hs
  obtain ⟨hw', -⟩ := Session.inStep hO hs'
  have reg : ∀ q : Prover F G, q.WF → q.Ready env Gs Hs → ∀ c, q.Regular env Gs Hs c := by
    intro q hq hr c
    obtain ⟨p2, k, hcrc, -, hin, hk, hG, hH⟩ := hr (q.start c Gs Hs).transcript
    obtain ⟨pr, t', -, -, -, -, hpr, -⟩ := prove_ok env q p2 c Gs Hs hq hcrc k hk hG hH hin
    exact ⟨p2, pr, t', hcrc, hpr, h0 _, h0 _⟩
  obtain ⟨φ, hφ⟩ := c22_witness_indistinguishable env env' hO p p' s hs hs' hg hh hb Gs Hs hr hr'
  refine ⟨(Equiv.subtypeUnivEquiv (reg p hw hr)).symm.trans (φ.trans (Equiv.subtypeUnivEquiv (reg p' hw' hr'))), fun c => (hφ ⟨c, reg p hw hr c⟩).1⟩

/-! The hypotheses hold for the two-phase session of `demoProduct` with the witnesses `3 * 4` and `2 * 6`, which have the same commitments under
different blindings. -/

/-- The prover of the demo session with chosen blindings. -/
def zkP (x y b1 b2 : Z101) : Prover Z101 Z101 :=
  match (((Prover.new 1 5 [.init "demo"] 0 : Prover Z101 Z101).commit x b1).2.commit y b2).2.run1 (Env.std (fun _ => 2)) (demoProduct (.committed 0, .committed 1)) with
  | .ok (_, p) => p
  | .error _ => Prover.new 1 5 [] 0

theorem zk_session (x y b1 b2 : Z101) : Session (Env.std (fun _ => 2)) (Env.std (fun _ => 2)) (zkP x y b1 b2) (demoV (commitScalar 1 5 x b1) (commitScalar 1 5 y b2)) := by
  refine .gadget (RA := fun _ _ => True) (a := ()) (b := ()) (c := demoProduct (.committed 0, .committed 1)) (c' := demoProduct (.committed 0, .committed 1))
    (.commit y b2 (.commit x b1 (.new 1 5 [.init "demo"] 0 0))) ?_ rfl rfl
  refine .multiply (.refl _) (.refl _) fun vs => .constrain (.refl _) (.specify ?_ (.ret trivial))
  exact .challenge fun c => .multiply (.refl _) (.refl _) fun q => .constrain (.refl _) (.ret trivial)

/-- Its state after the second phase from the transcript `T`. -/
def zkP2 (x y b1 b2 : Z101) (T : Transcript Z101 Z101) : Prover Z101 Z101 :=
  match ({ zkP x y b1 b2 with transcript := T } : Prover Z101 Z101).createRandomizedConstraints (Env.std (fun _ => 2)) with
  | .ok p => p
  | .error _ => zkP x y b1 b2

theorem zk_ready (x y b1 b2 : Z101) (h : (zkP2 x y b1 b2 []).constraints.map (LC.value (zkP2 x y b1 b2 []).assignment) = [0, 0, 0, 0, 0, 0]) :
    (zkP x y b1 b2).Ready (Env.std (fun _ => 2)) [1, 2, 3, 4] [5, 6, 7, 8] := by
  intro T
  refine ⟨zkP2 x y b1 b2 T, 1, rfl, ?_, ?_, ?_, ?_, ?_⟩
  · have : (zkP2 x y b1 b2 T).constraints.map (LC.value (zkP2 x y b1 b2 T).assignment) = [0, 0, 0, 0, 0, 0] := h
    intro lc hlc
    have hm := List.mem_map_of_mem (f := LC.value (zkP2 x y b1 b2 T).assignment) hlc
    rw [this] at hm
    simpa using hm
  · have : ((zkP2 x y b1 b2 T).constraints.flatMap fun lc => lc.terms.map Prod.fst).all (fun v => decide (v.InRange 2 2)) = true := rfl
    intro lc hlc t ht
    have := List.all_eq_true.mp this t.1 (List.mem_flatMap.mpr ⟨lc, hlc, List.mem_map_of_mem ht⟩)
    exact of_decide_eq_true this
  · have : (zkP2 x y b1 b2 T).aL.length = 2 := rfl
    rw [this]; decide +kernel
  · simp
  · simp

/-- Proofs that `3 * 4 = 12` and that `2 * 6 = 12` are distributed alike. -/
example : ∃ φ : Coins Z101 ≃ Coins Z101, ∀ c, Prover.prove (Env.std fun _ => 2) (zkP 2 6 88 48) (φ c) [1, 2, 3, 4] [5, 6, 7, 8] =
    Prover.prove (Env.std fun _ => 2) (zkP 3 4 7 8) c [1, 2, 3, 4] [5, 6, 7, 8] := by
  have hv : demoV (commitScalar 1 5 (3 : Z101) 7) (commitScalar 1 5 (4 : Z101) 8) = demoV (commitScalar 1 5 (2 : Z101) 88) (commitScalar 1 5 (6 : Z101) 48) := by
    rw [show commitScalar (1 : Z101) 5 (3 : Z101) (7 : Z101) = commitScalar (1 : Z101) 5 (2 : Z101) (88 : Z101) by decide +kernel,
      show commitScalar (1 : Z101) 5 (4 : Z101) (8 : Z101) = commitScalar (1 : Z101) 5 (6 : Z101) (48 : Z101) by decide +kernel]
  refine c22_all_coins (Env.std fun _ => 2) (Env.std fun _ => 2) rfl (fun t => show (2 : Z101) ≠ 0 by decide) (zkP 3 4 7 8) (zkP 2 6 88 48) _ (zk_session 3 4 7 8) (hv ▸ zk_session 2 6 88 48) rfl rfl ?_ _ _
    (zk_ready _ _ _ _ (by decide +kernel)) (zk_ready _ _ _ _ (by decide +kernel))
  have : ∀ a : Z101, a • (5 : Z101) = a * 5 := fun _ => rfl
  refine ⟨fun a b h => mul_right_cancel₀ (show (5 : Z101) ≠ 0 by decide) h, fun P => ⟨P * 81, ?_⟩⟩
  show P * 81 * 5 = P
  rw [mul_assoc, show (81 : Z101) * 5 = 1 by decide, mul_one]

end Bp
