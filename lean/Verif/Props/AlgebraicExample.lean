import Verif.Props.Algebraic
import Verif.Props.FiatShamirExample
import Verif.Props.Gadgets.Randomizer

/-! # C59: the theorems apply -/

namespace Bp
open Finset

/-! ## Generators with many relations

The group is `Z101` itself, where every two points have a relation. -/

abbrev Rep6 := Rep Z101 (([7, 11] : List Z101) ++ [13, 17] ++ [3, 5])

/-- Commitments to 0 (blinding 7) and to 5 (blinding 8; the alleged inverse), as combinations. -/
def zeroReps : List Rep6 := [(7 : Z101) • Rep.h Z101 3 5 [7, 11] [13, 17], (5 : Z101) • Rep.g Z101 3 5 [7, 11] [13, 17] + (8 : Z101) • Rep.h Z101 3 5 [7, 11] [13, 17]]

def zeroRepV : Verifier Z101 Rep6 := (verifyNonZeroVal (Env.std fun _ => 2) zeroReps (Verifier.new [.init "zero"])).2

/-- The verifier sees the points 35 and 55.  (In this group the first is also a commitment to 5 with blinding 4.) -/
example : verifyNonZeroVal (Env.std fun _ => 2) [35, 55] (Verifier.new [.init "zero"]) = (.ok (), zeroRepV.mapG (Rep.point Z101 _)) ∧ (35 : Z101) = (5 : Z101) • 3 + (4 : Z101) • 5 :=
  ⟨by rfl, by decide⟩

/-- What is claimed: the first commitment is a combination `x g + r h` with `x ≠ 0`. -/
def NonZeroRep (coms : List Rep6) : Prop :=
  ∃ P, ∃ x : Z101, coms[0]? = some P ∧ CommitsTo (Rep.g Z101 3 5 [7, 11] [13, 17]) (Rep.h Z101 3 5 [7, 11] [13, 17]) P x ∧ x ≠ 0

/-- This is false of the two combinations (although it is true of the points). -/
example : ¬ NonZeroRep zeroReps := by
  rintro ⟨P, x, hP, ⟨r, hr⟩, hx⟩
  obtain rfl : (7 : Z101) • Rep.h Z101 3 5 [7, 11] [13, 17] = P := by simpa [zeroReps] using hP
  exact hx (by simpa [Rep.h, Rep.g, Rep.gen] using (congrFun hr ⟨4, by decide⟩).symm)

/-- A prover that asks five questions, and makes a first commitment that is not of this form, makes the verifier accept with at most 78 in 101 of the answers, unless a relation is found. -/
example (A : Forger Z101 Rep6) :
    A.fooling (Env.std fun _ => 2) "zero" (verifyNonZeroVal (Env.std fun _ => 2)) 3 5 [7, 11] [13, 17] (verifyNonZeroVal (Env.std fun _ => 2)) 2 NonZeroRep 5 6 ≤ 78 * 101 ^ 11 := by
  have h := c59_non_zero (g := 3) (h := 5) (Gs := [7, 11]) (Hs := [13, 17]) (Env.std fun _ => (2 : Z101)) (by simp [Env.std]) "zero" zeroReps zeroRepV rfl A 5
  rwa [show zeroRepV.numDraws = 6 by decide +kernel, show zeroRepV.badBound = 7 by decide +kernel, show Fintype.card Z101 = 101 from ZMod.card 101] at h

/-- Two combinations for the same point, here 11 G_0 - 7 G_1 and 0, give a relation. -/
example : ∃ ρ : Rep6, Relation (Rep.point Z101 _) (Env.std fun _ => 2) zeroRepV { blankProof with ipp := ⟨[0], [0], 0, 0⟩ } (Rep.g Z101 3 5 [7, 11] [13, 17]) (Rep.h Z101 3 5 [7, 11] [13, 17])
    (Rep.Gs Z101 3 5 [7, 11] [13, 17]) (Rep.Hs Z101 3 5 [7, 11] [13, 17]) 1 (fun _ => 2) [[TEvent.point "T_1" ((11 : Z101) • Rep.gen Z101 _ 0 - (7 : Z101) • Rep.gen Z101 _ 1), .point "T_3" 0]] ρ := by
  refine ⟨(11 : Z101) • Rep.gen Z101 _ 0 - (7 : Z101) • Rep.gen Z101 _ 1, by decide +kernel, by decide +kernel, _, _, rfl, .inr ⟨(11 : Z101) • Rep.gen Z101 _ 0 - (7 : Z101) • Rep.gen Z101 _ 1, 0, ?_, ?_, by simp⟩⟩
  · exact List.mem_flatMap.mpr ⟨_, List.mem_cons_of_mem _ (List.mem_singleton.mpr rfl), by simp [Transcript.points]⟩
  · exact List.mem_flatMap.mpr ⟨_, List.mem_cons_of_mem _ (List.mem_singleton.mpr rfl), by simp [Transcript.points]⟩

/-! ## Independent generators

Then there are no relations, and some attacks do make the verifier accept with some answers. -/

abbrev RepU := Rep Z101 (([unit6 0, unit6 1] : List V6) ++ [unit6 2, unit6 3] ++ [unit6 4, unit6 5])

theorem point_injective {F G : Type} [Field F] [AddCommGroup G] [Module F G] {gens : List G} (hg : Independent F gens) (c : Rep F gens) (h : Rep.point F gens c = 0) : c = 0 := by
  funext i
  have := hg (fun j => if hj : j < gens.length then c ⟨j, hj⟩ else 0) ?_ i i.isLt
  · simpa using this
  · refine Eq.trans ?_ h
    show _ = ∑ j, c j • gens.get j
    rw [Finset.sum_range]
    exact Finset.sum_congr rfl fun j _ => by simp

def zeroRepsU : List RepU :=
  [(7 : Z101) • Rep.h Z101 (unit6 4) (unit6 5) [unit6 0, unit6 1] [unit6 2, unit6 3],
   (5 : Z101) • Rep.g Z101 (unit6 4) (unit6 5) [unit6 0, unit6 1] [unit6 2, unit6 3] + (8 : Z101) • Rep.h Z101 (unit6 4) (unit6 5) [unit6 0, unit6 1] [unit6 2, unit6 3]]

def zeroRepVU : Verifier Z101 RepU := (verifyNonZeroVal (Env.std fun _ => 2) zeroRepsU (Verifier.new [.init "zero"])).2

theorem zeroU_accepted : ∃ pr t', ∀ e : Z101, Verifier.verify (Env.std fun _ => 2) zeroRepVU pr (Rep.g Z101 (unit6 4) (unit6 5) [unit6 0, unit6 1] [unit6 2, unit6 3])
    (Rep.h Z101 (unit6 4) (unit6 5) [unit6 0, unit6 1] [unit6 2, unit6 3]) (Rep.Gs Z101 (unit6 4) (unit6 5) [unit6 0, unit6 1] [unit6 2, unit6 3]) (Rep.Hs Z101 (unit6 4) (unit6 5) [unit6 0, unit6 1] [unit6 2, unit6 3]) e = .ok t' := by
  have hc : ∃ s0, (zeroRepVU.start blankProof).createRandomizedConstraints (Env.std fun _ => (2 : Z101)) = .ok s0 ∧ s0.numVars = 2 ∧ s0.V.length = 2 ∧
    (s0.constraints.flatMap fun lc => lc.terms.map Prod.fst).all (fun v => decide (v.InRange 2 2)) = true := ⟨_, rfl, rfl, rfl, rfl⟩
  obtain ⟨s0, h1, h2, h3, h4⟩ := hc
  obtain ⟨pr, t', -, h⟩ := c56_simulated_accepted (fun _ => 2) fixed_const (fun _ => show (2 : Z101) ≠ 0 by decide) zeroRepVU s0 h1 (fun lc hlc t ht => by
      have := List.all_eq_true.mp h4 t.1 (List.mem_flatMap.mpr ⟨lc, hlc, List.mem_map_of_mem ht⟩)
      rw [h2, h3]
      exact of_decide_eq_true this) (Rep.g Z101 (unit6 4) (unit6 5) [unit6 0, unit6 1] [unit6 2, unit6 3]) (Rep.h Z101 (unit6 4) (unit6 5) [unit6 0, unit6 1] [unit6 2, unit6 3])
    (Rep.Gs Z101 (unit6 4) (unit6 5) [unit6 0, unit6 1] [unit6 2, unit6 3]) (Rep.Hs Z101 (unit6 4) (unit6 5) [unit6 0, unit6 1] [unit6 2, unit6 3]) 1 (by rw [h2]; decide +kernel) (by decide) (by simp [Rep.Gs]) (by simp [Rep.Hs])
    ⟨0, 0, 0, 0, 0, 0, 0, 0, 0, 0, 0, fun _ => 0, fun _ => 0⟩ (by rw [h2]; exact ⟨fun _ _ => ⟨rfl, rfl⟩, fun _ => ⟨rfl, rfl, rfl⟩⟩)
  exact ⟨pr, t', h⟩

/-- This prover succeeds with these answers. -/
example : ∃ A : Forger Z101 RepU, ∀ r, A.Fools (Rep.point Z101 _) (Env.std fun _ => 2) "zero" (verifyNonZeroVal (Env.std fun _ => 2)) (verifyNonZeroVal (Env.std fun _ => 2)) 2
    (fun coms => ∃ P, ∃ x : Z101, coms[0]? = some P ∧ CommitsTo (Rep.g Z101 (unit6 4) (unit6 5) [unit6 0, unit6 1] [unit6 2, unit6 3]) (Rep.h Z101 (unit6 4) (unit6 5) [unit6 0, unit6 1] [unit6 2, unit6 3]) P x ∧ x ≠ 0)
    (Rep.g Z101 (unit6 4) (unit6 5) [unit6 0, unit6 1] [unit6 2, unit6 3]) (Rep.h Z101 (unit6 4) (unit6 5) [unit6 0, unit6 1] [unit6 2, unit6 3]) (Rep.Gs Z101 (unit6 4) (unit6 5) [unit6 0, unit6 1] [unit6 2, unit6 3])
    (Rep.Hs Z101 (unit6 4) (unit6 5) [unit6 0, unit6 1] [unit6 2, unit6 3]) 5 [2, 2, 2, 2, 2, 2, 2, 2, 2, 2, 2] r := by
  obtain ⟨pr, t', h⟩ := zeroU_accepted
  refine ⟨⟨⟨fun _ => [], fun _ => pr⟩, fun _ => zeroRepsU⟩, fun r => ⟨rfl, ?_, fun _ => 2, zeroRepVU.mapG (Rep.point Z101 _), t'.mapG (Rep.point Z101 _), ⟨by rfl, fun i c hc _ => ?_, ?_⟩, ?_⟩⟩
  · rintro ⟨P, x, hP, ⟨r, hr⟩, hx⟩
    obtain rfl : (7 : Z101) • Rep.h Z101 (unit6 4) (unit6 5) [unit6 0, unit6 1] [unit6 2, unit6 3] = P := by simpa [zeroRepsU] using hP
    exact hx (by simpa [Rep.h, Rep.g, Rep.gen] using (congrFun hr ⟨4, by decide⟩).symm)
  · exact (List.eq_of_mem_replicate (n := 11) (List.mem_of_getElem? hc)).symm
  · have hr := h r
    show Verifier.verify _ (zeroRepVU.mapG (Rep.point Z101 _)) (pr.mapG (Rep.point Z101 _)) _ _ _ _ r = _
    rw [verify_residual] at hr ⊢
    rw [mapG_residual]
    have e : Env.pull (Rep.point Z101 (([unit6 0, unit6 1] : List V6) ++ [unit6 2, unit6 3] ++ [unit6 4, unit6 5])) { (Env.std fun _ => 2 : Env Z101 V6) with oracle := fun _ => 2 } = (Env.std fun _ => 2) := rfl
    rw [e]
    revert hr
    cases zeroRepVU.residual (Env.std fun _ => 2) pr _ _ _ _ r with
    | error e => intro hr; simp at hr
    | ok p =>
      intro hr
      simp only at hr
      split at hr
      · rename_i h0
        simp only [Except.ok.injEq] at hr
        simp [Except.map, h0, hr]
      · simp [Res.err] at hr
  · rintro ρ ⟨h1, h2, -⟩
    exact h1 (point_injective unit6_independent ρ h2)

/-! ## A bound check over the field of the curve, with points of the field -/

abbrev RepB := Rep Fr (([2, 3, 5, 7] : List Fr) ++ [11, 13, 17, 19] ++ [23, 29])

/-- Commitments to 5, 4 and 0. -/
def bnReps : List RepB := [(5 : Fr) • Rep.g Fr 23 29 _ _ + (7 : Fr) • Rep.h Fr 23 29 _ _, (4 : Fr) • Rep.g Fr 23 29 _ _ + (1 : Fr) • Rep.h Fr 23 29 _ _, Rep.h Fr 23 29 _ _]

def bnRepV : Verifier Fr RepB := (verifyBoundedNum (Env.std fun _ => 2) false 1 3 2 bnReps (Verifier.new [.init "bounds"])).2

/-- The code of the next examples: the bound for every prover and every number of questions. -/
def BoundB (label : String) (dv : List Fr → Drv (Verifier Fr Fr) Unit) (dv' : List RepB → Drv (Verifier Fr RepB) Unit) (m D B : ℕ) (claim : List RepB → Prop) : Prop :=
  ∀ (A : Forger Fr RepB) (Q : ℕ), A.fooling (Env.std fun _ => 2) label dv 23 29 [2, 3, 5, 7] [11, 13, 17, 19] dv' m claim Q D ≤ ((Q + D) * B + 1) * Fintype.card Fr ^ (Q + D)

def repG : RepB := Rep.g Fr 23 29 [2, 3, 5, 7] [11, 13, 17, 19]
def repH : RepB := Rep.h Fr 23 29 [2, 3, 5, 7] [11, 13, 17, 19]

example : BoundB "bounds" (verifyBoundedNum (Env.std fun _ => 2) false 1 3 2) (verifyBoundedNum (Env.std fun _ => 2) false 1 3 2) 3 7 13 (fun coms => ∃ P, ∃ k : ℕ, coms[0]? = some P ∧ CommitsTo repG repH P (k : Fr) ∧ 1 ≤ k ∧ k ≤ 3) := by
  intro A Q
  have h := c59_bounded_num (g := 23) (h := 29) (Gs := [2, 3, 5, 7]) (Hs := [11, 13, 17, 19]) (Env.std fun _ => (2 : Fr)) (by simp [Env.std]) "bounds" false 1 3 2 (by decide) (by decide) (by decide +kernel) (by decide +kernel) bnReps bnRepV rfl A Q
  rwa [show bnRepV.numDraws = 7 by decide +kernel, show bnRepV.badBound = 13 by decide +kernel] at h

/-! ## The other statements -/

theorem built_of_ok {S : Type} (r : Res Unit × S) (h : r.1.isOk = true) : r = (.ok (), r.2) := by
  obtain ⟨a, b⟩ := r
  obtain ⟨u, hu⟩ := isOk_elim h
  exact Prod.ext hu rfl

def repB (x r : Fr) : RepB := x • repG + r • repH

def setRepV : Verifier Fr RepB := (verifySetMembership (Env.std fun _ => 2) [1, 4, 9] [repB 1 0, repB 2 1, repB 3 2, repB 4 3] (Verifier.new [.init "set"])).2

example : BoundB "set" (verifySetMembership (Env.std fun _ => 2) [1, 4, 9]) (verifySetMembership (Env.std fun _ => 2) [1, 4, 9]) ([repB 1 0, repB 2 1, repB 3 2, repB 4 3] : List RepB).length setRepV.numDraws setRepV.badBound
    (fun coms => ∃ P x, coms[0]? = some P ∧ CommitsTo repG repH P x ∧ x ∈ ([1, 4, 9] : List Fr)) :=
  c59_set_membership (g := 23) (h := 29) (Gs := [2, 3, 5, 7]) (Hs := [11, 13, 17, 19]) (Env.std fun _ => (2 : Fr)) (by simp [Env.std]) "set" [1, 4, 9] ⟨5, by decide +kernel⟩ [repB 1 0, repB 2 1, repB 3 2, repB 4 3] setRepV rfl

def nonSetRepV : Verifier Fr RepB := (verifySetNonMembership (Env.std fun _ => 2) [1, 4] [repB 1 0, repB 2 1, repB 3 2, repB 4 3, repB 5 4] (Verifier.new [.init "set"])).2

example : BoundB "set" (verifySetNonMembership (Env.std fun _ => 2) [1, 4]) (verifySetNonMembership (Env.std fun _ => 2) [1, 4]) ([repB 1 0, repB 2 1, repB 3 2, repB 4 3, repB 5 4] : List RepB).length nonSetRepV.numDraws nonSetRepV.badBound
    (fun coms => ∃ P x, coms[0]? = some P ∧ CommitsTo repG repH P x ∧ x ∉ ([1, 4] : List Fr)) :=
  c59_set_non_membership (g := 23) (h := 29) (Gs := [2, 3, 5, 7]) (Hs := [11, 13, 17, 19]) (Env.std fun _ => (2 : Fr)) (by simp [Env.std]) "set" [1, 4] (by simp) [repB 1 0, repB 2 1, repB 3 2, repB 4 3, repB 5 4] nonSetRepV rfl

def mimcRepV : Verifier Fr RepB := (verifyMimcPreimage (Env.std fun _ => 2) 11 [1] 1 [repB 1 0, repB 2 1] (Verifier.new [.init "mimc"])).2

example : BoundB "mimc" (verifyMimcPreimage (Env.std fun _ => 2) 11 [1] 1) (verifyMimcPreimage (Env.std fun _ => 2) 11 [1] 1) ([repB 1 0, repB 2 1] : List RepB).length mimcRepV.numDraws mimcRepV.badBound
    (fun coms => ∀ v : ℕ → Fr, (∀ (i : ℕ) P, i < 2 → coms[i]? = some P → CommitsTo repG repH P (v i)) → mimc (v 0) (v 1) [1] 1 = .ok 11) :=
  c59_mimc (g := 23) (h := 29) (Gs := [2, 3, 5, 7]) (Hs := [11, 13, 17, 19]) (Env.std fun _ => (2 : Fr)) (by simp [Env.std]) "mimc" 11 [1] 1 rfl [repB 1 0, repB 2 1] mimcRepV rfl

def hash2RepV : Verifier Fr RepB := (verifyPoseidon2 (Env.std fun _ => 2) 11 demoParams .quint repG repH [repB 1 0, repB 2 1] (Verifier.new [.init "poseidon"])).2

example : BoundB "poseidon" (verifyPoseidon2 (Env.std fun _ => 2) 11 demoParams .quint 23 29) (verifyPoseidon2 (Env.std fun _ => 2) 11 demoParams .quint repG repH) ([repB 1 0, repB 2 1] : List RepB).length hash2RepV.numDraws hash2RepV.badBound
    (fun coms => ∀ v : ℕ → Fr, (∀ (i : ℕ) P, i < 2 → coms[i]? = some P → CommitsTo repG repH P (v i)) → poseidonHash2 (v 0) (v 1) demoParams .quint = .ok 11) :=
  c59_poseidon_2 (g := 23) (h := 29) (Gs := [2, 3, 5, 7]) (Hs := [11, 13, 17, 19]) (Env.std fun _ => (2 : Fr)) (by simp [Env.std]) "poseidon" 11 demoParams .quint (by decide) [repB 1 0, repB 2 1] hash2RepV (by unfold hash2RepV; exact built_of_ok _ (by decide +kernel))

def hash4RepV : Verifier Fr RepB := (verifyPoseidon4 (Env.std fun _ => 2) 11 demoParams5 .quint repG repH [repB 1 0, repB 2 1, repB 3 2, repB 4 3] (Verifier.new [.init "poseidon"])).2

example : BoundB "poseidon" (verifyPoseidon4 (Env.std fun _ => 2) 11 demoParams5 .quint 23 29) (verifyPoseidon4 (Env.std fun _ => 2) 11 demoParams5 .quint repG repH) ([repB 1 0, repB 2 1, repB 3 2, repB 4 3] : List RepB).length hash4RepV.numDraws hash4RepV.badBound
    (fun coms => ∀ v : ℕ → Fr, (∀ (i : ℕ) P, i < 4 → coms[i]? = some P → CommitsTo repG repH P (v i)) → poseidonHash4 [v 0, v 1, v 2, v 3] demoParams5 .quint = .ok 11) :=
  c59_poseidon_4 (g := 23) (h := 29) (Gs := [2, 3, 5, 7]) (Hs := [11, 13, 17, 19]) (Env.std fun _ => (2 : Fr)) (by simp [Env.std]) "poseidon" 11 demoParams5 .quint (by decide) [repB 1 0, repB 2 1, repB 3 2, repB 4 3] hash4RepV (by unfold hash4RepV; exact built_of_ok _ (by decide +kernel))

def hash8RepV : Verifier Fr RepB := (verifyPoseidon8 (Env.std fun _ => 2) 11 demoParams9 .quint repG repH [repB 1 0, repB 2 1, repB 3 2, repB 4 3, repB 5 4, repB 6 5, repB 7 6, repB 8 7] (Verifier.new [.init "poseidon"])).2

example : BoundB "poseidon" (verifyPoseidon8 (Env.std fun _ => 2) 11 demoParams9 .quint 23 29) (verifyPoseidon8 (Env.std fun _ => 2) 11 demoParams9 .quint repG repH) ([repB 1 0, repB 2 1, repB 3 2, repB 4 3, repB 5 4, repB 6 5, repB 7 6, repB 8 7] : List RepB).length hash8RepV.numDraws hash8RepV.badBound
    (fun coms => ∀ v : ℕ → Fr, (∀ (i : ℕ) P, i < 8 → coms[i]? = some P → CommitsTo repG repH P (v i)) → poseidonHash8 [v 0, v 1, v 2, v 3, v 4, v 5, v 6, v 7] demoParams9 .quint = .ok 11) :=
  c59_poseidon_8 (g := 23) (h := 29) (Gs := [2, 3, 5, 7]) (Hs := [11, 13, 17, 19]) (Env.std fun _ => (2 : Fr)) (by simp [Env.std]) "poseidon" 11 demoParams9 .quint (by decide) [repB 1 0, repB 2 1, repB 3 2, repB 4 3, repB 5 4, repB 6 5, repB 7 6, repB 8 7] hash8RepV (by unfold hash8RepV; exact built_of_ok _ (by decide +kernel))

def incl4RepV : Verifier Fr RepB := (verifyInclusion4 (Env.std fun _ => 2) 11 1 demoParams5 .quint repG repH [repB 1 0, repB 2 1, repB 3 2, repB 4 3, repB 5 4] (Verifier.new [.init "inclusion"])).2

example : BoundB "inclusion" (verifyInclusion4 (Env.std fun _ => 2) 11 1 demoParams5 .quint 23 29) (verifyInclusion4 (Env.std fun _ => 2) 11 1 demoParams5 .quint repG repH) ([repB 1 0, repB 2 1, repB 3 2, repB 4 3, repB 5 4] : List RepB).length incl4RepV.numDraws incl4RepV.badBound
    (fun coms => ∀ v : ℕ → Fr, (∀ (i : ℕ) P, coms[i]? = some P → CommitsTo repG repH P (v i)) → Included (hasher4 demoParams5 .quint) 1 11 v) :=
  c59_inclusion_4 (g := 23) (h := 29) (Gs := [2, 3, 5, 7]) (Hs := [11, 13, 17, 19]) (Env.std fun _ => (2 : Fr)) (by simp [Env.std]) "inclusion" 11 1 demoParams5 .quint (by decide) [repB 1 0, repB 2 1, repB 3 2, repB 4 3, repB 5 4] rfl incl4RepV (by unfold incl4RepV; exact built_of_ok _ (by decide +kernel))

def incl8RepV : Verifier Fr RepB := (verifyInclusion8 (Env.std fun _ => 2) 11 1 demoParams9 .quint repG repH [repB 1 0, repB 2 1, repB 3 2, repB 4 3, repB 5 4, repB 6 5, repB 7 6, repB 8 7, repB 9 8] (Verifier.new [.init "inclusion"])).2

example : BoundB "inclusion" (verifyInclusion8 (Env.std fun _ => 2) 11 1 demoParams9 .quint 23 29) (verifyInclusion8 (Env.std fun _ => 2) 11 1 demoParams9 .quint repG repH) ([repB 1 0, repB 2 1, repB 3 2, repB 4 3, repB 5 4, repB 6 5, repB 7 6, repB 8 7, repB 9 8] : List RepB).length incl8RepV.numDraws incl8RepV.badBound
    (fun coms => ∀ v : ℕ → Fr, (∀ (i : ℕ) P, coms[i]? = some P → CommitsTo repG repH P (v i)) → Included (hasher8 demoParams9 .quint) 1 11 v) :=
  c59_inclusion_8 (g := 23) (h := 29) (Gs := [2, 3, 5, 7]) (Hs := [11, 13, 17, 19]) (Env.std fun _ => (2 : Fr)) (by simp [Env.std]) "inclusion" 11 1 demoParams9 .quint (by decide) [repB 1 0, repB 2 1, repB 3 2, repB 4 3, repB 5 4, repB 6 5, repB 7 6, repB 8 7, repB 9 8] rfl incl8RepV (by unfold incl8RepV; exact built_of_ok _ (by decide +kernel))

/-! The randomizer, with a tree of depth 2 and the indices 14 and 1. -/

def rndTree : SparseTree Fr × HashDb (List Fr) := match runHistory (tree4 demoParams5) 2 HashDb.new demoHistory' with | .ok x => x | .error _ => (⟨2, 0⟩, HashDb.new)

theorem rndTree_run : runHistory (tree4 demoParams5) 2 HashDb.new demoHistory' = .ok (rndTree.1, rndTree.2) := by
  have hT : (tree4 demoParams5).IsTree demoParams5 2 := .inl ⟨rfl, rfl, by decide⟩
  obtain ⟨db, e, -⟩ := run_ok demoParams5_valid hT HashDb.new demoHistory' demo_collisionFree'
  unfold rndTree
  rw [e]

def rndRepV : Verifier Fr RepB := (verifyRandomizer (Env.std fun _ => 2) rndTree.1 rndTree.2 [14, 1] 2 demoParams5 .quint repG repH ((List.range 15).map fun i => repB i 1) (Verifier.new [.init "randomizer"])).2

example : BoundB "randomizer" (verifyRandomizer (Env.std fun _ => 2) rndTree.1 rndTree.2 [14, 1] 2 demoParams5 .quint 23 29) (verifyRandomizer (Env.std fun _ => 2) rndTree.1 rndTree.2 [14, 1] 2 demoParams5 .quint repG repH) 15 rndRepV.numDraws rndRepV.badBound
    (fun coms => ∀ v : ℕ → Fr, (∀ (i : ℕ) P, i < 15 → coms[i]? = some P → CommitsTo repG repH P (v i)) → Randomized (tree4 demoParams5) 2 (written 16 demoHistory') [14, 1] v) :=
  c59_randomizer (g := 23) (h := 29) (Gs := [2, 3, 5, 7]) (Hs := [11, 13, 17, 19]) (Env.std fun _ => (2 : Fr)) (by simp [Env.std]) "randomizer" demoParams5 demoParams5_valid rfl 2 (by decide) HashDb.new demoHistory' demo_collisionFree' _ _ rndTree_run [14, 1]
    ((List.range 15).map fun i => repB i 1) rndRepV (by unfold rndRepV; exact built_of_ok _ (by decide +kernel))

end Bp
