import Verif.Spec.Compose
import Verif.Props.Gadgets.Basic
import Verif.Props.Gadgets.Sets
import Verif.Props.Gadgets.Alt
import Verif.Props.Gadgets.Hamming
import Verif.Props.Gadgets.Mimc

set_option linter.unusedSectionVars false
set_option linter.unusedSimpArgs false

/-! # C48, C50, C53: refused randomness, composition, pending gates -/

namespace Bp
variable {F G : Type} [Field F] [AddCommGroup G] [Module F G]

/-! ## C50 -/

/-- C50, completeness: if each pair is complete, so is the sequence, from every common history. -/
theorem c50_complete (env env' : Env F G) (pd : Option ℕ) : ∀ (parts : List (Part F G)), (∀ a ∈ parts, HonestPair env env' pd a.gates a.openings a.dp a.dv a.statics) →
    ∀ p s, Joint env env' p s → p.pending = pd → ∃ comss p' s', proveAll parts p = (.ok comss, p') ∧ verifyAll parts comss s = (.ok (), s') ∧ Joint env env' p' s' ∧
      p'.pending = pd ∧ p'.aL.length = p.aL.length + (parts.map Part.gates).sum ∧ OpenedAll p p' parts comss
  | [], _, p, s, J, hp => ⟨[], p, s, rfl, rfl, J, hp, rfl, by simp, by simp, rfl, rfl, rfl⟩
  | a :: as, h, p, s, J, hp => by
    obtain ⟨coms, p1, s1, h1, h2, J1, hp1, hl1, o1⟩ := h a (.head _) p s J hp
    obtain ⟨rest, p2, s2, k1, k2, J2, hp2, hl2, o2⟩ := c50_complete env env' pd as (fun b hb => h b (.tail _ hb)) p1 s1 J1 hp1
    refine ⟨coms :: rest, p2, s2, ?_, ?_, J2, hp2, by rw [hl2, hl1, List.map_cons, List.sum_cons]; ring, ?_⟩
    · exact Drv.bind_ok.mpr ⟨coms, p1, h1, Drv.bind_ok.mpr ⟨rest, p2, k1, rfl⟩⟩
    · exact Drv.bind_ok.mpr ⟨(), s1, h2, k2⟩
    · exact ⟨by rw [o2.values, o1.values]; simp, by rw [o2.blindings, o1.blindings]; simp, by rw [o2.points, o1.points, o1.g, o1.h]; rfl, o2.g.trans o1.g, o2.h.trans o1.h⟩

/-- C50, end to end: one proof for all the statements is produced and accepted. -/
theorem c50_end_to_end [DecidableEq G] (env env' : Env F G) (hO : env.oracle = env'.oracle) (h0 : ∀ l, env.oracle l ≠ 0) (parts : List (Part F G))
    (h : ∀ a ∈ parts, HonestPair env env' none a.gates a.openings a.dp a.dv a.statics) (hsz : nextPowerOfTwo (parts.map Part.gates).sum < 2 ^ 32)
    (hb : 1 < (parts.map Part.gates).sum ∨ env'.batchInvert [] = .ok ([], 1)) (label : String) (g hh : G) (c : Coins F) (Gs Hs : List G) (r : F)
    (hG : nextPowerOfTwo (parts.map Part.gates).sum ≤ Gs.length) (hH : nextPowerOfTwo (parts.map Part.gates).sum ≤ Hs.length) :
    ∃ pr comss, genProof env label g hh c Gs Hs (proveAll parts) = .ok (pr, comss) ∧ verifyProof env' label (verifyAll parts comss) pr g hh Gs Hs r = .ok () ∧
      comss = parts.map fun a => a.openings.map fun q => q.1 • g + q.2 • hh := by
  obtain ⟨comss, p', s', h1, h2, J, -, hl, o⟩ := c50_complete env env' none parts h _ _ (Joint.new env env' g hh [.init label] 0 0) rfl
  have hl' : p'.aL.length = (parts.map Part.gates).sum := by rw [hl]; simp [Prover.new]
  obtain ⟨pr, t', h3, h4⟩ := J.accepts hO h0 c Gs Hs r (by rwa [hl']) (by rwa [hl']) (by rwa [hl']) (by rwa [hl'])
  rw [o.g, o.h] at h4
  refine ⟨pr, comss, ?_, ?_, o.points⟩
  · simp only [genProof, h1, h3]
  · simp only [verifyProof, h2]
    rw [show s'.verify env' pr g hh Gs Hs r = .ok t' from h4]

/-- Statements without statics. -/
theorem SoundFor.with {k : ℕ} {dv : List G → Drv (Verifier F G) Unit} {R : (ℕ → F) → Prop} (h : SoundFor k dv R) : SoundForWith k [] [] dv R := by
  intro coms s s' hd
  obtain ⟨h1, h2, h3, h4⟩ := h coms s s' hd
  exact ⟨h1, h2, by simpa using h3, fun σ hg hs _ => h4 σ hg hs⟩

/-- C50, soundness: if the sequence is accepted, every assignment satisfying the final system satisfies every statement, about that statement's own commitments
(for a statement with publicly known committed values: if the assignment gives them those values). -/
theorem c50_sound : ∀ (parts : List (Part F G)) (ks : Part F G → ℕ) (st : Part F G → List F) (pts : Part F G → List G) (R : Part F G → (ℕ → F) → Prop),
    (∀ a ∈ parts, SoundForWith (ks a) (st a) (pts a) a.dv (R a)) →
    ∀ comss s s', verifyAll parts comss s = (.ok (), s') → s.constraints <+: s'.constraints ∧ s.V <+: s'.V ∧
      ∀ σ : Assignment F, σ.Gates → σ.Sat s'.constraints → ∀ (i : ℕ) a, parts[i]? = some a → ∃ coms off, comss[i]? = some coms ∧ ks a ≤ coms.length ∧
        (s'.V.drop off).take (ks a) = coms.take (ks a) ∧ (s'.V.drop (off + ks a)).take (pts a).length = pts a ∧
        ((∀ j x, (st a)[j]? = some x → σ.committed (off + ks a + j) = x) → R a (fun j => σ.committed (off + j)))
  | [], _, _, _, _, _, comss, s, s', hv => by
    obtain ⟨-, rfl⟩ := Drv.pure_ok.mp (show (Pure.pure () : Drv (Verifier F G) Unit) s = _ from hv)
    exact ⟨List.prefix_refl _, List.prefix_refl _, fun σ _ _ i a h => by simp at h⟩
  | a :: as, ks, st, pts, R, h, [], s, s', hv => by
    simp [verifyAll, Drv.lift, Res.panic] at hv
  | a :: as, ks, st, pts, R, h, coms :: rest, s, s', hv => by
    obtain ⟨⟨⟩, s1, h1, h2⟩ := Drv.bind_ok.mp hv
    obtain ⟨a0, a1, a2, a3⟩ := h a (.head _) coms s s1 h1
    obtain ⟨b1, b2, b3⟩ := c50_sound as ks st pts R (fun b hb => h b (.tail _ hb)) rest s1 s' h2
    refine ⟨a1.trans b1, (((List.prefix_append _ _).trans (List.prefix_append _ _)).trans a2).trans b2, fun σ hg hs i b hb => ?_⟩
    cases i with
    | zero =>
      simp only [List.getElem?_cons_zero, Option.some.injEq] at hb
      subst hb
      refine ⟨coms, s.V.length, rfl, a0, ?_, ?_, a3 σ hg fun lc hlc => hs lc (b1.subset hlc)⟩
      · obtain ⟨t, ht⟩ := a2.trans b2
        rw [← ht, List.append_assoc, List.append_assoc, List.drop_left, List.take_left' (by simp [a0])]
      · obtain ⟨t, ht⟩ := a2.trans b2
        rw [← ht, List.append_assoc, List.drop_left' (by simp [a0]), List.take_left' rfl]
    | succ i =>
      exact b3 σ hg hs i b (by simpa using hb)

/-- A bound check, a non-zero check and a set membership in one proof. -/
def demoParts : List (Part Fr Fr) :=
  [⟨proveBoundedNum demoEnv true 21 (some 7) 18 65 64 none (fun i => (i : Fr)), verifyBoundedNum demoEnv true 18 65 64, 128, [(21, 7), (3, 0), (44, 1)], []⟩,
   ⟨proveNonZeroVal demoEnv 5 none (some fun i => (i : Fr)) (fun i => (i : Fr)), verifyNonZeroVal demoEnv, 2, [(5, 0), (5⁻¹, 0)], []⟩,
   ⟨proveSetMembership demoEnv 5 (some 1) [2, 5, 5, 6] none (fun i => (i : Fr)), verifySetMembership demoEnv [2, 5, 5, 6], 4, [(5, 1), (2 - 5, 0), (0, 1), (0, 2), (1, 3)], []⟩]

theorem demoParts_honest : ∀ a ∈ demoParts, HonestPair demoEnv demoEnv none a.gates a.openings a.dp a.dv a.statics := by
  intro a ha
  simp only [demoParts, List.mem_cons, List.not_mem_nil, or_false] at ha
  rcases ha with rfl | rfl | rfl
  · exact c26_complete demoEnv demoEnv rfl true 18 21 65 64 (by omega) (by omega) (by decide +kernel) (by norm_num) (some 7) none (fun i => (i : Fr)) (.inl rfl) none
  · exact c27_complete demoEnv demoEnv rfl 5 (by decide +kernel) none (some fun i => (i : Fr)) (fun i => (i : Fr)) (.inr rfl) none
  · exact c28_complete demoEnv demoEnv rfl 5 [2, 5, 5, 6] (by simp) (some 1) none (fun i => (i : Fr)) (.inl rfl) none

example (c : Coins Fr) (Gs Hs : List Fr) (hG : 256 ≤ Gs.length) (hH : 256 ≤ Hs.length) : ∃ pr comss,
    genProof demoEnv "demo" 3 4 c Gs Hs (proveAll demoParts) = .ok (pr, comss) ∧ verifyProof demoEnv "demo" (verifyAll demoParts comss) pr 3 4 Gs Hs 9 = .ok () := by
  obtain ⟨pr, comss, h1, h2, -⟩ := c50_end_to_end demoEnv demoEnv rfl demoEnv_ne_zero demoParts demoParts_honest (by decide +kernel) (.inl (by decide +kernel)) "demo" 3 4 c Gs Hs 9
    (le_trans (by decide +kernel) hG) (le_trans (by decide +kernel) hH)
  exact ⟨pr, comss, h1, h2⟩

/-! ## C48 -/

/-- What it means to be refused: an error, with the prover untouched. -/
def Refused {α : Type} (d : Drv (Prover F G) α) : Prop := ∀ p, ∃ w, d p = (Res.err (.gadgetError w), p)

theorem refused_bind {α β : Type} {d : Drv (Prover F G) α} (h : Refused d) (f : α → Drv (Prover F G) β) : Refused (d >>= f) := by
  intro p
  obtain ⟨w, h⟩ := h p
  refine ⟨w, ?_⟩
  show Drv.bind d f p = _
  simp [Drv.bind, h, Res.err]

theorem refused_lift {α : Type} {r : Res α} {w : String} (h : r = Res.err (.gadgetError w)) : Refused (Drv.lift r : Drv (Prover F G) α) :=
  fun p => ⟨w, by rw [h]; rfl⟩

theorem refused_check {α β : Type} : Refused (Drv.lift (checkRandomness (none : Option α) (none : Option β)) : Drv (Prover F G) Unit) :=
  refused_lift (w := "Since randomness is None, provide") rfl

/-- C48: bound check. -/
theorem c48_bounded_num [IntRep F] (env : Env F G) (debug : Bool) (val lower upper n : ℕ) (sys : ℕ → F) :
    Refused (proveBoundedNum env debug val none lower upper n none sys) := refused_bind refused_check _
/-- C48: non-zero. -/
theorem c48_non_zero (env : Env F G) (value : F) (sys : ℕ → F) : Refused (proveNonZeroVal env value none none sys) := refused_bind refused_check _
/-- C48: set membership. -/
theorem c48_set_membership (env : Env F G) (value : F) (set : List F) (sys : ℕ → F) : Refused (proveSetMembership env value none set none sys) := refused_bind refused_check _
/-- C48: set non-membership. -/
theorem c48_set_non_membership (env : Env F G) (value : F) (set : List F) (sys : ℕ → F) : Refused (proveSetNonMembership env value none set none sys) := refused_bind refused_check _
/-- C48: bitmap set membership. -/
theorem c48_set_membership_alt (env : Env F G) (value : ℕ) (set : List ℕ) (sys : ℕ → F) : Refused (proveSetMembershipAlt env value none set none sys) := refused_bind refused_check _
/-- C48: MiMC without randomness. -/
theorem c48_mimc (env : Env F G) (inputs : List F) (image : F) (constants : List F) (rounds : ℕ) : Refused (proveMimcPreimage env inputs none image constants rounds none) :=
  refused_bind refused_check _

theorem checkLengths_wrong {α β : Type} {xs : List α} {ys : List β} {n : ℕ} (h : xs.length ≠ n ∨ ys.length ≠ n) : ∃ w, checkLengths xs ys n = Res.err (.gadgetError w) := by
  unfold checkLengths
  rw [if_pos h]
  exact ⟨_, rfl⟩

theorem drv_lift_bind {S α β : Type} (a : α) (f : α → Drv S β) : (Drv.lift (.ok a) >>= f) = f a := rfl

/-- C48: MiMC with a wrong number of inputs or blindings. -/
theorem c48_mimc_lengths (env : Env F G) (inputs rands : List F) (image : F) (constants : List F) (rounds : ℕ) (rng : Option (ℕ → F)) (h : inputs.length ≠ 2 ∨ rands.length ≠ 2) :
    Refused (proveMimcPreimage env inputs (some rands) image constants rounds rng) := by
  unfold proveMimcPreimage
  rw [checkRandomness_ok (.inl rfl), drv_lift_bind]
  simp only [pickBlindings]
  rw [drv_lift_bind]
  obtain ⟨w, hw⟩ := checkLengths_wrong h
  exact refused_bind (refused_lift hw) _
/-- C48: Hamming distance with vectors of different lengths. -/
theorem c48_hamming_lengths (env : Env F G) (original new : List F) (count : ℕ) (sys : ℕ → F) (h : original.length ≠ new.length) :
    Refused (proveHammingDistance env original new count sys) := by
  unfold proveHammingDistance
  rw [if_pos h]
  exact refused_lift rfl

/-- The hypotheses of the last two are satisfiable. -/
example : Refused (proveMimcPreimage demoEnv [1, 2, 3] (some [4, 5]) 6 [] 0 none) := c48_mimc_lengths _ _ _ _ _ _ _ (.inl (by simp))
example : Refused (proveHammingDistance demoEnv [1, 2] [3] 1 (fun i => (i : Fr))) := c48_hamming_lengths _ _ _ _ _ (by simp)

/-! ## C53 -/

/-- C53: every other statement is unaffected by a half-allocated gate: the completeness theorems hold from every pending state. -/
theorem c53_others_partial [IntRep F] (env env' : Env F G) (hO : env.oracle = env'.oracle) (pd : Option ℕ) (sys : ℕ → F) (b : F) :
    (∀ debug lower val upper n, lower ≤ val → val ≤ upper → upper < IntRep.order F → upper - lower < 2 ^ n →
      ∃ os, HonestPair env env' pd (2 * n) os (proveBoundedNum env debug val (some b) lower upper n none sys) (verifyBoundedNum env' debug lower upper n)) ∧
    (∀ value, value ≠ 0 → ∃ os, HonestPair env env' pd 2 os (proveNonZeroVal env value (some b) none sys) (verifyNonZeroVal env')) ∧
    (∀ value set, value ∈ set → ∃ os, HonestPair env env' pd set.length os (proveSetMembership env value (some b) set none sys) (verifySetMembership env' set)) ∧
    (∀ value set, value ∉ set → ∃ os, HonestPair env env' pd (2 * set.length) os (proveSetNonMembership env value (some b) set none sys) (verifySetNonMembership env' set)) ∧
    (∀ value set, set.count value = 1 → ∃ os, HonestPair env env' pd (3 * set.length) os (proveSetMembershipAlt env value (some b) set none sys) (verifySetMembershipAlt env' set)) ∧
    (∀ x y image constants rounds, mimc x y constants rounds = .ok image →
      ∃ os, HonestPair env env' pd (2 * rounds) os (proveMimcPreimage env [x, y] (some [b, b]) image constants rounds none) (verifyMimcPreimage env' image constants rounds)) :=
  ⟨fun debug lower val upper n h1 h2 h3 h4 => ⟨_, c26_complete env env' hO debug lower val upper n h1 h2 h3 h4 (some b) none sys (.inl rfl) pd⟩,
   fun value h => ⟨_, c27_complete env env' hO value h (some b) none sys (.inl rfl) pd⟩,
   fun value set h => ⟨_, c28_complete env env' hO value set h (some b) none sys (.inl rfl) pd⟩,
   fun value set h => ⟨_, c30_complete env env' hO value set h (some b) none sys (.inl rfl) pd⟩,
   fun value set h => ⟨_, c29_complete env env' hO value set h (some b) none sys (.inl rfl) pd⟩,
   fun x y image constants rounds h => ⟨_, c32_complete env env' hO x y image constants rounds h b b (some [b, b]) none (.inl rfl) pd⟩⟩

end Bp
