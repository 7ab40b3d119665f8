import Verif.Lemmas.MerlinGame
import Verif.Lemmas.MerlinZK
import Verif.Lemmas.Gadgets.Tree
import Verif.Props.Challenge
import Verif.Props.Verify
import Verif.Props.AlgebraicExample
import Verif.Props.Statements

set_option linter.unusedSectionVars false

/-! # C71: the bytes that are hashed determine the log, and the hash may be asked any bytes

The challenges are bytes that merlin's STROBE makes from the bytes it has been given, with labels and lengths.  C09, C58, C59, C66 and C70 speak about logs of typed events.  Here: two different logs that the code can make are
never the same for STROBE, so an answer of STROBE is never the answer to another log; and the theorems about forging and about simulating hold for adversaries that ask STROBE anything, not only logs. -/

namespace Bp
variable {F G M : Type} [Field F] [AddCommGroup G] [Module F G] [AddCommGroup M] [Module F M]

/-! ## The log is determined -/

/-- **C71**: different logs are different sequences of STROBE operations. -/
theorem c71_injective {W : Wire F G} {a b : ℕ} (hW : W.Faithful a b) {t t' : Transcript F G} (h : t.Regular) (h' : t'.Regular) (ho : t.ops W = t'.ops W) : t = t' := log_inj hW h h' ho

/-- C71: not even a prefix of one is the other, unless the logs are so: no question for a challenge is hidden in the middle of an event of another log. -/
theorem c71_prefix {W : Wire F G} {a b : ℕ} (hW : W.Faithful a b) {t t' : Transcript F G} (h : t.Regular) (h' : t'.Regular) (ho : t.ops W <+: t'.ops W) : t <+: t' := by
  have hl : ∀ u : Transcript F G, (u.ops W).length = 2 * u.length := by
    intro u
    induction u with
    | nil => rfl
    | cons e u ih => rw [Transcript.ops_cons, List.length_append, TEvent.length_ops, ih, List.length_cons]; ring
  have happ : ∀ u v : Transcript F G, Transcript.ops W (u ++ v) = u.ops W ++ v.ops W := fun u v => List.flatMap_append
  have hle : t.length ≤ t'.length := by
    have := ho.length_le
    rw [hl, hl] at this
    omega
  have hp := List.take_prefix t.length t'
  have e : Transcript.ops W (t'.take t.length) = t.ops W := by
    obtain ⟨v, hv⟩ := ho
    have h2 : Transcript.ops W (t'.take t.length) ++ Transcript.ops W (t'.drop t.length) = t.ops W ++ v := by rw [← happ, List.take_append_drop, hv]
    exact (List.append_inj h2 (by rw [hl, hl, List.length_take, Nat.min_eq_left hle])).1
  have hn : t'.take t.length ≠ [] := by
    have := h.ne_nil
    have h0 := h'.ne_nil
    intro hx
    rcases List.take_eq_nil_iff.mp hx with h1 | h1
    · exact this (List.length_eq_zero_iff.mp h1)
    · exact h0 h1
  rw [← c71_injective hW (h'.pre hp hn) h e]
  exact hp

/-- **C71**: if the same challenge comes out for two logs, the logs are the same, or two different sequences of operations are found that STROBE does not distinguish. -/
theorem c71_collision {W : Wire F G} {a b : ℕ} (hW : W.Faithful a b) {B : Type} (H : List StrobeOp → B) {t t' : Transcript F G} (h : t.Regular) (h' : t'.Regular) (hH : H (t.ops W) = H (t'.ops W)) :
    t = t' ∨ ∃ q q', q ≠ q' ∧ H q = H q' := by
  by_cases e : t.ops W = t'.ops W
  · exact .inl (c71_injective hW h h' e)
  · exact .inr ⟨_, _, e, hH⟩

/-- C71: `FieldElement::to_bytes` has the properties that are asked of `Wire.scalar`. -/
theorem c71_scalar_bytes [ByteRep F] : Function.Injective (toBytes : F → List UInt8) ∧ ∀ x : F, (toBytes x).length = ByteRep.modBytes F :=
  ⟨toBytes_injective, fun x => by simp [toBytes]⟩

/-! ## The logs of the code -/

theorem fullLog_regular {t0 : Transcript F G} (ht : t0.Regular) {V : List G} (hV : V.length < 2 ^ 64) (pr : R1CSProof F G) (two : Bool) (labels : List String) {N : ℕ} (hN : N < 2 ^ 64) :
    (fullLog t0 V pr two labels N).Regular := by
  unfold fullLog preLog
  simp only [List.append_assoc]
  refine ht.append fun e he => ?_
  simp only [List.mem_append, List.mem_cons, List.not_mem_nil, or_false, List.mem_map] at he
  rcases he with (rfl | ⟨p, -, rfl⟩ | rfl | rfl | rfl | rfl | rfl | ⟨l, -, rfl⟩) | he | he
  · trivial
  · show _ ≠ _; decide
  all_goals first | trivial | (show _ ≠ _; decide) | exact ⟨by decide, hV⟩ | skip
  · rcases he with rfl | rfl | rfl | rfl | rfl | rfl | rfl | rfl | rfl | rfl | rfl | rfl | rfl | rfl | rfl | rfl | rfl | rfl
    all_goals first | trivial | (show _ ≠ _; decide) | exact ⟨by decide, hN⟩
  · exact regular_rounds _ e he

/-- C71: the log of every verification that succeeds is such a log (if the caller's is, and with less than `2^64` commitments and less than 64 rounds). -/
theorem c71_verify_log [DecidableEq G] (env : Env F G) (t0 : Transcript F G) (ht : t0.Regular) (s : Verifier F G) (hs : s.Reach env t0) (pr : R1CSProof F G) (g h : G) (Gs Hs : List G) (r : F) (T : Transcript F G)
    (hv : s.verify env pr g h Gs Hs r = .ok T) (hV : s.V.length < 2 ^ 64) (hL : pr.ipp.L.length < 64) : T.Regular := by
  obtain ⟨labels, -, rfl, -⟩ := c09_verify_log env t0 s hs pr g h Gs Hs r T hv
  exact fullLog_regular ht hV pr _ labels (Nat.pow_lt_pow_right (by omega) hL)

/-- C71: so is the log of every proof that is made. -/
theorem c71_prove_log (env : Env F G) (g h : G) (t0 : Transcript F G) (ht : t0.Regular) (p : Prover F G) (hp : p.Reach env g h t0) (c : Coins F) (Gs Hs : List G) (pr : R1CSProof F G) (T : Transcript F G)
    (hv : p.prove env c Gs Hs = .ok (pr, T)) (hV : p.v.length < 2 ^ 64) (hL : pr.ipp.L.length < 64) : T.Regular := by
  obtain ⟨labels, -, rfl⟩ := c09_prove_log env g h t0 p hp c Gs Hs pr T hv
  exact fullLog_regular ht (lt_of_le_of_lt (by simp) hV) pr _ labels (Nat.pow_lt_pow_right (by omega) hL)

/-- **C71**: two verifications that succeed after the same operations of STROBE are verifications, over transcripts with the same label, of the same commitments and of proofs that differ at most in the two final scalars. -/
theorem c71_verifications [DecidableEq G] {W : Wire F G} {a b : ℕ} (hW : W.Faithful a b) (env env' : Env F G) (lab lab' : String) (s s' : Verifier F G) (hs : s.Reach env [.init lab]) (hs' : s'.Reach env' [.init lab'])
    (pr pr' : R1CSProof F G) (g h g' h' : G) (Gs Hs Gs' Hs' : List G) (r r' : F) (T T' : Transcript F G) (hv : s.verify env pr g h Gs Hs r = .ok T) (hv' : s'.verify env' pr' g' h' Gs' Hs' r' = .ok T')
    (hV : s.V.length < 2 ^ 64) (hV' : s'.V.length < 2 ^ 64) (hL : pr.ipp.L.length < 64) (hL' : pr'.ipp.L.length < 64) (ho : T.ops W = T'.ops W) :
    lab = lab' ∧ s.V = s'.V ∧ (s.deferred = [] ↔ s'.deferred = []) ∧
    pr.A_I1 = pr'.A_I1 ∧ pr.A_O1 = pr'.A_O1 ∧ pr.S1 = pr'.S1 ∧ pr.A_I2 = pr'.A_I2 ∧ pr.A_O2 = pr'.A_O2 ∧ pr.S2 = pr'.S2 ∧
    pr.T_1 = pr'.T_1 ∧ pr.T_3 = pr'.T_3 ∧ pr.T_4 = pr'.T_4 ∧ pr.T_5 = pr'.T_5 ∧ pr.T_6 = pr'.T_6 ∧
    pr.t_x = pr'.t_x ∧ pr.t_x_blinding = pr'.t_x_blinding ∧ pr.e_blinding = pr'.e_blinding ∧ pr.ipp.L = pr'.ipp.L ∧ pr.ipp.R = pr'.ipp.R := by
  have init : ∀ l : String, Transcript.Regular ([.init l] : Transcript F G) := fun l e he => by simp at he
  have h1 := c71_verify_log env _ (init lab) s hs pr g h Gs Hs r T hv hV hL
  have h2 := c71_verify_log env' _ (init lab') s' hs' pr' g' h' Gs' Hs' r' T' hv' hV' hL'
  have e := c71_injective hW h1 h2 ho
  obtain ⟨labels, -, rfl, hl⟩ := c09_verify_log env _ s hs pr g h Gs Hs r T hv
  obtain ⟨labels', -, rfl, hl'⟩ := c09_verify_log env' _ s' hs' pr' g' h' Gs' Hs' r' T' hv'
  obtain ⟨q1, q2, q3, -, -, q4⟩ := c09_log_binds _ _ _ _ _ _ _ _ _ _ _ _ hl.symm hl'.symm e
  refine ⟨q1, q2, ?_, q4⟩
  by_cases e1 : s.deferred = [] <;> by_cases e2 : s'.deferred = [] <;> simp_all

/-- C71: the sizes are needed: a number is hashed as 64 bits. -/
theorem c71_u64_wraps (W : Wire F G) (l : String) (n : ℕ) : (TEvent.u64 l (n + 2 ^ 64) : TEvent F G).ops W = (TEvent.u64 l n : TEvent F G).ops W := by
  have h : ∀ k (i j : ℕ), leBytes k (i + j * 256 ^ k) = leBytes k i := by
    intro k
    induction k with
    | zero => intros; rfl
    | succ k ih =>
      intro i j
      have e : (i + j * 256 ^ (k + 1)) / 256 = i / 256 + j * 256 ^ k := by
        rw [Nat.pow_succ, show j * (256 ^ k * 256) = (j * 256 ^ k) * 256 by ring, Nat.add_mul_div_right _ _ (by omega)]
      have e2 : UInt8.ofNat (i + j * 256 ^ (k + 1)) = UInt8.ofNat i := by
        apply UInt8.toNat_inj.mp
        rw [UInt8.toNat_ofNat', UInt8.toNat_ofNat', Nat.pow_succ, show j * (256 ^ k * 256) = (j * 256 ^ k) * 256 by ring]
        omega
      rw [leBytes, leBytes, e, e2, ih]
  have := h 8 n 1
  simp only [TEvent.ops]
  rw [← this]
  norm_num

/-! ## Forging -/

section
variable [DecidableEq G]

/-- **C71**, soundness: a prover may ask the hash anything at all, `Q` times; with all but few of the answers of the hash it does not make the verifier accept a false statement, unless a relation between the generators is found
(C59).  It is algebraic: it knows how it has made the points in the logs it asks. -/
theorem c71_sound [Fintype F] [DecidableEq F] {g h : G} {Gs Hs : List G} {W : Wire F G} {a b : ℕ} (hW : W.Faithful a b) (env : Env F G) (hb : env.batchInvert [] = .ok ([], 1)) (label : String) (dv : List G → Drv (Verifier F G) Unit)
    (dv' : List (Rep F (Gs ++ Hs ++ [g, h])) → Drv (Verifier F (Rep F (Gs ++ Hs ++ [g, h]))) Unit) (hn : ∀ a, DrvNat (Rep.point F _) (dv (a.map (Rep.point F _))) (dv' a)) (coms0 : List (Rep F (Gs ++ Hs ++ [g, h])))
    (hu : Uniform label coms0.length dv') (s0 : Verifier F (Rep F (Gs ++ Hs ++ [g, h]))) (hs0 : dv' coms0 (Verifier.new [.init label]) = (.ok (), s0))
    (hV : ∀ coms s, coms.length = coms0.length → dv' coms (Verifier.new [.init label]) = (.ok (), s) → s.V.length < 2 ^ 64) (hN : nextPowerOfTwo s0.numVars < 2 ^ 64) (claim : List (Rep F (Gs ++ Hs ++ [g, h])) → Prop)
    (hc : ∀ coms, coms.length = coms0.length → Convinced label (dv' coms) (Rep.g F g h Gs Hs) (Rep.h F g h Gs Hs) (Rep.Gs F g h Gs Hs) (Rep.Hs F g h Gs Hs) → claim coms)
    (A : RawForger F (Rep F (Gs ++ Hs ++ [g, h]))) (hA : A.Algebraic W (Rep.point F _)) (Q : ℕ) :
    Nat.card {p : (Fin (Q + s0.numDraws) → F) × F // A.Fools W (Rep.point F _) env label dv dv' coms0.length claim (Rep.g F g h Gs Hs) (Rep.h F g h Gs Hs) (Rep.Gs F g h Gs Hs) (Rep.Hs F g h Gs Hs) Q (List.ofFn p.1) p.2} ≤
      ((Q + s0.numDraws) * s0.badBound + 1) * Fintype.card F ^ (Q + s0.numDraws) := by
  classical
  exact (card_mono fun p hp => RawForger.Fools.toForger hW hA hn coms0 hu s0 hs0 hV hN (by rw [List.length_ofFn]) hp).trans
    (c58_game (env.pull (Rep.point F _)) hb label coms0.length dv' hu coms0 rfl s0 hs0 _ _ _ _ (Rep.independent g h Gs Hs) claim hc (A.toForger W (Rep.point F _)) Q)

/-- **C71**, soundness, with challenges made from random bytes: for such a prover, the probability. -/
theorem c71_sound_bytes {n : ℕ} [Fact n.Prime] {G : Type} [AddCommGroup G] [Module (ZMod n) G] [DecidableEq G] {g h : G} {Gs Hs : List G} {W : Wire (ZMod n) G} {a b : ℕ} (hW : W.Faithful a b) (m : ℕ) (env : Env (ZMod n) G)
    (hb : env.batchInvert [] = .ok ([], 1)) (label : String) (dv : List G → Drv (Verifier (ZMod n) G) Unit)
    (dv' : List (Rep (ZMod n) (Gs ++ Hs ++ [g, h])) → Drv (Verifier (ZMod n) (Rep (ZMod n) (Gs ++ Hs ++ [g, h]))) Unit) (hn : ∀ a, DrvNat (Rep.point (ZMod n) _) (dv (a.map (Rep.point (ZMod n) _))) (dv' a))
    (coms0 : List (Rep (ZMod n) (Gs ++ Hs ++ [g, h]))) (hu : Uniform label coms0.length dv') (s0 : Verifier (ZMod n) (Rep (ZMod n) (Gs ++ Hs ++ [g, h]))) (hs0 : dv' coms0 (Verifier.new [.init label]) = (.ok (), s0))
    (hV : ∀ coms s, coms.length = coms0.length → dv' coms (Verifier.new [.init label]) = (.ok (), s) → s.V.length < 2 ^ 64) (hN : nextPowerOfTwo s0.numVars < 2 ^ 64) (claim : List (Rep (ZMod n) (Gs ++ Hs ++ [g, h])) → Prop)
    (hc : ∀ coms, coms.length = coms0.length → Convinced label (dv' coms) (Rep.g (ZMod n) g h Gs Hs) (Rep.h (ZMod n) g h Gs Hs) (Rep.Gs (ZMod n) g h Gs Hs) (Rep.Hs (ZMod n) g h Gs Hs) → claim coms)
    (A : RawForger (ZMod n) (Rep (ZMod n) (Gs ++ Hs ++ [g, h]))) (hA : A.Algebraic W (Rep.point (ZMod n) _)) (Q : ℕ) :
    prob (fun x : (Fin (Q + s0.numDraws) → Bytes m) × ZMod n => A.Fools W (Rep.point (ZMod n) _) env label dv dv' coms0.length claim (Rep.g (ZMod n) g h Gs Hs) (Rep.h (ZMod n) g h Gs Hs) (Rep.Gs (ZMod n) g h Gs Hs)
        (Rep.Hs (ZMod n) g h Gs Hs) Q (List.ofFn (challengesOf n x.1)) x.2) ≤
      ((Q + s0.numDraws) * s0.badBound + 1 : ℕ) / n + (Q + s0.numDraws : ℕ) * bias n (256 ^ m) := by
  have hf := c71_sound hW env hb label dv dv' hn coms0 hu s0 hs0 hV hN claim hc A hA Q
  rw [ZMod.card] at hf
  exact (c70_transfer (E := fun cs r => A.Fools W (Rep.point (ZMod n) _) env label dv dv' coms0.length claim (Rep.g (ZMod n) g _ Gs Hs) (Rep.h (ZMod n) g _ Gs Hs) (Rep.Gs (ZMod n) g _ Gs Hs)
    (Rep.Hs (ZMod n) g _ Gs Hs) Q (List.ofFn cs) r) hf m).1

end

/-! ## Simulating -/

section
variable {n : ℕ} [Fact n.Prime] {G : Type} [AddCommGroup G] [Module (ZMod n) G] [DecidableEq G] {g h : G} {Gs Hs : List G} {W : Wire (ZMod n) G} {a b : ℕ}

/-- **C71**, zero knowledge: a distinguisher may ask the hash anything at all, `Q` times, and may get `P` proofs: it cannot tell them from simulated ones. -/
theorem c71_zero_knowledge (hW : W.Faithful a b) (m : ℕ) (hb : Function.Bijective fun a : ZMod n => a • h) (env env' : Env (ZMod n) G) (A : RawDistinguisher (ZMod n) G) (Q P D : ℕ) (hA : A.Within g h Gs Hs D Q P) :
    |A.real m W env Gs Hs (fun _ => none) - A.simulated m W env' g h Gs Hs (fun _ => none)| ≤ (P * (Q + P * D) : ℕ) / n + 2 * P * ((256 ^ m / n + 1 : ℕ) / (256 ^ m : ℕ)) := by
  rw [A.real_toLogs hW m env hA (K' := fun _ => none) fun _ => rfl, A.simulated_toLogs hW m env' hA (K' := fun _ => none) fun _ => rfl]
  exact c70_zero_knowledge m hb env env' _ Q P D (A.toLogs_within hA)

theorem RawDistinguisher.SameStatements.toLogs (W : Wire (ZMod n) G) {A A' : RawDistinguisher (ZMod n) G} (h : A.SameStatements A') : (A.toLogs W).SameStatements (A'.toLogs W) := by
  induction h with
  | decide b => exact .decide b
  | ask q _ ih => exact .ask _ ih
  | prove p p' s _ ih => exact .prove p p' s ih

/-- **C71**, witness indistinguishability, for such distinguishers. -/
theorem c71_witness (hW : W.Faithful a b) (m : ℕ) (hb : Function.Bijective fun a : ZMod n => a • h) (env : Env (ZMod n) G) (A A' : RawDistinguisher (ZMod n) G) (hs : A.SameStatements A') (Q P D : ℕ)
    (hA : A.Within g h Gs Hs D Q P) (hA' : A'.Within g h Gs Hs D Q P) :
    |A.real m W env Gs Hs (fun _ => none) - A'.real m W env Gs Hs (fun _ => none)| ≤ 2 * ((P * (Q + P * D) : ℕ) / n + 2 * P * ((256 ^ m / n + 1 : ℕ) / (256 ^ m : ℕ))) := by
  rw [A.real_toLogs hW m env hA (K' := fun _ => none) fun _ => rfl, A'.real_toLogs hW m env hA' (K' := fun _ => none) fun _ => rfl]
  exact c70_witness m hb env _ _ (hs.toLogs W) Q P D (A.toLogs_within hA) (A'.toLogs_within hA')

end

/-! ## The hypotheses are met -/

/-- Scalars are one byte, points are two. -/
def demoWire : Wire Z101 Z101 := ⟨fun x => [UInt8.ofNat x.val], fun p => [0, UInt8.ofNat p.val], 2⟩

theorem demoWire_faithful : demoWire.Faithful 1 2 where
  scalar_inj := by
    intro x y h
    revert h x y
    decide +kernel
  point_inj := by
    intro x y h
    revert h x y
    decide +kernel
  scalar_length _ := rfl
  point_length _ := rfl
  scalar_ne_point := by decide
  scalar_ne_u64 := by decide
  point_ne_u64 := by decide

/-- A log, and the operations. -/
example : Transcript.Regular ([.init "f", .domSep "r1cs v1", .point "V" 38, .u64 "m" 1, .challenge "y"] : Transcript Z101 Z101) ∧
    Transcript.ops demoWire [.init "f", .domSep "r1cs v1", .point "V" 38, .u64 "m" 1, .challenge "y"] =
      [.metaAd [100, 111, 109, 45, 115, 101, 112, 1, 0, 0, 0], .ad [102], .metaAd [100, 111, 109, 45, 115, 101, 112, 7, 0, 0, 0], .ad [114, 49, 99, 115, 32, 118, 49],
       .metaAd [86, 2, 0, 0, 0], .ad [0, 38], .metaAd [109, 8, 0, 0, 0], .ad [1, 0, 0, 0, 0, 0, 0, 0], .metaAd [121, 2, 0, 0, 0], .prf 2] := by
  refine ⟨?_, by decide +kernel⟩
  intro e he
  simp only [List.mem_cons, List.not_mem_nil, or_false] at he
  rcases he with rfl | rfl | rfl | rfl
  · trivial
  · show _ ≠ _; decide
  · exact ⟨by decide, by norm_num⟩
  · trivial

/-- The log of a verification that succeeds, with two commitments and two phases. -/
example (c : Coins Z101) : ∃ (pr : R1CSProof Z101 Z101) (t : Transcript Z101 Z101),
    (demoV (commitScalar 1 5 (3 : Z101) 7) (commitScalar 1 5 (4 : Z101) 8)).verify (Env.std (fun _ => 2)) pr 1 5 [1, 2, 3, 4] [5, 6, 7, 8] 3 = .ok t ∧ (pr.ipp.L.length < 64 → t.Regular) := by
  obtain ⟨pr, t, -, h⟩ := demo_accepts c
  have hr : (demoV (commitScalar 1 5 (3 : Z101) 7) (commitScalar 1 5 (4 : Z101) 8)).Reach (Env.std (fun _ => 2)) [.init "demo"] :=
    .gadget (a := ()) (c := demoProduct (.committed 0, .committed 1)) (.commit _ (.commit _ (.new 0))) rfl
  refine ⟨pr, t, h 3, fun hL => ?_⟩
  exact c71_verify_log _ _ (show Transcript.Regular [.init "demo"] from fun e he => by simp at he) _ hr pr 1 5 _ _ 3 t (h 3) (by decide +kernel) hL

/-- Asks bytes that are no log, and logs that depend on earlier answers. -/
def demoRawForger : RawForger Z101 Rep6 where
  ask cs := if cs.length % 2 = 0 then .raw [.prf 7] else .log [.init "zero", .point "V" (cs.sum • Rep.g Z101 3 5 [7, 11] [13, 17]), .challenge "y"]
  out _ := { blankProof with ipp := ⟨[0], [0], 0, 0⟩ }
  coms _ := zeroReps

theorem demoRawForger_algebraic : demoRawForger.Algebraic demoWire (Rep.point Z101 _) := by
  intro cs t ht ho
  unfold demoRawForger at ho ⊢
  simp only at ho ⊢
  split at ho
  · obtain ⟨l, t', rfl, -⟩ := ht.cases
    rw [Transcript.ops_cons] at ho
    simp [Query.ops, TEvent.ops, appendMessage] at ho
  · rename_i hc
    rw [if_neg hc]
    refine ⟨_, rfl, c71_injective demoWire_faithful ?_ ht ho⟩
    intro e he
    simp only [List.map_cons, List.map_nil, List.mem_cons, List.not_mem_nil, or_false] at he
    rcases he with rfl | rfl
    · show _ ≠ _; decide
    · trivial

/-- A prover that asks five questions, whatever they are. -/
theorem demoRaw_sound (A : RawForger Z101 Rep6) (hA : A.Algebraic demoWire (Rep.point Z101 _)) :
    Nat.card {p : (Fin (5 + 6) → Z101) × Z101 // A.Fools demoWire (Rep.point Z101 _) (Env.std fun _ => 2) "zero" (verifyNonZeroVal (Env.std fun _ => 2)) (verifyNonZeroVal (Env.std fun _ => 2)) 2 NonZeroRep
      (Rep.g Z101 3 5 [7, 11] [13, 17]) (Rep.h Z101 3 5 [7, 11] [13, 17]) (Rep.Gs Z101 3 5 [7, 11] [13, 17]) (Rep.Hs Z101 3 5 [7, 11] [13, 17]) 5 (List.ofFn p.1) p.2} ≤ 78 * 101 ^ 11 := by
  have hs : verifyNonZeroVal (Env.std fun _ => (2 : Z101)) zeroReps (Verifier.new [.init "zero"]) = (.ok (), zeroRepV) := rfl
  have h := c71_sound (g := 3) (h := 5) (Gs := [7, 11]) (Hs := [13, 17]) demoWire_faithful (Env.std fun _ => (2 : Z101)) (by simp [Env.std]) "zero" (verifyNonZeroVal (Env.std fun _ => 2)) (verifyNonZeroVal (Env.std fun _ => 2))
    (fun a => DrvNat.nonZeroVal (Rep.point Z101 _) (Env.std fun _ => 2) a) zeroReps (Uniform.nonZeroVal _) zeroRepV hs ?_ (by decide +kernel) NonZeroRep (fun _ _ hc => c55_non_zero _ hc) A hA 5
  · rwa [show zeroRepV.numDraws = 6 by decide +kernel, show zeroRepV.badBound = 7 by decide +kernel, show Fintype.card Z101 = 101 from ZMod.card 101] at h
  · intro coms s hl hs'
    obtain ⟨c, d, rfl⟩ : ∃ c d, coms = [c, d] := List.length_eq_two.mp hl
    have e : s = (verifyNonZeroVal (Env.std fun _ => (2 : Z101)) [c, d] (Verifier.new [.init "zero"])).2 := by rw [hs']
    rw [e]
    show 2 < 2 ^ 64
    norm_num

/-- It gets one proof over a new transcript, after and before a question of two bytes that are no log, and decides by looking at the proof. -/
def demoRawDistinguisher (a b : Z101 × Z101) : RawDistinguisher Z101 Z101 :=
  .ask [.prf 3, .ad [1, 2]] fun x => .prove (demoFactorsP [.init "f"] a b) (demoFactorsVt [.init "f"] [38, 56]) fun pr => .ask [.metaAd [0], .ad [UInt8.ofNat pr.t_x.val]] fun r => .decide (decide (pr.t_x = r + x))

theorem demoRawDistinguisher_within (a b : Z101 × Z101) (hab : a.1 * b.1 = 48) (ha : a.1 * 1 + a.2 * 5 = 38) (hb : b.1 * 1 + b.2 * 5 = 56) : (demoRawDistinguisher a b).Within 1 5 [2] [3] 5 2 1 := by
  have h := demoFactors_provable' [.init "f"] a b hab ha hb
  refine ⟨1, rfl, fun _ => ⟨⟨h.1, ?_, by decide +kernel, by decide +kernel⟩, h.2.le, 0, rfl, fun pr => ⟨0, rfl, fun _ => trivial⟩⟩⟩
  have e : (demoFactorsVt [.init "f"] [38, 56]).transcript = [.init "f", .domSep "r1cs v1", .point "V" 38, .point "V" 56] := by decide +kernel
  rw [e]
  intro e he
  simp only [List.mem_cons, List.not_mem_nil, or_false] at he
  rcases he with rfl | rfl | rfl
  · trivial
  · show _ ≠ _; decide
  · show _ ≠ _; decide

example : |(demoRawDistinguisher (3, 7) (16, 8)).real 2 demoWire (Env.std fun _ => 0) [2] [3] (fun _ => none) - (demoRawDistinguisher (3, 7) (16, 8)).simulated 2 demoWire (Env.std fun _ => 0) 1 5 [2] [3] (fun _ => none)| ≤ 10 / 101 := by
  refine (c71_zero_knowledge (n := 101) demoWire_faithful 2 five_bijective (Env.std fun _ => 0) (Env.std fun _ => 0) _ 2 1 5 (demoRawDistinguisher_within (3, 7) (16, 8) (by decide) (by decide) (by decide))).trans ?_
  norm_num

/-- The same commitments, opened as `3 * 16` and as `6 * 8`. -/
example : |(demoRawDistinguisher (3, 7) (16, 8)).real 2 demoWire (Env.std fun _ => 0) [2] [3] (fun _ => none) - (demoRawDistinguisher (6, 67) (8, 50)).real 2 demoWire (Env.std fun _ => 0) [2] [3] (fun _ => none)| ≤ 20 / 101 := by
  refine (c71_witness (n := 101) demoWire_faithful 2 five_bijective (Env.std fun _ => 0) _ _ (.ask _ fun _ => .prove _ _ _ fun _ => .ask _ fun _ => .decide _) 2 1 5
    (demoRawDistinguisher_within (3, 7) (16, 8) (by decide) (by decide) (by decide)) (demoRawDistinguisher_within (6, 67) (8, 50) (by decide) (by decide) (by decide))).trans ?_
  norm_num

example := demoRaw_sound demoRawForger demoRawForger_algebraic

end Bp
