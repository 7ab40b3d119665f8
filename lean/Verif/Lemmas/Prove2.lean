import Verif.Lemmas.Log

set_option linter.unusedSectionVars false
set_option linter.unusedSimpArgs false

/-! # Failure cases of `prove` -/

namespace Bp
variable {F G : Type} [Field F] [AddCommGroup G] [Module F G]
open Finset

/-- The outcome is a panic. -/
def Panics {α : Type} (x : Res α) : Prop := ∃ why, x = Res.panic why

theorem Panics.bind {α β : Type} {x : Res α} (h : Panics x) (f : α → Res β) : Panics (x >>= f) := by
  obtain ⟨w, rfl⟩ := h; exact ⟨w, rfl⟩

theorem addAt_or (xs : List F) (i : ℕ) (d : F) : (∃ ys, addAt xs i d = .ok ys) ∨ Panics (addAt xs i d) := by
  unfold addAt
  split
  · exact .inl ⟨_, rfl⟩
  · exact .inr ⟨_, rfl⟩

theorem Prover.flattenTerm_or (e : F) (w : Weights F) (t : Var × F) :
    (∃ w', Prover.flattenTerm e w t = .ok w') ∨ Panics (Prover.flattenTerm e w t) := by
  unfold Prover.flattenTerm
  obtain ⟨v, a⟩ := t
  cases v with
  | one => exact .inl ⟨_, rfl⟩
  | left i =>
    rcases addAt_or w.wL i (e * a) with ⟨ys, h⟩ | h
    · exact .inl ⟨_, by simp only [h]; rfl⟩
    · exact .inr (h.bind _)
  | right i =>
    rcases addAt_or w.wR i (e * a) with ⟨ys, h⟩ | h
    · exact .inl ⟨_, by simp only [h]; rfl⟩
    · exact .inr (h.bind _)
  | out i =>
    rcases addAt_or w.wO i (e * a) with ⟨ys, h⟩ | h
    · exact .inl ⟨_, by simp only [h]; rfl⟩
    · exact .inr (h.bind _)
  | committed i =>
    rcases addAt_or w.wV i (-(e * a)) with ⟨ys, h⟩ | h
    · exact .inl ⟨_, by simp only [h]; rfl⟩
    · exact .inr (h.bind _)

theorem foldlM_or {α β : Type} (f : β → α → Res β) (hf : ∀ b a, (∃ b', f b a = .ok b') ∨ Panics (f b a)) :
    ∀ (xs : List α) (b : β), (∃ b', xs.foldlM f b = .ok b') ∨ Panics (xs.foldlM f b) := by
  intro xs
  induction xs with
  | nil => intro b; exact .inl ⟨b, rfl⟩
  | cons x xs ih =>
    intro b
    rw [List.foldlM_cons]
    rcases hf b x with ⟨b', h⟩ | h
    · rw [h]; exact ih b'
    · exact .inr (h.bind _)

theorem Prover.flattenLoop_or (z : F) : ∀ (cs : List (LC F)) (e : F) (w : Weights F),
    (∃ w', Prover.flattenLoop z e cs w = .ok w') ∨ Panics (Prover.flattenLoop z e cs w) := by
  intro cs
  induction cs with
  | nil => intro e w; exact .inl ⟨w, rfl⟩
  | cons c cs ih =>
    intro e w
    simp only [Prover.flattenLoop]
    rcases foldlM_or (Prover.flattenTerm e) (Prover.flattenTerm_or e) c.terms w with ⟨w', h⟩ | h
    · rw [h]; exact ih _ _
    · exact .inr (h.bind _)

theorem Prover.flattened_or (p : Prover F G) (z : F) : (∃ w, p.flattenedConstraints z = .ok w) ∨ Panics (p.flattenedConstraints z) :=
  Prover.flattenLoop_or z _ _ _

theorem Verifier.flattened_or (s : Verifier F G) (z : F) : (∃ w, s.flattenedConstraints z = .ok w) ∨ Panics (s.flattenedConstraints z) := by
  have key : ∀ (cs : List (LC F)) (e : F) (w : Weights F),
      (∃ w', Verifier.flattenLoop z e cs w = .ok w') ∨ Panics (Verifier.flattenLoop z e cs w) := by
    intro cs
    induction cs with
    | nil => intro e w; exact .inl ⟨w, rfl⟩
    | cons c cs ih =>
      intro e w
      simp only [Verifier.flattenLoop]
      rcases foldlM_or (Verifier.flattenTerm e) (fun w t => by
        obtain ⟨v, a⟩ := t
        cases v with
        | one => exact .inl ⟨_, rfl⟩
        | left i => exact Prover.flattenTerm_or e w (.left i, a)
        | right i => exact Prover.flattenTerm_or e w (.right i, a)
        | out i => exact Prover.flattenTerm_or e w (.out i, a)
        | committed i => exact Prover.flattenTerm_or e w (.committed i, a)) c.terms w with ⟨w', h⟩ | h
      · rw [h]; exact ih _ _
      · exact .inr (h.bind _)
  exact key _ _ _

/-- The head of `prove`. -/
theorem prove_short_G1 (env : Env F G) (p : Prover F G) (c : Coins F) (Gs Hs : List G) (h : Gs.length < p.aL.length) :
    p.prove env c Gs Hs = Res.err .invalidGeneratorsLength := by
  unfold Prover.prove
  simp only
  rw [if_pos h]

theorem prove_short_H1 (env : Env F G) (p : Prover F G) (c : Coins F) (Gs Hs : List G) (hG : p.aL.length ≤ Gs.length) (hH : Hs.length < p.aL.length) :
    Panics (p.prove env c Gs Hs) := by
  unfold Prover.prove
  simp only
  rw [if_neg (by omega), slice_ok hG]
  rw [slice, if_neg (by omega)]
  exact ⟨_, rfl⟩

theorem prove_crc_error (env : Env F G) (p : Prover F G) (c : Coins F) (Gs Hs : List G) (hw : p.WF) (hG : p.aL.length ≤ Gs.length) (hH : p.aL.length ≤ Hs.length)
    (e : Fault) (hc : (p.start c Gs Hs).createRandomizedConstraints env = .error e) : p.prove env c Gs Hs = .error e := by
  have e1 := hw.lenR
  have e2 := hw.lenO
  unfold Prover.prove
  simp only
  rw [if_neg (by omega), slice_ok hG, slice_ok hH]
  simp only [bind, Except.bind]
  rw [commitWires_ok (n := p.aL.length) (by simp; omega) (by simp; omega) rfl e1 e2 (length_randomVec _ _) (length_randomVec _ _)]
  simp only [Transcript.commitPoint, Transcript.appendU64, List.append_assoc, List.cons_append, List.nil_append]
  have hc' : Prover.createRandomizedConstraints env { p with transcript := p.transcript ++ [.u64 "m" p.v.length,
      .point "A_I1" (vecCommit p.h (Gs.take p.aL.length) (Hs.take p.aL.length) p.aL p.aR c.iB1),
      .point "A_O1" (msm p.aO (Gs.take p.aL.length) + c.oB1 • p.h), .point "S1" (vecCommit p.h (Gs.take p.aL.length) (Hs.take p.aL.length)
        (randomVec c.sL1 p.aL.length) (randomVec c.sR1 p.aL.length) c.sB1)] } = .error e := hc
  rw [hc']

theorem prove_short_G2 (env : Env F G) (p p2 : Prover F G) (c : Coins F) (Gs Hs : List G) (hw : p.WF) (hG : p.aL.length ≤ Gs.length)
    (hH : p.aL.length ≤ Hs.length) (hc : (p.start c Gs Hs).createRandomizedConstraints env = .ok p2) (hN : Gs.length < nextPowerOfTwo p2.aL.length) :
    p.prove env c Gs Hs = Res.err .invalidGeneratorsLength := by
  have e1 := hw.lenR
  have e2 := hw.lenO
  unfold Prover.prove
  simp only
  rw [if_neg (by omega), slice_ok hG, slice_ok hH]
  simp only [bind, Except.bind]
  rw [commitWires_ok (n := p.aL.length) (by simp; omega) (by simp; omega) rfl e1 e2 (length_randomVec _ _) (length_randomVec _ _)]
  simp only [Transcript.commitPoint, Transcript.appendU64, List.append_assoc, List.cons_append, List.nil_append]
  have hc' : Prover.createRandomizedConstraints env { p with transcript := p.transcript ++ [.u64 "m" p.v.length,
      .point "A_I1" (vecCommit p.h (Gs.take p.aL.length) (Hs.take p.aL.length) p.aL p.aR c.iB1),
      .point "A_O1" (msm p.aO (Gs.take p.aL.length) + c.oB1 • p.h), .point "S1" (vecCommit p.h (Gs.take p.aL.length) (Hs.take p.aL.length)
        (randomVec c.sL1 p.aL.length) (randomVec c.sR1 p.aL.length) c.sB1)] } = .ok p2 := hc
  rw [hc']
  simp only
  rw [if_pos hN]

theorem commitPhase2_short (p2 : Prover F G) (hw : p2.WF) (c : Coins F) (Gs Hs : List G) (n1 : ℕ) (h1 : n1 ≤ p2.aL.length) (hG : p2.aL.length ≤ Gs.length)
    : (∃ x, p2.commitPhase2 c Gs Hs n1 = .ok x) ∨ Panics (p2.commitPhase2 c Gs Hs n1) := by
  by_cases hH : p2.aL.length ≤ Hs.length
  · exact .inl ⟨_, phase2_wires p2 hw c Gs Hs n1 h1 hG hH⟩
  · unfold Prover.commitPhase2
    simp only
    split
    · right
      rw [slice_drop h1 hG, slice, if_neg (by omega)]
      exact ⟨_, rfl⟩
    · exact .inl ⟨_, rfl⟩

/-- With enough `G` generators and successful callbacks, anything else that goes wrong is a panic. -/
theorem prove_bad_panics (env : Env F G) (p p2 : Prover F G) (c : Coins F) (Gs Hs : List G) (hw : p.WF) (hH1 : p.aL.length ≤ Hs.length)
    (hc : (p.start c Gs Hs).createRandomizedConstraints env = .ok p2) (hN : nextPowerOfTwo p2.aL.length ≤ Gs.length)
    (hbad : Hs.length < nextPowerOfTwo p2.aL.length ∨ ¬ ∀ lc ∈ p2.constraints, ∀ t ∈ lc.terms, Var.InRange p2.aL.length p2.v.length t.1) :
    Panics (p.prove env c Gs Hs) := by
  have e1 := hw.lenR
  have e2 := hw.lenO
  obtain ⟨vs, hst⟩ := Prover.createRandomizedConstraints_steps hc
  have hws : (p.start c Gs Hs).WF := by
    cases hw; constructor <;> assumption
  have hw2 : p2.WF := hst.ext.wf hws
  have hn1 : p.aL.length ≤ p2.aL.length := hst.ext.lenL
  have hnN : p2.aL.length ≤ nextPowerOfTwo p2.aL.length := nextPowerOfTwo_ge _
  unfold Prover.prove
  simp only
  rw [if_neg (by omega), slice_ok (by omega), slice_ok hH1]
  simp only [bind, Except.bind]
  rw [commitWires_ok (n := p.aL.length) (by simp; omega) (by simp; omega) rfl e1 e2 (length_randomVec _ _) (length_randomVec _ _)]
  simp only [Transcript.commitPoint, Transcript.appendU64, List.append_assoc, List.cons_append, List.nil_append]
  have hc' : Prover.createRandomizedConstraints env { p with transcript := p.transcript ++ [.u64 "m" p.v.length,
      .point "A_I1" (vecCommit p.h (Gs.take p.aL.length) (Hs.take p.aL.length) p.aL p.aR c.iB1),
      .point "A_O1" (msm p.aO (Gs.take p.aL.length) + c.oB1 • p.h), .point "S1" (vecCommit p.h (Gs.take p.aL.length) (Hs.take p.aL.length)
        (randomVec c.sL1 p.aL.length) (randomVec c.sR1 p.aL.length) c.sB1)] } = .ok p2 := hc
  rw [hc']
  simp only
  rw [if_neg (by omega)]
  rcases commitPhase2_short p2 hw2 c Gs Hs p.aL.length hn1 (by omega) with ⟨⟨x1, x2, x3⟩, hx⟩ | ⟨w, hx⟩
  swap
  · rw [hx]; exact ⟨w, rfl⟩
  rw [hx]
  simp only
  generalize Transcript.challengeScalar env.oracle _ "y" = q1
  obtain ⟨y, ty⟩ := q1
  simp only
  generalize Transcript.challengeScalar env.oracle _ "z" = q2
  obtain ⟨z, tz⟩ := q2
  simp only
  rcases Prover.flattened_or p2 z with ⟨wp, hwp⟩ | ⟨w, hwp⟩
  swap
  · rw [hwp]; exact ⟨w, rfl⟩
  rw [hwp]
  have hin : ∀ lc ∈ p2.constraints, ∀ t ∈ lc.terms, Var.InRange p2.aL.length p2.v.length t.1 := by
    obtain ⟨w', h1, rfl⟩ := Prover.flattened_ok hwp
    exact (Verifier.flattenLoop_ok z p2.constraints (Verifier.len0 p2.aL.length p2.v.length) h1).1
  have hHs : Hs.length < nextPowerOfTwo p2.aL.length := by
    rcases hbad with h | h
    · exact h
    · exact absurd hin h
  have hl := Prover.flattened_len hwp
  have hlr := lrPolys_ok p2 hw2 wp _ hl y _ hnN (randomVec c.sL1 p.aL.length ++ randomVec c.sL2 (p2.aL.length - p.aL.length))
    (randomVec c.sR1 p.aL.length ++ randomVec c.sR2 (p2.aL.length - p.aL.length)) (by simp [length_randomVec]; omega) (by simp [length_randomVec]; omega)
  simp only [hlr]
  generalize hlp' : hlp p2 wp y _ p2.aL.length = lp
  generalize hrp' : hrp p2 wp y _ p2.aL.length = rp
  have hsip : VecPoly3.specialInnerProduct lp rp = .ok (lp.sip rp) :=
    VecPoly3.specialInnerProduct_ok lp rp (n := p2.aL.length) (by simp [← hlp', hlp]) (by simp [← hlp', hlp]) (by simp [← hlp', hlp])
      (by simp [← hrp', hrp]) (by simp [← hrp', hrp]) (by simp [← hrp', hrp])
  have hev := fun x => VecPoly3.eval_ok lp x (n := p2.aL.length) (by simp [← hlp', hlp]) (by simp [← hlp', hlp]) (by simp [← hlp', hlp]) (by simp [← hlp', hlp])
  have hev' := fun x => VecPoly3.eval_ok rp x (n := p2.aL.length) (by simp [← hrp', hrp]) (by simp [← hrp', hrp]) (by simp [← hrp', hrp]) (by simp [← hrp', hrp])
  rw [hsip]
  simp only
  generalize Transcript.challengeScalar env.oracle _ "u" = q3
  obtain ⟨u, tu⟩ := q3
  simp only
  generalize Transcript.challengeScalar env.oracle _ "x" = q4
  obtain ⟨x, tx⟩ := q4
  simp only
  rw [innerProduct_ok (by rw [hl.V, hw2.lenB])]
  simp only [hev, hev']
  rw [slice_ok (by omega), slice, if_neg (by omega)]
  exact ⟨_, rfl⟩

/-- What a successful `prove` guarantees. -/
theorem prove_inv {env : Env F G} {p : Prover F G} {c : Coins F} {Gs Hs : List G} (hw : p.WF) {pr : R1CSProof F G} {t' : Transcript F G}
    (h : p.prove env c Gs Hs = .ok (pr, t')) :
    ∃ p2 k ch wp lp rp, (p.start c Gs Hs).createRandomizedConstraints env = .ok p2 ∧ nextPowerOfTwo p2.aL.length = 2 ^ k ∧ 2 ^ k ≤ Gs.length ∧
      2 ^ k ≤ Hs.length ∧ (∀ lc ∈ p2.constraints, ∀ t ∈ lc.terms, Var.InRange p2.aL.length p2.v.length t.1) ∧
      Honest env p p2 c Gs Hs k ch wp lp rp pr t' := by
  by_cases hG1 : Gs.length < p.aL.length
  · rw [prove_short_G1 env p c Gs Hs hG1] at h; simp [Res.err] at h
  by_cases hH1 : Hs.length < p.aL.length
  · obtain ⟨w, hp⟩ := prove_short_H1 env p c Gs Hs (by omega) hH1
    rw [hp] at h; simp [Res.panic] at h
  cases hc : (p.start c Gs Hs).createRandomizedConstraints env with
  | error e => rw [prove_crc_error env p c Gs Hs hw (by omega) (by omega) e hc] at h; simp at h
  | ok p2 =>
    by_cases hG2 : Gs.length < nextPowerOfTwo p2.aL.length
    · rw [prove_short_G2 env p p2 c Gs Hs hw (by omega) (by omega) hc hG2] at h; simp [Res.err] at h
    by_cases hbad : Hs.length < nextPowerOfTwo p2.aL.length ∨ ¬ ∀ lc ∈ p2.constraints, ∀ t ∈ lc.terms, Var.InRange p2.aL.length p2.v.length t.1
    · obtain ⟨w, hp⟩ := prove_bad_panics env p p2 c Gs Hs hw (by omega) hc (by omega) hbad
      rw [hp] at h; simp [Res.panic] at h
    rw [not_or, not_not] at hbad
    obtain ⟨pr', t'', ch, wp, lp, rp, h1, h2⟩ := prove_ok env p p2 c Gs Hs hw hc (Nat.clog 2 p2.aL.length) rfl
      (by have : nextPowerOfTwo p2.aL.length = 2 ^ Nat.clog 2 p2.aL.length := rfl; omega)
      (by have : nextPowerOfTwo p2.aL.length = 2 ^ Nat.clog 2 p2.aL.length := rfl; omega) hbad.2
    rw [h1] at h
    simp only [Except.ok.injEq, Prod.mk.injEq] at h
    obtain ⟨rfl, rfl⟩ := h
    refine ⟨p2, Nat.clog 2 p2.aL.length, ch, wp, lp, rp, rfl, rfl, ?_, ?_, hbad.2, h2⟩
    · have : nextPowerOfTwo p2.aL.length = 2 ^ Nat.clog 2 p2.aL.length := rfl; omega
    · have : nextPowerOfTwo p2.aL.length = 2 ^ Nat.clog 2 p2.aL.length := rfl; omega

end Bp
