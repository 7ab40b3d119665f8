import Verif.Lemmas.Gadgets.Nodes
import Verif.Props.Total
import Verif.Props.Api

set_option linter.unusedSectionVars false

/-! # C81: inclusion, for all numbers of commitments -/

namespace Bp
variable {F G : Type} [Field F] [AddCommGroup G] [Module F G]

theorem inclusion_outcome {env : Env F G} {g h : G} {call : Var → Alloc F → List Var → List Var → Prog1 F Unit} {k m : ℕ}
    (hc : ∀ l i ns z, ¬ k ∣ ns.length → VO env false (call l ⟨i, none⟩ ns [z]) false fun _ => m ≤ ns.length) {a b : G} {coms : List G} (hk : ¬ k ∣ coms.length) (hm : coms.length < m) (s : Verifier F G) (hs : s.pending = none) :
    Panics (verifyInclusion env g h call (a :: b :: coms) s).1 := by
  obtain ⟨x, s1, e1, p1, hx⟩ := DT.commits (F := F) [a, b] s hs
  obtain ⟨y, s2, e2, p2, hy⟩ := DT.commits (F := F) coms s1 p1
  obtain ⟨z, s3, e3, p3, z, rfl⟩ := DT.statics (F := F) g h s2 p2
  obtain ⟨v, w, rfl⟩ := List.length_eq_two.mp hx
  refine bind_panics' e1 (bind_panics' e2 (bind_panics' e3 ?_))
  rcases hc v w y z (by rwa [hy]) (fun cb s => s.specify cb) (fun _ _ => rfl) s3 (by rw [p3]; rfl) with ⟨why, e⟩ | ⟨_, _, -, -, hle⟩
  · refine ⟨why, ?_⟩
    show (Verifier.gadget env _ s3).1 = _
    unfold Verifier.gadget Verifier.run1
    rw [e]; rfl
  · rw [hy] at hle; omega

variable [ByteRep F]

theorem rounded (depth : ℕ) : 12 * getByteSize depth 4 = 3 * (4 * ((depth + 3) / 4)) := by
  unfold getByteSize
  rw [show getBitCount depth 4 = 2 * depth by rw [getBitCount, show Nat.log 2 4 = 2 by decide +kernel, Nat.mul_comm]]
  split <;> omega

/-- **C81**, inclusion: with the leaf, the index and `n` nodes, the function panics if and only if the nodes do not make whole levels and there are not enough of them for all levels, the depth being rounded up to a multiple of four. -/
theorem c81_inclusion4_exact (env : Env F G) (g h : G) (root : F) (depth : ℕ) (p : PoseidonParams F) (hp : p.Valid) (hw : p.width = 5) (sbox : SboxType) (coms : List G) (s : Verifier F G) (hs : s.pending = none) :
    Panics (verifyInclusion4 env root depth p sbox g h coms s).1 ↔ coms.length < 2 ∨ ¬ 3 ∣ coms.length - 2 ∧ coms.length - 2 < 3 * (4 * ((depth + 3) / 4)) := by
  rw [← rounded]
  match coms with
  | [] => exact ⟨fun _ => .inl (by simp), fun _ => ⟨_, rfl⟩⟩
  | [_] => exact ⟨fun _ => .inl (by simp), fun _ => ⟨_, rfl⟩⟩
  | a :: b :: coms =>
    constructor
    · rintro ⟨w, hw'⟩
      refine .inr ?_
      show ¬ 3 ∣ coms.length ∧ coms.length < _
      by_contra hne
      have hd : DT (verifyInclusion4 env root depth p sbox g h (a :: b :: coms)) fun _ => True := by
        refine DT.bind (DT.commits [a, b]) fun x hx => DT.bind (DT.commits coms) fun y hy => DT.bind (DT.statics g h) fun z hz => ?_
        obtain ⟨v, w, rfl⟩ := List.length_eq_two.mp hx
        obtain ⟨z, rfl⟩ := hz
        by_cases h3 : 3 ∣ coms.length
        · exact DT.gadget (VT.merkle4 (VT.synthesize sbox) depth root _ _ _ _ hp hw (by rwa [hy]))
        · exact DT.gadget (VT.merkle4_many (VT.synthesize sbox) depth root _ _ _ _ hp hw (by rw [hy]; by_contra hlt; exact hne ⟨h3, by omega⟩))
      obtain ⟨_, s', e, -⟩ := hd s hs
      rw [e] at hw'
      cases hw'
    · rintro (hl | ⟨h3, hl⟩)
      · simp at hl
      · exact inclusion_outcome (fun l i ns z hn => VO.merkle4 (VT.synthesize sbox) depth root l i ns z hp hw hn) h3 hl s hs

/-- **C81**, inclusion in an 8-ary tree. -/
theorem c81_inclusion8_exact (env : Env F G) (g h : G) (root : F) (depth : ℕ) (p : PoseidonParams F) (hp : p.Valid) (hw : p.width = 9) (sbox : SboxType) (coms : List G) (s : Verifier F G) (hs : s.pending = none) :
    Panics (verifyInclusion8 env root depth p sbox g h coms s).1 ↔ coms.length < 2 ∨ ¬ 7 ∣ coms.length - 2 ∧ coms.length - 2 < 7 * depth := by
  match coms with
  | [] => exact ⟨fun _ => .inl (by simp), fun _ => ⟨_, rfl⟩⟩
  | [_] => exact ⟨fun _ => .inl (by simp), fun _ => ⟨_, rfl⟩⟩
  | a :: b :: coms =>
    constructor
    · rintro ⟨w, hw'⟩
      refine .inr ?_
      show ¬ 7 ∣ coms.length ∧ coms.length < _
      by_contra hne
      have hd : DT (verifyInclusion8 env root depth p sbox g h (a :: b :: coms)) fun _ => True := by
        refine DT.bind (DT.commits [a, b]) fun x hx => DT.bind (DT.commits coms) fun y hy => DT.bind (DT.statics g h) fun z hz => ?_
        obtain ⟨v, w, rfl⟩ := List.length_eq_two.mp hx
        obtain ⟨z, rfl⟩ := hz
        by_cases h3 : 7 ∣ coms.length
        · exact DT.gadget (VT.merkle8 (VT.synthesize sbox) depth root _ _ _ _ hp hw (by rwa [hy]))
        · exact DT.gadget (VT.merkle8_many (VT.synthesize sbox) depth root _ _ _ _ hp hw (by rw [hy]; by_contra hlt; exact hne ⟨h3, by omega⟩))
      obtain ⟨_, s', e, -⟩ := hd s hs
      rw [e] at hw'
      cases hw'
    · rintro (hl | ⟨h3, hl⟩)
      · simp at hl
      · exact inclusion_outcome (fun l i ns z hn => VO.merkle8 (VT.synthesize sbox) depth root l i ns z hp hw hn) h3 hl s hs

theorem verifyProof_panics [DecidableEq G] {env : Env F G} {label : String} {d : Drv (Verifier F G) Unit} (hd : Panics (d (Verifier.new [.init label])).1) (pr : R1CSProof F G) (g h : G) (Gs Hs : List G) (r : F) :
    Panics (verifyProof env label d pr g h Gs Hs r) := by
  obtain ⟨w, e⟩ := hd
  refine ⟨w, ?_⟩
  unfold verifyProof
  generalize d (Verifier.new [.init label]) = q at e
  obtain ⟨q1, q2⟩ := q
  cases e
  rfl

/-- **C81** is false of other numbers of commitments: whoever sends one or two commitments too few or too many makes the call of the verifying function panic, whatever the proof is. -/
theorem c81_inclusion4_crash [DecidableEq G] (env : Env F G) (root : F) (depth : ℕ) (p : PoseidonParams F) (hp : p.Valid) (hw : p.width = 5) (sbox : SboxType) (pr : R1CSProof F G) (coms : List G) (levels : ℕ) (hd : levels < depth)
    (hl : coms.length = 2 + 3 * levels + 1 ∨ coms.length = 2 + 3 * levels + 2) (label : String) (g h : G) (Gs Hs : List G) (r : F) : Panics (verifyProofInclusion4 env root depth p sbox pr coms label g h Gs Hs r) :=
  verifyProof_panics ((c81_inclusion4_exact env g h root depth p hp hw sbox coms _ rfl).mpr (.inr ⟨by omega, by omega⟩)) pr g h Gs Hs r

/-- **C81** is false of other numbers of commitments: the same for 8-ary trees. -/
theorem c81_inclusion8_crash [DecidableEq G] (env : Env F G) (root : F) (depth : ℕ) (p : PoseidonParams F) (hp : p.Valid) (hw : p.width = 9) (sbox : SboxType) (pr : R1CSProof F G) (coms : List G) (levels : ℕ) (hd : levels < depth)
    (i : ℕ) (h0 : 0 < i) (h7 : i < 7) (hl : coms.length = 2 + 7 * levels + i) (label : String) (g h : G) (Gs Hs : List G) (r : F) : Panics (verifyProofInclusion8 env root depth p sbox pr coms label g h Gs Hs r) :=
  verifyProof_panics ((c81_inclusion8_exact env g h root depth p hp hw sbox coms _ rfl).mpr (.inr ⟨by omega, by omega⟩)) pr g h Gs Hs r

/-! ## Cases -/

/-- A tree of depth 2, with seven commitments: it panics, whatever the proof is. -/
example (pr : R1CSProof Fr Fr) (coms : List Fr) (h : coms.length = 7) : Panics (verifyProofInclusion4 demoEnv 7 2 demoParams5 .quint pr coms "tree" 5 6 [1, 2, 3] [4, 5, 6] 1) :=
  c81_inclusion4_crash demoEnv 7 2 demoParams5 demoParams5_valid rfl .quint pr coms 1 (by decide) (.inr h) "tree" 5 6 _ _ 1
/-- With five commitments (one level) or fifteen (four levels and one node) it does not. -/
example (coms : List Fr) (h : coms.length = 5 ∨ coms.length = 15) : ¬ Panics (verifyInclusion4 demoEnv 7 2 demoParams5 .quint 5 6 coms (Verifier.new [.init "tree"])).1 := by
  rw [c81_inclusion4_exact demoEnv 5 6 7 2 demoParams5 demoParams5_valid rfl .quint coms _ rfl]
  omega

/-- An 8-ary tree of depth 1, with three commitments. -/
example (pr : R1CSProof Fr Fr) (a b c : Fr) : Panics (verifyProofInclusion8 demoEnv 7 1 demoParams9 .quint pr [a, b, c] "tree" 5 6 [1, 2, 3] [4, 5, 6] 1) :=
  c81_inclusion8_crash demoEnv 7 1 demoParams9 demoParams9_valid rfl .quint pr _ 0 (by decide) 1 (by decide) (by decide) rfl "tree" 5 6 _ _ 1

end Bp
