import Verif.Lemmas.Gadgets.Sizes
import Verif.Lemmas.Statements

set_option linter.unusedSectionVars false

/-! # Sizes of the statements -/

namespace Bp
variable {F G : Type} [Field F] [AddCommGroup G] [Module F G] {α β : Type}

theorem Grown.trans {s1 s2 s3 : Verifier F G} {a b c a' b' c' : ℕ} (h : Grown s1 s2 a b c) (h' : Grown s2 s3 a' b' c') : Grown s1 s3 (a + a') (b + b') (c + c') :=
  ⟨by rw [h'.gates, h.gates]; omega, by rw [h'.constraints, h.constraints]; omega, by rw [h'.commitments, h.commitments]; omega, h'.pending⟩

/-- The call makes `a` gates, `b` constraints and `c` commitments, and its result satisfies `Q`. -/
def DC (d : Drv (Verifier F G) α) (a b c : ℕ) (Q : α → Prop) : Prop := ∀ s x s', d s = (.ok x, s') → s.pending = none → Grown s s' a b c ∧ Q x

namespace DC

theorem bind {d : Drv (Verifier F G) α} {f : α → Drv (Verifier F G) β} {a b c a' b' c' : ℕ} {Q : α → Prop} {R : β → Prop} (h : DC d a b c Q) (hf : ∀ x, Q x → DC (f x) a' b' c' R) :
    DC (d >>= f) (a + a') (b + b') (c + c') R := by
  intro s y s' hr hp
  obtain ⟨x, s1, h1, h2⟩ := Drv.bind_ok.mp hr
  obtain ⟨g1, q1⟩ := h s x s1 h1 hp
  obtain ⟨g2, q2⟩ := hf x q1 s1 y s' h2 g1.pending
  exact ⟨g1.trans g2, q2⟩

theorem congr {d : Drv (Verifier F G) α} {a b c a' b' c' : ℕ} {Q : α → Prop} (h : DC d a b c Q) (ha : a = a') (hb : b = b') (hc : c = c') : DC d a' b' c' Q := ha ▸ hb ▸ hc ▸ h

theorem pure {x : α} {Q : α → Prop} (h : Q x) : DC (pure x : Drv (Verifier F G) α) 0 0 0 Q := by
  intro s y s' hr hp
  obtain ⟨rfl, rfl⟩ := Drv.pure_ok.mp hr
  exact ⟨⟨rfl, rfl, rfl, hp⟩, h⟩

theorem take {cs : List α} {k : ℕ} : DC (Drv.lift (takeComms cs k) : Drv (Verifier F G) _) 0 0 0 fun ds => ds = cs.take k ∧ ds.length = k := by
  intro s y s' hr hp
  obtain ⟨h, rfl⟩ := Drv.lift_ok.mp hr
  obtain ⟨hl, rfl⟩ := takeComms_ok.mp h
  exact ⟨⟨rfl, rfl, rfl, hp⟩, rfl, by rw [List.length_take]; omega⟩

theorem panic {w : String} (a b c : ℕ) (Q : α → Prop) : DC (Drv.lift (Res.panic w) : Drv (Verifier F G) α) a b c Q := by
  intro s y s' hr hp
  obtain ⟨h, -⟩ := Drv.lift_ok.mp hr
  simp [Res.panic] at h

theorem commits {Vs : List G} : DC (Verifier.commits Vs : Drv (Verifier F G) _) 0 0 Vs.length fun vars => vars.length = Vs.length := by
  intro s y s' hr hp
  obtain ⟨rfl, rfl⟩ := Verifier.commits_ok.mp hr
  exact ⟨⟨rfl, rfl, by simp, hp⟩, by simp⟩

theorem gadget {env : Env F G} {c : Prog1 F α} {a b : ℕ} {Q : α → Prop} (h : VC env false c a b false Q) : DC (Verifier.gadget env c) a b 0 Q := by
  intro s y s' hr hp
  rw [Verifier.gadget_ok] at hr
  obtain ⟨h1, h2, h3, h4⟩ := h (fun cb s => s.specify cb) (fun _ _ => ⟨rfl, rfl, rfl⟩) s y s' hr (by simp [hp])
  exact ⟨⟨h1, h2, by rw [Verifier.run_V (onSpec := fun cb s => s.specify cb) (fun _ _ => rfl) c _ _ _ hr]; omega, by simpa using h3⟩, h4⟩

theorem statics (g h : G) : DC (allocateStaticsForVerifier 1 g h : Drv (Verifier F G) _) 0 0 1 fun _ => True := by
  rw [allocateStaticsForVerifier_one]
  intro s y s' hr hp
  exact ⟨(commits s y s' hr hp).1, trivial⟩

variable (env : Env F G)

/-- A call that takes `k` commitments and then runs a gadget. -/
theorem simple {coms : List G} {k a b : ℕ} {f : List Var → Drv (Verifier F G) Unit} (hf : ∀ vars, vars.length = k → DC (f vars) a b 0 fun _ => True) :
    DC (do let cs ← Drv.lift (takeComms coms k); let vars ← Verifier.commits cs; f vars) a b k fun _ => True := by
  apply DC.congr
  · apply DC.bind DC.take
    rintro cs ⟨-, hl⟩
    refine DC.congr (a := a) (b := b) (c := k) ?_ rfl rfl rfl
    apply DC.congr
    · apply DC.bind DC.commits
      intro vars hv
      exact hf vars (hv.trans hl)
    · omega
    · omega
    · omega
  · omega
  · omega
  · omega

theorem boundedNum [IntRep F] (debug : Bool) (lower upper n : ℕ) (coms : List G) : DC (verifyBoundedNum env debug lower upper n coms) (2 * n) (4 * n + 5) 3 fun _ => True := by
  unfold verifyBoundedNum
  refine simple fun vars hv => ?_
  split
  · exact gadget (VC.boundCheck _ _ _ _ _ _ _)
  · exact panic _ _ _ _

theorem nonZeroVal (coms : List G) : DC (verifyNonZeroVal (F := F) env coms) 2 6 2 fun _ => True := by
  unfold verifyNonZeroVal
  refine simple fun vars hv => ?_
  split
  · exact gadget (VC.isNonzero _ _)
  · exact panic _ _ _ _

theorem setMembership (set : List F) (coms : List G) : DC (verifySetMembership env set coms) set.length (3 * set.length + 1) (set.length + 1) fun _ => True := by
  unfold verifySetMembership
  refine simple fun vars hv => ?_
  split
  · exact gadget (VC.setMembership _ _ _)
  · exact panic _ _ _ _

theorem setNonMembership (set : List F) (coms : List G) : DC (verifySetNonMembership env set coms) (2 * set.length) (7 * set.length) (2 * set.length + 1) fun _ => True := by
  unfold verifySetNonMembership
  refine simple fun vars hv => ?_
  split
  · exact gadget (VC.setNonMembership _ _ _ _)
  · exact panic _ _ _ _

theorem mimcPreimage (image : F) (constants : List F) (rounds : ℕ) (coms : List G) : DC (verifyMimcPreimage env image constants rounds coms) (2 * rounds) (4 * rounds + 1) 2 fun _ => True := by
  unfold verifyMimcPreimage
  refine simple fun vars hv => ?_
  split
  · exact gadget (VC.mimc _ _ _ _ _)
  · exact panic _ _ _ _

theorem factors (k : ℕ) (r : F) (coms : List G) : DC (verifyFactors env k r coms) (k + 1) (2 * k + 3) (k + 2) fun _ => True := by
  unfold verifyFactors
  refine simple fun vars hv => ?_
  split
  · rename_i vp vq ds
    have : ds.length = k := by simpa using hv
    subst this
    exact gadget (VC.factors _ _ _ _)
  · exact panic _ _ _ _

theorem bits : ∀ Vs : List G, DC (verifyBits (F := F) env Vs) Vs.length (3 * Vs.length) Vs.length fun _ => True
  | [] => by
    unfold verifyBits
    exact DC.pure trivial
  | V :: Vs => by
    unfold verifyBits
    apply DC.congr
    · apply DC.bind DC.commits
      intro vars hv
      refine DC.congr (a := 1 + Vs.length) (b := 3 + 3 * Vs.length) (c := Vs.length) ?_ rfl rfl rfl
      split
      · apply DC.congr
        · apply DC.bind (gadget (VC.bitGadget _))
          rintro _ -
          apply DC.bind (bits Vs)
          rintro _ -
          exact DC.pure trivial
        · omega
        · omega
        · omega
      · exact panic _ _ _ _
    · simp; omega
    · simp; omega
    · simp; omega

theorem setMembershipAlt (set : List ℕ) (coms : List G) : DC (verifySetMembershipAlt (F := F) env set coms) (3 * set.length) (7 * set.length + 2) (set.length + 1) fun _ => True := by
  unfold verifySetMembershipAlt
  apply DC.congr
  · apply DC.bind DC.take
    rintro cs ⟨-, hl⟩
    refine DC.congr (a := 3 * set.length) (b := 7 * set.length + 2) (c := set.length + 1) ?_ rfl rfl rfl
    apply DC.congr
    · apply DC.bind (bits env _)
      rintro vars -
      apply DC.bind (gadget (VC.vectorSum _ _))
      rintro _ -
      apply DC.bind DC.commits
      intro vv hv
      refine DC.congr (a := 2 * set.length) (b := 4 * set.length + 1) (c := 0) ?_ rfl rfl rfl
      split
      · exact gadget (VC.vectorProduct _ _ _)
      · exact panic _ _ _ _
    · simp [hl]; omega
    · simp [hl]; omega
    · simp [hl]
  · omega
  · omega
  · omega

theorem hammingDistance (new : List F) (count : ℕ) (coms : List G) : DC (verifyHammingDistance env new count coms) (2 * new.length) (3 * new.length + 1) coms.length fun _ => True := by
  unfold verifyHammingDistance
  apply DC.congr
  · apply DC.bind DC.commits
    rintro vars -
    exact gadget (VC.hamming _ _ _)
  · omega
  · omega
  · omega

theorem preimage (k : ℕ) (g h : G) {a b : ℕ} {call : List Var → List Var → Prog1 F Unit} (hc : ∀ vars statics, VC env false (call vars statics) a b false fun _ => True) (coms : List G) :
    DC (verifyPreimage env k g h call coms) a b (k + 1) fun _ => True := by
  unfold verifyPreimage
  apply DC.congr
  · apply DC.bind DC.take
    rintro cs ⟨-, hl⟩
    refine DC.congr (a := a) (b := b) (c := k + 1) ?_ rfl rfl rfl
    apply DC.congr
    · apply DC.bind DC.commits
      rintro vars -
      apply DC.bind (statics g h)
      rintro st -
      exact gadget (hc _ _)
    · omega
    · omega
    · omega
  · omega
  · omega
  · omega

theorem inclusion (g h : G) {n a b : ℕ} {call : Var → Alloc F → List Var → List Var → Prog1 F Unit} (hc : ∀ leaf index nodes statics, nodes.length = n → VC env false (call leaf index nodes statics) a b false fun _ => True)
    (coms : List G) (hl : coms.length = 2 + n) : DC (verifyInclusion env g h call coms) a b (2 + n + 1) fun _ => True := by
  unfold verifyInclusion
  split
  · rename_i nodes
    have hn : nodes.length = n := by simp only [List.length_cons] at hl; omega
    apply DC.congr
    · apply DC.bind DC.commits
      rintro vars -
      apply DC.bind DC.commits
      intro ns hns
      refine DC.congr (a := a) (b := b) (c := 1) ?_ rfl rfl rfl
      apply DC.congr
      · apply DC.bind (statics g h)
        rintro st -
        refine DC.congr (a := a) (b := b) (c := 0) ?_ rfl rfl rfl
        split
        · exact gadget (hc _ _ _ _ (hns.trans hn))
        · exact panic _ _ _ _
      · omega
      · omega
      · omega
    · omega
    · omega
    · simp; omega
  · exact panic _ _ _ _

theorem vals (depth : ℕ) : ∀ (n : ℕ) (coms : List G), DC (commitVals depth n coms : Drv (Verifier F G) _) 0 0 (n * (1 + 3 * depth)) fun _ => True
  | 0, _ => by
    unfold commitVals
    simpa using DC.pure trivial
  | n + 1, coms => by
    unfold commitVals
    apply DC.congr
    · apply DC.bind DC.take
      rintro c ⟨-, hl⟩
      refine DC.congr (a := 0) (b := 0) (c := 1 + (depth * 3 + n * (1 + 3 * depth))) ?_ rfl rfl rfl
      apply DC.congr
      · apply DC.bind DC.commits
        rintro _ -
        apply DC.bind DC.take
        rintro cs ⟨-, hl'⟩
        refine DC.congr (a := 0) (b := 0) (c := depth * 3 + n * (1 + 3 * depth)) ?_ rfl rfl rfl
        apply DC.congr
        · apply DC.bind DC.commits
          rintro _ -
          apply DC.bind (vals depth n _)
          rintro _ -
          exact DC.pure trivial
        · rfl
        · rfl
        · omega
      · rfl
      · rfl
      · omega
    · rfl
    · rfl
    · ring

theorem randomizer [ByteRep F] (t : SparseTree F) (db : HashDb (List F)) (indices : List F) (depth : ℕ) (p : PoseidonParams F) (sbox : SboxType) (g h : G) (coms : List G) :
    DC (verifyRandomizer env t db indices depth p sbox g h coms) (2 * indices.length * depth * (p.sboxes * sbox.gateCount)) (2 * indices.length * depth * (p.sboxes * sbox.constraintCount) + indices.length + 1)
      (1 + indices.length * (1 + 3 * depth) + 1) fun _ => True := by
  unfold verifyRandomizer
  apply DC.congr
  · apply DC.bind DC.take
    rintro c ⟨-, hl⟩
    refine DC.congr (a := 2 * indices.length * depth * (p.sboxes * sbox.gateCount)) (b := 2 * indices.length * depth * (p.sboxes * sbox.constraintCount) + indices.length + 1)
      (c := 1 + indices.length * (1 + 3 * depth) + 1) ?_ rfl rfl rfl
    apply DC.congr
    · apply DC.bind DC.commits
      rintro v -
      apply DC.bind (vals depth _ _)
      rintro ⟨vs, ps⟩ -
      apply DC.bind (statics g h)
      rintro st -
      refine DC.congr (a := 2 * indices.length * depth * (p.sboxes * sbox.gateCount)) (b := 2 * indices.length * depth * (p.sboxes * sbox.constraintCount) + indices.length + 1) (c := 0) ?_ rfl rfl rfl
      split
      · exact gadget (VC.randomizer (VC.synthesize sbox) _ _ _ _ _ _ _ _ _)
      · exact panic _ _ _ _
    · omega
    · omega
    · omega
  · omega
  · omega
  · omega

theorem stmt [ByteRep F] (g h : G) (st : Stmt F) (coms : List G) (hl : coms.length = st.size) : DC (st.verify env g h coms) st.gates st.constraints st.commitments fun _ => True := by
  cases st with
  | boundedNum debug lower upper n => exact boundedNum _ _ _ _ _ _
  | nonZero => exact nonZeroVal _ _
  | setMembership set => exact setMembership _ _ _
  | setMembershipAlt set => exact setMembershipAlt _ _ _
  | setNonMembership set => exact setNonMembership _ _ _
  | hamming new count => exact (hammingDistance _ _ _ _).congr rfl rfl hl
  | mimc image constants rounds => exact mimcPreimage _ _ _ _ _
  | poseidon2 output p sbox => exact preimage env 2 g h (fun _ _ => VC.hash2Call (VC.synthesize sbox) p output _ _) coms
  | poseidon4 output p sbox => exact preimage env 4 g h (fun _ _ => VC.hash4Call (VC.synthesize sbox) p output _ _) coms
  | poseidon8 output p sbox => exact preimage env 8 g h (fun _ _ => VC.hash8Call (VC.synthesize sbox) p output _ _) coms
  | inclusion4 root depth p sbox => exact inclusion (n := 3 * depth) env g h (call := merkleCall4 root depth p sbox.synthesize) (fun _ _ _ _ hn => VC.merkle4 (VC.synthesize sbox) depth root _ _ _ _ p hn) coms hl
  | inclusion8 root depth p sbox =>
    refine inclusion (n := 7 * depth) env g h (call := merkleCall8 root depth p sbox.synthesize) (fun _ _ _ statics hn => ?_) coms hl
    unfold merkleCall8
    split
    · exact VC.merkle8 (VC.synthesize sbox) _ _ _ _ _ _ _ hn
    · exact VC.panic _ _ _ _
  | randomizer t db indices depth p => exact randomizer _ _ _ _ _ _ _ _ _ _
  | factors k r => exact factors _ _ _ _

theorem stmts [ByteRep F] (g h : G) : ∀ (l : List (Stmt F)) (coms : List G), totalSize l ≤ coms.length → DC (verifyStmts env g h l coms) (totalGates l) (totalConstraints l) (totalCommitments l) fun _ => True
  | [], coms, _ => by
    unfold verifyStmts
    exact DC.pure trivial
  | st :: l, coms, hl => by
    simp only [totalSize, List.map_cons, List.sum_cons] at hl
    unfold verifyStmts
    apply DC.congr
    · apply DC.bind (stmt env g h st _ (by rw [List.length_take]; omega))
      rintro _ -
      exact stmts g h l _ (by rw [List.length_drop]; unfold totalSize; omega)
    · simp [totalGates]
    · simp [totalConstraints]
    · simp [totalCommitments]

end DC
end Bp
