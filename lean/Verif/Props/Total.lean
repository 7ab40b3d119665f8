import Verif.Spec.Total
import Verif.Lemmas.Gadgets.Total
import Verif.Props.Verify
import Verif.Props.Statements
import Verif.Props.Gadgets.Randomizer

set_option linter.unusedSectionVars false

/-! # C81: the verifying functions and the number of commitments -/

namespace Bp
variable {F G : Type} [Field F] [AddCommGroup G] [Module F G]

/-- Started without a half-allocated gate, `d` succeeds, leaves none, and its result satisfies `Q`. -/
def DT {α : Type} (d : Drv (Verifier F G) α) (Q : α → Prop) : Prop := ∀ s, s.pending = none → ∃ x s', d s = (.ok x, s') ∧ s'.pending = none ∧ Q x

namespace DT
variable {α β : Type} {env : Env F G}

theorem bind {d : Drv (Verifier F G) α} {f : α → Drv (Verifier F G) β} {Q : α → Prop} {R : β → Prop} (h1 : DT d Q) (h2 : ∀ x, Q x → DT (f x) R) : DT (d >>= f) R := fun s hs => by
  obtain ⟨x, s1, e1, p1, q1⟩ := h1 s hs
  obtain ⟨y, s2, e2, p2, q2⟩ := h2 x q1 s1 p1
  exact ⟨y, s2, Drv.bind_ok.mpr ⟨x, s1, e1, e2⟩, p2, q2⟩
theorem pure {x : α} {Q : α → Prop} (h : Q x) : DT (F := F) (G := G) (Pure.pure x) Q := fun s hs => ⟨x, s, rfl, hs, h⟩
theorem lift {r : Res α} {x : α} {Q : α → Prop} (hr : r = .ok x) (h : Q x) : DT (F := F) (G := G) (Drv.lift r) Q := fun s hs => ⟨x, s, Drv.lift_ok.mpr ⟨hr, rfl⟩, hs, h⟩
theorem take {coms : List G} {k : ℕ} (h : coms.length = k) : DT (F := F) (G := G) (Drv.lift (takeComms coms k)) fun x => x = coms :=
  lift (x := coms) (by unfold takeComms; rw [if_pos h.ge, List.take_of_length_le h.le]) rfl

theorem commitAll_same : ∀ (Vs : List G) (s : Verifier F G), (s.commitAll Vs).1.length = Vs.length ∧ (s.commitAll Vs).2.pending = s.pending
  | [], s => ⟨rfl, rfl⟩
  | V :: Vs, s => by
    obtain ⟨h1, h2⟩ := commitAll_same Vs (s.commit V).2
    exact ⟨by simp [Verifier.commitAll, h1], h2⟩
theorem commits (Vs : List G) : DT (F := F) (Verifier.commits Vs) fun x => x.length = Vs.length := fun s hs => ⟨_, _, rfl, (commitAll_same Vs s).2.trans hs, (commitAll_same Vs s).1⟩
theorem statics (g h : G) : DT (F := F) (allocateStaticsForVerifier 1 g h) fun x => ∃ z, x = [z] := fun s hs => by
  obtain ⟨x, s', e1, e2, e3⟩ := commits (F := F) ((staticValues 1 : List F).map fun x => commitScalar g h x (0 : F)) s hs
  exact ⟨x, s', e1, e2, List.length_eq_one_iff.mp (e3.trans rfl)⟩

theorem gadget {c : Prog1 F α} {Q : α → Prop} (h : VT env false c false Q) : DT (Verifier.gadget env c) Q := fun s hs => by
  obtain ⟨x, s', e1, e2, e3⟩ := h (fun cb s => s.specify cb) (fun _ _ => rfl) s (by rw [hs]; rfl)
  refine ⟨x, s', ?_, by simpa using e2, e3⟩
  unfold Verifier.gadget Verifier.run1
  rw [e1]

theorem bits (env : Env F G) : ∀ Vs : List G, DT (verifyBits env Vs) fun x => x.length = Vs.length
  | [] => pure rfl
  | V :: Vs => by
    unfold verifyBits
    refine bind (commits [V]) fun x hx => ?_
    obtain ⟨v, rfl⟩ := List.length_eq_one_iff.mp hx
    exact bind (gadget (VT.bitGadget _)) fun _ _ => bind (bits env Vs) fun _ hy => pure (by simp [hy])

end DT

theorem evens_odds_length {α : Type} : ∀ (n : ℕ) (l : List α), l.length = 2 * n → (evens l).length = n ∧ (odds l).length = n
  | 0, [], _ => ⟨rfl, rfl⟩
  | n + 1, x :: y :: l, h => by
    have := evens_odds_length n l (by simp at h; omega)
    exact ⟨by simp [evens, this.1], by simp [odds, this.2]⟩
  | n + 1, [x], h => by simp at h; omega

theorem inclusion_total {env : Env F G} {g h : G} {call : Var → Alloc F → List Var → List Var → Prog1 F Unit} {k : ℕ} (hc : ∀ l i ns z, k ∣ ns.length → VT env false (call l ⟨i, none⟩ ns [z]) false fun _ => True)
    {coms : List G} (h2 : 2 ≤ coms.length) (hk : k ∣ coms.length - 2) : DT (verifyInclusion env g h call coms) fun _ => True := by
  match coms, h2 with
  | a :: b :: ns, _ =>
    refine DT.bind (DT.commits [a, b]) fun x hx => DT.bind (DT.commits ns) fun y hy => DT.bind (DT.statics g h) fun z hz => ?_
    obtain ⟨v, w, rfl⟩ := List.length_eq_two.mp hx
    obtain ⟨z, rfl⟩ := hz
    exact DT.gadget (hc _ _ _ _ (by rw [hy]; simpa using hk))

variable [ByteRep F]

/-- **C81**, inclusion: with the leaf, the index and a whole number of levels of nodes, of any depth, the function runs. -/
theorem c81_inclusion4 (env : Env F G) (g h : G) (root : F) (depth : ℕ) (p : PoseidonParams F) (hp : p.Valid) (hw : p.width = 5) (sbox : SboxType) (levels : ℕ) (coms : List G) (hl : coms.length = 2 + 3 * levels)
    (s : Verifier F G) (hs : s.pending = none) : ∃ s', verifyInclusion4 env root depth p sbox g h coms s = (.ok (), s') ∧ s'.pending = none := by
  obtain ⟨_, s', e, hn, _⟩ := inclusion_total (env := env) (g := g) (h := h) (call := merkleCall4 root depth p sbox.synthesize) (k := 3) (fun l i ns z hk => VT.merkle4 (VT.synthesize sbox) depth root l i ns z hp hw hk)
    (coms := coms) (by omega) ⟨levels, by omega⟩ s hs
  exact ⟨s', e, hn⟩

/-- **C81**, inclusion in an 8-ary tree. -/
theorem c81_inclusion8 (env : Env F G) (g h : G) (root : F) (depth : ℕ) (p : PoseidonParams F) (hp : p.Valid) (hw : p.width = 9) (sbox : SboxType) (levels : ℕ) (coms : List G) (hl : coms.length = 2 + 7 * levels)
    (s : Verifier F G) (hs : s.pending = none) : ∃ s', verifyInclusion8 env root depth p sbox g h coms s = (.ok (), s') ∧ s'.pending = none := by
  obtain ⟨_, s', e, hn, _⟩ := inclusion_total (env := env) (g := g) (h := h) (call := merkleCall8 root depth p sbox.synthesize) (k := 7) (fun l i ns z hk => VT.merkle8 (VT.synthesize sbox) depth root l i ns z hp hw hk)
    (coms := coms) (by omega) ⟨levels, by omega⟩ s hs
  exact ⟨s', e, hn⟩

theorem preimage_total {env : Env F G} {g h : G} {k : ℕ} {call : List Var → List Var → Prog1 F Unit} (hc : ∀ vs z, vs.length = k → VT env false (call vs [z]) false fun _ => True) {coms : List G} (hl : coms.length = k) :
    DT (verifyPreimage env k g h call coms) fun _ => True := by
  refine DT.bind (DT.take hl) fun x hx => ?_
  subst hx
  refine DT.bind (DT.commits x) fun y hy => DT.bind (DT.statics g h) fun z hz => ?_
  obtain ⟨z, rfl⟩ := hz
  exact DT.gadget (hc _ _ (hy.trans hl))

/-- **C81**, the right number: whatever the points are, the verifying function succeeds, so that only the proof decides. -/
theorem c81_total (env : Env F G) (g h : G) (st : Stmt F) (hst : st.Runs) (coms : List G) (hl : coms.length = st.size) (s : Verifier F G) (hs : s.pending = none) :
    ∃ s', st.verify env g h coms s = (.ok (), s') ∧ s'.pending = none := by
  suffices hd : DT (st.verify env g h coms) fun _ => True by
    obtain ⟨_, s', e, hn, _⟩ := hd s hs
    exact ⟨s', e, hn⟩
  cases st with
  | boundedNum debug lower upper n =>
    refine DT.bind (DT.take hl) fun x hx => ?_
    subst hx
    refine DT.bind (DT.commits x) fun y hy => ?_
    obtain ⟨a, b, c, rfl⟩ := List.length_eq_three.mp (hy.trans hl)
    exact DT.gadget (VT.boundCheck _ _ _ _ hst)
  | nonZero =>
    refine DT.bind (DT.take hl) fun x hx => ?_
    subst hx
    refine DT.bind (DT.commits x) fun y hy => ?_
    obtain ⟨a, b, rfl⟩ := List.length_eq_two.mp (hy.trans hl)
    exact DT.gadget (VT.isNonzero _ _)
  | setMembership set =>
    refine DT.bind (DT.take hl) fun x hx => ?_
    subst hx
    refine DT.bind (DT.commits x) fun y hy => ?_
    match y, (hy.trans hl : y.length = set.length + 1) with
    | v :: ds, hv => exact DT.gadget (VT.setMembership _ _ _ (by simp at hv; simp [hv]))
  | setMembershipAlt set =>
    refine DT.bind (DT.take hl) fun x hx => ?_
    subst hx
    have hl' : x.length = set.length + 1 := hl
    refine DT.bind (DT.bits env _) fun y hy => DT.bind (DT.gadget (show VT env false (vectorSumConstraints y 1) false fun _ => True from VT.con)) fun _ _ => DT.bind (DT.commits _) fun z hz => ?_
    rw [List.length_drop, hl'] at hz
    rw [List.length_take, hl'] at hy
    obtain ⟨v, rfl⟩ := List.length_eq_one_iff.mp (hz.trans (by omega))
    exact DT.gadget (VT.vectorProduct _ _ _ (by rw [List.length_map]; omega))
  | setNonMembership set =>
    refine DT.bind (DT.take hl) fun x hx => ?_
    subst hx
    refine DT.bind (DT.commits x) fun y hy => ?_
    match y, (hy.trans hl : y.length = 2 * set.length + 1) with
    | v :: ds, hv =>
      have := evens_odds_length set.length (ds.map fun d => (⟨d, none⟩ : Alloc F)) (by simpa using hv)
      exact DT.gadget (VT.setNonMembership _ _ _ _ this.1.ge this.2.ge)
  | hamming new count => exact DT.bind (DT.commits coms) fun y hy => DT.gadget (VT.hamming _ _ _ (by rw [List.length_map, hy]; exact hl))
  | mimc image constants rounds =>
    refine DT.bind (DT.take hl) fun x hx => ?_
    subst hx
    refine DT.bind (DT.commits x) fun y hy => ?_
    obtain ⟨a, b, rfl⟩ := List.length_eq_two.mp (hy.trans hl)
    exact DT.gadget (VT.mimc _ _ _ _ _ hst)
  | poseidon2 output p sbox => exact preimage_total (fun vs z hv => VT.hash2Call (VT.synthesize sbox) hst.1 hst.2 output hv z) hl
  | poseidon4 output p sbox => exact preimage_total (fun vs z hv => VT.hash4Call (VT.synthesize sbox) hst.1 hst.2 output hv z) hl
  | poseidon8 output p sbox => exact preimage_total (fun vs z hv => VT.hash8Call (VT.synthesize sbox) hst.1 hst.2 output hv z) hl
  | inclusion4 root depth p sbox => exact fun s hs => let ⟨s', e, hn⟩ := c81_inclusion4 env g h root depth p hst.1 hst.2 sbox depth coms hl s hs; ⟨(), s', e, hn, trivial⟩
  | inclusion8 root depth p sbox => exact fun s hs => let ⟨s', e, hn⟩ := c81_inclusion8 env g h root depth p hst.1 hst.2 sbox depth coms hl s hs; ⟨(), s', e, hn, trivial⟩
  | randomizer => exact hst.elim
  | factors k r =>
    refine DT.bind (DT.take hl) fun x hx => ?_
    subst hx
    refine DT.bind (DT.commits x) fun y hy => ?_
    match y, (hy.trans hl : y.length = k + 2) with
    | v :: w :: ds, _ => exact DT.gadget (VT.factors _ _ _ _)

/-- **C81**, several statements in one proof. -/
theorem c81_statements (env : Env F G) (g h : G) : ∀ (stmts : List (Stmt F)), (∀ st ∈ stmts, st.Runs) → ∀ (coms : List G), coms.length = totalSize stmts → ∀ s : Verifier F G, s.pending = none →
    ∃ s', verifyStmts env g h stmts coms s = (.ok (), s') ∧ s'.pending = none
  | [], _, _, _, s, hs => ⟨s, rfl, hs⟩
  | st :: stmts, hr, coms, hl, s, hs => by
    have hl' : coms.length = st.size + totalSize stmts := by simpa [totalSize] using hl
    obtain ⟨s1, e1, p1⟩ := c81_total env g h st (hr st List.mem_cons_self) (coms.take st.size) (by rw [List.length_take]; omega) s hs
    obtain ⟨s2, e2, p2⟩ := c81_statements env g h stmts (fun st h => hr st (List.mem_cons_of_mem _ h)) (coms.drop st.size) (by rw [List.length_drop]; omega) s1 p1
    exact ⟨s2, Drv.bind_ok.mpr ⟨(), s1, e1, e2⟩, p2⟩

/-! ## Other numbers of commitments -/

theorem bind_panics {S α β : Type} {d : Drv S α} {f : α → Drv S β} {s : S} (h : Panics (d s).1) : Panics ((d >>= f) s).1 := by
  obtain ⟨w, h⟩ := h
  refine ⟨w, ?_⟩
  show ((match d s with | (.ok a, s') => f a s' | (.error e, s') => (.error e, s')) : Res β × S).1 = _
  generalize d s = q at h
  obtain ⟨q1, q2⟩ := q
  cases h
  rfl

theorem bind_panics' {S α β : Type} {d : Drv S α} {f : α → Drv S β} {s s' : S} {a : α} (h : d s = (.ok a, s')) (hf : Panics (f a s').1) : Panics ((d >>= f) s).1 := by
  obtain ⟨w, hf⟩ := hf
  refine ⟨w, ?_⟩
  show ((match d s with | (.ok a, s') => f a s' | (.error e, s') => (.error e, s')) : Res β × S).1 = _
  rw [h]
  exact hf

theorem take_panics {S : Type} {coms : List G} {k : ℕ} (h : coms.length < k) (s : S) : Panics ((Drv.lift (takeComms coms k) : Drv S _) s).1 := by
  refine ⟨"removal index (is 0) should be < len (is 0)", ?_⟩
  unfold takeComms
  rw [if_neg (by omega)]
  rfl

theorem commitVals_panics (depth : ℕ) : ∀ (n : ℕ) (coms : List G), coms.length < n * (1 + 3 * depth) → ∀ s : Verifier F G, Panics (commitVals depth n coms s).1
  | 0, _, h, _ => by simp at h
  | n + 1, coms, h, s => by
    unfold commitVals
    by_cases h1 : coms.length < 1
    · exact bind_panics (take_panics h1 s)
    refine bind_panics' (show (Drv.lift (takeComms coms 1) : Drv _ _) s = (.ok (coms.take 1), s) by unfold takeComms; rw [if_pos (by omega)]; rfl) (bind_panics' rfl ?_)
    by_cases h2 : (coms.drop 1).length < depth * 3
    · exact bind_panics (take_panics h2 _)
    refine bind_panics' (show (Drv.lift (takeComms (coms.drop 1) (depth * 3)) : Drv _ _) _ = (.ok ((coms.drop 1).take (depth * 3)), _) by unfold takeComms; rw [if_pos (by omega)]; rfl) (bind_panics' rfl ?_)
    refine bind_panics (commitVals_panics depth n _ ?_ _)
    rw [List.length_drop, List.length_drop]
    rw [Nat.succ_mul] at h
    rw [List.length_drop] at h2
    omega

/-- **C81** is false of too few commitments: these functions panic. -/
theorem c81_few_panics (env : Env F G) (g h : G) (st : Stmt F) (hst : st.Removes) (coms : List G) (hl : coms.length < st.size) (s : Verifier F G) : Panics (st.verify env g h coms s).1 := by
  cases st with
  | hamming => exact hst.elim
  | inclusion4 => exact hst.elim
  | inclusion8 => exact hst.elim
  | randomizer t db indices depth p =>
    show Panics (verifyRandomizer env t db indices depth p .quint g h coms s).1
    unfold verifyRandomizer
    by_cases h1 : coms.length < 1
    · exact bind_panics (take_panics h1 s)
    refine bind_panics' (show (Drv.lift (takeComms coms 1) : Drv _ _) s = (.ok (coms.take 1), s) by unfold takeComms; rw [if_pos (by omega)]; rfl) (bind_panics' rfl (bind_panics (commitVals_panics depth _ _ ?_ _)))
    rw [List.length_drop]
    have : coms.length < 1 + indices.length * (1 + 3 * depth) := hl
    omega
  | boundedNum | nonZero | setMembership | setMembershipAlt | setNonMembership | mimc | poseidon2 | poseidon4 | poseidon8 | factors => exact bind_panics (take_panics hl s)

/-- **C81** is false of too few commitments: inclusion panics without two. -/
theorem c81_inclusion_panics (env : Env F G) (g h : G) (call : Var → Alloc F → List Var → List Var → Prog1 F Unit) (coms : List G) (hl : coms.length < 2) (s : Verifier F G) : Panics (verifyInclusion env g h call coms s).1 := by
  match coms, hl with
  | [], _ => exact ⟨_, rfl⟩
  | [_], _ => exact ⟨_, rfl⟩

theorem commitVals_take (depth : ℕ) : ∀ (n : ℕ) (coms : List G), n * (1 + 3 * depth) ≤ coms.length → commitVals (F := F) depth n (coms.take (n * (1 + 3 * depth))) = commitVals depth n coms
  | 0, _, _ => rfl
  | n + 1, coms, h => by
    rw [Nat.succ_mul] at h ⊢
    have e1 : takeComms (coms.take (n * (1 + 3 * depth) + (1 + 3 * depth))) 1 = takeComms coms 1 := by
      unfold takeComms
      rw [List.length_take, if_pos (by omega), if_pos (by omega), List.take_take, min_eq_left (by omega)]
    have e2 : (coms.take (n * (1 + 3 * depth) + (1 + 3 * depth))).drop 1 = (coms.drop 1).take (n * (1 + 3 * depth) + depth * 3) := by
      rw [List.drop_take]; congr 1; omega
    have e3 : takeComms ((coms.drop 1).take (n * (1 + 3 * depth) + depth * 3)) (depth * 3) = takeComms (coms.drop 1) (depth * 3) := by
      unfold takeComms
      rw [List.length_take, List.length_drop, if_pos (by omega), if_pos (by omega), List.take_take, min_eq_left (by omega)]
    have e4 : ((coms.drop 1).take (n * (1 + 3 * depth) + depth * 3)).drop (depth * 3) = ((coms.drop 1).drop (depth * 3)).take (n * (1 + 3 * depth)) := by
      rw [List.drop_take]; congr 1; omega
    unfold commitVals
    rw [e1, e2, e3, e4, commitVals_take depth n _ (by rw [List.length_drop, List.length_drop]; omega)]

/-- **C81** is false of too many commitments: these functions do as if the last ones were not there. -/
theorem c81_many_ignored (env : Env F G) (g h : G) (st : Stmt F) (hst : st.Removes) (coms : List G) (hl : st.size ≤ coms.length) : st.verify env g h coms = st.verify env g h (coms.take st.size) := by
  have key : ∀ k, k ≤ coms.length → takeComms (coms.take k) k = takeComms coms k := fun k hk => by
    unfold takeComms
    rw [List.length_take, if_pos (by omega), if_pos hk, List.take_take, min_self]
  cases st with
  | hamming => exact hst.elim
  | inclusion4 => exact hst.elim
  | inclusion8 => exact hst.elim
  | randomizer t db indices depth p =>
    show verifyRandomizer env t db indices depth p .quint g h coms = verifyRandomizer env t db indices depth p .quint g h (coms.take (1 + indices.length * (1 + 3 * depth)))
    have hl' : 1 + indices.length * (1 + 3 * depth) ≤ coms.length := hl
    have e1 : takeComms (coms.take (1 + indices.length * (1 + 3 * depth))) 1 = takeComms coms 1 := by
      unfold takeComms
      rw [List.length_take, if_pos (by omega), if_pos (by omega), List.take_take, min_eq_left (by omega)]
    have e2 : (coms.take (1 + indices.length * (1 + 3 * depth))).drop 1 = (coms.drop 1).take (indices.length * (1 + 3 * depth)) := by
      rw [List.drop_take]; congr 1; omega
    unfold verifyRandomizer
    rw [e1, e2, commitVals_take depth _ _ (by rw [List.length_drop]; omega)]
  | boundedNum => exact (congrArg (fun x => (Drv.lift x : Drv (Verifier F G) _) >>= _) (key _ hl)).symm
  | nonZero => exact (congrArg (fun x => (Drv.lift x : Drv (Verifier F G) _) >>= _) (key _ hl)).symm
  | setMembership => exact (congrArg (fun x => (Drv.lift x : Drv (Verifier F G) _) >>= _) (key _ hl)).symm
  | setMembershipAlt => exact (congrArg (fun x => (Drv.lift x : Drv (Verifier F G) _) >>= _) (key _ hl)).symm
  | setNonMembership => exact (congrArg (fun x => (Drv.lift x : Drv (Verifier F G) _) >>= _) (key _ hl)).symm
  | mimc => exact (congrArg (fun x => (Drv.lift x : Drv (Verifier F G) _) >>= _) (key _ hl)).symm
  | poseidon2 => exact (congrArg (fun x => (Drv.lift x : Drv (Verifier F G) _) >>= _) (key _ hl)).symm
  | poseidon4 => exact (congrArg (fun x => (Drv.lift x : Drv (Verifier F G) _) >>= _) (key _ hl)).symm
  | poseidon8 => exact (congrArg (fun x => (Drv.lift x : Drv (Verifier F G) _) >>= _) (key _ hl)).symm
  | factors => exact (congrArg (fun x => (Drv.lift x : Drv (Verifier F G) _) >>= _) (key _ hl)).symm

/-- **C81**, Hamming distance: any other number is reported as an error. -/
theorem c81_hamming_reported (env : Env F G) (g h : G) (new : List F) (count : ℕ) (coms : List G) (hl : coms.length ≠ (Stmt.hamming new count).size) (s : Verifier F G) :
    ((Stmt.hamming new count).verify env g h coms s).1 = Res.err (.gadgetError "Original and new are of different lengths") := by
  have hlen := (DT.commitAll_same coms s).1
  show (Verifier.gadget env (hammingDistanceGadget ((s.commitAll coms).1.map fun d => (⟨d, none⟩ : Alloc F)) new count) (s.commitAll coms).2).1 = _
  unfold hammingDistanceGadget
  rw [if_pos (by rw [List.length_map, hlen]; exact hl)]
  rfl

/-! ## The randomizer -/

/-- How a verifying function ends depends on the commitments only through their number. -/
theorem c81_same_number (env : Env F G) (g h : G) (st : Stmt F) (a b : List G) (hab : a.length = b.length) (s : Verifier F G) : (st.verify env g h a s).1 = (st.verify env g h b s).1 := by
  have e1 := DrvNat.stmt (0 : G →ₗ[F] G) env g h st a s
  have e2 := DrvNat.stmt (0 : G →ₗ[F] G) env g h st b s
  rw [Stmt.verify_pull, map_zero_eq (F := F) hab] at e1
  rw [Stmt.verify_pull, e1] at e2
  exact (Prod.mk.inj e2).1

/-- **C81**, the right number, for the randomizer: for a new tree of the crate, whatever the points are, the verifying function reaches the check of the proof. -/
theorem c81_randomizer [DecidableEq F] (env : Env F G) (g h : G) (p : PoseidonParams F) (hp : p.Valid) (hw : p.width = 5) (depth : ℕ) (h0 : depth ≠ 0) (hd : depth ≤ 4 * ByteRep.modBytes F) (db0 : HashDb (List F)) (hist : History F)
    (hc : (tree4 p).CollisionFree depth hist) (t : SparseTree F) (db : HashDb (List F)) (hrun : runHistory (tree4 p) depth db0 hist = .ok (t, db)) (indices : List F) (coms : List G)
    (hl : coms.length = 1 + indices.length * (1 + 3 * depth)) (label : String) : ∃ s', verifyRandomizer env t db indices depth p .quint g h coms (Verifier.new [.init label]) = (.ok (), s') := by
  obtain ⟨data, -, -, hon⟩ := c46_complete (env := env) (env' := env) rfl p hp hw depth h0 hd db0 db0 hist hist hc hc t t db db hrun hrun indices (fun _ _ _ => rfl) g h (fun _ => 0) none
  obtain ⟨a, -, s1, -, hv, -⟩ := hon _ _ (Joint.new env env g h [.init label] 0 0) rfl
  have hv' : (Stmt.randomizer t db indices depth p).verify env g h a (Verifier.new [.init label]) = (.ok (), s1) := hv
  have hle : (Stmt.randomizer t db indices depth p).size ≤ a.length := by
    by_contra hlt
    obtain ⟨w, e⟩ := c81_few_panics env g h (Stmt.randomizer t db indices depth p) trivial a (not_le.mp hlt) (Verifier.new [.init label])
    rw [hv'] at e
    cases e
  rw [c81_many_ignored env g h (Stmt.randomizer t db indices depth p) trivial a hle] at hv'
  have e := c81_same_number env g h (Stmt.randomizer t db indices depth p) coms (a.take (Stmt.randomizer t db indices depth p).size) (by rw [List.length_take, min_eq_left hle]; exact hl) (Verifier.new [.init label])
  rw [hv'] at e
  refine ⟨((Stmt.randomizer t db indices depth p).verify env g h coms (Verifier.new [.init label])).2, ?_⟩
  exact Prod.ext e rfl

/-! ## Cases -/

/-- Any four points for the membership of a set of three. -/
example (a b c d : Z101) : ∃ s', (Stmt.setMembership [2, 3, 5]).verify (Env.std fun _ => 2 : Env Z101 Z101) 1 5 [a, b, c, d] (Verifier.new [.init "set"]) = (.ok (), s') ∧ s'.pending = none :=
  c81_total _ 1 5 (Stmt.setMembership [2, 3, 5]) trivial _ rfl _ rfl
/-- Three points: it panics. -/
example (a b c : Z101) : Panics ((Stmt.setMembership [2, 3, 5]).verify (Env.std fun _ => 2 : Env Z101 Z101) 1 5 [a, b, c] (Verifier.new [.init "set"])).1 := c81_few_panics _ 1 5 (Stmt.setMembership [2, 3, 5]) trivial _ (by simp [Stmt.size]) _
/-- Five points: the last is ignored. -/
example (a b c d e : Z101) : (Stmt.setMembership [2, 3, 5]).verify (Env.std fun _ => 2 : Env Z101 Z101) 1 5 [a, b, c, d, e] = (Stmt.setMembership [2, 3, 5]).verify (Env.std fun _ => 2) 1 5 [a, b, c, d] :=
  c81_many_ignored _ 1 5 (Stmt.setMembership [2, 3, 5]) trivial _ (by simp [Stmt.size])
/-- Inclusion in a tree of depth 2, with any eight points. -/
example (coms : List Fr) (h : coms.length = 8) : ∃ s', (Stmt.inclusion4 7 2 demoParams5 .quint).verify demoEnv 5 6 coms (Verifier.new [.init "tree"]) = (.ok (), s') ∧ s'.pending = none :=
  c81_total demoEnv 5 6 (Stmt.inclusion4 7 2 demoParams5 .quint) ⟨demoParams5_valid, rfl⟩ coms h _ rfl
/-- The randomizer, with any fifteen points. -/
example (coms : List Fr) (h : coms.length = 15) : ∃ t db s', verifyRandomizer demoEnv t db [14, 1] 2 demoParams5 .quint 5 6 coms (Verifier.new [.init "data"]) = (.ok (), s') := by
  have hT : (tree4 demoParams5).IsTree demoParams5 2 := .inl ⟨rfl, rfl, by decide⟩
  obtain ⟨db, e, -⟩ := run_ok demoParams5_valid hT HashDb.new demoHistory demo_collisionFree
  exact ⟨_, db, c81_randomizer demoEnv 5 6 demoParams5 demoParams5_valid rfl 2 (by decide) (by decide) HashDb.new demoHistory demo_collisionFree _ db e [14, 1] coms h "data"⟩

end Bp
