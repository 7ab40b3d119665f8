import Verif.Spec.Request
import Verif.Lemmas.Gadgets.Scope
import Verif.Props.Refuted
import Verif.Props.Range
import Verif.Props.Total

/-! # C87: the proving functions run to the end on all secret inputs -/

set_option linter.unusedSectionVars false

namespace Bp
variable {F G : Type} [Field F] [AddCommGroup G] [Module F G] [ByteRep F]
variable {env : Env F G} {g h : G} {M : ℕ} {α β : Type}

/-- A prover between two proving functions: some verifier is in step with it, and no gate is half-allocated. -/
def Ready (env : Env F G) (g h : G) (p : Prover F G) : Prop := ∃ s, Shared env env g h p s ∧ s.pending = none

/-- Started with at least `M` commitments, `d` succeeds; its result satisfies `Q` for the number of commitments then. -/
def PD (env : Env F G) (g h : G) (M : ℕ) (d : Drv (Prover F G) α) (Q : ℕ → α → Prop) : Prop :=
  ∀ p, Ready env g h p → M ≤ p.v.length → ∃ x p', d p = (.ok x, p') ∧ Ready env g h p' ∧ p.v.length ≤ p'.v.length ∧ Q p'.v.length x

namespace PD

theorem bind {d : Drv (Prover F G) α} {f : α → Drv (Prover F G) β} {Q : ℕ → α → Prop} {R : ℕ → β → Prop} (h1 : PD env g h M d Q) (h2 : ∀ M' x, M ≤ M' → Q M' x → PD env g h M' (f x) R) : PD env g h M (d >>= f) R := by
  intro p hp hM
  obtain ⟨x, p1, e1, r1, l1, q1⟩ := h1 p hp hM
  obtain ⟨y, p2, e2, r2, l2, q2⟩ := h2 _ x (hM.trans l1) q1 p1 r1 le_rfl
  exact ⟨y, p2, Drv.bind_ok.mpr ⟨x, p1, e1, e2⟩, r2, l1.trans l2, q2⟩

theorem pure {x : α} {Q : ℕ → α → Prop} (hQ : ∀ M', M ≤ M' → Q M' x) : PD env g h M (Pure.pure x) Q := fun p hp hM => ⟨x, p, rfl, hp, le_rfl, hQ _ hM⟩
theorem lift {r : Res α} {x : α} (hr : r = .ok x) : PD env g h M (Drv.lift r) fun _ y => y = x := fun p hp hM => ⟨x, p, Drv.lift_ok.mpr ⟨hr, rfl⟩, hp, le_rfl, rfl⟩

theorem commitAll_vars : ∀ (vs : List (F × F)) (p : Prover F G), (∀ c ∈ (p.commitAll vs).1, c.2.InRange 0 (p.v.length + vs.length)) ∧ (p.commitAll vs).2.v.length = p.v.length + vs.length ∧ (p.commitAll vs).1.length = vs.length
  | [], p => ⟨by simp [Prover.commitAll], by simp [Prover.commitAll], rfl⟩
  | (x, b) :: vs, p => by
    obtain ⟨h1, h2, h3⟩ := commitAll_vars vs (p.commit x b).2
    have hl : (p.commit x b).2.v.length = p.v.length + 1 := by simp [Prover.commit]
    rw [hl] at h1 h2
    refine ⟨?_, ?_, ?_⟩
    · intro c hc
      simp only [Prover.commitAll, List.mem_cons] at hc
      rcases hc with rfl | hc
      · show p.v.length < _
        simp
      · have := h1 c hc
        rwa [show p.v.length + 1 + vs.length = p.v.length + (vs.length + 1) by omega] at this
    · simp only [Prover.commitAll, List.length_cons, h2]; omega
    · simp [Prover.commitAll, h3]

theorem commits (vs : List (F × F)) : PD env g h M (Prover.commits vs) fun M' cs => cs.length = vs.length ∧ ∀ c ∈ cs, c.2.InRange 0 M' := by
  rintro p ⟨s, J, hs⟩ hM
  have e : Prover.commits vs p = (.ok (p.commitAll vs).1, (p.commitAll vs).2) := rfl
  obtain ⟨s', e', J', -, -⟩ := J.commitAll rfl vs e
  obtain ⟨h1, h2, h3⟩ := commitAll_vars vs p
  refine ⟨_, _, e, ⟨s', J', ?_⟩, by omega, h3, by rwa [h2]⟩
  have := (DR.commitAll_within ((p.commitAll vs).1.map Prod.fst) s).2.2.1
  have e2 : s' = (s.commitAll ((p.commitAll vs).1.map Prod.fst)).2 := (Prod.mk.inj e').2.symm
  rw [e2, this, hs]

theorem gadget {RA : α → β → Prop} {c : Prog1 F α} {c' : Prog1 F β} {Q : α → Prop} {R : β → Prop} (hs : Prog1.Same RA c c') (ht : VT env false c' false R) (hc : ∀ N M', M ≤ M' → SC N M' c Q) : PD env g h M (Prover.gadget env c) fun _ _ => True := by
  rintro p ⟨s, J, hp⟩ hM
  obtain ⟨b, s', hr, hp', -⟩ := ht (fun cb s => s.specify cb) (fun _ _ => rfl) s (by rw [hp]; rfl)
  obtain ⟨hw, hi⟩ := J.inStep rfl
  obtain ⟨a, p', ha⟩ := run_total (env := env) (env' := env) rfl (onP := fun cb p => p.specify cb) (onV := fun cb s => s.specify cb)
    (fun _ _ hcb _ _ h => ⟨h.lenR, h.lenO, h.lenB, h.transcript, h.num, h.pending, h.V, h.cons, forall2_append h.deferred (.cons hcb .nil)⟩) (fun _ _ => ⟨rfl, rfl, rfl⟩) hs hi hw.pend hr (Q := fun _ => Q)
    fun N hN => hc N _ hM _ _ fun i hi' => (hw.pend i hi').trans_le hN
  have ha' := Prover.gadget_ok.mpr ha
  obtain ⟨b2, s2, e2, J2, -, ev⟩ := J.gadgetOk rfl hs ha'
  have e3 : Verifier.gadget env c' s = (.ok b, s') := Verifier.gadget_ok.mpr hr
  rw [e3] at e2
  obtain ⟨-, rfl⟩ := Prod.mk.inj e2
  exact ⟨a, p', ha', ⟨s', J2, by simpa using hp'⟩, by rw [ev], trivial⟩

theorem given {randomness : Option F} {rng : Option (ℕ → F)} (hr : Given randomness rng) : checkRandomness randomness rng = .ok () ∧ ∃ b, pickBlinding randomness rng = .ok b := by
  cases randomness with
  | some r => exact ⟨by simp [checkRandomness], r, rfl⟩
  | none =>
    cases rng with
    | some f => exact ⟨by simp [checkRandomness], f 0, rfl⟩
    | none => simp [Given] at hr

theorem givenList {k : ℕ} {randomness : Option (List F)} {rng : Option (ℕ → F)} (hr : GivenList k randomness rng) : checkRandomness randomness rng = .ok () ∧ ∃ bs, pickBlindings randomness rng k = .ok bs ∧ bs.length = k := by
  rcases hr with ⟨r, rfl, hl⟩ | ⟨rfl, hr⟩
  · exact ⟨by simp [checkRandomness], r, rfl, hl⟩
  · obtain ⟨f, rfl⟩ := Option.isSome_iff_exists.mp hr
    exact ⟨by simp [checkRandomness], _, rfl, by simp⟩

theorem up {v : Var} {n m N : ℕ} (hv : v.InRange 0 n) (hn : n ≤ m) : v.InRange N m := DR.inRange_mono hv hn

theorem bits : ∀ (bs : List (F × F)) {M : ℕ}, PD env g h M (proveBits env bs) fun M' cs => cs.length = bs.length ∧ ∀ c ∈ cs, c.2.InRange 0 M'
  | [], _ => PD.pure fun _ _ => ⟨rfl, by simp⟩
  | (b, r) :: bs, M => by
    refine PD.bind (PD.commits [(b, r)]) fun M1 cs _ hc => ?_
    obtain ⟨⟨c, v⟩, rfl⟩ := List.length_eq_one_iff.mp hc.1
    have hv : v.InRange 0 M1 := hc.2 (c, v) (by simp)
    refine PD.bind (PD.gadget (Prog.Same.bit (Alloc.pair v _)) (VT.bitGadget _) fun N M' hM => SC.bitGadget (up hv hM)) fun M2 _ h2 _ => PD.bind (PD.bits bs) fun M3 ds h3 hd => PD.pure fun M4 h4 => ⟨by simp [hd.1], ?_⟩
    intro x hx
    rcases List.mem_cons.mp hx with rfl | hx
    · exact up hv (by omega)
    · exact up (hd.2 x hx) h4

theorem statics : PD env g h M (allocateStaticsForProver 1) fun M' zs => ∃ z, zs = [z] ∧ z.InRange 0 M' := by
  have hs : ((staticValues 1 : List F).map fun x => (x, (0 : F))) = [(0, 0)] := by simp [staticValues, zeroConst]
  refine PD.bind (by rw [hs]; exact PD.commits [((0 : F), (0 : F))]) fun M1 cs _ hc => ?_
  obtain ⟨⟨c, v⟩, rfl⟩ := List.length_eq_one_iff.mp hc.1
  exact PD.pure fun M' hM => ⟨v, rfl, up (hc.2 (c, v) (by simp)) hM⟩

/-- Allocated variables that come from commitments are in range. -/
theorem zipAllocs {ds : List (G × Var)} {n N m : ℕ} (hd : ∀ c ∈ ds, c.2.InRange 0 n) (hn : n ≤ m) (xs : List F) : ∀ a ∈ List.zipWith (fun d x => (⟨d.2, some x⟩ : Alloc F)) ds xs, a.var.InRange N m := by
  intro a ha
  obtain ⟨i, hi, rfl⟩ := List.mem_iff_getElem.mp ha
  rw [List.getElem_zipWith]
  exact up (hd _ (List.getElem_mem _)) hn

theorem preimage {k : ℕ} {inputs : List F} (hi : inputs.length = k) {p : PoseidonParams F} {output : F} {sbox : SboxType} {call : List Var → List Var → Prog1 F Unit} (hc : IsCall k sbox.synthesize p output call) (hw : p.width = k + 1)
    (ht : ∀ vs z, vs.length = k → VT env false (call vs [z]) false fun _ => True)
    (hsc : ∀ N M' vs zs, (∀ v ∈ vs, v.InRange N M') → (∀ v ∈ zs, v.InRange N M') → SC N M' (call vs zs) fun _ => True)
    {randomness : Option (List F)} {rng : Option (ℕ → F)} (hr : GivenList k randomness rng) : PD env g h M (provePreimage env k inputs randomness rng call) fun _ coms => coms.length = k := by
  obtain ⟨g1, bs, g2, g3⟩ := givenList hr
  refine PD.bind (PD.lift g1) fun _ _ _ _ => PD.bind (PD.lift g2) fun _ _ _ e => ?_
  subst e
  refine PD.bind (PD.lift (x := ()) (by simp [checkLengths, hi, g3])) fun _ _ _ _ => PD.bind (PD.commits _) fun M1 cs _ hcs => PD.bind PD.statics fun M2 zs h2 hz => ?_
  obtain ⟨z, rfl, hz⟩ := hz
  have hl : (cs.map Prod.snd).length = k := by simp [hcs.1, hi, g3]
  have heq : ∀ ls : List (LC F), List.Forall₂ LC.Equiv ls ls := fun ls => List.forall₂_same.mpr fun _ _ => .rfl'
  have hsame : Prog1.Same (fun _ _ => True) (call (cs.map Prod.snd) [z]) (call (cs.map Prod.snd) [z]) := by
    rw [(hc _ _ hl).1 hw]
    exact .bind (.hash (synthSame_sbox sbox) p (heq _)) fun _ _ h => .conScalar h _
  refine PD.bind (PD.gadget hsame (ht _ z hl) fun N M' hM => hsc N M' _ _ (fun v hv => ?_) fun v hv => ?_) fun _ _ _ _ => PD.pure fun _ _ => by simpa using hl
  · obtain ⟨c, hm, rfl⟩ := List.mem_map.mp hv
    exact up (hcs.2 c hm) (by omega)
  · rw [List.mem_singleton.mp hv]
    exact up hz hM

theorem inclusion {n : ℕ} {leaf leafIndex : F} {siblings : List (List F)} (hsib : ∀ x ∈ siblings, x.length = n) {call : Var → Alloc F → List Var → List Var → Prog1 F Unit}
    (hsame : ∀ l i ns z, Prog1.Same (fun _ _ => True) (call l ⟨i, some leafIndex⟩ ns [z]) (call l ⟨i, none⟩ ns [z])) (ht : ∀ l i ns z, n ∣ ns.length → VT env false (call l ⟨i, none⟩ ns [z]) false fun _ => True)
    (hsc : ∀ N M' l (i : Alloc F) ns zs, l.InRange N M' → i.var.InRange N M' → (∀ v ∈ ns, v.InRange N M') → (∀ v ∈ zs, v.InRange N M') → SC N M' (call l i ns zs) fun _ => True)
    {randomness : Option (List F)} {rng : Option (ℕ → F)} (hr : GivenList 2 randomness rng) (coins : ℕ → F) : PD env g h M (proveInclusion env leaf leafIndex randomness siblings rng coins call) fun _ coms => coms.length = 2 + n * siblings.length := by
  obtain ⟨g1, bs, g2, g3⟩ := givenList hr
  obtain ⟨r0, r1, rfl⟩ := List.length_eq_two.mp g3
  refine PD.bind (PD.lift g1) fun _ _ _ _ => PD.bind (PD.lift g2) fun _ _ _ e => ?_
  subst e
  have hfl := flatten_length siblings hsib
  refine PD.bind (PD.commits _) fun M1 cs _ hcs => PD.bind (PD.commits _) fun M2 ns h2 hns => PD.bind PD.statics fun M3 zs h3 hz => ?_
  obtain ⟨⟨cL, vL⟩, ⟨cI, vI⟩, rfl⟩ : ∃ x y, cs = [x, y] := List.length_eq_two.mp (by simpa using hcs.1)
  obtain ⟨z, rfl, hz⟩ := hz
  have hnl : ns.length = n * siblings.length := by rw [hns.1, List.length_mapIdx, hfl]
  refine PD.bind (PD.gadget (hsame _ _ _ _) (ht _ _ _ _ (by rw [List.length_map, hnl]; exact dvd_mul_right _ _)) fun N M' hM =>
    hsc N M' _ _ _ _ (up (hcs.2 (cL, vL) (by simp)) (by omega)) (up (hcs.2 (cI, vI) (by simp)) (by omega)) (fun v hv => ?_) fun v hv => ?_) fun _ _ _ _ => PD.pure fun _ _ => by simp [hnl]; omega
  · obtain ⟨c, hm, rfl⟩ := List.mem_map.mp hv
    exact up (hns.2 c hm) (by omega)
  · rw [List.mem_singleton.mp hv]
    exact up hz hM

end PD

theorem Request.runs {st : Stmt F} {dp : Env F G → Drv (Prover F G) (List G)} (hq : Request st dp) (hst : st.Runs) (env : Env F G) (g h : G) (M : ℕ) : PD env g h M (dp env) fun _ coms => coms.length = st.size := by
  cases hq with
  | boundedNum debug val lower upper n hval hd randomness rng hr sys =>
    obtain ⟨g1, b, g2⟩ := PD.given hr
    obtain ⟨x, hx⟩ : ∃ x, subU64 debug val lower = .ok x := by
      unfold subU64
      rcases hd with rfl | hd
      · split <;> exact ⟨_, rfl⟩
      · exact ⟨_, if_pos hd.1⟩
    obtain ⟨y, hy⟩ : ∃ x, subU64 debug upper val = .ok x := by
      unfold subU64
      rcases hd with rfl | hd
      · split <;> exact ⟨_, rfl⟩
      · exact ⟨_, if_pos hd.2⟩
    refine PD.bind (PD.lift g1) fun _ _ _ _ => PD.bind (PD.lift hx) fun _ _ _ e1 => PD.bind (PD.lift hy) fun _ _ _ e2 => PD.bind (PD.lift g2) fun _ _ _ e3 => ?_
    subst e1 e2 e3
    refine PD.bind (PD.commits _) fun M1 cs _ hc => ?_
    obtain ⟨⟨cv, vv⟩, ⟨ca, va⟩, ⟨cb, vb⟩, rfl⟩ : ∃ x y z, cs = [x, y, z] := List.length_eq_three.mp (by simpa using hc.1)
    refine PD.bind (PD.gadget (Prog.Same.boundCheck (Alloc.pair vv _) (Alloc.pair va _) (Alloc.pair vb _) upper lower n) (VT.boundCheck _ _ _ _ hst) fun N M' hM => SC.boundCheck n (PD.up (hc.2 (cv, vv) (by simp)) hM)
      (PD.up (hc.2 (ca, va) (by simp)) hM) (PD.up (hc.2 (cb, vb) (by simp)) hM)) fun _ _ _ _ => PD.pure fun _ _ => rfl
  | nonZero value randomness rng hr sys =>
    obtain ⟨g1, b, g2⟩ := PD.given hr
    refine PD.bind (PD.lift g1) fun _ _ _ _ => PD.bind (PD.lift g2) fun _ _ _ e3 => ?_
    subst e3
    refine PD.bind (PD.commits _) fun M1 cs _ hc => ?_
    obtain ⟨⟨cv, vv⟩, ⟨ca, va⟩, rfl⟩ : ∃ x y, cs = [x, y] := List.length_eq_two.mp (by simpa using hc.1)
    exact PD.bind (PD.gadget (Prog.Same.isNonzero vv va) (VT.isNonzero _ _) fun N M' hM => SC.isNonzero (PD.up (hc.2 (cv, vv) (by simp)) hM) (PD.up (hc.2 (ca, va) (by simp)) hM)) fun _ _ _ _ => PD.pure fun _ _ => rfl
  | setMembership value set randomness rng hr sys =>
    obtain ⟨g1, b, g2⟩ := PD.given hr
    refine PD.bind (PD.lift g1) fun _ _ _ _ => PD.bind (PD.lift g2) fun _ _ _ e3 => ?_
    subst e3
    refine PD.bind (PD.commits _) fun M1 cs _ hc => ?_
    obtain ⟨hc, hr'⟩ := hc
    match cs, hc, hr' with
    | (cv, vv) :: ds, hl, hr' =>
      have hlen : ds.length = set.length := by simpa using hl
      exact PD.bind (PD.gadget (Prog.Same.setMembership (Alloc.pair vv _) (pair_zip (by simp [hlen])) set) (VT.setMembership _ _ _ (by simp [hlen])) fun N M' hM => SC.setMembership (PD.up (hr' (cv, vv) (by simp)) hM)
        (PD.zipAllocs (fun c hm => hr' c (List.mem_cons_of_mem _ hm)) hM _)) fun _ _ _ _ => PD.pure fun _ _ => by simp [Stmt.size, hlen]
  | setMembershipAlt value set randomness rng hr sys =>
    obtain ⟨g1, b, g2⟩ := PD.given hr
    refine PD.bind (PD.lift g1) fun _ _ _ _ => PD.bind (PD.bits _) fun M1 bits _ hb => ?_
    have hlen : bits.length = set.length := by simpa using hb.1
    refine PD.bind (PD.gadget (Prog.Same.vectorSum _ _) VT.con fun N M' hM => SC.vectorSum (fun v hv => ?_) 1) fun M2 _ h2 _ => PD.bind (PD.lift g2) fun M3 _ h3 e3 => ?_
    · obtain ⟨c, hm, rfl⟩ := List.mem_map.mp hv
      exact PD.up (hb.2 c hm) hM
    subst e3
    refine PD.bind (PD.commits _) fun M4 cs h4 hc => ?_
    obtain ⟨⟨c, v⟩, rfl⟩ : ∃ x, cs = [x] := List.length_eq_one_iff.mp (by simpa using hc.1)
    have hP := pair_zip (F := F) (ds := bits) (xs := set.map fun elem => if elem = value then (1 : F) else 0) (by simp [hlen])
    exact PD.bind (PD.gadget (Prog.Same.vectorProduct (v' := ⟨v, none⟩) rfl (hP.imp fun _ _ h => h.2)) (VT.vectorProduct _ _ _ (by simp [hlen])) fun N M' hM => SC.vectorProduct (PD.up (hc.2 (c, v) (by simp)) hM)) fun _ _ _ _ =>
      PD.pure fun _ _ => by simp [Stmt.size, hlen]
  | setNonMembership value set randomness rng hr sys =>
    obtain ⟨g1, b, g2⟩ := PD.given hr
    refine PD.bind (PD.lift g1) fun _ _ _ _ => PD.bind (PD.lift g2) fun _ _ _ e3 => ?_
    subst e3
    have hw : (nonMembershipWitness value set sys).length = 2 * set.length := by simp [nonMembershipWitness, List.length_flatMap, mul_comm]
    refine PD.bind (PD.commits _) fun M1 cs _ hc => ?_
    obtain ⟨hc, hr'⟩ := hc
    match cs, hc, hr' with
    | (cv, vv) :: ds, hl, hr' =>
      have hlen : ds.length = (nonMembershipWitness value set sys).length := by simpa using hl
      have hP := pair_zip (F := F) (ds := ds) (xs := (nonMembershipWitness value set sys).map Prod.fst) (by simp [hlen])
      have hrange : ∀ N M', M1 ≤ M' → _ := fun N M' hM => PD.zipAllocs (N := N) (fun c hm => hr' c (List.mem_cons_of_mem _ hm)) hM ((nonMembershipWitness value set sys).map Prod.fst)
      have hEO := evens_odds_length set.length ((ds.map Prod.snd).map fun d => (⟨d, none⟩ : Alloc F)) (by simp [hlen, hw])
      refine PD.bind (Q := fun _ _ => True) ?_ fun _ _ _ _ => PD.pure fun _ _ => by simp [Stmt.size, hlen, hw]
      rw [zipWith_fst (fun (d : G × Var) (x : F) => (⟨d.2, some x⟩ : Alloc F))]
      exact PD.gadget (Prog.Same.setNonMembership (Alloc.pair vv _) (forall₂_evens hP) (forall₂_odds hP) set) (VT.setNonMembership _ _ _ _ hEO.1.ge hEO.2.ge) fun N M' hM =>
        SC.setNonMembership (PD.up (hr' (cv, vv) (by simp)) hM) (fun d hd => hrange N M' hM d (DR.mem_evens hd)) (fun d hd => hrange N M' hM d (DR.mem_odds hd))
  | hamming original new hl count sys =>
    show PD env g h M (proveHammingDistance env original new count sys) _
    unfold proveHammingDistance
    rw [if_neg (by simpa using hl)]
    refine PD.bind (PD.commits _) fun M1 cs _ hc => ?_
    have hlen : cs.length = original.length := by simpa using hc.1
    exact PD.bind (PD.gadget (Prog.Same.hamming (pair_zip hlen) new count) (VT.hamming _ _ _ (by simp [hlen, hl])) fun N M' hM => SC.hamming (PD.zipAllocs hc.2 hM _)) fun _ _ _ _ => PD.pure fun _ _ => by simp [Stmt.size, hlen, hl]
  | mimc x y image constants rounds randomness rng hr =>
    obtain ⟨g1, bs, g2, g3⟩ := PD.givenList hr
    refine PD.bind (PD.lift g1) fun _ _ _ _ => PD.bind (PD.lift g2) fun _ _ _ e => ?_
    subst e
    refine PD.bind (PD.lift (x := ()) (by simp [checkLengths, g3])) fun _ _ _ _ => PD.bind (PD.commits _) fun M1 cs _ hc => ?_
    obtain ⟨⟨cv, vv⟩, ⟨ca, va⟩, rfl⟩ : ∃ x y, cs = [x, y] := List.length_eq_two.mp (by simpa [g3] using hc.1)
    exact PD.bind (PD.gadget (Prog.Same.mimc (l' := ⟨vv, none⟩) (r' := ⟨va, none⟩) rfl rfl rounds constants image) (VT.mimc _ _ _ _ _ hst) fun N M' hM => SC.mimc (PD.up (hc.2 (cv, vv) (by simp)) hM) (PD.up (hc.2 (ca, va) (by simp)) hM))
      fun _ _ _ _ => PD.pure fun _ _ => rfl
  | poseidon2 a b output p sbox randomness rng hr =>
    exact PD.preimage (inputs := [a, b]) rfl (isCall2 _ p output) hst.2 (fun vs z hv => VT.hash2Call (VT.synthesize sbox) hst.1 hst.2 output hv z) (fun N M' vs zs hv hz => SC.hash2Call (SC.synthesize sbox) hv hz) hr
  | poseidon4 a b c d output p sbox randomness rng hr =>
    exact PD.preimage (inputs := [a, b, c, d]) rfl (isCall4 _ p output) hst.2 (fun vs z hv => VT.hash4Call (VT.synthesize sbox) hst.1 hst.2 output hv z) (fun N M' vs zs hv hz => SC.hash4Call (SC.synthesize sbox) hv hz) hr
  | poseidon8 a b c d a' b' c' d' output p sbox randomness rng hr =>
    exact PD.preimage (inputs := [a, b, c, d, a', b', c', d']) rfl (isCall8 _ p output) hst.2 (fun vs z hv => VT.hash8Call (VT.synthesize sbox) hst.1 hst.2 output hv z)
      (fun N M' vs zs hv hz => SC.hash8Call (SC.synthesize sbox) hv hz) hr
  | inclusion4 leaf leafIndex root siblings p sbox hs hd randomness rng hr coins =>
    exact PD.inclusion hs (call := merkleCall4 root siblings.length p sbox.synthesize) (fun l i ns z => Prog.Same.merkleGadget4 hd root l i leafIndex ns [z] p sbox)
      (fun l i ns z hk => VT.merkle4 (VT.synthesize sbox) siblings.length root l i ns z hst.1 hst.2 hk) (fun N M' l i ns zs hl hi hn hz => SC.merkle4 (SC.synthesize sbox) hl hi hn hz) hr coins
  | inclusion8 leaf leafIndex root siblings p sbox hs hd randomness rng hr coins =>
    refine PD.inclusion hs (call := merkleCall8 root siblings.length p sbox.synthesize) (fun l i ns z => Prog.Same.merkleGadget8 hd root l i leafIndex ns z p sbox)
      (fun l i ns z hk => VT.merkle8 (VT.synthesize sbox) siblings.length root l i ns z hst.1 hst.2 hk) (fun N M' l i ns zs hl hi hn hz => ?_) hr coins
    unfold merkleCall8
    split
    · rename_i z
      exact SC.merkle8 (SC.synthesize sbox) hl hi hn (hz _ (by simp))
    · exact SC.panic
  | factors p q rest r =>
    refine PD.bind (PD.commits _) fun M1 cs _ hc => ?_
    obtain ⟨hc, hr'⟩ := hc
    match cs, hc, hr' with
    | (cp, vp) :: (cq, vq) :: ds, hl, hr' =>
      have hlen : ds.length = rest.length := by simpa using hl
      refine PD.bind (PD.gadget (Prog.Same.factors _ _ _ _) (VT.factors _ _ _ _) fun N M' hM => SC.factors (PD.up (hr' (cp, vp) (by simp)) hM) (PD.up (hr' (cq, vq) (by simp)) hM) fun v hv => ?_) fun _ _ _ _ => PD.pure fun _ _ => by
        simp [Stmt.size, hlen]
      obtain ⟨c, hm, rfl⟩ := List.mem_map.mp hv
      exact PD.up (hr' c (List.mem_cons_of_mem _ (List.mem_cons_of_mem _ hm))) hM

theorem Requests.runs {stmts : List (Stmt F)} {dp : Env F G → Drv (Prover F G) (List G)} (hq : Requests stmts dp) (hst : ∀ st ∈ stmts, st.Runs) (env : Env F G) (g h : G) : ∀ M, PD env g h M (dp env) fun _ coms => coms.length = totalSize stmts := by
  induction hq with
  | nil => exact fun M => PD.pure fun _ _ => rfl
  | cons h1 h2 ih =>
    intro M
    exact PD.bind (h1.runs (hst _ List.mem_cons_self) env g h M) fun M1 cs _ hc => PD.bind (ih (fun st hm => hst st (List.mem_cons_of_mem _ hm)) M1) fun _ ds _ hd => PD.pure fun _ _ => by simp [totalSize, hc, hd]

/-- The commitments are what the verifying function reads. -/
theorem Request.verified {st : Stmt F} {dp : Env F G → Drv (Prover F G) (List G)} (hq : Request st dp) {env : Env F G} {g h : G} {p p' : Prover F G} {s : Verifier F G} {coms : List G} (J : Shared env env g h p s)
    (hd : dp env p = (.ok coms, p')) : coms.length = st.size ∧ ∃ s', st.verify env g h coms s = (.ok (), s') ∧ Shared env env g h p' s' := by
  have key : ∀ {P : Prop}, Follows env env g h st (dp env) P → coms.length = st.size ∧ ∃ s', st.verify env g h coms s = (.ok (), s') ∧ Shared env env g h p' s' := fun hf => by
    obtain ⟨hl, s', e, J', -⟩ := hf p p' s coms J hd
    exact ⟨hl, s', e, J'⟩
  cases hq with
  | boundedNum debug val lower upper n hval _ randomness rng hr sys =>
    unfold proveBoundedNum at hd
    obtain ⟨_, p1, h1, hd⟩ := Drv.bind_ok.mp hd
    obtain ⟨-, rfl⟩ := Drv.lift_ok.mp h1
    obtain ⟨a, p1, h1, hd⟩ := Drv.bind_ok.mp hd
    obtain ⟨-, rfl⟩ := Drv.lift_ok.mp h1
    obtain ⟨b, p1, h1, hd⟩ := Drv.bind_ok.mp hd
    obtain ⟨-, rfl⟩ := Drv.lift_ok.mp h1
    obtain ⟨bl, p1, h1, hd⟩ := Drv.bind_ok.mp hd
    obtain ⟨-, rfl⟩ := Drv.lift_ok.mp h1
    obtain ⟨cs, p1, c1, hd⟩ := Drv.bind_ok.mp hd
    obtain ⟨s1, c2, J1, o1, hl⟩ := J.commitAll rfl _ c1
    obtain ⟨⟨cv, vv⟩, ⟨ca, va⟩, ⟨cb, vb⟩, rfl⟩ : ∃ x y z, cs = [x, y, z] := List.length_eq_three.mp (by simpa using hl)
    obtain ⟨⟨⟩, p2, g1, hd⟩ := Drv.bind_ok.mp hd
    obtain ⟨rfl, rfl⟩ := Drv.pure_ok.mp hd
    obtain ⟨⟨⟩, s2, g2, J2, -, e⟩ := J1.gadgetOk rfl (Prog.Same.boundCheck (Alloc.pair vv _) (Alloc.pair va _) (Alloc.pair vb _) upper lower n) g1
    exact ⟨rfl, s2, Drv.bind_ok.mpr ⟨[cv, ca, cb], s, rfl, Drv.bind_ok.mpr ⟨_, s1, c2, g2⟩⟩, J2⟩
  | nonZero value randomness rng hr sys => exact key (follows_nonZero env env rfl g h value randomness rng sys)
  | setMembership value set randomness rng hr sys => exact key (follows_setMembership env env rfl g h value set randomness rng sys)
  | setMembershipAlt value set randomness rng hr sys => exact key (follows_setMembershipAlt env env rfl g h value set randomness rng sys)
  | setNonMembership value set randomness rng hr sys => exact key (follows_setNonMembership env env rfl g h value set randomness rng sys)
  | hamming original new hlen count sys =>
    change proveHammingDistance env original new count sys p = _ at hd
    unfold proveHammingDistance at hd
    rw [if_neg (by simpa using hlen)] at hd
    obtain ⟨cs, p1, c1, hd⟩ := Drv.bind_ok.mp hd
    obtain ⟨s1, c2, J1, o1, hl⟩ := J.commitAll rfl _ c1
    have hl' : cs.length = original.length := by simpa using hl
    obtain ⟨⟨⟩, p2, g1, hd⟩ := Drv.bind_ok.mp hd
    obtain ⟨rfl, rfl⟩ := Drv.pure_ok.mp hd
    obtain ⟨⟨⟩, s2, g2, J2, -, e⟩ := J1.gadgetOk rfl (Prog.Same.hamming (pair_zip hl') new count) g1
    refine ⟨by simp [Stmt.size, hl', hlen], s2, Drv.bind_ok.mpr ⟨_, s1, c2, g2⟩, J2⟩
  | mimc x y image constants rounds randomness rng hr => exact key (follows_mimc env env rfl g h x y image constants rounds randomness rng)
  | poseidon2 a b output p sbox randomness rng hr =>
    exact key (follows_preimage env env rfl g h (inputs := [a, b]) rfl rfl (isCall2 _ p output) rfl True (fun _ _ _ => trivial) randomness rng)
  | poseidon4 a b c d output p sbox randomness rng hr =>
    exact key (follows_preimage env env rfl g h (inputs := [a, b, c, d]) rfl rfl (isCall4 _ p output) rfl True (fun _ _ _ => trivial) randomness rng)
  | poseidon8 a b c d a' b' c' d' output p sbox randomness rng hr =>
    exact key (follows_preimage env env rfl g h (inputs := [a, b, c, d, a', b', c', d']) rfl rfl (isCall8 _ p output) rfl True (fun _ _ _ => trivial) randomness rng)
  | inclusion4 leaf leafIndex root siblings p sbox hs hd' randomness rng hr coins =>
    exact key (follows_inclusion env env rfl g h hs (st := .inclusion4 root siblings.length p sbox) rfl (call := merkleCall4 root siblings.length p sbox.synthesize) rfl
      (fun l i ns z => Prog.Same.merkleGadget4 hd' root l i leafIndex ns [z] p sbox) True (fun _ _ _ _ _ => trivial) randomness rng coins)
  | inclusion8 leaf leafIndex root siblings p sbox hs hd' randomness rng hr coins =>
    exact key (follows_inclusion env env rfl g h hs (st := .inclusion8 root siblings.length p sbox) rfl (call := merkleCall8 root siblings.length p sbox.synthesize) rfl
      (fun l i ns z => Prog.Same.merkleGadget8 hd' root l i leafIndex ns z p sbox) True (fun _ _ _ _ _ => trivial) randomness rng coins)
  | factors p q rest r => exact key (follows_factors env env rfl g h p q rest r)

theorem Requests.verified {stmts : List (Stmt F)} {dp : Env F G → Drv (Prover F G) (List G)} (hq : Requests stmts dp) {env : Env F G} {g h : G} : ∀ {p p' : Prover F G} {s : Verifier F G} {coms : List G}, Shared env env g h p s →
    dp env p = (.ok coms, p') → coms.length = totalSize stmts ∧ ∃ s', verifyStmts env g h stmts coms s = (.ok (), s') ∧ Shared env env g h p' s' := by
  induction hq with
  | nil =>
    intro p p' s coms J hd
    obtain ⟨rfl, rfl⟩ := Drv.pure_ok.mp hd
    exact ⟨rfl, s, rfl, J⟩
  | @cons st stmts dp dps h1 h2 ih =>
    intro p p' s coms J hd
    obtain ⟨cs, p1, c1, hd⟩ := Drv.bind_ok.mp hd
    obtain ⟨cs', p2, c2, hd⟩ := Drv.bind_ok.mp hd
    obtain ⟨rfl, rfl⟩ := Drv.pure_ok.mp hd
    obtain ⟨l1, s1, e1, J1⟩ := h1.verified J c1
    obtain ⟨l2, s2, e2, J2⟩ := ih J1 c2
    refine ⟨by simp [totalSize, l1, l2], s2, ?_, J2⟩
    show (do st.verify env g h ((cs ++ cs').take st.size); verifyStmts env g h stmts ((cs ++ cs').drop st.size) : Drv (Verifier F G) Unit) s = _
    rw [← l1, List.take_left, List.drop_left]
    exact Drv.bind_ok.mpr ⟨(), s1, e1, e2⟩

/-- **C87**, the step before the proof: whatever the secret inputs are, the proving functions return their commitments, one after the other on one prover. -/
theorem c87_commitments {stmts : List (Stmt F)} {dp : Env F G → Drv (Prover F G) (List G)} (hq : Requests stmts dp) (hst : ∀ st ∈ stmts, st.Runs) (env : Env F G) (label : String) (g h : G) :
    ∃ coms p, dp env (Prover.new g h [.init label]) = (.ok coms, p) ∧ coms.length = totalSize stmts := by
  obtain ⟨coms, p, e, -, -, hl⟩ := hq.runs hst env g h 0 (Prover.new g h [.init label]) ⟨Verifier.new [.init label], .new _ _ g h [.init label] 0 0, rfl⟩ (Nat.zero_le _)
  exact ⟨coms, p, e, hl⟩

/-- **C87**: the proving functions are called, one or several of them on one prover, with any secret inputs, blindings or a generator of random numbers, and enough generators.  Then a proof comes out, with as many
commitments as the statements are about: there is no panic, no error, and no test whether the statements are true. -/
theorem c87_proof {stmts : List (Stmt F)} {dp : Env F G → Drv (Prover F G) (List G)} (hq : Requests stmts dp) (hst : ∀ st ∈ stmts, st.Runs) (env : Env F G) (label : String) (g h : G) (c : Coins F) (Gs Hs : List G)
    (hG : nextPowerOfTwo (totalGates stmts) ≤ Gs.length) (hH : nextPowerOfTwo (totalGates stmts) ≤ Hs.length) :
    ∃ pr coms, genProof env label g h c Gs Hs (dp env) = .ok (pr, coms) ∧ coms.length = totalSize stmts := by
  obtain ⟨coms, p, e, hl⟩ := c87_commitments hq hst env label g h
  obtain ⟨-, s, hv, J⟩ := hq.verified (.new _ _ g h [.init label] 0 0) e
  obtain ⟨hw, hi⟩ := J.inStep rfl
  obtain ⟨hgates, -, -⟩ := c65_list env g h label stmts coms hl.ge hv
  have hdef : (p.start c Gs Hs).deferred = [] := by
    have := hi.deferred
    rw [(OnePhase.stmts _ g h stmts coms _ _ _ hv).1] at this
    exact List.forall₂_nil_right_iff.mp this
  have hcrc : (p.start c Gs Hs).createRandomizedConstraints env = .ok { p.start c Gs Hs with pending := none, transcript := (p.start c Gs Hs).transcript.r1cs1PhaseDomainSep } := by
    unfold Prover.createRandomizedConstraints
    simp only [hdef, List.length_nil, if_true]
  have hn : p.aL.length = totalGates stmts := by rw [← hi.num, hgates]
  have hV : s.V.length = p.v.length := by
    have := congrArg List.length hi.V
    rwa [List.length_zipWith, hi.lenB, Nat.min_self] at this
  have hr := c82_in_range env label g h stmts coms s hv
  obtain ⟨pr, t, h3⟩ := (c19_prove_enough env p _ c Gs Hs hw hcrc (by show nextPowerOfTwo p.aL.length ≤ _; rwa [hn]) (by show nextPowerOfTwo p.aL.length ≤ _; rwa [hn])).1.mpr fun lc hlc t ht => by
    show Var.InRange p.aL.length p.v.length t.1
    obtain ⟨i, hi', rfl⟩ := List.mem_iff_getElem.mp (show lc ∈ p.constraints from hlc)
    have hi2 : i < s.constraints.length := by rw [← hi.cons.length_eq]; exact hi'
    have hE : LC.Equiv p.constraints[i] s.constraints[i] := List.forall₂_iff_get.mp hi.cons |>.2 i hi' hi2
    have := hr _ (List.getElem_mem hi2) t (hE.mem_iff.mp ht)
    rwa [hi.num, hV] at this
  exact ⟨pr, coms, by simp only [genProof, e, h3], hl⟩

/-- **C87**, false statements: if the statements are not all true of the inputs, a proof comes out as well, and the verifier refuses it, unless one challenge falls into a small set fixed before. -/
theorem c87_unnoticed [DecidableEq G] {stmts : List (Stmt F)} {dp : Env F G → Drv (Prover F G) (List G)} (hq : Requests stmts dp) (hst : ∀ st ∈ stmts, st.Runs) (hok : ∀ st ∈ stmts, st.Ok) {P : Prop} (ha : Attempts stmts dp P) (hP : ¬ P)
    (env : Env F G) (hb : env.batchInvert [] = .ok ([], 1)) (label : String) (g h : G) (hg : g ≠ 0) (c : Coins F) (Gs Hs : List G)
    (hsize : nextPowerOfTwo (totalGates stmts) < 2 ^ 32) (hG : nextPowerOfTwo (totalGates stmts) ≤ Gs.length) (hH : nextPowerOfTwo (totalGates stmts) ≤ Hs.length) :
    ∃ (log : Transcript F G) (bad : Finset F), bad.card ≤ totalConstraints stmts ∧ ∀ O : Oracle F G, (∀ l, O l ≠ 0) → O log ∉ bad → ∃ pr coms,
      genProof (env.withOracle O) label g h c Gs Hs (dp (env.withOracle O)) = .ok (pr, coms) ∧ ∀ r : F, r ≠ 0 →
        verifyProof (env.withOracle O) label (verifyStmts (env.withOracle O) g h stmts coms) pr g h Gs Hs r = Res.err .verificationError := by
  obtain ⟨log, bad, hcard, hbad⟩ := c83_rejected env hb label g h hg hok hsize ha hP c Gs Hs
  refine ⟨log, bad, hcard, fun O h0 hO => ?_⟩
  obtain ⟨pr, coms, e, -⟩ := c87_proof hq hst (env.withOracle O) label g h c Gs Hs hG hH
  exact ⟨pr, coms, e, hbad O h0 pr coms e hO⟩

/-! ## The exception -/

/-- **C87**, the exception: in debug builds `prove_bounded_num` panics for every value outside the bounds. -/
theorem c87_bounded_debug (env : Env F G) (val lower upper n : ℕ) (hv : val < lower ∨ upper < val) (randomness : Option F) (rng : Option (ℕ → F)) (hr : Given randomness rng) (sys : ℕ → F) (p : Prover F G) :
    Panics (proveBoundedNum env true val randomness lower upper n rng sys p).1 := by
  obtain ⟨g1, b, g2⟩ := PD.given hr
  unfold proveBoundedNum
  refine bind_panics' (Drv.lift_ok.mpr ⟨g1, rfl⟩) ?_
  by_cases hl : lower ≤ val
  · have hu : upper < val := by omega
    refine bind_panics' (a := val - lower) (Drv.lift_ok.mpr ⟨by simp [subU64, hl], rfl⟩) (bind_panics ⟨"attempt to subtract with overflow", ?_⟩)
    simp [Drv.lift, subU64, Nat.not_le.mpr hu]
  · refine bind_panics ⟨"attempt to subtract with overflow", ?_⟩
    simp [Drv.lift, subU64, hl]

/-! ## Cases -/

/-- The run of C83, with false inputs, is one of these calls. -/
theorem refuted_requests : Requests [Stmt.setMembership ([2, 3, 5] : List Z101), .nonZero] refutedRun :=
  .cons (.setMembership (7 : Z101) [2, 3, 5] (some 3) none (.inl rfl) fun i => i + 1) (.cons (.nonZero (4 : Z101) (some 9) none (.inl rfl) fun i => i + 20) .nil)

/-- The hypotheses of `c87_proof` are met. -/
example : ∃ pr coms, genProof (Env.std fun _ => 2 : Env Z101 Z101) "set" 1 5 refutedCoins [2, 3, 4, 5, 6, 7, 8, 9] [11, 12, 13, 14, 15, 16, 17, 18] (refutedRun (Env.std fun _ => 2)) = .ok (pr, coms) ∧ coms.length = 6 :=
  c87_proof refuted_requests (by intro st hst; simp only [List.mem_cons, List.not_mem_nil, or_false] at hst; rcases hst with rfl | rfl <;> trivial) _ "set" 1 5 refutedCoins _ _ (by decide +kernel) (by decide +kernel)

/-- The hypotheses of `c87_unnoticed` are met. -/
example : ∃ (log : Transcript Z101 Z101) (bad : Finset Z101), bad.card ≤ totalConstraints [Stmt.setMembership ([2, 3, 5] : List Z101), .nonZero] ∧ ∀ O : Oracle Z101 Z101, (∀ l, O l ≠ 0) → O log ∉ bad → ∃ pr coms,
    genProof ((Env.std fun _ => 2).withOracle O) "set" 1 5 refutedCoins [2, 3, 4, 5, 6, 7, 8, 9] [11, 12, 13, 14, 15, 16, 17, 18] (refutedRun ((Env.std fun _ => 2).withOracle O)) = .ok (pr, coms) ∧ ∀ r : Z101, r ≠ 0 →
      verifyProof ((Env.std fun _ => 2).withOracle O) "set" (verifyStmts ((Env.std fun _ => 2).withOracle O) 1 5 [Stmt.setMembership ([2, 3, 5] : List Z101), .nonZero] coms) pr 1 5
        [2, 3, 4, 5, 6, 7, 8, 9] [11, 12, 13, 14, 15, 16, 17, 18] r = Res.err .verificationError :=
  c87_unnoticed refuted_requests (by intro st hst; simp only [List.mem_cons, List.not_mem_nil, or_false] at hst; rcases hst with rfl | rfl <;> trivial)
    (by intro st hst; simp only [List.mem_cons, List.not_mem_nil, or_false] at hst; rcases hst with rfl | rfl <;> trivial)
    (.cons (.setMembership (7 : Z101) [2, 3, 5] (some 3) none fun i => i + 1) (.cons (.nonZero (4 : Z101) (some 9) none fun i => i + 20) .nil))
    (fun h => absurd (show (7 : Z101) ∈ ([2, 3, 5] : List Z101) from h.1) (by decide)) (Env.std fun _ => 2) (by simp [Env.std]) "set" 1 5 (by decide) refutedCoins _ _ (by decide +kernel) (by decide +kernel) (by decide +kernel)

/-- In a debug build the bounded number function panics on `9` and the bounds `10` and `20`; in a release build a proof comes out. -/
example : Panics (proveBoundedNum (Env.std fun _ => 2 : Env Z101 Z101) true 9 (some 3) 10 20 5 none (fun i => i) (Prover.new (G := Z101) 1 5 [.init "b"])).1 := c87_bounded_debug _ 9 10 20 5 (.inl (by decide)) _ _ (.inl rfl) _ _

example (c : Coins Z101) (Gs Hs : List Z101) (hG : Gs.length = 16) (hH : Hs.length = 16) :
    ∃ pr coms, genProof (Env.std fun _ => 2 : Env Z101 Z101) "b" 1 5 c Gs Hs (do let cs ← proveBoundedNum (Env.std fun _ => 2) false 9 (some 3) 10 20 5 none (fun i => i); let cs' ← pure []; return cs ++ cs') = .ok (pr, coms) ∧ coms.length = 3 :=
  c87_proof (.cons (.boundedNum false 9 10 20 5 (by decide) (.inl rfl) (some (3 : Z101)) none (.inl rfl) fun i => (i : Z101)) .nil) (by intro st hst; simp only [List.mem_cons, List.not_mem_nil, or_false] at hst; subst hst; exact (show false = false ∨ 10 ≤ 20 from .inl rfl))
    (Env.std fun _ => 2) "b" 1 5 c Gs Hs (by rw [hG]; decide +kernel) (by rw [hH]; decide +kernel)

end Bp
