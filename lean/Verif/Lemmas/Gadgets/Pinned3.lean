import Verif.Lemmas.Gadgets.Pinned2
import Verif.Lemmas.Knowledge
import Verif.Props.Gadgets.Alt2
import Verif.Props.Gadgets.Factors
import Verif.Props.Gadgets.Merkle
import Verif.Props.Gadgets.Randomizer

/-! # The commitments of a statement are determined by the values at the gates -/

set_option linter.unusedSectionVars false

namespace Bp
variable {F G : Type} [Field F] [AddCommGroup G] [Module F G] {α : Type}

theorem Verifier.gadget_pinned {env : Env F G} {c : Prog1 F α} {s s' : Verifier F G} {a : α} (h : Verifier.gadget env c s = (.ok a, s')) {σ σ' : Assignment F} {Q : α → Prop}
    (hv : VA env σ σ' c Q) (hs : σ.Sat s'.constraints) (hs' : σ'.Sat s'.constraints) : Q a := by
  rw [Verifier.gadget_ok] at h
  exact hv (fun cb s => s.specify cb) (fun _ _ => rfl) _ _ _ h hs hs'

/-- Two satisfying assignments with the same gates give the same values to the `k` commitments. -/
def Pinned (k : ℕ) (statics : List F) (dv : List G → Drv (Verifier F G) Unit) : Prop :=
  ∀ coms s s', coms.length = k → dv coms s = (.ok (), s') → ∀ σ σ' : Assignment F, Wires σ σ' → σ.Gates → σ'.Gates → σ.Sat s'.constraints → σ'.Sat s'.constraints →
    (∀ (i : ℕ) x, statics[i]? = some x → σ.committed (s.V.length + k + i) = x) → (∀ (i : ℕ) x, statics[i]? = some x → σ'.committed (s.V.length + k + i) = x) →
    ∀ i < k, σ.committed (s.V.length + i) = σ'.committed (s.V.length + i)

namespace Pinned

theorem boundedNum [IntRep F] (env : Env F G) (debug : Bool) (lower upper n : ℕ) : Pinned 3 [] (verifyBoundedNum env debug lower upper n) := by
  intro coms s s' hk h σ σ' hw _ _ hs hs' _ _
  unfold verifyBoundedNum at h
  obtain ⟨cs, s1, h1, h⟩ := Drv.bind_ok.mp h
  rw [Drv.lift_ok, takeComms_ok] at h1
  obtain ⟨⟨hl, rfl⟩, rfl⟩ := h1
  obtain ⟨vars, s2, h2, h⟩ := Drv.bind_ok.mp h
  rw [Verifier.commits_ok] at h2
  obtain ⟨rfl, rfl⟩ := h2
  rw [List.length_take, Nat.min_eq_left hl] at h
  obtain ⟨a, b, c⟩ := Verifier.gadget_pinned h (VA.boundCheck hw _ _ _ _ _ _ _) hs hs'
  intro i hi
  match i, hi with
  | 0, _ => exact a
  | 1, _ => exact b
  | 2, _ => exact c

theorem nonZeroVal (env : Env F G) : Pinned 2 [] (verifyNonZeroVal (F := F) env) := by
  intro coms s s' hk h σ σ' hw _ _ hs hs' _ _
  unfold verifyNonZeroVal at h
  obtain ⟨cs, s1, h1, h⟩ := Drv.bind_ok.mp h
  rw [Drv.lift_ok, takeComms_ok] at h1
  obtain ⟨⟨hl, rfl⟩, rfl⟩ := h1
  obtain ⟨vars, s2, h2, h⟩ := Drv.bind_ok.mp h
  rw [Verifier.commits_ok] at h2
  obtain ⟨rfl, rfl⟩ := h2
  rw [List.length_take, Nat.min_eq_left hl] at h
  obtain ⟨a, b⟩ := Verifier.gadget_pinned h (VA.isNonzero hw _ _) hs hs'
  intro i hi
  match i, hi with
  | 0, _ => exact a
  | 1, _ => exact b

theorem setMembership (env : Env F G) (set : List F) (hne : set ≠ []) : Pinned (set.length + 1) [] (verifySetMembership env set) := by
  intro coms s s' hk h σ σ' hw _ _ hs hs' _ _
  unfold verifySetMembership at h
  obtain ⟨cs, s1, h1, h⟩ := Drv.bind_ok.mp h
  rw [Drv.lift_ok, takeComms_ok] at h1
  obtain ⟨⟨hl, rfl⟩, rfl⟩ := h1
  obtain ⟨vars, s2, h2, h⟩ := Drv.bind_ok.mp h
  rw [Verifier.commits_ok] at h2
  obtain ⟨rfl, rfl⟩ := h2
  rw [List.length_take, Nat.min_eq_left hl, List.range_succ_eq_map, List.map_cons] at h
  obtain ⟨a, b⟩ := Verifier.gadget_pinned h (VA.setMembership hw _ _ _) hs hs'
  intro i hi
  cases i with
  | zero => exact a hne
  | succ i => exact b i (by omega) ⟨Var.committed (s.V.length + (i + 1)), none⟩ (by simp [List.getElem?_range (show i < set.length by omega)])

theorem evens_get {α : Type} : ∀ (l : List α) (i : ℕ), (evens l)[i]? = l[2 * i]?
  | [], i => by simp [evens]
  | [x], i => by cases i <;> simp [evens]
  | x :: y :: l, i => by
    cases i with
    | zero => simp [evens]
    | succ i => simp [evens, evens_get l i, show 2 * (i + 1) = 2 * i + 1 + 1 by ring]

theorem odds_get {α : Type} : ∀ (l : List α) (i : ℕ), (odds l)[i]? = l[2 * i + 1]?
  | [], i => by simp [odds]
  | [x], i => by simp [odds]
  | x :: y :: l, i => by
    cases i with
    | zero => simp [odds]
    | succ i => simp [odds, odds_get l i, show 2 * (i + 1) = 2 * i + 1 + 1 by ring]

theorem setNonMembership (env : Env F G) (set : List F) (hne : set ≠ []) : Pinned (2 * set.length + 1) [] (verifySetNonMembership env set) := by
  intro coms s s' hk h σ σ' hw _ _ hs hs' _ _
  unfold verifySetNonMembership at h
  obtain ⟨cs, s1, h1, h⟩ := Drv.bind_ok.mp h
  rw [Drv.lift_ok, takeComms_ok] at h1
  obtain ⟨⟨hl, rfl⟩, rfl⟩ := h1
  obtain ⟨vars, s2, h2, h⟩ := Drv.bind_ok.mp h
  rw [Verifier.commits_ok] at h2
  obtain ⟨rfl, rfl⟩ := h2
  rw [List.length_take, Nat.min_eq_left hl, List.range_succ_eq_map, List.map_cons] at h
  obtain ⟨a, b, c⟩ := Verifier.gadget_pinned h (VA.setNonMembership hw _ _ _ _) hs hs'
  intro i hi
  cases i with
  | zero => exact a hne
  | succ i =>
    rcases Nat.even_or_odd' i with ⟨j, rfl | rfl⟩
    · exact b j (by omega) ⟨Var.committed (s.V.length + (2 * j + 1)), none⟩ (by rw [evens_get]; simp [List.getElem?_range (show 2 * j < 2 * set.length by omega)])
    · exact c j (by omega) ⟨Var.committed (s.V.length + (2 * j + 1 + 1)), none⟩ (by rw [odds_get]; simp [List.getElem?_range (show 2 * j + 1 < 2 * set.length by omega)])

theorem bits {env : Env F G} {σ σ' : Assignment F} (hw : Wires σ σ') : ∀ {Vs : List G} {s s' : Verifier F G} {vars : List Var}, verifyBits env Vs s = (.ok vars, s') →
    σ.Sat s'.constraints → σ'.Sat s'.constraints → ∀ i < Vs.length, σ.committed (s.V.length + i) = σ'.committed (s.V.length + i)
  | [], s, s', vars, h, _, _ => by simp
  | V :: Vs, s, s', vars, h, hs, hs' => by
    obtain ⟨vs, s1, h1, h⟩ := Drv.bind_ok.mp h
    rw [Verifier.commits_ok] at h1
    obtain ⟨rfl, rfl⟩ := h1
    simp only [List.length_singleton, List.range_one, List.map_cons, List.map_nil, Nat.add_zero] at h
    obtain ⟨⟨⟩, s2, h2, h⟩ := Drv.bind_ok.mp h
    obtain ⟨rest, s3, h3, h⟩ := Drv.bind_ok.mp h
    obtain ⟨rfl, rfl⟩ := Drv.pure_ok.mp h
    obtain ⟨b1, -, -⟩ := verifyBits_spec h3
    obtain ⟨-, a2, -⟩ := Verifier.gadget_sound h2
    have e := Verifier.gadget_pinned h2 (VA.bit hw _) (fun lc hlc => hs lc (b1.subset hlc)) (fun lc hlc => hs' lc (b1.subset hlc))
    have ih := bits hw h3 hs hs'
    intro i hi
    cases i with
    | zero => exact e
    | succ i =>
      have := ih i (by simpa using hi)
      rw [a2] at this
      simpa [Nat.add_assoc, Nat.add_comm 1] using this

theorem setMembershipAlt (env : Env F G) (set : List ℕ) : Pinned (set.length + 1) [] (verifySetMembershipAlt (F := F) env set) := by
  intro coms s s' hk h σ σ' hw _ _ hs hs' _ _
  unfold verifySetMembershipAlt at h
  obtain ⟨cs, s1, h1, h⟩ := Drv.bind_ok.mp h
  rw [Drv.lift_ok, takeComms_ok] at h1
  obtain ⟨⟨hl, rfl⟩, rfl⟩ := h1
  obtain ⟨vars, s2, h2, h⟩ := Drv.bind_ok.mp h
  obtain ⟨b1, b2, b3⟩ := verifyBits_spec h2
  obtain ⟨⟨⟩, s3, h3, h⟩ := Drv.bind_ok.mp h
  obtain ⟨d1, d2, -⟩ := Verifier.gadget_sound h3
  obtain ⟨vv, s4, h4, h⟩ := Drv.bind_ok.mp h
  rw [Verifier.commits_ok] at h4
  obtain ⟨rfl, rfl⟩ := h4
  have e1 : ((coms.take (set.length + 1)).drop set.length).length = 1 := by simp; omega
  have e2 : ((coms.take (set.length + 1)).take set.length).length = set.length := by simp; omega
  rw [e1] at h
  simp only [List.range_one, List.map_cons, List.map_nil, Nat.add_zero] at h
  obtain ⟨a1, -, -⟩ := Verifier.gadget_sound h
  have hb := bits hw h2 (fun lc hlc => hs lc (a1.subset (d1.subset hlc))) (fun lc hlc => hs' lc (a1.subset (d1.subset hlc)))
  have hv := Verifier.gadget_pinned h (VA.vectorProduct hw _ _ _) hs hs'
  have hlen : s3.V.length = s.V.length + set.length := by rw [d2, b2, List.length_append, e2]
  rw [e2] at hb
  intro i hi
  rcases Nat.lt_succ_iff_lt_or_eq.mp hi with hi | rfl
  · exact hb i hi
  · rw [← hlen]
    exact hv

theorem mimcPreimage (env : Env F G) (image : F) (constants : List F) (rounds : ℕ) (hr : rounds ≠ 0) : Pinned 2 [] (verifyMimcPreimage env image constants rounds) := by
  intro coms s s' hk h σ σ' hw _ _ hs hs' _ _
  unfold verifyMimcPreimage at h
  obtain ⟨cs, s1, h1, h⟩ := Drv.bind_ok.mp h
  rw [Drv.lift_ok, takeComms_ok] at h1
  obtain ⟨⟨hl, rfl⟩, rfl⟩ := h1
  obtain ⟨vars, s2, h2, h⟩ := Drv.bind_ok.mp h
  rw [Verifier.commits_ok] at h2
  obtain ⟨rfl, rfl⟩ := h2
  rw [List.length_take, Nat.min_eq_left hl] at h
  obtain ⟨a, b⟩ := Verifier.gadget_pinned h (VA.mimc hw _ _ _ _ _ hr) hs hs'
  intro i hi
  match i, hi with
  | 0, _ => exact a
  | 1, _ => exact b

theorem factors (env : Env F G) (k : ℕ) (r : F) : Pinned (k + 2) [] (verifyFactors env k r) := by
  intro coms s s' hk h σ σ' hw _ _ hs hs' _ _
  unfold verifyFactors at h
  obtain ⟨cs, s1, h1, h⟩ := Drv.bind_ok.mp h
  rw [Drv.lift_ok, takeComms_ok] at h1
  obtain ⟨⟨hl, rfl⟩, rfl⟩ := h1
  obtain ⟨vars, s2, h2, h⟩ := Drv.bind_ok.mp h
  rw [Verifier.commits_ok] at h2
  obtain ⟨rfl, rfl⟩ := h2
  rw [List.length_take, Nat.min_eq_left hl, List.range_succ_eq_map, List.map_cons, List.range_succ_eq_map, List.map_cons, List.map_cons] at h
  have a := Verifier.gadget_pinned h (VA.factors hw _ _ _ _) hs hs'
  intro i hi
  refine a (Var.committed (s.V.length + i)) ?_
  match i, hi with
  | 0, _ => simp
  | 1, _ => simp
  | i + 2, hi =>
    refine .tail _ (.tail _ ?_)
    rw [List.map_map, List.map_map]
    exact List.mem_map.mpr ⟨i, List.mem_range.mpr (by omega), rfl⟩

theorem preimage (env : Env F G) (k : ℕ) (g h : G) {sbox : SboxType} (hsb : sbox ≠ .inverse) (p : PoseidonParams F) (hp : p.fullRoundsBeginning ≠ 0) (output : F)
    {call : List Var → List Var → Prog1 F Unit} (hc : IsCall k sbox.synthesize p output call) : Pinned k [0] (verifyPreimage env k g h call) := by
  intro coms s s' hk hd σ σ' hw _ _ hs hs' _ _
  unfold verifyPreimage at hd
  obtain ⟨cs, s1, h1, hd⟩ := Drv.bind_ok.mp hd
  rw [Drv.lift_ok, takeComms_ok] at h1
  obtain ⟨⟨hl, rfl⟩, rfl⟩ := h1
  obtain ⟨vars, s2, h2, hd⟩ := Drv.bind_ok.mp hd
  rw [Verifier.commits_ok] at h2
  obtain ⟨rfl, rfl⟩ := h2
  obtain ⟨st, s3, h3, hd⟩ := Drv.bind_ok.mp hd
  rw [allocateStaticsForVerifier_one, Verifier.commits_ok] at h3
  obtain ⟨rfl, rfl⟩ := h3
  rw [List.length_take, Nat.min_eq_left hl] at hd
  simp only [List.length_singleton, List.range_one, List.map_cons, List.map_nil, List.length_append, List.length_take, Nat.min_eq_left hl, Nat.add_zero] at hd
  by_cases hwd : p.width = k + 1
  · rw [(hc _ _ (by simp)).1 hwd] at hd
    have a := Verifier.gadget_pinned hd (VA.bind (VA.hashC hw hsb p hp _) fun _ hx => VA.know hx) hs hs'
    intro i hi
    exact (a (LC.ofVar (Var.committed (s.V.length + i))) (.tail _ (List.mem_map.mpr ⟨_, List.mem_map.mpr ⟨i, List.mem_range.mpr hi, rfl⟩, rfl⟩))).ofVar
  · obtain ⟨w, hw'⟩ := (hc ((List.range k).map fun i => Var.committed (s.V.length + i)) (Var.committed (s.V.length + k)) (by simp)).2 hwd
    rw [hw'] at hd
    exact (Verifier.gadget_pinned (Q := fun _ => False) hd VA.panic hs hs').elim

theorem inclusion (env : Env F G) (g h : G) {call : Var → Alloc F → List Var → List Var → Prog1 F Unit} (n : ℕ)
    (hc : ∀ σ σ' : Assignment F, Wires σ σ' → ∀ leaf index nodes z, nodes.length = n → VA env σ σ' (call leaf index nodes [z]) fun _ => AgreeV σ σ' leaf ∧ AgreeV σ σ' index.var ∧ ∀ v ∈ nodes, AgreeV σ σ' v) :
    Pinned (2 + n) [0] (verifyInclusion env g h call) := by
  intro coms s s' hl hd σ σ' hw _ _ hs hs' _ _
  match coms, hl, hd with
  | [], hl, _ => simp at hl; omega
  | [_], hl, _ => simp at hl; omega
  | cL :: cI :: ns, hl, hd =>
  simp only [List.length_cons] at hl
  have hn : ns.length = n := by omega
  simp only [verifyInclusion] at hd
  obtain ⟨vars, s1, h1, hd⟩ := Drv.bind_ok.mp hd
  rw [Verifier.commits_ok] at h1
  obtain ⟨rfl, rfl⟩ := h1
  obtain ⟨vs, s2, h2, hd⟩ := Drv.bind_ok.mp hd
  rw [Verifier.commits_ok] at h2
  obtain ⟨rfl, rfl⟩ := h2
  obtain ⟨st, s3, h3, hd⟩ := Drv.bind_ok.mp hd
  rw [allocateStaticsForVerifier_one, Verifier.commits_ok] at h3
  obtain ⟨rfl, rfl⟩ := h3
  simp only [List.length_cons, List.length_nil, List.length_append, Nat.zero_add, List.range_one, List.map_cons, List.map_nil, Nat.add_zero, Nat.reduceAdd,
    show List.range 2 = [0, 1] from rfl] at hd
  obtain ⟨a, b, c⟩ := Verifier.gadget_pinned hd (hc σ σ' hw _ _ _ _ (by simpa using hn)) hs hs'
  intro i hi
  match i, hi with
  | 0, _ => exact a
  | 1, _ => exact b
  | i + 2, hi => exact c (Var.committed (s.V.length + (i + 2))) (List.mem_map.mpr ⟨i, List.mem_range.mpr (by omega), by congr 1; omega⟩)

theorem inclusion4 [ByteRep F] (env : Env F G) (root : F) (depth : ℕ) (p : PoseidonParams F) (sbox : SboxType) (g h : G) : Pinned (2 + 3 * depth) [0] (verifyInclusion4 env root depth p sbox g h) :=
  inclusion env g h _ fun _ _ hw _ _ _ _ hn => VA.merkleGadget4 hw _ p depth root _ _ _ _ hn (levels4 depth)

theorem inclusion8 [ByteRep F] (env : Env F G) (root : F) (depth : ℕ) (p : PoseidonParams F) (sbox : SboxType) (g h : G) : Pinned (2 + 7 * depth) [0] (verifyInclusion8 env root depth p sbox g h) :=
  inclusion env g h _ fun _ _ hw _ _ _ _ hn => VA.merkleGadget8 hw _ p depth root _ _ _ _ hn

theorem randomizer [ByteRep F] (env : Env F G) (g h : G) {sbox : SboxType} (hsb : sbox ≠ .inverse) (p : PoseidonParams F) (hp : p.fullRoundsBeginning ≠ 0) {depth : ℕ} (hdep : depth ≠ 0) (t : SparseTree F)
    (db : HashDb (List F)) (indices : List F) : Pinned (1 + indices.length * (1 + 3 * depth)) [0] (verifyRandomizer env t db indices depth p sbox g h) := by
  intro coms s s' hk hd σ σ' hw hg hg' hs hs' hst hst'
  unfold verifyRandomizer at hd
  obtain ⟨c1, s1, h1, hd⟩ := Drv.bind_ok.mp hd
  obtain ⟨h1', rfl⟩ := Drv.lift_ok.mp h1
  obtain ⟨hl1, rfl⟩ := takeComms_ok.mp h1'
  obtain ⟨v1, s2, h2, hd⟩ := Drv.bind_ok.mp hd
  rw [Verifier.commits_ok] at h2
  obtain ⟨rfl, rfl⟩ := h2
  obtain ⟨⟨vs, ps⟩, s3, h3, hd⟩ := Drv.bind_ok.mp hd
  obtain ⟨a1, a2, a3, a4, a5⟩ := commitVals_ok h3
  obtain ⟨st, s4, h4, hd⟩ := Drv.bind_ok.mp hd
  rw [allocateStaticsForVerifier_one, Verifier.commits_ok] at h4
  obtain ⟨rfl, rfl⟩ := h4
  have t1 : (coms.take 1).length = 1 := by rw [List.length_take]; omega
  rw [List.length_drop] at a1
  simp only [t1, List.range_one, List.map_cons, List.map_nil, Nat.add_zero, List.length_cons, List.length_nil, Nat.zero_add] at hd
  have hV : s3.V = s.V ++ coms.take (1 + indices.length * (1 + 3 * depth)) := by
    rw [a2]
    simp only
    rw [List.append_assoc, List.take_add]
  have hVl : s3.V.length = s.V.length + (1 + indices.length * (1 + 3 * depth)) := by
    rw [hV, List.length_append, List.length_take]; omega
  have h0 := hst 0 0 rfl
  have h0' := hst' 0 0 rfl
  rw [Nat.add_zero, ← hVl] at h0 h0'
  subst a4 a5
  simp only [List.length_append, t1] at hd
  obtain ⟨x1, x2, x3⟩ := Verifier.gadget_pinned hd (VA.randomizerGadget hw hg hg' hsb p hp (by simpa [Assignment.val] using h0) (by simpa [Assignment.val] using h0') hdep _ _ _ (by simp) (by simp)) hs hs'
  intro i hi
  cases i with
  | zero => exact x1
  | succ i =>
    have hq : i / (1 + 3 * depth) < indices.length := by
      rw [Nat.div_lt_iff_lt_mul (by omega)]; omega
    have hr := Nat.mod_lt i (show 0 < 1 + 3 * depth by omega)
    have hm := Nat.div_add_mod' i (1 + 3 * depth)
    generalize i / (1 + 3 * depth) = q at *
    generalize i % (1 + 3 * depth) = r at *
    cases r with
    | zero => exact x2 (Var.committed (s.V.length + (i + 1))) (List.mem_map.mpr ⟨q, List.mem_range.mpr hq, by congr 1; omega⟩)
    | succ r =>
      exact x3 _ (List.mem_map.mpr ⟨q, List.mem_range.mpr hq, rfl⟩) (Var.committed (s.V.length + (i + 1))) (List.mem_map.mpr ⟨r, List.mem_range.mpr (by omega), by congr 1; omega⟩)

end Pinned
end Bp
