import Verif.Lemmas.Gadgets.Helpers

set_option linter.unusedSectionVars false
set_option linter.unusedSimpArgs false

/-! # Bound check, (non-)membership, Hamming distance and MiMC gadgets: soundness, completeness, lock-step -/

namespace Bp
variable {F G : Type} [Field F] [AddCommGroup G] [Module F G]
variable {C C' : Type} {rnd : Bool} {env : Env F G} {σ : Assignment F} {onSpec : C → Prover F G → Prover F G}

/-- The allocated quantity has the settled value `x` and carries it as its assignment. -/
def Prover.HasA (p : Prover F G) (a : Alloc F) (x : F) : Prop := p.HasV a.var x ∧ a.assignment = some x

theorem Prover.HasA.next {p p' : Prover F G} {a : Alloc F} {x : F} (h : p.HasA a x) (hg : p.Good) (n : p.Next p') : p'.HasA a x :=
  ⟨h.1.next hg n, h.2⟩

theorem forall₂_getElem? {α β : Type} {R : α → β → Prop} {xs : List α} {ys : List β} (h : List.Forall₂ R xs ys) {i : ℕ} {y : β}
    (hy : ys[i]? = some y) : ∃ x, xs[i]? = some x ∧ R x y := by
  induction h generalizing i with
  | nil => simp at hy
  | cons h hs ih =>
    cases i with
    | zero => simp only [List.getElem?_cons_zero, Option.some.injEq] at hy ⊢; exact ⟨_, rfl, hy ▸ h⟩
    | succ i => simp only [List.getElem?_cons_succ] at hy ⊢; exact ih hy

theorem getElem?_of_lt {α : Type} {xs : List α} {i : ℕ} (h : i < xs.length) : ∃ x, xs[i]? = some x := ⟨_, List.getElem?_eq_getElem h⟩

theorem take_succ_map_prod {α : Type} (f : α → F) {xs : List α} {i : ℕ} {x : α} (h : xs[i]? = some x) :
    ((xs.take (i + 1)).map f).prod = ((xs.take i).map f).prod * f x := by
  rw [List.take_add_one, h]; simp

theorem take_succ_map_sum {α : Type} (f : α → F) {xs : List α} {i : ℕ} {x : α} (h : xs[i]? = some x) :
    ((xs.take (i + 1)).map f).sum = ((xs.take i).map f).sum + f x := by
  rw [List.take_add_one, h]; simp

/-! ## Bound check -/

theorem VS.ofRes {α : Type} (r : Res α) : VS env σ (Prog.ofRes r : Prog F C rnd α) (fun a => r = .ok a) := by
  cases r with
  | ok a => exact VS.ret rfl
  | error e => cases e with
    | err e => exact VS.err
    | panic w => exact VS.panic

theorem PS.ofRes {α : Type} {p : Prover F G} (a : α) : PS env onSpec p (Prog.ofRes (.ok a) : Prog F C rnd α) (fun b p' => b = a ∧ p' = p) := PS.ret ⟨rfl, rfl⟩

theorem Prog.Same.ofRes {α : Type} {RC : C → C' → Prop} (r : Res α) : Prog.Same RC Eq (Prog.ofRes r : Prog F C rnd α) (Prog.ofRes r) := by
  cases r with
  | ok a => exact .ret rfl
  | error e => cases e with
    | err e => exact .err
    | panic w => exact .panic

theorem VS.boundCheck [IntRep F] (hg : σ.Gates) (debug : Bool) (v a b : Alloc F) (max min n : ℕ) :
    VS env σ (boundCheckGadget debug v a b max min n : Prog F C rnd _) (fun _ => ∃ d k l : ℕ, subU64 debug max min = .ok d ∧ k < 2 ^ n ∧ l < 2 ^ n ∧
      σ.val v.var = (min : F) + k ∧ (max : F) = σ.val v.var + l ∧ (k : F) + l = d) := by
  refine VS.bind (VS.con _) fun _ h1 => VS.bind (VS.con _) fun _ h2 => VS.bind (VS.ofRes _) fun d hd => VS.bind (VS.conScalar _ _) fun _ h3 => ?_
  refine VS.bind (VS.positiveNo hg _ _) fun _ ⟨k, hk, ek⟩ => (VS.positiveNo hg _ _).mono fun _ ⟨l, hl, el⟩ => ?_
  simp only [LC.value_sub, LC.value_varAdd, LC.value_varSub, LC.value_ofVar, LC.value_ofScalar] at h1 h2 h3
  refine ⟨d, k, l, hd, hk, hl, ?_, ?_, ?_⟩
  · rw [← ek]; linear_combination h1
  · rw [← el]; linear_combination h2
  · rw [← ek, ← el]; exact h3

theorem PS.boundCheck [IntRep F] {p : Prover F G} (h : p.Good) {debug : Bool} {v a b : Alloc F} {max min n d : ℕ} {x y z : F}
    (hv : p.HasA v x) (ha : p.HasA a y) (hb : p.HasA b z) (hd : subU64 debug max min = .ok d)
    (hx : x - min = y) (hz : (max : F) - x = z) (hyz : y + z = d) (hy2 : IntRep.rep y < 2 ^ n) (hz2 : IntRep.rep z < 2 ^ n) :
    PS env onSpec p (boundCheckGadget debug v a b max min n : Prog F C rnd _) (fun _ p' => p.Next p') := by
  unfold boundCheckGadget
  rw [hd]
  refine PS.bind (PS.con h (((Prover.Has.varSub hv.1 (.ofScalar _)).sub (.ofVar ha.1)).congr ?_)) fun _ p1 n1 => ?_
  · linear_combination hx
  have hv1 := hv.next h n1
  have ha1 := ha.next h n1
  have hb1 := hb.next h n1
  refine PS.bind (PS.con n1.good ((((Prover.Has.ofScalar _).sub (.ofVar hv1.1)).sub (.ofVar hb1.1)).congr ?_)) fun _ p2 n2 => ?_
  · linear_combination hz
  have n12 := n1.trans n2
  refine PS.bind (PS.ofRes d) ?_
  rintro _ _ ⟨rfl, rfl⟩
  refine PS.bind (PS.conScalar n2.good ((Prover.Has.varAdd (ha1.next n1.good n2).1 (.ofVar (hb1.next n1.good n2).1)).congr hyz)) fun _ p3 n3 => ?_
  have n13 := n12.trans n3
  refine PS.bind (PS.positiveNo n3.good hy2 (ha.next h n13).1 ha.2) fun _ p4 n4 => ?_
  exact (PS.positiveNo n4.good hz2 (hb.next h (n13.trans n4)).1 hb.2).mono fun _ p5 n5 => (n13.trans n4).trans n5

theorem Prog.Same.boundCheck [IntRep F] {RC : C → C' → Prop} {debug : Bool} {v a b v' a' b' : Alloc F} (hv : v.Pair v') (ha : a.Pair a') (hb : b.Pair b') (max min n : ℕ) :
    Prog.Same RC (fun _ _ => True) (boundCheckGadget debug v a b max min n : Prog F C rnd _) (boundCheckGadget debug v' a' b' max min n) := by
  unfold boundCheckGadget
  rw [hv.1, ha.1, hb.1]
  refine .bind (.con .rfl') fun _ _ _ => .bind (.con .rfl') fun _ _ _ => .bind (.ofRes _) ?_
  rintro d _ rfl
  exact .bind (.conScalar .rfl' _) fun _ _ _ => .bind (.positiveNo ha _) fun _ _ _ => .positiveNo hb _

/-! ## Set membership -/

theorem VS.setMembership (hg : σ.Gates) (v : Alloc F) (ds : List (Alloc F)) (set : List F) :
    VS env σ (setMembershipGadget v ds set : Prog F C rnd _) (fun _ => σ.val v.var ∈ set) := by
  refine VS.bind (VS.forN (fun j l => l.value σ = ((set.take j).map fun x => x - σ.val v.var).prod) set.length _ (by simp [LC.value_ofVar, Assignment.val]) ?_) ?_
  · intro j hj l hl
    refine VS.bind (VS.index _ _) fun d hd => VS.bind (VS.index _ _) fun x hx => VS.bind (VS.conScalar _ _) fun _ h1 => VS.bind (VS.mul hg _ _) ?_
    rintro ⟨_, _, o⟩ ⟨_, _, h2⟩
    refine VS.pure ?_
    simp only [LC.value_varAdd, LC.value_ofVar] at h1 h2 ⊢
    rw [take_succ_map_prod _ hx, h2, hl, ← h1]
    ring
  · intro l hl
    refine (VS.con _).mono fun _ h => ?_
    rw [hl, List.take_length, List.prod_eq_zero_iff] at h
    obtain ⟨x, h1, h2⟩ := List.mem_map.mp h
    rw [sub_eq_zero] at h2
    exact h2 ▸ h1

theorem PS.setMembership {p : Prover F G} (h : p.Good) {v : Alloc F} {ds : List (Alloc F)} {set : List F} {x : F} (hv : p.HasA v x)
    (hd : List.Forall₂ p.HasA ds (set.map fun e => e - x)) (hx : x ∈ set) :
    PS env onSpec p (setMembershipGadget v ds set : Prog F C rnd _) (fun _ p' => p.Next p') := by
  refine PS.bind (PS.forN (fun j l p' => p.Next p' ∧ p'.Has l ((set.take j).map fun e => e - x).prod) set.length _ p
    ⟨.refl h, (Prover.Has.ofVar Prover.Has.one).congr (by simp)⟩ ?_) ?_
  · rintro j hj l p1 ⟨n1, hl⟩
    obtain ⟨e, he⟩ := getElem?_of_lt hj
    obtain ⟨d, hd1, hd2⟩ := forall₂_getElem? hd (i := j) (y := e - x) (by simp [he])
    refine PS.bind (PS.index hd1) ?_
    rintro _ _ ⟨rfl, rfl⟩
    refine PS.bind (PS.index he) ?_
    rintro _ _ ⟨rfl, rfl⟩
    refine PS.bind (PS.conScalar n1.good ((Prover.Has.varAdd (hd2.next h n1).1 (.ofVar (hv.next h n1).1)).congr (by ring))) fun _ p2 n2 => ?_
    refine PS.bind (PS.mul n2.good (hl.next n1.good n2) (.ofVar (hd2.next h (n1.trans n2)).1)) ?_
    rintro ⟨_, _, o⟩ p3 ⟨n3, _, _, h3⟩
    refine PS.pure ⟨(n1.trans n2).trans n3, (Prover.Has.ofVar h3).congr ?_⟩
    rw [take_succ_map_prod _ he]
  · rintro l p1 ⟨n1, hl⟩
    refine (PS.con n1.good (hl.congr ?_)).mono fun _ p2 n2 => n1.trans n2
    rw [List.take_length, List.prod_eq_zero_iff]
    exact List.mem_map.mpr ⟨x, hx, sub_self x⟩

theorem Prog.Same.setMembership {RC : C → C' → Prop} {v v' : Alloc F} {ds ds' : List (Alloc F)} (hv : v.Pair v') (hd : List.Forall₂ Alloc.Pair ds ds') (set : List F) :
    Prog.Same RC (fun _ _ => True) (setMembershipGadget v ds set : Prog F C rnd _) (setMembershipGadget v' ds' set) := by
  refine .bind (RA := Eq) (.forN Eq rfl ?_) ?_
  · rintro j l _ rfl
    refine .bind (.index hd j) fun d d' hdd => .bind (.index_self set j) ?_
    rintro x _ rfl
    rw [hdd.1, hv.1]
    refine .bind (.conScalar .rfl' _) fun _ _ _ => .bind (.mul .rfl' .rfl') ?_
    rintro ⟨_, _, o⟩ _ rfl
    exact .pure rfl
  · rintro l _ rfl
    exact .con .rfl'

/-! ## Set non-membership -/

theorem VS.setNonMembership (hg : σ.Gates) (v : Alloc F) (ds is : List (Alloc F)) (set : List F) :
    VS env σ (setNonMembershipGadget v ds is set : Prog F C rnd _) (fun _ => σ.val v.var ∉ set) := by
  refine (VS.forN (fun j _ => σ.val v.var ∉ set.take j) set.length _ (by simp) ?_).mono fun _ h => by rwa [List.take_length] at h
  intro j hj _ hn
  refine VS.bind (VS.index _ _) fun d hd => VS.bind (VS.index _ _) fun x hx => VS.bind (VS.conScalar _ _) fun _ h1 => VS.bind (VS.index _ _) fun i hi => ?_
  refine (VS.isNonzero hg _ _).mono fun _ h2 => ?_
  simp only [LC.value_varAdd, LC.value_ofVar] at h1
  rw [List.take_add_one, hx]
  simp only [Option.toList_some, List.mem_append, List.mem_singleton, not_or]
  refine ⟨hn, fun e => ?_⟩
  have : σ.val d.var = 0 := by linear_combination h1 - e
  rw [this, zero_mul] at h2
  exact zero_ne_one h2

theorem PS.setNonMembership {p : Prover F G} (h : p.Good) {v : Alloc F} {ds is : List (Alloc F)} {set : List F} {x : F} (hv : p.HasA v x)
    (hd : List.Forall₂ p.HasA ds (set.map fun e => e - x)) (hi : List.Forall₂ p.HasA is (set.map fun e => (e - x)⁻¹)) (hx : x ∉ set) :
    PS env onSpec p (setNonMembershipGadget v ds is set : Prog F C rnd _) (fun _ p' => p.Next p') := by
  refine PS.forN (fun j _ p' => p.Next p') set.length _ p (.refl h) ?_
  rintro j hj l p1 n1
  obtain ⟨e, he⟩ := getElem?_of_lt hj
  obtain ⟨d, hd1, hd2⟩ := forall₂_getElem? hd (i := j) (y := e - x) (by simp [he])
  obtain ⟨i, hi1, hi2⟩ := forall₂_getElem? hi (i := j) (y := (e - x)⁻¹) (by simp [he])
  refine PS.bind (PS.index hd1) ?_
  rintro _ _ ⟨rfl, rfl⟩
  refine PS.bind (PS.index he) ?_
  rintro e _ ⟨rfl, rfl⟩
  refine PS.bind (PS.conScalar n1.good ((Prover.Has.varAdd (hd2.next h n1).1 (.ofVar (hv.next h n1).1)).congr (by ring))) fun _ p2 n2 => ?_
  refine PS.bind (PS.index hi1) ?_
  rintro _ _ ⟨rfl, rfl⟩
  have hne : e - x ≠ 0 := fun h0 => hx (by rw [sub_eq_zero] at h0; rw [← h0]; exact List.mem_of_getElem? he)
  exact (PS.isNonzero n2.good (hd2.next h (n1.trans n2)).1 (hi2.next h (n1.trans n2)).1 (mul_inv_cancel₀ hne)).mono fun _ p3 n3 => (n1.trans n2).trans n3

theorem Prog.Same.setNonMembership {RC : C → C' → Prop} {v v' : Alloc F} {ds ds' is is' : List (Alloc F)} (hv : v.Pair v') (hd : List.Forall₂ Alloc.Pair ds ds')
    (hi : List.Forall₂ Alloc.Pair is is') (set : List F) :
    Prog.Same RC (fun _ _ => True) (setNonMembershipGadget v ds is set : Prog F C rnd _) (setNonMembershipGadget v' ds' is' set) := by
  refine .forN _ trivial ?_
  rintro j _ _ _
  refine .bind (.index hd j) fun d d' hdd => .bind (.index_self set j) ?_
  rintro x _ rfl
  rw [hdd.1, hv.1]
  refine .bind (.conScalar .rfl' _) fun _ _ _ => .bind (.index hi j) fun i i' hii => ?_
  rw [hii.1]
  exact .isNonzero _ _

/-! ## Bitmap set membership -/

theorem VS.vectorProduct (hg : σ.Gates) (items : List ℕ) (vec : List (Alloc F)) (v : Alloc F) :
    VS env σ (vectorProductGadget items vec v : Prog F C rnd _) (fun _ => σ.val v.var = 0 ∨ ∃ x ∈ items, σ.val v.var = (x : F)) := by
  refine VS.bind (VS.forN (fun j ts => (∃ x ∈ items, σ.val v.var = (x : F)) ∨ (LC.ofTerms ts).value σ = - σ.val v.var) items.length _ (.inr ?_) ?_) ?_
  · simp [LC.value_cons, LC.value_nil]
  · intro j hj ts hts
    refine VS.bind (VS.index _ _) fun d hd => VS.bind (VS.index _ _) fun x hx => VS.bind (VS.allocMul hg _) ?_
    rintro ⟨b, it, o1⟩ h1
    refine VS.bind (VS.conScalar _ _) fun _ h2 => VS.bind (VS.mul hg _ _) ?_
    rintro ⟨_, _, o2⟩ ⟨_, _, h3⟩
    refine VS.bind (VS.con _) fun _ h4 => VS.pure ?_
    simp only [LC.value_varSub, LC.value_ofVar] at h1 h2 h3 h4
    rcases hts with hts | hts
    · exact .inl hts
    have : σ.val b * ((x : F) - σ.val v.var) = 0 := by rw [← h2]; linear_combination h4 - h1 + h3
    rcases mul_eq_zero.mp this with hb | hb
    · right
      rw [LC.value_snoc, hts, h1, hb]; ring
    · left
      exact ⟨x, List.mem_of_getElem? hx, by linear_combination -hb⟩
  · intro ts hts
    refine (VS.con _).mono fun _ h => ?_
    rcases hts with hts | hts
    · exact .inr hts
    · left; rw [hts] at h; linear_combination -h

theorem PS.vectorProduct {p : Prover F G} (h : p.Good) {items : List ℕ} {vec : List (Alloc F)} {v : Alloc F} {bits : List F} {x : F} (hv : p.HasA v x)
    (hb : List.Forall₂ (fun a b => a.assignment = some b) vec bits) (hlen : bits.length = items.length)
    (hz : ∀ (i : ℕ) b k, bits[i]? = some b → items[i]? = some k → b * (k : F) = b * x)
    (hs : (List.zipWith (fun b (k : ℕ) => b * (k : F)) bits items).sum = x) :
    PS env onSpec p (vectorProductGadget items vec v : Prog F C rnd _) (fun _ p' => p.Next p') := by
  refine PS.bind (PS.forN (fun j ts p' => p.Next p' ∧ p'.Has (LC.ofTerms ts) (((List.zipWith (fun b (k : ℕ) => b * (k : F)) bits items).take j).sum - x)) items.length _ p
    ⟨.refl h, (Prover.Has.cons hv.1 .nil).congr (by simp)⟩ ?_) ?_
  · rintro j hj ts p1 ⟨n1, hl⟩
    obtain ⟨k, hk⟩ := getElem?_of_lt hj
    obtain ⟨b, hbj⟩ := getElem?_of_lt (hlen ▸ hj : j < bits.length)
    obtain ⟨d, hd1, hd2⟩ := forall₂_getElem? hb hbj
    refine PS.bind (PS.index hd1) ?_
    rintro _ _ ⟨rfl, rfl⟩
    refine PS.bind (PS.index hk) ?_
    rintro k _ ⟨rfl, rfl⟩
    rw [hd2]
    refine PS.bind (PS.allocMul n1.good _ _) ?_
    rintro ⟨vb, vi, o1⟩ p2 ⟨n2, h1, h2, h3⟩
    refine PS.bind (PS.conScalar n2.good (.ofVar h2)) fun _ p3 n3 => ?_
    have h1' := h1.next n2.good n3
    have h3' := h3.next n2.good n3
    refine PS.bind (PS.mul n3.good (.ofVar h1') (.ofVar (hv.next h ((n1.trans n2).trans n3)).1)) ?_
    rintro ⟨_, _, o2⟩ p4 ⟨n4, _, _, h4⟩
    have h3'' := h3'.next n3.good n4
    refine PS.bind (PS.con n4.good ((Prover.Has.varSub h3'' (.ofVar h4)).congr ?_)) fun _ p5 n5 => PS.pure ⟨(((n1.trans n2).trans n3).trans n4).trans n5, ?_⟩
    · rw [hz j b k hbj hk, sub_self]
    · refine ((hl.next n1.good (((n2.trans n3).trans n4).trans n5)).snoc (c := 1) (h3''.next n4.good n5)).congr ?_
      rw [List.take_add_one, List.getElem?_zipWith, hbj, hk]
      simp
      ring
  · rintro ts p1 ⟨n1, hl⟩
    refine (PS.con n1.good (hl.congr ?_)).mono fun _ p2 n2 => n1.trans n2
    rw [List.take_of_length_le (by simp [hlen]), hs, sub_self]

theorem Prog.Same.vectorProduct {RC : C → C' → Prop} {items : List ℕ} {vec vec' : List (Alloc F)} {v v' : Alloc F} (hv : v.var = v'.var)
    (hd : List.Forall₂ (fun a _ => ∃ x, a.assignment = some x) vec vec') :
    Prog.Same RC (fun _ _ => True) (vectorProductGadget items vec v : Prog F C rnd _) (vectorProductGadget items vec' v') := by
  unfold vectorProductGadget
  rw [hv]
  refine .bind (RA := Eq) (.forN Eq rfl ?_) ?_
  · rintro j ts _ rfl
    unfold vectorProductBody
    refine .bind (.index hd j) fun d d' ⟨x, hx⟩ => .bind (.index_self items j) ?_
    rintro k _ rfl
    rw [hx, hv]
    refine .bind .allocMul ?_
    rintro ⟨_, _, o⟩ _ rfl
    refine .bind (.conScalar .rfl' _) fun _ _ _ => .bind (.mul .rfl' .rfl') ?_
    rintro ⟨_, _, o⟩ _ rfl
    exact .bind (.con .rfl') fun _ _ _ => .pure rfl
  · rintro ts _ rfl
    exact .con .rfl'

/-! ## MiMC -/

/-- Both halves of the MiMC state after `j` rounds. -/
def mimcState (l r : F) : List F → F × F
  | [] => (l, r)
  | c :: cs => mimcState ((l + c) ^ 2 * (l + c) + r) l cs

theorem mimcState_snoc (c : F) : ∀ (cs : List F) (l r : F), mimcState l r (cs ++ [c]) =
    (((mimcState l r cs).1 + c) ^ 2 * ((mimcState l r cs).1 + c) + (mimcState l r cs).2, (mimcState l r cs).1)
  | [], _, _ => rfl
  | _ :: cs, l, r => mimcState_snoc c cs _ _

theorem mimcState_fst : ∀ (cs : List F) (l r : F), (mimcState l r cs).1 = mimcLoop l r cs
  | [], _, _ => rfl
  | _ :: cs, _, _ => mimcState_fst cs _ _

theorem VS.mimc (hg : σ.Gates) (l r : Alloc F) (rounds : ℕ) (constants : List F) (image : F) :
    VS env σ (mimcGadget l r rounds constants image : Prog F C rnd _) (fun _ => rounds ≤ constants.length ∧
      mimcLoop (σ.val l.var) (σ.val r.var) (constants.take rounds) = image) := by
  refine VS.bind (Q := fun res => rounds ≤ constants.length ∧ res.value σ = mimcLoop (σ.val l.var) (σ.val r.var) (constants.take rounds)) ?_ ?_
  · refine VS.bind (VS.forN (fun j st => j ≤ constants.length ∧ (st.1.value σ, st.2.value σ) = mimcState (σ.val l.var) (σ.val r.var) (constants.take j)) rounds _ ?_ ?_) ?_
    · simp [LC.value_ofVar, mimcState]
    · rintro j hj ⟨a, b⟩ ⟨hj2, hst⟩
      refine VS.bind (VS.index _ _) fun c hc => VS.bind (VS.mul hg _ _) ?_
      rintro ⟨vl, _, sq⟩ ⟨h1, _, h2⟩
      refine VS.bind (VS.mul hg _ _) ?_
      rintro ⟨_, _, cu⟩ ⟨_, _, h3⟩
      refine VS.pure ⟨?_, ?_⟩
      · have := (List.getElem?_eq_some_iff.mp hc).1; omega
      · rw [List.take_add_one, hc]
        simp only [Option.toList_some, mimcState_snoc, ← hst]
        simp only [LC.value_varAdd, LC.value_ofVar, LC.value_add, LC.value_cons, LC.value_nil, Assignment.val] at *
        rw [h3, h2, h1]
        congr 1
        ring
    · rintro ⟨a, b⟩ ⟨h1, h2⟩
      refine VS.pure ⟨h1, ?_⟩
      rw [← mimcState_fst, ← h2]
  · rintro res ⟨h1, h2⟩
    exact (VS.conScalar _ _).mono fun _ h => ⟨h1, by rw [← h2, h]⟩

theorem PS.mimc {p : Prover F G} (h : p.Good) {l r : Alloc F} {x y : F} {rounds : ℕ} {constants : List F} (hl : p.HasV l.var x) (hr : p.HasV r.var y)
    (hc : rounds ≤ constants.length) :
    PS env onSpec p (mimcGadget l r rounds constants (mimcLoop x y (constants.take rounds)) : Prog F C rnd _) (fun _ p' => p.Next p') := by
  refine PS.bind (Q := fun res p' => p.Next p' ∧ p'.Has res (mimcLoop x y (constants.take rounds))) ?_ ?_
  · refine PS.bind (PS.forN (fun j st p' => p.Next p' ∧ p'.Has st.1 (mimcState x y (constants.take j)).1 ∧ p'.Has st.2 (mimcState x y (constants.take j)).2) rounds _ p
      ⟨.refl h, .ofVar hl, .ofVar hr⟩ ?_) ?_
    · rintro j hj ⟨a, b⟩ p1 ⟨n1, ha, hb⟩
      obtain ⟨c, hcj⟩ := getElem?_of_lt (show j < constants.length by omega)
      refine PS.bind (PS.index hcj) ?_
      rintro c _ ⟨rfl, rfl⟩
      have hlc := ha.add (Prover.Has.cons (c := c) Prover.Has.one .nil)
      refine PS.bind (PS.mul n1.good hlc hlc) ?_
      rintro ⟨vl, _, sq⟩ p2 ⟨n2, h1, _, h2⟩
      refine PS.bind (PS.mul n2.good (.ofVar h2) (.ofVar h1)) ?_
      rintro ⟨_, _, cu⟩ p3 ⟨n3, _, _, h3⟩
      refine PS.pure ⟨(n1.trans n2).trans n3, ?_, ?_⟩
      · refine (Prover.Has.varAdd h3 ((hb.next n1.good n2).next n2.good n3)).congr ?_
        rw [List.take_add_one, hcj]
        simp only [Option.toList_some, mimcState_snoc]
        ring
      · rw [List.take_add_one, hcj]
        simp only [Option.toList_some, mimcState_snoc]
        exact (ha.next n1.good n2).next n2.good n3
    · rintro ⟨a, b⟩ p1 ⟨n1, ha, _⟩
      exact PS.pure ⟨n1, ha.congr (mimcState_fst _ _ _)⟩
  · rintro res p1 ⟨n1, hres⟩
    exact (PS.conScalar n1.good hres).mono fun _ p2 n2 => n1.trans n2

theorem Prog.Same.mimc {RC : C → C' → Prop} {l l' r r' : Alloc F} (hl : l.var = l'.var) (hr : r.var = r'.var) (rounds : ℕ) (constants : List F) (image : F) :
    Prog.Same RC (fun _ _ => True) (mimcGadget l r rounds constants image : Prog F C rnd _) (mimcGadget l' r' rounds constants image) := by
  unfold mimcGadget
  rw [hl, hr]
  refine .bind (RA := Eq) ?_ ?_
  · refine .bind (RA := Eq) (.forN Eq rfl ?_) ?_
    · rintro j st _ rfl
      refine .bind (.index_self _ _) ?_
      rintro c _ rfl
      refine .bind (.mul .rfl' .rfl') ?_
      rintro ⟨_, _, _⟩ _ rfl
      refine .bind (.mul .rfl' .rfl') ?_
      rintro ⟨_, _, _⟩ _ rfl
      exact .pure rfl
    · rintro st _ rfl
      exact .pure rfl
  · rintro res _ rfl
    exact .conScalar .rfl' _

end Bp
