import Verif.Lemmas.Gadgets.Simple

set_option linter.unusedSectionVars false
set_option linter.unusedSimpArgs false

/-! # Hamming distance gadget; numbers of gates -/

namespace Bp
variable {F G : Type} [Field F] [AddCommGroup G] [Module F G]
variable {C C' : Type} {rnd : Bool} {env : Env F G} {σ : Assignment F} {onSpec : C → Prover F G → Prover F G}

/-- 1 where the vectors differ, 0 where they agree. -/
def differs [DecidableEq F] (xs ys : List F) : List F := List.zipWith (fun x y => if x = y then 0 else 1) xs ys

/-- The gadget's loop body with freely chosen wire values `w i` (and their inverses) instead of the differences. -/
def hammingForgedBody (w : ℕ → F) (original : List (Alloc F)) (new : List F) (i : ℕ) (result : List Var) : Prog F C rnd (List Var) := do
  let o ← Prog.index original i
  let x ← Prog.index new i
  let _ ← Prog.eval (LC.varSub o.var (LC.ofScalar x))
  let (varDiff, _) ← Prog.allocSingle (some (w i))
  let (_, varO) ← Prog.allocSingle (some (w i)⁻¹)
  let var1or0 ← Prog.unwrap varO
  let (_, _, o) ← Prog.mul (LC.ofVar varDiff) (LC.varSub .one (LC.ofVar var1or0))
  Prog.con (LC.ofVar o)
  return result ++ [var1or0]

/-- A cheating prover's version of the gadget. -/
def hammingForged (w : ℕ → F) (original : List (Alloc F)) (new : List F) (count : ℕ) : Prog F C rnd Unit := do
  let result ← Prog.forN new.length [] (hammingForgedBody w original new)
  vectorSumConstraints result count

theorem mul_inv_ite [DecidableEq F] (x : F) : x * x⁻¹ = if x = 0 then 0 else 1 := by
  by_cases h : x = 0
  · simp [h]
  · simp [h, mul_inv_cancel₀ h]

/-- Completeness of the body, for the honest and the forged wires alike. -/
theorem PS.hammingTail [DecidableEq F] {p : Prover F G} (h : p.Good) (hp : p.pending = none) (d : F) (result : List Var) :
    PS env onSpec p (do
      let (varDiff, _) ← Prog.allocSingle (some d)
      let (_, varO) ← Prog.allocSingle (some d⁻¹)
      let var1or0 ← Prog.unwrap varO
      let (_, _, o) ← Prog.mul (LC.ofVar varDiff) (LC.varSub .one (LC.ofVar var1or0))
      Prog.con (LC.ofVar o)
      Pure.pure (result ++ [var1or0]) : Prog F C rnd (List Var))
      (fun r p' => p.Next p' ∧ ∃ v, r = result ++ [v] ∧ p'.HasV v (if d = 0 then 0 else 1)) := by
  refine PS.allocPair h hp d d⁻¹ (f := fun a b => match a with | (varDiff, _) => match b with | (_, varO) => _) ?_
  intro i p1 n1 h1 h2 h3
  rw [mul_inv_ite] at h3
  refine PS.bind (PS.unwrap _) ?_
  rintro _ _ ⟨rfl, rfl⟩
  refine PS.bind (PS.mul n1.good (.ofVar h1) (.varSub Prover.Has.one (.ofVar h3))) ?_
  rintro ⟨_, _, o⟩ p2 ⟨n2, _, _, h4⟩
  refine PS.bind (PS.con n2.good ((Prover.Has.ofVar h4).congr ?_)) fun _ p3 n3 => PS.pure ⟨(n1.trans n2).trans n3, _, rfl, (h3.next n1.good n2).next n2.good n3⟩
  by_cases hd : d = 0 <;> simp [hd]

/-- The loop of the gadget, whatever the number of differences is. -/
theorem PS.hammingLoop [DecidableEq F] {p : Prover F G} (h : p.Good) (hp : p.pending = none) {os : List (Alloc F)} {xs new : List F}
    (ho : List.Forall₂ p.HasA os xs) (hlen : xs.length = new.length) :
    PS env onSpec p (Prog.forN new.length [] (hammingBody os new) : Prog F C rnd _) (fun r p' => p.Next p' ∧ List.Forall₂ p'.HasV r (differs xs new)) := by
  refine (PS.forN (fun j r p' => p.Next p' ∧ List.Forall₂ p'.HasV r ((differs xs new).take j)) new.length _ p ⟨.refl h, by simp⟩ ?_).mono ?_
  · rintro j hj r p1 ⟨n1, hr⟩
    obtain ⟨y, hy⟩ := getElem?_of_lt hj
    obtain ⟨x, hx⟩ := getElem?_of_lt (hlen ▸ hj : j < xs.length)
    obtain ⟨o, ho1, ho2⟩ := forall₂_getElem? ho hx
    refine PS.bind (PS.index ho1) ?_
    rintro _ _ ⟨rfl, rfl⟩
    refine PS.bind (PS.index hy) ?_
    rintro y _ ⟨rfl, rfl⟩
    refine PS.bind (PS.eval n1.good (.varSub (ho2.next h n1).1 (.ofScalar y))) ?_
    rintro _ p1 ⟨rfl, rfl⟩
    refine (PS.hammingTail n1.good (by rw [n1.pending, hp]) (x - y) r).mono ?_
    rintro r' p2 ⟨n2, v, rfl, hv⟩
    refine ⟨n1.trans n2, ?_⟩
    rw [List.take_add_one]
    have : (differs xs new)[j]? = some (if x = y then 0 else 1) := by simp [differs, List.getElem?_zipWith, hx, hy]
    rw [this]
    have hr' := hr.imp fun _ _ hh => Prover.HasV.next hh n1.good n2
    refine List.rel_append hr' (.cons ?_ .nil)
    exact hv.congr (by simp [sub_eq_zero])
  · rintro r p1 ⟨n1, hr⟩
    rw [List.take_of_length_le (by simp [differs, hlen])] at hr
    exact ⟨n1, hr⟩

theorem PS.hamming [DecidableEq F] {p : Prover F G} (h : p.Good) (hp : p.pending = none) {os : List (Alloc F)} {xs new : List F} {count : ℕ}
    (ho : List.Forall₂ p.HasA os xs) (hlen : xs.length = new.length) (hc : (differs xs new).sum = (count : F)) :
    PS env onSpec p (hammingDistanceGadget os new count : Prog F C rnd _) (fun _ p' => p.Next p') := by
  unfold hammingDistanceGadget
  rw [if_neg (by rw [ho.length_eq, hlen]; simp)]
  refine PS.bind (PS.hammingLoop h hp ho hlen) ?_
  rintro r p1 ⟨n1, hr⟩
  exact (PS.vectorSum n1.good hr hc).mono fun _ p2 n2 => n1.trans n2

/-- With a wrong number of differences the gadget runs all the same, and its last constraint is violated by the prover's own values. -/
theorem PS.hammingWrong [DecidableEq F] {p : Prover F G} (h : p.Good) (hp : p.pending = none) {os : List (Alloc F)} {xs new : List F} {count : ℕ}
    (ho : List.Forall₂ p.HasA os xs) (hlen : xs.length = new.length) (hc : (differs xs new).sum ≠ (count : F)) :
    PS env onSpec p (hammingDistanceGadget os new count : Prog F C rnd _) (fun _ p' => ¬ p'.assignment.Sat p'.constraints) := by
  unfold hammingDistanceGadget
  rw [if_neg (by rw [ho.length_eq, hlen]; simp)]
  refine PS.bind (PS.hammingLoop h hp ho hlen) ?_
  rintro r p1 ⟨n1, hr⟩
  refine ⟨(), _, rfl, fun hsat => hc ?_⟩
  have hv := hsat (LC.ofTerms ((.one, -(count : F)) :: r.map fun v => (v, 1))) (List.mem_append_right _ (.head _))
  have hx := (Prover.Has.cons (c := -(count : F)) (Prover.Has.one (p := p1)) (Prover.has_sum hr)).2
  have := hx.symm.trans hv
  linear_combination this

theorem PS.hammingForged [DecidableEq F] {p : Prover F G} (h : p.Good) (hp : p.pending = none) (w : ℕ → F) {os : List (Alloc F)} {xs new : List F} {count : ℕ}
    (ho : List.Forall₂ p.HasA os xs) (hlen : xs.length = new.length) (hc : ((List.range new.length).map fun i => if w i = 0 then (0 : F) else 1).sum = (count : F)) :
    PS env onSpec p (hammingForged w os new count : Prog F C rnd _) (fun _ p' => p.Next p') := by
  refine PS.bind (PS.forN (fun j r p' => p.Next p' ∧ List.Forall₂ p'.HasV r ((List.range j).map fun i => if w i = 0 then (0 : F) else 1)) new.length _ p ⟨.refl h, by simp⟩ ?_) ?_
  · rintro j hj r p1 ⟨n1, hr⟩
    obtain ⟨y, hy⟩ := getElem?_of_lt hj
    obtain ⟨x, hx⟩ := getElem?_of_lt (hlen ▸ hj : j < xs.length)
    obtain ⟨o, ho1, ho2⟩ := forall₂_getElem? ho hx
    refine PS.bind (PS.index ho1) ?_
    rintro _ _ ⟨rfl, rfl⟩
    refine PS.bind (PS.index hy) ?_
    rintro y _ ⟨rfl, rfl⟩
    refine PS.bind (PS.eval n1.good (.varSub (ho2.next h n1).1 (.ofScalar y))) ?_
    rintro _ p1 ⟨rfl, rfl⟩
    refine (PS.hammingTail n1.good (by rw [n1.pending, hp]) (w j) r).mono ?_
    rintro r' p2 ⟨n2, v, rfl, hv⟩
    refine ⟨n1.trans n2, ?_⟩
    rw [List.range_succ, List.map_append]
    have hr' := hr.imp fun _ _ hh => Prover.HasV.next hh n1.good n2
    exact List.rel_append hr' (.cons hv .nil)
  · rintro r p1 ⟨n1, hr⟩
    exact (PS.vectorSum n1.good hr hc).mono fun _ p2 n2 => n1.trans n2

theorem VS.hamming (hg : σ.Gates) (os : List (Alloc F)) (new : List F) (count : ℕ) :
    VS env σ (hammingDistanceGadget os new count : Prog F C rnd _) (fun _ => os.length = new.length ∧ ∃ k : ℕ, k ≤ new.length ∧ (count : F) = k) := by
  unfold hammingDistanceGadget
  split
  · exact VS.err
  rename_i hl
  simp only [ne_eq, not_not] at hl
  refine VS.bind (VS.forN (fun j r => ∃ k : ℕ, k ≤ j ∧ (r.map σ.val).sum = (k : F)) new.length _ ⟨0, le_refl _, by simp⟩ ?_) ?_
  · rintro j hj r ⟨k, hk, hr⟩
    refine VS.bind (VS.index _ _) fun o _ => VS.bind (VS.index _ _) fun x _ => VS.bind (VS.eval _) fun d _ => ?_
    refine VS.allocPair _ _ (f := fun a b => match a with | (varDiff, _) => match b with | (_, varO) => _) ?_ ?_
    · intro i
      refine VS.bind (VS.unwrap _) fun v hv => VS.bind (VS.mul hg _ _) ?_
      rintro ⟨_, _, o⟩ ⟨_, _, h1⟩
      refine VS.bind (VS.con _) fun _ h2 => VS.pure ?_
      simp only [Option.some.injEq] at hv
      subst hv
      simp only [LC.value_varSub, LC.value_ofVar, Assignment.val] at h1 h2
      rw [h2, hg i] at h1
      rw [List.map_append, List.sum_append, hr]
      simp only [List.map_cons, List.map_nil, List.sum_cons, List.sum_nil, Assignment.val, hg i]
      rcases mul_eq_zero.mp h1.symm with h | h
      · exact ⟨k, by omega, by rw [h]; ring⟩
      · refine ⟨k + 1, by omega, ?_⟩
        push_cast
        linear_combination -h
    · intro i j'
      exact VS.bind (VS.unwrap _) fun v hv => by cases hv
  · rintro r ⟨k, hk, hr⟩
    exact (VS.vectorSum _ _).mono fun _ h => ⟨hl, k, hk, by rw [← h, hr]⟩

theorem Prog.Same.hammingTail {RC : C → C' → Prop} {x z : F} {y w : Option F} (r : List Var) :
    Prog.Same RC Eq
      (do
        let (varDiff, _) ← Prog.allocSingle (some x)
        let (_, varO) ← Prog.allocSingle (some z)
        let var1or0 ← Prog.unwrap varO
        let (_, _, o) ← Prog.mul (LC.ofVar varDiff) (LC.varSub .one (LC.ofVar var1or0))
        Prog.con (LC.ofVar o)
        Pure.pure (r ++ [var1or0]) : Prog F C rnd (List Var))
      (do
        let (varDiff, _) ← Prog.allocSingle y
        let (_, varO) ← Prog.allocSingle w
        let var1or0 ← Prog.unwrap varO
        let (_, _, o) ← Prog.mul (LC.ofVar varDiff) (LC.varSub .one (LC.ofVar var1or0))
        Prog.con (LC.ofVar o)
        Pure.pure (r ++ [var1or0]) : Prog F C' rnd (List Var)) := by
  refine .bind .allocSingle ?_
  rintro ⟨vd, _⟩ _ rfl
  refine .bind .allocSingle ?_
  rintro ⟨_, vo⟩ _ rfl
  refine .bind (.unwrap _) ?_
  rintro v _ rfl
  refine .bind (.mul .rfl' .rfl') ?_
  rintro ⟨_, _, o⟩ _ rfl
  exact .bind (.con .rfl') fun _ _ _ => .pure rfl

theorem Prog.Same.hamming {RC : C → C' → Prop} {os os' : List (Alloc F)} (ho : List.Forall₂ Alloc.Pair os os') (new : List F) (count : ℕ) :
    Prog.Same RC (fun _ _ => True) (hammingDistanceGadget os new count : Prog F C rnd _) (hammingDistanceGadget os' new count) := by
  unfold hammingDistanceGadget
  rw [ho.length_eq]
  split
  · exact .err
  refine .bind (RA := Eq) (.forN Eq rfl ?_) ?_
  · rintro j r _ rfl
    refine .bind (.index ho j) fun a b hab => .bind (.index_self _ _) ?_
    rintro x _ rfl
    refine .bind .eval ?_
    rintro _ _ ⟨⟨y, rfl⟩, rfl⟩
    exact .hammingTail r
  · rintro r _ rfl
    exact .vectorSum _ _

theorem Prog.Same.hammingForged {RC : C → C' → Prop} (w : ℕ → F) {os os' : List (Alloc F)} {new : List F} (ho : List.Forall₂ Alloc.Pair os os') (hl : os'.length = new.length) (count : ℕ) :
    Prog.Same RC (fun _ _ => True) (hammingForged w os new count : Prog F C rnd _) (hammingDistanceGadget os' new count) := by
  unfold hammingDistanceGadget
  rw [if_neg (by simp [hl])]
  refine .bind (RA := Eq) (.forN Eq rfl ?_) ?_
  · rintro j r _ rfl
    refine .bind (.index ho j) fun a b hab => .bind (.index_self _ _) ?_
    rintro x _ rfl
    refine .bind .eval ?_
    rintro _ _ ⟨⟨y, rfl⟩, rfl⟩
    exact .hammingTail r
  · rintro r _ rfl
    exact .vectorSum _ _

/-! ## Numbers of gates -/

section
variable {pd : Option ℕ}

theorem PC.conScalar (l : LC F) (x : F) : PC pd (constrainLcWithScalar l x : Prog F C rnd _) 0 := PC.con _
theorem PC.vectorSum (vs : List Var) (n : ℕ) : PC pd (vectorSumConstraints vs n : Prog F C rnd _) 0 := PC.con _

theorem PC.bit (v : Alloc F) : PC pd (bitGadget v : Prog F C rnd _) 1 := by
  refine (PC.bind (PC.allocMul _) (l := 0) ?_)
  rintro ⟨a, b, o⟩
  exact PC.bind (PC.con _) fun _ => PC.bind (PC.con _) fun _ => PC.con _

theorem PC.positiveNo [IntRep F] (v : Alloc F) (n : ℕ) : PC pd (positiveNoGadget v n : Prog F C rnd _) n := by
  refine (PC.bind (PC.forN (k := 1) ?_ n _) (l := 0) fun st => PC.con _).congr (by ring)
  intro i st
  refine PC.bind (PC.allocMul _) (l := 0) ?_
  rintro ⟨a, b, o⟩
  exact PC.bind (PC.con _) fun _ => PC.bind (PC.con _) fun _ => PC.pure _

theorem PC.isNonzero (x i : Var) : PC pd (isNonzeroGadget x i : Prog F C rnd _) 2 := by
  refine PC.bind (PC.mul _ _) (l := 1) ?_
  rintro ⟨_, _, o⟩
  refine (PC.bind (PC.con _) (l := 1) fun _ => PC.bind (PC.mul _ _) (l := 0) ?_).congr rfl
  rintro ⟨_, _, o⟩
  exact PC.con _

theorem PC.ofRes {α : Type} (r : Res α) : PC pd (Prog.ofRes r : Prog F C rnd α) 0 := by
  cases r with
  | ok a => exact PC.ret a
  | error e => cases e with
    | err e => exact PC.err _ _
    | panic e => exact PC.panic _ _

theorem PC.boundCheck [IntRep F] (debug : Bool) (v a b : Alloc F) (max min n : ℕ) : PC pd (boundCheckGadget debug v a b max min n : Prog F C rnd _) (2 * n) := by
  refine (PC.bind (PC.con _) fun _ => PC.bind (PC.con _) fun _ => PC.bind (PC.ofRes _) fun _ => PC.bind (PC.conScalar _ _) fun _ =>
    PC.bind (PC.positiveNo _ _) fun _ => PC.positiveNo _ _).congr (by ring)

theorem PC.setMembership (v : Alloc F) (ds : List (Alloc F)) (set : List F) : PC pd (setMembershipGadget v ds set : Prog F C rnd _) set.length := by
  refine (PC.bind (PC.forN (k := 1) ?_ _ _) (l := 0) fun st => PC.con _).congr (by ring)
  intro i st
  refine (PC.bind (PC.index _ _) fun _ => PC.bind (PC.index _ _) fun _ => PC.bind (PC.conScalar _ _) fun _ => PC.bind (PC.mul _ _) (l := 0) ?_).congr (by ring)
  rintro ⟨_, _, o⟩
  exact PC.pure _

theorem PC.setNonMembership (v : Alloc F) (ds is : List (Alloc F)) (set : List F) : PC pd (setNonMembershipGadget v ds is set : Prog F C rnd _) (2 * set.length) := by
  refine (PC.forN (k := 2) ?_ _ _).congr (by ring)
  intro i st
  exact (PC.bind (PC.index _ _) fun _ => PC.bind (PC.index _ _) fun _ => PC.bind (PC.conScalar _ _) fun _ => PC.bind (PC.index _ _) fun _ => PC.isNonzero _ _).congr (by ring)

theorem PC.vectorProduct (items : List ℕ) (vec : List (Alloc F)) (v : Alloc F) : PC pd (vectorProductGadget items vec v : Prog F C rnd _) (2 * items.length) := by
  refine (PC.bind (PC.forN (k := 2) ?_ _ _) (l := 0) fun st => PC.con _).congr (by ring)
  intro i st
  refine (PC.bind (PC.index _ _) fun _ => PC.bind (PC.index _ _) fun _ => PC.bind (PC.allocMul _) (l := 1) ?_).congr (by ring)
  rintro ⟨_, _, o⟩
  refine (PC.bind (PC.conScalar _ _) fun _ => PC.bind (PC.mul _ _) (l := 0) ?_).congr (by ring)
  rintro ⟨_, _, o⟩
  exact PC.bind (PC.con _) fun _ => PC.pure _

theorem PC.mimc (l r : Alloc F) (rounds : ℕ) (constants : List F) (image : F) : PC pd (mimcGadget l r rounds constants image : Prog F C rnd _) (2 * rounds) := by
  refine (PC.bind (k := rounds * 2) ?_ (l := 0) fun st => PC.conScalar _ _).congr (by ring)
  refine (PC.bind (PC.forN (k := 2) ?_ _ _) (l := 0) fun st => PC.pure _).congr (by ring)
  intro i st
  refine (PC.bind (PC.index _ _) fun _ => PC.bind (PC.mul _ _) (l := 1) ?_).congr (by ring)
  rintro ⟨_, _, o⟩
  refine (PC.bind (PC.mul _ _) (l := 0) ?_).congr (by ring)
  rintro ⟨_, _, o⟩
  exact PC.pure _

theorem PC.hammingTail (x y : Option F) (r : List Var) : PC none (do
      let (varDiff, _) ← Prog.allocSingle x
      let (_, varO) ← Prog.allocSingle y
      let var1or0 ← Prog.unwrap varO
      let (_, _, o) ← Prog.mul (LC.ofVar varDiff) (LC.varSub .one (LC.ofVar var1or0))
      Prog.con (LC.ofVar o)
      Pure.pure (r ++ [var1or0]) : Prog F C rnd (List Var)) 2 := by
  refine (PC.allocPair x y (f := fun a b => match a with | (varDiff, _) => match b with | (_, varO) => _) (k := 1) ?_).congr (by ring)
  rintro ⟨vd, _⟩ ⟨_, vo⟩
  refine (PC.bind (PC.unwrap _) fun _ => PC.bind (PC.mul _ _) (l := 0) ?_).congr (by ring)
  rintro ⟨_, _, o⟩
  exact PC.bind (PC.con _) fun _ => PC.pure _

theorem PC.hamming (os : List (Alloc F)) (new : List F) (count : ℕ) : PC none (hammingDistanceGadget os new count : Prog F C rnd _) (2 * new.length) := by
  unfold hammingDistanceGadget
  split
  · exact PC.err _ _
  refine (PC.bind (PC.forN (k := 2) ?_ _ _) (l := 0) fun st => PC.vectorSum _ _).congr (by ring)
  intro i st
  exact (PC.bind (PC.index _ _) fun _ => PC.bind (PC.index _ _) fun _ => PC.bind (PC.eval _) fun _ => PC.hammingTail _ _ _).congr (by ring)

theorem PC.hammingForged (w : ℕ → F) (os : List (Alloc F)) (new : List F) (count : ℕ) : PC none (hammingForged w os new count : Prog F C rnd _) (2 * new.length) := by
  refine (PC.bind (PC.forN (k := 2) ?_ _ _) (l := 0) fun st => PC.vectorSum _ _).congr (by ring)
  intro i st
  exact (PC.bind (PC.index _ _) fun _ => PC.bind (PC.index _ _) fun _ => PC.bind (PC.eval _) fun _ => PC.hammingTail _ _ _).congr (by ring)
end

end Bp
