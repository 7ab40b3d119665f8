import Verif.Model.Gadgets.Shuffle
import Verif.Lemmas.Gadgets.Factors
import Verif.Lemmas.Randomized
import Mathlib.Algebra.Polynomial.Roots

set_option linter.unusedSectionVars false
set_option linter.unusedSimpArgs false

/-! # The shuffle: soundness, sizes, completeness -/

namespace Bp
variable {F G : Type} [Field F] [AddCommGroup G] [Module F G]
variable {C C' : Type} {rnd : Bool} {env : Env F G} {σ : Assignment F} {onSpec : C → Prover F G → Prover F G}

theorem shuffleCallback_eq (xs ys : List Var) : (shuffleCallback xs ys : Callback F) = .challenge rfl "shuffle challenge" fun z => shuffleCircuit z xs ys := rfl

/-! ## Soundness -/

theorem LC.value_ofScalar' (z : F) : (LC.ofScalar z).value σ = z := by simp [LC.ofScalar, LC.value, Assignment.val]

theorem VS.productWith (hg : σ.Gates) (z : F) : ∀ (xs : List Var) (l : LC F), VS env σ (Bp.productWith z l xs : Prog F C rnd _) (fun l' => l'.value σ = l.value σ * (xs.map fun x => σ.val x - z).prod)
  | [], l => VS.pure (by simp)
  | x :: xs, l => by
    unfold Bp.productWith
    refine VS.bind (VS.mul hg _ _) ?_
    rintro ⟨_, _, o⟩ ⟨_, _, h⟩
    refine (VS.productWith hg z xs (LC.ofVar o)).mono fun l' h' => ?_
    simp only [LC.value_varSub, LC.value_ofScalar'] at h
    rw [h', LC.value_ofVar, h, List.map_cons, List.prod_cons, mul_assoc]

/-- What the circuit says about the values and the challenge. -/
theorem VS.shuffle (hg : σ.Gates) (z : F) (xs ys : List Var) : VS env σ (shuffleCircuit z xs ys : Prog F C rnd _) (fun _ => (xs.map fun x => σ.val x - z).prod = (ys.map fun y => σ.val y - z).prod) := by
  unfold shuffleCircuit
  refine VS.bind (VS.productWith hg z xs _) fun p hp => VS.bind (VS.productWith hg z ys _) fun q hq => (VS.con _).mono fun _ e => ?_
  have es : (p.sub q).value σ = p.value σ - q.value σ := LC.value_sub _ _ _
  rw [es, hp, hq, LC.value_ofScalar', one_mul, one_mul] at e
  exact sub_eq_zero.mp e

open Polynomial in
/-- Two lists of the same length that are not permutations of each other have the same product over `x - z` for few `z` only. -/
theorem shuffle_few {xs ys : List F} {k : ℕ} (hx : xs.length = k) (hy : ys.length = k) (hn : ¬ xs.Perm ys) : {z : F | (xs.map fun x => x - z).prod = (ys.map fun y => y - z).prod}.encard ≤ k := by
  classical
  have ev : ∀ (l : List F) (z : F), (l.map fun x => x - z).prod = (-1) ^ l.length * eval z ((l : Multiset F).map fun a => X - Polynomial.C a).prod := by
    intro l z
    induction l with
    | nil => simp
    | cons a l ih =>
      rw [List.map_cons, List.prod_cons, ih, ← Multiset.cons_coe, Multiset.map_cons, Multiset.prod_cons, eval_mul, List.length_cons]
      simp only [eval_sub, eval_X, eval_C]
      ring
  have hne : ((xs : Multiset F).map fun a => X - Polynomial.C a).prod - ((ys : Multiset F).map fun a => X - Polynomial.C a).prod ≠ 0 := by
    intro h
    have := congrArg roots (sub_eq_zero.mp h)
    rw [roots_multiset_prod_X_sub_C, roots_multiset_prod_X_sub_C] at this
    exact hn (Multiset.coe_eq_coe.mp this)
  refine le_trans (Set.encard_le_encard (t := ((((xs : Multiset F).map fun a => X - Polynomial.C a).prod - ((ys : Multiset F).map fun a => X - Polynomial.C a).prod).roots.toFinset : Set F)) fun z hz => ?_) ?_
  · rw [Finset.mem_coe, Multiset.mem_toFinset, mem_roots hne, IsRoot, eval_sub, sub_eq_zero]
    have hz : (xs.map fun x => x - z).prod = (ys.map fun y => y - z).prod := hz
    rw [ev, ev, hx, hy] at hz
    exact mul_left_cancel₀ (pow_ne_zero _ (neg_ne_zero.mpr one_ne_zero)) hz
  · rw [Set.encard_coe_eq_coe_finsetCard]
    have d1 : ∀ l : List F, l.length = k → ((l : Multiset F).map fun a => X - Polynomial.C a).prod.natDegree = k := fun l hl => by
      rw [natDegree_multiset_prod_X_sub_C_eq_card, Multiset.coe_card, hl]
    have := (Multiset.toFinset_card_le _).trans ((card_roots' _).trans ((natDegree_sub_le _ _).trans (max_le (d1 xs hx).le (d1 ys hy).le)))
    exact_mod_cast this

/-! ## What the callback adds -/

theorem Verifier.run_productWith {onSpec : C → Verifier F G → Verifier F G} (z : F) : ∀ (xs : List Var) (l : LC F) (s : Verifier F G), ∃ l' s', Verifier.run env onSpec (Bp.productWith z l xs : Prog F C rnd _) s = .ok (l', s') ∧
    s'.numVars = s.numVars + xs.length ∧ s'.constraints.length = s.constraints.length + 2 * xs.length ∧ s.constraints <+: s'.constraints ∧
    ∀ x ∈ xs, ∃ i, (⟨(LC.varSub x (LC.ofScalar z)).terms ++ [(.right i, -1)]⟩ : LC F) ∈ s'.constraints
  | [], l, s => ⟨l, s, rfl, rfl, rfl, List.prefix_rfl, fun x hx => by cases hx⟩
  | x :: xs, l, s => by
    obtain ⟨l', s', h1, h2, h3, h4, h5⟩ := Verifier.run_productWith z xs (LC.ofVar (.out s.numVars)) (s.multiply l (LC.varSub x (LC.ofScalar z))).2 (onSpec := onSpec)
    refine ⟨l', s', ?_, ?_, ?_, List.IsPrefix.trans ?_ h4, fun y hy => ?_⟩
    · unfold Bp.productWith
      rw [Prog.bind_eq, Verifier.run_bind]
      exact h1
    · rw [h2]; simp [multiply, constrain, allocateVars]; omega
    · rw [h3]; simp [multiply, constrain, allocateVars]; omega
    · simp [multiply, constrain, allocateVars]
    · rcases List.mem_cons.mp hy with rfl | hy
      · exact ⟨s.numVars, h4.subset (by simp [multiply, constrain, allocateVars])⟩
      · exact h5 y hy

theorem Verifier.run_shuffle {onSpec : C → Verifier F G → Verifier F G} (z : F) (xs ys : List Var) (s : Verifier F G) : ∃ s', Verifier.run env onSpec (shuffleCircuit z xs ys : Prog F C rnd _) s = .ok ((), s') ∧
    s'.numVars = s.numVars + (xs.length + ys.length) ∧ s'.constraints.length = s.constraints.length + (2 * (xs.length + ys.length) + 1) ∧ s.constraints <+: s'.constraints ∧
    ∀ x ∈ xs ++ ys, ∃ i, (⟨(LC.varSub x (LC.ofScalar z)).terms ++ [(.right i, -1)]⟩ : LC F) ∈ s'.constraints := by
  obtain ⟨p, s1, a1, a2, a3, a4, a5⟩ := Verifier.run_productWith (env := env) (onSpec := onSpec) (rnd := rnd) z xs (LC.ofScalar 1) s
  obtain ⟨q, s2, b1, b2, b3, b4, b5⟩ := Verifier.run_productWith (env := env) (onSpec := onSpec) (rnd := rnd) z ys (LC.ofScalar 1) s1
  refine ⟨s2.constrain (p.sub q), ?_, ?_, ?_, ?_, ?_⟩
  · unfold shuffleCircuit
    rw [Prog.bind_eq, Verifier.run_bind, a1]
    simp only
    rw [Prog.bind_eq, Verifier.run_bind, b1]
    rfl
  · simp only [constrain]; omega
  · simp only [constrain, List.length_append, List.length_singleton]; omega
  · exact (a4.trans b4).trans (List.prefix_append _ _)
  · intro x hx
    rcases List.mem_append.mp hx with hx | hx
    · obtain ⟨i, hi⟩ := a5 x hx
      exact ⟨i, List.mem_append_left _ (b4.subset hi)⟩
    · obtain ⟨i, hi⟩ := b5 x hx
      exact ⟨i, List.mem_append_left _ hi⟩

/-- The verifier after `verifyShuffle`. -/
theorem verifyShuffle_ok {k : ℕ} {coms : List G} {s s' : Verifier F G} : verifyShuffle env k coms s = (.ok (), s') ↔ 2 * k ≤ coms.length ∧
    s' = { s with V := s.V ++ coms.take (2 * k), transcript := s.transcript ++ (coms.take (2 * k)).map (TEvent.point "V"), deferred := s.deferred ++ [shuffleCallback ((List.range k).map fun i => .committed (s.V.length + i)) ((List.range k).map fun i => .committed (s.V.length + (k + i)))] } := by
  have hr : List.range (2 * k) = List.range k ++ (List.range k).map (k + ·) := by rw [two_mul, List.range_add]
  unfold verifyShuffle
  constructor
  · intro h
    obtain ⟨cs, s1, h1, h⟩ := Drv.bind_ok.mp h
    rw [Drv.lift_ok, takeComms_ok] at h1
    obtain ⟨⟨hl, rfl⟩, rfl⟩ := h1
    obtain ⟨vars, s2, h2, h⟩ := Drv.bind_ok.mp h
    rw [Verifier.commits_ok] at h2
    obtain ⟨rfl, rfl⟩ := h2
    rw [Verifier.gadget_ok] at h
    simp only [shuffleGadget, Prog.spec, Verifier.run1, Verifier.run, Except.ok.injEq, Prod.mk.injEq, true_and] at h
    refine ⟨hl, ?_⟩
    rw [← h, List.length_take, Nat.min_eq_left hl, hr, List.map_append, List.take_left' (by simp), List.drop_left' (by simp), List.map_map]
    rfl
  · rintro ⟨hl, rfl⟩
    refine Drv.bind_ok.mpr ⟨_, s, Drv.lift_ok.mpr ⟨takeComms_ok.mpr ⟨hl, rfl⟩, rfl⟩, Drv.bind_ok.mpr ⟨_, _, Verifier.commits_ok.mpr ⟨rfl, rfl⟩, Verifier.gadget_ok.mpr ?_⟩⟩
    simp only [shuffleGadget, Prog.spec, Verifier.run1, Verifier.run, Except.ok.injEq, Prod.mk.injEq, true_and]
    rw [List.length_take, Nat.min_eq_left hl, hr, List.map_append, List.take_left' (by simp), List.drop_left' (by simp), List.map_map]
    rfl

theorem Verifier.createRandomized_one {s : Verifier F G} {cb : Callback F} (hd : s.deferred = [cb]) {s2 : Verifier F G} (h : s.createRandomizedConstraints env = .ok s2) :
    ({ s with pending := none, transcript := s.transcript.r1cs2PhaseDomainSep, deferred := [] } : Verifier F G).run2 env cb = .ok ((), s2) := by
  unfold Verifier.createRandomizedConstraints at h
  simp only [hd, List.length_singleton, one_ne_zero, if_false, Verifier.runCallbacks] at h
  split at h
  · rename_i u q hq
    simp only [Except.ok.injEq] at h
    rw [← h]
    exact hq
  · cases h

variable {k : ℕ} {label : String} {coms : List G} {s s2 : Verifier F G} {pr : R1CSProof F G} {O : Oracle F G}

/-- After the second phase. -/
theorem shuffle_second (h : verifyShuffle env k coms (Verifier.new [.init label]) = (.ok (), s)) (h2 : (s.start pr).createRandomizedConstraints { env with oracle := O } = .ok s2) :
    s2.numVars = 2 * k ∧ s2.constraints.length = 4 * k + 1 ∧ s2.V = coms.take (2 * k) ∧ ∃ z : F, ∀ j < 2 * k, ∃ i, (⟨(LC.varSub (.committed j) (LC.ofScalar z)).terms ++ [(.right i, -1)]⟩ : LC F) ∈ s2.constraints := by
  have hV := Verifier.crc_V h2
  obtain ⟨hl, rfl⟩ := verifyShuffle_ok.mp h
  have := Verifier.createRandomized_one (by rfl) h2
  rw [shuffleCallback_eq] at this
  unfold Verifier.run2 at this
  rw [Verifier.run] at this
  obtain ⟨s', b1, b2, b3, -, b5⟩ := Verifier.run_shuffle (env := { env with oracle := O }) (onSpec := fun (e : Empty) (_ : Verifier F G) => e.elim) (rnd := true) _ _ _ _
  rw [b1] at this
  simp only [Except.ok.injEq, Prod.mk.injEq, true_and] at this
  subst this
  refine ⟨by rw [b2]; simp [Verifier.start, Verifier.new]; omega, by rw [b3]; simp [Verifier.start, Verifier.new]; omega, hV.trans (by simp [Verifier.start, Verifier.new]), _, fun j hj => b5 (.committed j) ?_⟩
  rw [List.mem_append, List.mem_map, List.mem_map]
  rcases Nat.lt_or_ge j k with hk | hk
  · exact .inl ⟨j, List.mem_range.mpr hk, by simp [Verifier.new]⟩
  · exact .inr ⟨j - k, List.mem_range.mpr (by omega), by simp [Verifier.new]; omega⟩

/-! ## Completeness -/

theorem PS.productWith (z : F) : ∀ {vs : List Var} {xs : List F} {p : Prover F G} {l : LC F} {x : F}, p.Good → p.Has l x → List.Forall₂ p.HasV vs xs →
    PS env onSpec p (Bp.productWith z l vs : Prog F C rnd _) (fun l' p' => p.Next p' ∧ p'.Has l' (x * (xs.map fun y => y - z).prod))
  | _, _, p, l, x, hp, hl, .nil => PS.pure ⟨.refl hp, by simpa using hl⟩
  | _, _, p, l, x, hp, hl, .cons (b := y) (l₂ := ys) h hs => by
    unfold Bp.productWith
    refine PS.bind (PS.mul hp hl (Prover.Has.varSub h (.ofScalar z))) ?_
    rintro ⟨_, _, o⟩ p1 ⟨n1, _, _, h1⟩
    refine (PS.productWith z n1.good (.ofVar h1) (forall₂_next hp n1 hs)).mono fun l' p' h' => ⟨n1.trans h'.1, ?_⟩
    rw [List.map_cons, List.prod_cons, ← mul_assoc]
    exact h'.2

theorem PS.shuffle {p : Prover F G} (hp : p.Good) (z : F) {vs ws : List Var} {xs ys : List F} (hv : List.Forall₂ p.HasV vs xs) (hw : List.Forall₂ p.HasV ws ys) (h : xs.Perm ys) :
    PS env onSpec p (shuffleCircuit z vs ws : Prog F C rnd _) (fun _ p' => p.Next p') := by
  unfold shuffleCircuit
  refine PS.bind (PS.productWith z hp (.ofScalar 1) hv) fun l p1 ⟨n1, h1⟩ => PS.bind (PS.productWith z n1.good (.ofScalar 1) (forall₂_next hp n1 hw)) fun l' p2 ⟨n2, h2⟩ => ?_
  refine (PS.con n2.good (((h1.next n1.good n2).sub h2).congr ?_)).mono fun _ p3 n3 => (n1.trans n2).trans n3
  rw [(h.map fun y => y - z).prod_eq, _root_.sub_self]

theorem Prog.Same.productWith {RC : C → C' → Prop} (z : F) : ∀ (vs : List Var) (l : LC F), Prog.Same RC Eq (Bp.productWith z l vs : Prog F C rnd _) (Bp.productWith z l vs)
  | [], l => .ret rfl
  | v :: vs, l => by
    unfold Bp.productWith
    refine .bind (.mul .rfl' .rfl') ?_
    rintro ⟨_, _, o1⟩ _ rfl
    exact Prog.Same.productWith z vs _

theorem Callback.Same.shuffle (vs ws : List Var) : Callback.Same (shuffleCallback vs ws : Callback F) (shuffleCallback vs ws) := by
  refine .challenge fun z => ?_
  show Prog.Same _ _ (shuffleCircuit z vs ws) (shuffleCircuit z vs ws)
  unfold shuffleCircuit
  refine .bind (.productWith z vs _) ?_
  rintro p _ rfl
  refine .bind (.productWith z ws _) ?_
  rintro q _ rfl
  exact .con .rfl'

theorem PC.productWith {pd : Option ℕ} (z : F) : ∀ (vs : List Var) (l : LC F), PC pd (Bp.productWith z l vs : Prog F C rnd _) vs.length
  | [], l => PC.pure _
  | v :: vs, l => by
    unfold Bp.productWith
    refine (PC.bind (PC.mul _ _) (l := vs.length) ?_).congr (by simp; omega)
    rintro ⟨_, _, o1⟩
    exact PC.productWith z vs _

theorem PC.shuffle {pd : Option ℕ} (z : F) (vs ws : List Var) : PC pd (shuffleCircuit z vs ws : Prog F C rnd _) (vs.length + ws.length) := by
  unfold shuffleCircuit
  exact PC.bind (PC.productWith z vs _) fun _ => (PC.bind (PC.productWith z ws _) fun _ => PC.con _).congr (by omega)

/-- The log and the callbacks do not matter for what is satisfied. -/
theorem Prover.Good.relog {p : Prover F G} (h : p.Good) (hp : p.pending = none) (t : Transcript F G) (d : List (Callback F)) : ({ p with pending := none, transcript := t, deferred := d } : Prover F G).Good := by
  cases p
  obtain rfl := hp
  exact ⟨⟨h.wf.lenR, h.wf.lenO, h.wf.lenB, h.wf.pend, h.wf.gates⟩, h.sat⟩

theorem Prover.HasV.relog {p : Prover F G} {v : Var} {x : F} (h : p.HasV v x) (hp : p.pending = none) (t : Transcript F G) (d : List (Callback F)) : ({ p with pending := none, transcript := t, deferred := d } : Prover F G).HasV v x := by
  cases p
  obtain rfl := hp
  exact h

theorem Prover.createRandomized_one {p p2 : Prover F G} {vs ws : List Var} (hd : p.deferred = [shuffleCallback vs ws])
    (h : Prover.run env (fun (e : Empty) (_ : Prover F G) => e.elim) (shuffleCircuit (p.transcript.r1cs2PhaseDomainSep.challengeScalar env.oracle "shuffle challenge").1 vs ws : Prog F Empty true Unit)
      { p with pending := none, transcript := (p.transcript.r1cs2PhaseDomainSep.challengeScalar env.oracle "shuffle challenge").2, deferred := [] } = .ok ((), p2)) : p.createRandomizedConstraints env = .ok p2 := by
  unfold Prover.createRandomizedConstraints
  simp only
  rw [if_neg (by rw [hd]; simp), hd, Prover.runCallbacks, shuffleCallback_eq, Prover.run2, Prover.run]
  simp only
  rw [h]
  rfl

end Bp
