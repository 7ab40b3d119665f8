import Verif.Spec.Refuted
import Verif.Lemmas.Statements
import Verif.Props.Gadgets.Alt
import Verif.Props.Gadgets.Factors
import Verif.Lemmas.Gadgets.MerkleGadget

/-! # Proofs that the crate's own code makes from false inputs -/

set_option linter.unusedSectionVars false
set_option linter.unusedSimpArgs false

namespace Bp
variable {F G : Type} [Field F] [AddCommGroup G] [Module F G]
variable {α β : Type}

/-! ## The proving functions do not ask for challenges -/

theorem Prover.run_withOracle (env : Env F G) (O : Oracle F G) {C : Type} {onSpec : C → Prover F G → Prover F G} : ∀ (c : Prog F C false α) (p : Prover F G),
    p.run (env.withOracle O) onSpec c = p.run env onSpec c := by
  intro c
  generalize hr : false = rnd at c
  induction c with
  | ret a => intro p; rfl
  | err e => intro p; rfl
  | panic w => intro p; rfl
  | multiply l r k ih =>
    intro p
    simp only [run]
    cases p.multiply l r with
    | error e => rfl
    | ok q => exact ih _ _
  | allocate x k ih =>
    intro p
    simp only [run]
    cases p.allocate x with
    | error e => rfl
    | ok q => exact ih _ _
  | allocateMultiplier x k ih => intro p; exact ih _ _
  | constrain lc k ih => intro p; exact ih _
  | specify cb k ih => intro p; exact ih _
  | evaluateLc lc k ih =>
    intro p
    simp only [run]
    cases p.eval lc with
    | error e => rfl
    | ok q => exact ih _ _
  | allocateSingle x k ih =>
    intro p
    simp only [run]
    cases p.allocateSingle x with
    | error e => rfl
    | ok q => exact ih _ _
  | challenge h label k ih => subst hr; cases h
  | simplify lc k ih => intro p; exact ih _ _

theorem Prover.leave_withOracle (env : Env F G) (O : Oracle F G) {C : Type} {onSpec : C → Prover F G → Prover F G} : ∀ (c : Prog F C false α) (p : Prover F G),
    p.leave (env.withOracle O) onSpec c = p.leave env onSpec c := by
  intro c
  generalize hr : false = rnd at c
  induction c with
  | ret a => intro p; rfl
  | err e => intro p; rfl
  | panic w => intro p; rfl
  | multiply l r k ih =>
    intro p
    simp only [leave]
    cases p.multiply l r with
    | error e => rfl
    | ok q => exact ih _ _
  | allocate x k ih =>
    intro p
    simp only [leave]
    cases p.allocate x with
    | error e => rfl
    | ok q => exact ih _ _
  | allocateMultiplier x k ih => intro p; exact ih _ _
  | constrain lc k ih => intro p; exact ih _
  | specify cb k ih => intro p; exact ih _
  | evaluateLc lc k ih =>
    intro p
    simp only [leave]
    cases p.eval lc with
    | error e => rfl
    | ok q => exact ih _ _
  | allocateSingle x k ih =>
    intro p
    simp only [leave]
    cases p.allocateSingle x with
    | error e => rfl
    | ok q => exact ih _ _
  | challenge h label k ih => subst hr; cases h
  | simplify lc k ih => intro p; exact ih _ _

theorem Prover.gadget_withOracle (env : Env F G) (O : Oracle F G) (c : Prog1 F α) : (Prover.gadget (env.withOracle O) c : Drv (Prover F G) α) = Prover.gadget env c := by
  funext p
  unfold Prover.gadget Prover.run1
  rw [Prover.run_withOracle, Prover.leave_withOracle]

theorem proveBits_withOracle (env : Env F G) (O : Oracle F G) : ∀ bs : List (F × F), (proveBits (env.withOracle O) bs : Drv (Prover F G) _) = proveBits env bs
  | [] => rfl
  | (b, r) :: bs => by simp only [proveBits, Prover.gadget_withOracle, proveBits_withOracle env O bs]

theorem Attempt.withOracle [ByteRep F] {st : Stmt F} {dp : Env F G → Drv (Prover F G) (List G)} {P : Prop} (h : Attempt st dp P) (env : Env F G) (O : Oracle F G) : dp (env.withOracle O) = dp env := by
  cases h <;> simp only [proveBoundedNum, proveNonZeroVal, proveSetMembership, proveSetMembershipAlt, proveSetNonMembership, proveMimcPreimage, provePoseidon2, provePoseidon4, provePoseidon8, provePreimage,
    proveInclusion4, proveInclusion8, proveInclusion, proveFactors, Prover.gadget_withOracle, proveBits_withOracle]

theorem Attempts.withOracle [ByteRep F] {stmts : List (Stmt F)} {dp : Env F G → Drv (Prover F G) (List G)} {P : Prop} (h : Attempts stmts dp P) (env : Env F G) (O : Oracle F G) : dp (env.withOracle O) = dp env := by
  induction h with
  | nil => rfl
  | cons h _ ih => simp only [h.withOracle, ih]

theorem flatten_getElem? {n : ℕ} : ∀ {ss : List (List α)}, (∀ s ∈ ss, s.length = n) → ∀ {i j : ℕ} (hi : i < ss.length) (hj : j < (ss[i]).length), ss.flatten[n * i + j]? = some (ss[i])[j]
  | s :: ss, h, 0, j, _, hj => by
    simp only [List.getElem_cons_zero] at hj
    rw [List.flatten_cons, Nat.mul_zero, Nat.zero_add, List.getElem?_append_left hj, List.getElem?_eq_getElem hj]
    rfl
  | s :: ss, h, i + 1, j, hi, hj => by
    have hs := h s (by simp)
    rw [List.flatten_cons, List.getElem?_append_right (by rw [hs, Nat.mul_succ]; omega), hs, show n * (i + 1) + j - n = n * i + j by rw [Nat.mul_succ]; omega]
    exact flatten_getElem? (ss := ss) (fun t ht => h t (by simp [ht])) (by simpa using hi) _

/-! ## Prover and verifier in step, whether the statement is true or not -/

/-- Prover and verifier made the corresponding calls, over the generators `g` and `h`. -/
structure Shared (env env' : Env F G) (g h : G) (p : Prover F G) (s : Verifier F G) : Prop where
  session : Session env env' p s
  g : p.g = g
  h : p.h = h

theorem Shared.inStep {env env' : Env F G} {g h : G} (hO : env.oracle = env'.oracle) {p : Prover F G} {s : Verifier F G} (J : Shared env env' g h p s) : p.WF ∧ InStep p s := J.session.inStep hO

theorem Shared.new (env env' : Env F G) (g h : G) (t : Transcript F G) (k k' : ℕ) : Shared env env' g h (Prover.new g h t k) (Verifier.new t k') := ⟨.new g h t k k', rfl, rfl⟩

theorem Shared.commitAll {env env' : Env F G} {g h : G} (hO : env.oracle = env'.oracle) : ∀ (vs : List (F × F)) {p p' : Prover F G} {s : Verifier F G} {cs : List (G × Var)}, Shared env env' g h p s →
    Prover.commits vs p = (.ok cs, p') → ∃ s', Verifier.commits (cs.map Prod.fst) s = (.ok (cs.map Prod.snd), s') ∧ Shared env env' g h p' s' ∧ Opened p p' vs (cs.map Prod.fst) ∧ cs.length = vs.length
  | [], p, p', s, cs, J, h => by
    simp only [Prover.commits, Prover.commitAll, Prod.mk.injEq, Except.ok.injEq] at h
    obtain ⟨rfl, rfl⟩ := h
    exact ⟨s, rfl, J, ⟨by simp, by simp, rfl, rfl, rfl⟩, rfl⟩
  | (v, b) :: vs, p, p', s, cs, J, h => by
    simp only [Prover.commits, Prover.commitAll, Prod.mk.injEq, Except.ok.injEq] at h
    obtain ⟨rfl, e⟩ := h
    have J1 : Shared env env' g h (p.commit v b).2 (s.commit (p.commit v b).1.1).2 := ⟨.commit v b J.session, J.g, J.h⟩
    obtain ⟨s', h2, J', o, hl⟩ := Shared.commitAll hO vs (cs := ((p.commit v b).2.commitAll vs).1) J1 (by rw [Prover.commits, e])
    have hv := (c04_commit p s (J.inStep hO).2 v b).1
    refine ⟨s', ?_, J', ⟨by simpa [Prover.commit] using o.values, by simpa [Prover.commit] using o.blindings, by rw [List.map_cons, o.points]; rfl, o.g, o.h⟩, by simpa using hl⟩
    simp only [Verifier.commits, Verifier.commitAll, List.map_cons, Prod.mk.injEq, Except.ok.injEq, List.cons.injEq] at h2 ⊢
    exact ⟨⟨hv, h2.1⟩, h2.2⟩

theorem Shared.gadgetOk {env env' : Env F G} {g h : G} (hO : env.oracle = env'.oracle) {p p' : Prover F G} {s : Verifier F G} (J : Shared env env' g h p s) {RA : α → β → Prop} {c : Prog1 F α} {c' : Prog1 F β}
    (hs : Prog1.Same RA c c') {a : α} (hr : Prover.gadget env c p = (.ok a, p')) : ∃ b s', Verifier.gadget env' c' s = (.ok b, s') ∧ Shared env env' g h p' s' ∧ RA a b ∧ p'.v = p.v := by
  rw [Prover.gadget_ok] at hr
  obtain ⟨b, s', hr', hab, hi⟩ := run1_same hO hs (J.inStep hO).2 hr
  obtain ⟨vs, st⟩ := Prover.run1_steps hr
  have e := st.ext
  refine ⟨b, s', Verifier.gadget_ok.mpr hr', ⟨.gadget J.session hs hr hr', e.g.trans J.g, e.h.trans J.h⟩, hab, ?_⟩
  refine (e.v.eq_of_length ?_).symm
  have i1 := (J.inStep hO).2
  have hV : s'.V = s.V := Verifier.run_V (onSpec := fun cb s => s.specify cb) (fun _ _ => rfl) c' _ _ _ hr'
  have l1 := congrArg List.length i1.V
  have l2 := congrArg List.length hi.V
  rw [List.length_zipWith, i1.lenB, Nat.min_self] at l1
  rw [List.length_zipWith, hi.lenB, Nat.min_self, hV] at l2
  omega

/-- Whatever the inputs are: if the proving function returns commitments, the verifying function takes them, the two stay in step, and the statement's claim about the values committed to is true only if `P` is. -/
def Follows [ByteRep F] (env env' : Env F G) (g h : G) (st : Stmt F) (dp : Drv (Prover F G) (List G)) (P : Prop) : Prop :=
  ∀ p p' s coms, Shared env env' g h p s → dp p = (.ok coms, p') → coms.length = st.size ∧ ∃ s', st.verify env' g h coms s = (.ok (), s') ∧ Shared env env' g h p' s' ∧
    ∃ values zs : List F, p'.v = p.v ++ values ++ zs ∧ (∀ z ∈ zs, z = 0) ∧ values.length = st.size ∧ ∀ v : ℕ → F, (∀ (i : ℕ) x, values[i]? = some x → v i = x) → st.Claim v → P

section follows
variable [ByteRep F] (env env' : Env F G) (hO : env.oracle = env'.oracle) (g h : G)
include hO

theorem follows_boundedNum (debug : Bool) (val lower upper n : ℕ) (hval : val < 2 ^ 64) (ho : 2 ^ 64 < IntRep.order F) (hu : upper < 2 ^ 64) (randomness : Option F) (rng : Option (ℕ → F)) (sys : ℕ → F) :
    Follows env env' g h (.boundedNum debug lower upper n) (proveBoundedNum env debug val randomness lower upper n rng sys) (lower ≤ val ∧ val ≤ upper) := by
  intro p p' s coms J hd
  unfold proveBoundedNum at hd
  obtain ⟨_, p1, h1, hd⟩ := Drv.bind_ok.mp hd
  obtain ⟨-, rfl⟩ := Drv.lift_ok.mp h1
  obtain ⟨a, p1, h1, hd⟩ := Drv.bind_ok.mp hd
  obtain ⟨-, rfl⟩ := Drv.lift_ok.mp h1
  obtain ⟨b, p1, h1, hd⟩ := Drv.bind_ok.mp hd
  obtain ⟨-, rfl⟩ := Drv.lift_ok.mp h1
  obtain ⟨bl, p1, h1, hd⟩ := Drv.bind_ok.mp hd
  obtain ⟨-, rfl⟩ := Drv.lift_ok.mp h1
  obtain ⟨cs, p1, c1, hd⟩ := Drv.bind_ok.mp hd
  obtain ⟨s1, c2, J1, o1, hl⟩ := J.commitAll hO _ c1
  obtain ⟨⟨cv, vv⟩, ⟨ca, va⟩, ⟨cb, vb⟩, rfl⟩ : ∃ x y z, cs = [x, y, z] := List.length_eq_three.mp (by simpa using hl)
  obtain ⟨⟨⟩, p2, g1, hd⟩ := Drv.bind_ok.mp hd
  obtain ⟨rfl, rfl⟩ := Drv.pure_ok.mp hd
  obtain ⟨⟨⟩, s2, g2, J2, -, e⟩ := J1.gadgetOk hO (Prog.Same.boundCheck (Alloc.pair vv _) (Alloc.pair va _) (Alloc.pair vb _) upper lower n) g1
  refine ⟨rfl, s2, ?_, J2, [(val : F), (a : F), (b : F)], [], by rw [e, o1.values]; simp, by simp, rfl, fun v hv hc => ?_⟩
  · exact Drv.bind_ok.mpr ⟨[cv, ca, cb], s, rfl, Drv.bind_ok.mpr ⟨_, s1, c2, g2⟩⟩
  · obtain ⟨k, k1, k2, k3⟩ := hc
    rw [hv 0 _ rfl] at k3
    have := IntRep.cast_inj (F := F) (by omega) (by omega) k3
    omega

theorem follows_nonZero (value : F) (randomness : Option F) (rng : Option (ℕ → F)) (sys : ℕ → F) :
    Follows env env' g h .nonZero (proveNonZeroVal env value randomness rng sys) (value ≠ 0) := by
  intro p p' s coms J hd
  unfold proveNonZeroVal at hd
  obtain ⟨_, p1, h1, hd⟩ := Drv.bind_ok.mp hd
  obtain ⟨-, rfl⟩ := Drv.lift_ok.mp h1
  obtain ⟨bl, p1, h1, hd⟩ := Drv.bind_ok.mp hd
  obtain ⟨-, rfl⟩ := Drv.lift_ok.mp h1
  obtain ⟨cs, p1, c1, hd⟩ := Drv.bind_ok.mp hd
  obtain ⟨s1, c2, J1, o1, hl⟩ := J.commitAll hO _ c1
  obtain ⟨⟨cv, vv⟩, ⟨ca, va⟩, rfl⟩ : ∃ x y, cs = [x, y] := List.length_eq_two.mp (by simpa using hl)
  obtain ⟨⟨⟩, p2, g1, hd⟩ := Drv.bind_ok.mp hd
  obtain ⟨rfl, rfl⟩ := Drv.pure_ok.mp hd
  obtain ⟨⟨⟩, s2, g2, J2, -, e⟩ := J1.gadgetOk hO (Prog.Same.isNonzero vv va) g1
  refine ⟨rfl, s2, ?_, J2, [value, value⁻¹], [], by rw [e, o1.values]; simp, by simp, rfl, fun v hv hc => ?_⟩
  · exact Drv.bind_ok.mpr ⟨[cv, ca], s, rfl, Drv.bind_ok.mpr ⟨_, s1, c2, g2⟩⟩
  · rw [← hv 0 _ rfl]; exact hc

theorem follows_setMembership (value : F) (set : List F) (randomness : Option F) (rng : Option (ℕ → F)) (sys : ℕ → F) :
    Follows env env' g h (.setMembership set) (proveSetMembership env value randomness set rng sys) (value ∈ set) := by
  intro p p' s coms J hd
  unfold proveSetMembership at hd
  obtain ⟨_, p1, h1, hd⟩ := Drv.bind_ok.mp hd
  obtain ⟨-, rfl⟩ := Drv.lift_ok.mp h1
  obtain ⟨bl, p1, h1, hd⟩ := Drv.bind_ok.mp hd
  obtain ⟨-, rfl⟩ := Drv.lift_ok.mp h1
  obtain ⟨cs, p1, c1, hd⟩ := Drv.bind_ok.mp hd
  obtain ⟨s1, c2, J1, o1, hl⟩ := J.commitAll hO _ c1
  match cs, hl with
  | (cv, vv) :: ds, hl =>
    have hlen : ds.length = set.length := by simpa using hl
    obtain ⟨⟨⟩, p2, g1, hd⟩ := Drv.bind_ok.mp hd
    obtain ⟨rfl, rfl⟩ := Drv.pure_ok.mp hd
    obtain ⟨⟨⟩, s2, g2, J2, -, e⟩ := J1.gadgetOk hO (Prog.Same.setMembership (Alloc.pair vv _) (pair_zip (by simp [hlen])) set) g1
    refine ⟨by simp [Stmt.size, hlen], s2, ?_, J2, value :: set.map fun x => x - value, [], ?_, by simp, by simp [Stmt.size], fun v hv hc => ?_⟩
    · exact Drv.bind_ok.mpr ⟨cv :: ds.map Prod.fst, s, Drv.lift_ok.mpr ⟨takeComms_ok.mpr ⟨by simp [hlen], (List.take_of_length_le (by simp [hlen])).symm⟩, rfl⟩, Drv.bind_ok.mpr ⟨_, s1, c2, g2⟩⟩
    · rw [e, o1.values, List.append_nil, List.append_nil, List.map_cons, zip_map_fst (by simp)]
    · rw [← hv 0 _ rfl]; exact hc

theorem follows_setNonMembership (value : F) (set : List F) (randomness : Option F) (rng : Option (ℕ → F)) (sys : ℕ → F) :
    Follows env env' g h (.setNonMembership set) (proveSetNonMembership env value randomness set rng sys) (value ∉ set) := by
  intro p p' s coms J hd
  unfold proveSetNonMembership at hd
  obtain ⟨_, p1, h1, hd⟩ := Drv.bind_ok.mp hd
  obtain ⟨-, rfl⟩ := Drv.lift_ok.mp h1
  obtain ⟨bl, p1, h1, hd⟩ := Drv.bind_ok.mp hd
  obtain ⟨-, rfl⟩ := Drv.lift_ok.mp h1
  obtain ⟨cs, p1, c1, hd⟩ := Drv.bind_ok.mp hd
  obtain ⟨s1, c2, J1, o1, hl⟩ := J.commitAll hO _ c1
  have hw : (nonMembershipWitness value set sys).length = 2 * set.length := by simp [nonMembershipWitness, List.length_flatMap, mul_comm]
  match cs, hl with
  | (cv, vv) :: ds, hl =>
    have hlen : ds.length = (nonMembershipWitness value set sys).length := by simpa using hl
    obtain ⟨⟨⟩, p2, g1, hd⟩ := Drv.bind_ok.mp hd
    obtain ⟨rfl, rfl⟩ := Drv.pure_ok.mp hd
    have hP := pair_zip (F := F) (ds := ds) (xs := (nonMembershipWitness value set sys).map Prod.fst) (by simp [hlen])
    rw [zipWith_fst (fun (d : G × Var) (x : F) => (⟨d.2, some x⟩ : Alloc F))] at g1
    obtain ⟨⟨⟩, s2, g2, J2, -, e⟩ := J1.gadgetOk hO (Prog.Same.setNonMembership (Alloc.pair vv _) (forall₂_evens hP) (forall₂_odds hP) set) g1
    refine ⟨by simp [Stmt.size, hlen, hw], s2, ?_, J2, value :: (nonMembershipWitness value set sys).map Prod.fst, [], ?_, by simp, by simp [Stmt.size, hw], fun v hv hc => ?_⟩
    · exact Drv.bind_ok.mpr ⟨cv :: ds.map Prod.fst, s, Drv.lift_ok.mpr ⟨takeComms_ok.mpr ⟨by simp [hlen, hw], (List.take_of_length_le (by simp [hlen, hw])).symm⟩, rfl⟩, Drv.bind_ok.mpr ⟨_, s1, c2, g2⟩⟩
    · rw [e, o1.values]; simp
    · rw [← hv 0 _ rfl]; exact hc

theorem follows_mimc (x y image : F) (constants : List F) (rounds : ℕ) (randomness : Option (List F)) (rng : Option (ℕ → F)) :
    Follows env env' g h (.mimc image constants rounds) (proveMimcPreimage env [x, y] randomness image constants rounds rng) (Bp.mimc x y constants rounds = .ok image) := by
  intro p p' s coms J hd
  unfold proveMimcPreimage at hd
  obtain ⟨_, p1, h1, hd⟩ := Drv.bind_ok.mp hd
  obtain ⟨-, rfl⟩ := Drv.lift_ok.mp h1
  obtain ⟨rands, p1, h1, hd⟩ := Drv.bind_ok.mp hd
  obtain ⟨-, rfl⟩ := Drv.lift_ok.mp h1
  obtain ⟨_, p1, h1, hd⟩ := Drv.bind_ok.mp hd
  obtain ⟨hck, rfl⟩ := Drv.lift_ok.mp h1
  have hr : rands.length = 2 := by
    unfold checkLengths at hck
    split at hck
    · simp [Res.err] at hck
    · rename_i hn; simpa using hn
  obtain ⟨r1, r2, rfl⟩ := List.length_eq_two.mp hr
  obtain ⟨cs, p1, c1, hd⟩ := Drv.bind_ok.mp hd
  obtain ⟨s1, c2, J1, o1, hl⟩ := J.commitAll hO _ c1
  obtain ⟨⟨cv, vv⟩, ⟨ca, va⟩, rfl⟩ : ∃ x y, cs = [x, y] := List.length_eq_two.mp (by simpa using hl)
  obtain ⟨⟨⟩, p2, g1, hd⟩ := Drv.bind_ok.mp hd
  obtain ⟨rfl, rfl⟩ := Drv.pure_ok.mp hd
  obtain ⟨⟨⟩, s2, g2, J2, -, e⟩ := J1.gadgetOk hO (Prog.Same.mimc (l' := ⟨vv, none⟩) (r' := ⟨va, none⟩) rfl rfl rounds constants image) g1
  refine ⟨rfl, s2, ?_, J2, [x, y], [], by rw [e, o1.values]; simp, by simp, rfl, fun v hv hc => ?_⟩
  · exact Drv.bind_ok.mpr ⟨[cv, ca], s, rfl, Drv.bind_ok.mpr ⟨_, s1, c2, g2⟩⟩
  · rw [← hv 0 _ rfl, ← hv 1 _ rfl]; exact hc

theorem follows_factors (p q : F × F) (rest : List (F × F)) (r : F) : Follows env env' g h (.factors rest.length r) (proveFactors env p q rest r) (((p :: q :: rest).map Prod.fst).prod = r) := by
  intro pr pr' s coms J hd
  unfold proveFactors at hd
  obtain ⟨cs, p1, c1, hd⟩ := Drv.bind_ok.mp hd
  obtain ⟨s1, c2, J1, o1, hl⟩ := J.commitAll hO _ c1
  match cs, hl with
  | (cp, vp) :: (cq, vq) :: ds, hl =>
    have hlen : ds.length = rest.length := by simpa using hl
    obtain ⟨⟨⟩, p2, g1, hd⟩ := Drv.bind_ok.mp hd
    obtain ⟨rfl, rfl⟩ := Drv.pure_ok.mp hd
    obtain ⟨⟨⟩, s2, g2, J2, -, e⟩ := J1.gadgetOk hO (Prog.Same.factors _ _ _ _) g1
    refine ⟨by simp [Stmt.size, hlen], s2, ?_, J2, (p :: q :: rest).map Prod.fst, [], by rw [e, o1.values]; simp, by simp, by simp [Stmt.size], fun v hv hc => ?_⟩
    · exact Drv.bind_ok.mpr ⟨cp :: cq :: ds.map Prod.fst, s, Drv.lift_ok.mpr ⟨takeComms_ok.mpr ⟨by simp [hlen], (List.take_of_length_le (by simp [hlen])).symm⟩, rfl⟩, Drv.bind_ok.mpr ⟨_, s1, c2, g2⟩⟩
    · rw [← show ((List.range (rest.length + 2)).map v).prod = r from hc]
      congr 1
      apply List.ext_getElem
      · simp
      · intro i h1 h2
        rw [List.getElem_map (f := v), List.getElem_range]
        exact (hv i _ (List.getElem?_eq_getElem h1)).symm

theorem Shared.bits : ∀ (bs : List (F × F)) {p p' : Prover F G} {s : Verifier F G} {cs : List (G × Var)}, Shared env env' g h p s → proveBits env bs p = (.ok cs, p') →
    ∃ s', verifyBits env' (cs.map Prod.fst) s = (.ok (cs.map Prod.snd), s') ∧ Shared env env' g h p' s' ∧ p'.v = p.v ++ bs.map Prod.fst ∧ cs.length = bs.length
  | [], p, p', s, cs, J, hd => by
    obtain ⟨rfl, rfl⟩ := Drv.pure_ok.mp hd
    exact ⟨s, rfl, J, by simp, rfl⟩
  | (b, r) :: bs, p, p', s, cs, J, hd => by
    unfold proveBits at hd
    obtain ⟨ds, p1, c1, hd⟩ := Drv.bind_ok.mp hd
    obtain ⟨s1, c2, J1, o1, hl⟩ := J.commitAll hO _ c1
    obtain ⟨⟨c, v⟩, rfl⟩ : ∃ x, ds = [x] := List.length_eq_one_iff.mp (by simpa using hl)
    obtain ⟨⟨⟩, p2, g1, hd⟩ := Drv.bind_ok.mp hd
    obtain ⟨⟨⟩, s2, g2, J2, -, e⟩ := J1.gadgetOk hO (Prog.Same.bit (Alloc.pair v _)) g1
    obtain ⟨ds, p3, k1, hd⟩ := Drv.bind_ok.mp hd
    obtain ⟨rfl, rfl⟩ := Drv.pure_ok.mp hd
    obtain ⟨s3, k2, J3, e3, hl3⟩ := Shared.bits bs J2 k1
    refine ⟨s3, Drv.bind_ok.mpr ⟨_, s1, c2, Drv.bind_ok.mpr ⟨(), s2, g2, Drv.bind_ok.mpr ⟨_, s3, k2, rfl⟩⟩⟩, J3, ?_, by simp [hl3]⟩
    rw [e3, e, o1.values]; simp

theorem follows_setMembershipAlt (value : ℕ) (set : List ℕ) (randomness : Option F) (rng : Option (ℕ → F)) (sys : ℕ → F) :
    Follows env env' g h (.setMembershipAlt set) (proveSetMembershipAlt env value randomness set rng sys) (value ∈ set) := by
  intro p p' s coms J hd
  unfold proveSetMembershipAlt at hd
  obtain ⟨_, p1, h1, hd⟩ := Drv.bind_ok.mp hd
  obtain ⟨-, rfl⟩ := Drv.lift_ok.mp h1
  obtain ⟨bits, p1, c1, hd⟩ := Drv.bind_ok.mp hd
  obtain ⟨s1, c2, J1, e1, hl⟩ := Shared.bits env env' hO g h _ J c1
  have hlen : bits.length = set.length := by simpa using hl
  obtain ⟨⟨⟩, p2, g1, hd⟩ := Drv.bind_ok.mp hd
  obtain ⟨⟨⟩, s2, g2, J2, -, e2⟩ := J1.gadgetOk hO (Prog.Same.vectorSum _ _) g1
  obtain ⟨bl, p3, h3, hd⟩ := Drv.bind_ok.mp hd
  obtain ⟨-, rfl⟩ := Drv.lift_ok.mp h3
  obtain ⟨ds, p3, k1, hd⟩ := Drv.bind_ok.mp hd
  obtain ⟨s3, k2, J3, o3, hl3⟩ := J2.commitAll hO _ k1
  obtain ⟨⟨c, v⟩, rfl⟩ : ∃ x, ds = [x] := List.length_eq_one_iff.mp (by simpa using hl3)
  obtain ⟨⟨⟩, p4, m1, hd⟩ := Drv.bind_ok.mp hd
  obtain ⟨rfl, rfl⟩ := Drv.pure_ok.mp hd
  have hP := pair_zip (F := F) (ds := bits) (xs := set.map fun elem => if elem = value then (1 : F) else 0) (by simp [hlen])
  obtain ⟨⟨⟩, s4, m2, J4, -, e4⟩ := J3.gadgetOk hO (Prog.Same.vectorProduct (v' := ⟨v, none⟩) rfl (hP.imp fun _ _ h => h.2)) m1
  refine ⟨by simp [Stmt.size, hlen], s4, ?_, J4, (set.map fun elem => if elem = value then (1 : F) else 0) ++ [(value : F)], [], ?_, by simp, by simp [Stmt.size], fun w hw hc => ?_⟩
  · refine Drv.bind_ok.mpr ⟨bits.map Prod.fst ++ [c], s, Drv.lift_ok.mpr ⟨takeComms_ok.mpr ⟨by simp [hlen], (List.take_of_length_le (by simp [hlen])).symm⟩, rfl⟩, ?_⟩
    rw [List.take_left' (by simp [hlen]), List.drop_left' (by simp [hlen])]
    exact Drv.bind_ok.mpr ⟨_, s1, c2, Drv.bind_ok.mpr ⟨(), s2, g2, Drv.bind_ok.mpr ⟨_, s3, k2, m2⟩⟩⟩
  · rw [e4, o3.values, e2, e1, zip_map_fst (by simp)]; simp
  · by_contra hn
    refine one_ne_zero (α := F) (hc.2.1.symm.trans (List.sum_eq_zero fun x hx => ?_))
    obtain ⟨i, hi, rfl⟩ := List.mem_map.mp hx
    have hi := List.mem_range.mp hi
    refine hw i 0 ?_
    rw [List.getElem?_append_left (by simpa using hi), List.getElem?_map, List.getElem?_eq_getElem hi, Option.map_some, if_neg]
    rintro e
    exact hn (e ▸ List.getElem_mem hi)

theorem follows_preimage {k : ℕ} {inputs : List F} (hi : inputs.length = k) {st : Stmt F} (hz : st.size = k) {p : PoseidonParams F} {output : F} {sbox : SboxType} {call : List Var → List Var → Prog1 F Unit}
    (hc : IsCall k sbox.synthesize p output call) (hv : st.verify env' g h = verifyPreimage env' k g h call) (P : Prop) (hP : ∀ v : ℕ → F, (∀ (i : ℕ) x, inputs[i]? = some x → v i = x) → st.Claim v → P)
    (randomness : Option (List F)) (rng : Option (ℕ → F)) : Follows env env' g h st (provePreimage env k inputs randomness rng call) P := by
  intro q q' s coms J hd
  unfold provePreimage at hd
  obtain ⟨_, p1, h1, hd⟩ := Drv.bind_ok.mp hd
  obtain ⟨-, rfl⟩ := Drv.lift_ok.mp h1
  obtain ⟨rands, p1, h1, hd⟩ := Drv.bind_ok.mp hd
  obtain ⟨-, rfl⟩ := Drv.lift_ok.mp h1
  obtain ⟨_, p1, h1, hd⟩ := Drv.bind_ok.mp hd
  obtain ⟨hck, rfl⟩ := Drv.lift_ok.mp h1
  have hr : rands.length = k := by
    unfold checkLengths at hck
    split at hck
    · simp [Res.err] at hck
    · rename_i hn
      simp only [not_or, not_not] at hn
      exact hn.2
  obtain ⟨cs, p1, c1, hd⟩ := Drv.bind_ok.mp hd
  obtain ⟨s1, c2, J1, o1, hl⟩ := J.commitAll hO _ c1
  have hcs : (cs.map Prod.snd).length = k := by simp [hl, hi, hr]
  obtain ⟨statics, p2, d1, hd⟩ := Drv.bind_ok.mp hd
  unfold allocateStaticsForProver at d1
  obtain ⟨ds, p2', d0, d3⟩ := Drv.bind_ok.mp d1
  obtain ⟨rfl, rfl⟩ := Drv.pure_ok.mp d3
  have d1 : Prover.commits [((0 : F), (0 : F))] p1 = (.ok ds, p2') := by simpa [staticValues, zeroConst] using d0
  obtain ⟨s2, d2, J2, o2, hl2⟩ := J1.commitAll hO _ d1
  obtain ⟨⟨cz, vz⟩, rfl⟩ : ∃ x, ds = [x] := List.length_eq_one_iff.mp (by simpa using hl2)
  obtain ⟨⟨⟩, p3, g1, hd⟩ := Drv.bind_ok.mp hd
  obtain ⟨rfl, rfl⟩ := Drv.pure_ok.mp hd
  have hw : p.width = k + 1 := by
    by_contra hne
    obtain ⟨w, hw⟩ := (hc (cs.map Prod.snd) vz hcs).2 hne
    rw [List.map_cons, List.map_nil, hw, Prover.gadget_ok] at g1
    cases g1
  have heq : ∀ ls : List (LC F), List.Forall₂ LC.Equiv ls ls := fun ls => List.forall₂_same.mpr fun _ _ => .rfl'
  have hsame : Prog1.Same (fun _ _ => True) (call (cs.map Prod.snd) [vz]) (call (cs.map Prod.snd) [vz]) := by
    rw [(hc _ _ hcs).1 hw]
    exact .bind (.hash (synthSame_sbox sbox) p (heq _)) fun _ _ h => .conScalar h _
  obtain ⟨⟨⟩, s3, g2, J3, -, e3⟩ := J2.gadgetOk hO hsame g1
  refine ⟨by rw [hz]; simpa using hcs, s3, ?_, J3, inputs, [0], ?_, by simp, by rw [hi, hz], hP⟩
  · rw [hv]
    unfold verifyPreimage
    refine Drv.bind_ok.mpr ⟨cs.map Prod.fst, s, Drv.lift_ok.mpr ⟨takeComms_ok.mpr ⟨by simpa using hcs.ge, ?_⟩, rfl⟩, Drv.bind_ok.mpr ⟨_, s1, c2, Drv.bind_ok.mpr ⟨[vz], s2, ?_, g2⟩⟩⟩
    · rw [List.take_of_length_le]; simpa using hcs.le
    · rw [allocateStaticsForVerifier_one]
      have hcz := o2.points
      simp only [List.map_cons, List.map_nil, zero_smul, add_zero, List.cons.injEq, and_true] at hcz
      simp only [List.map_cons, List.map_nil, hcz] at d2
      exact d2
  · rw [e3, o2.values, o1.values, List.append_nil, zip_map_fst (by rw [hi, hr])]; simp

theorem follows_inclusion {n : ℕ} {leaf leafIndex : F} {siblings : List (List F)} (hsib : ∀ x ∈ siblings, x.length = n) {st : Stmt F} (hz : st.size = 2 + n * siblings.length)
    {call : Var → Alloc F → List Var → List Var → Prog1 F Unit} (hv : st.verify env' g h = verifyInclusion env' g h call)
    (hsame : ∀ l i ns z, Prog1.Same (fun _ _ => True) (call l ⟨i, some leafIndex⟩ ns [z]) (call l ⟨i, none⟩ ns [z])) (P : Prop)
    (hP : ∀ v : ℕ → F, v 0 = leaf → v 1 = leafIndex → nodesAt n siblings.length 2 v = siblings → st.Claim v → P)
    (randomness : Option (List F)) (rng : Option (ℕ → F)) (coins : ℕ → F) : Follows env env' g h st (proveInclusion env leaf leafIndex randomness siblings rng coins call) P := by
  intro q q' s coms J hd
  unfold proveInclusion at hd
  obtain ⟨_, p1, h1, hd⟩ := Drv.bind_ok.mp hd
  obtain ⟨-, rfl⟩ := Drv.lift_ok.mp h1
  obtain ⟨rands, p1, h1, hd⟩ := Drv.bind_ok.mp hd
  obtain ⟨-, rfl⟩ := Drv.lift_ok.mp h1
  have hfst : (siblings.flatten.mapIdx fun i x => (x, coins i)).map Prod.fst = siblings.flatten := by
    apply List.ext_getElem <;> simp
  have hfl := flatten_length siblings hsib
  match rands, hd with
  | [r0, r1], hd =>
    obtain ⟨cs, p1, c1, hd⟩ := Drv.bind_ok.mp hd
    obtain ⟨s1, c2, J1, o1, hl⟩ := J.commitAll hO _ c1
    obtain ⟨⟨cL, vL⟩, ⟨cI, vI⟩, rfl⟩ : ∃ x y, cs = [x, y] := List.length_eq_two.mp (by simpa using hl)
    obtain ⟨ns, p2, n1, hd⟩ := Drv.bind_ok.mp hd
    obtain ⟨s2, n2, J2, o2, hl2⟩ := J1.commitAll hO _ n1
    rw [List.length_mapIdx, hfl] at hl2
    obtain ⟨statics, p3, d1, hd⟩ := Drv.bind_ok.mp hd
    unfold allocateStaticsForProver at d1
    obtain ⟨ds, p3', d0, d3⟩ := Drv.bind_ok.mp d1
    obtain ⟨rfl, rfl⟩ := Drv.pure_ok.mp d3
    have d1 : Prover.commits [((0 : F), (0 : F))] p2 = (.ok ds, p3') := by simpa [staticValues, zeroConst] using d0
    obtain ⟨s3, d2, J3, o3, hl3⟩ := J2.commitAll hO _ d1
    obtain ⟨⟨cz, vz⟩, rfl⟩ : ∃ x, ds = [x] := List.length_eq_one_iff.mp (by simpa using hl3)
    obtain ⟨⟨⟩, p4, g1, hd⟩ := Drv.bind_ok.mp hd
    obtain ⟨rfl, rfl⟩ := Drv.pure_ok.mp hd
    obtain ⟨⟨⟩, s4, g2, J4, -, e4⟩ := J3.gadgetOk hO (hsame _ _ _ _) g1
    refine ⟨by simp [hz, hl2]; omega, s4, ?_, J4, leaf :: leafIndex :: siblings.flatten, [0], ?_, by simp, by simp only [List.length_cons, hfl, hz]; omega, fun v hx hc => ?_⟩
    · rw [hv]
      simp only [List.map_append, List.map_cons, List.map_nil, List.cons_append, List.nil_append, verifyInclusion]
      refine Drv.bind_ok.mpr ⟨_, s1, c2, Drv.bind_ok.mpr ⟨_, s2, n2, Drv.bind_ok.mpr ⟨[vz], s3, ?_, g2⟩⟩⟩
      rw [allocateStaticsForVerifier_one]
      have hcz := o3.points
      simp only [List.map_cons, List.map_nil, zero_smul, add_zero, List.cons.injEq, and_true] at hcz
      simp only [List.map_cons, List.map_nil, hcz] at d2
      exact d2
    · rw [e4, o3.values, o2.values, o1.values, List.append_nil, List.append_nil, hfst]; simp
    · refine hP v (hx 0 _ rfl) (hx 1 _ rfl) ?_ hc
      have := groups_flatten siblings hsib
      apply List.ext_getElem
      · simp [nodesAt]
      · intro i h1 h2
        have hi := hsib _ (List.getElem_mem h2)
        simp only [nodesAt, List.getElem_map, List.getElem_range]
        apply List.ext_getElem
        · simp [hi]
        · intro j k1 k2
          rw [List.getElem_map, List.getElem_range]
          refine hx _ _ ?_
          rw [show 2 + n * i + j = (n * i + j) + 1 + 1 by ring, List.getElem?_cons_succ, List.getElem?_cons_succ]
          exact flatten_getElem? hsib h2 (by simpa [hi] using k2)

end follows

theorem Attempt.follows [ByteRep F] {env env' : Env F G} (hO : env.oracle = env'.oracle) (g h : G) {st : Stmt F} (hok : st.Ok) {dp : Env F G → Drv (Prover F G) (List G)} {P : Prop} (ha : Attempt st dp P) :
    Follows env env' g h st (dp env) P := by
  cases ha with
  | boundedNum debug val lower upper n hval randomness rng sys => exact follows_boundedNum env env' hO g h debug val lower upper n hval hok.2.2.1 hok.2.1 randomness rng sys
  | nonZero value randomness rng sys => exact follows_nonZero env env' hO g h value randomness rng sys
  | setMembership value set randomness rng sys => exact follows_setMembership env env' hO g h value set randomness rng sys
  | setMembershipAlt value set randomness rng sys => exact follows_setMembershipAlt env env' hO g h value set randomness rng sys
  | setNonMembership value set randomness rng sys => exact follows_setNonMembership env env' hO g h value set randomness rng sys
  | mimc x y image constants rounds randomness rng => exact follows_mimc env env' hO g h x y image constants rounds randomness rng
  | poseidon2 a b output p sbox randomness rng =>
    refine follows_preimage env env' hO g h (inputs := [a, b]) rfl rfl (isCall2 _ p output) rfl _ (fun v hv hc => ?_) randomness rng
    rw [← hv 0 _ rfl, ← hv 1 _ rfl]; exact hc
  | poseidon4 a b c d output p sbox randomness rng =>
    refine follows_preimage env env' hO g h (inputs := [a, b, c, d]) rfl rfl (isCall4 _ p output) rfl _ (fun v hv hc => ?_) randomness rng
    rw [← hv 0 _ rfl, ← hv 1 _ rfl, ← hv 2 _ rfl, ← hv 3 _ rfl]; exact hc
  | poseidon8 a b c d a' b' c' d' output p sbox randomness rng =>
    refine follows_preimage env env' hO g h (inputs := [a, b, c, d, a', b', c', d']) rfl rfl (isCall8 _ p output) rfl _ (fun v hv hc => ?_) randomness rng
    rw [← hv 0 _ rfl, ← hv 1 _ rfl, ← hv 2 _ rfl, ← hv 3 _ rfl, ← hv 4 _ rfl, ← hv 5 _ rfl, ← hv 6 _ rfl, ← hv 7 _ rfl]; exact hc
  | inclusion4 leaf leafIndex root siblings p sbox hs hd randomness rng coins =>
    refine follows_inclusion env env' hO g h hs (st := .inclusion4 root siblings.length p sbox) rfl (call := merkleCall4 root siblings.length p sbox.synthesize) rfl
      (fun l i ns z => Prog.Same.merkleGadget4 hd root l i leafIndex ns [z] p sbox) _ (fun v h0 h1 hn hc => ?_) randomness rng coins
    obtain ⟨path, k1, k2, k3, k4⟩ := hc
    refine ⟨path, k1, k2, h1.symm.trans k3, ?_⟩
    have k4 : merkleRoot (hasher4 p sbox).digest (path.zip (nodesAt 3 siblings.length 2 v)) (v 0) = root := k4
    rw [hn, h0] at k4
    exact k4
  | inclusion8 leaf leafIndex root siblings p sbox hs hd randomness rng coins =>
    refine follows_inclusion env env' hO g h hs (st := .inclusion8 root siblings.length p sbox) rfl (call := merkleCall8 root siblings.length p sbox.synthesize) rfl
      (fun l i ns z => Prog.Same.merkleGadget8 hd root l i leafIndex ns z p sbox) _ (fun v h0 h1 hn hc => ?_) randomness rng coins
    obtain ⟨path, k1, k2, k3, k4⟩ := hc
    refine ⟨path, k1, k2, h1.symm.trans k3, ?_⟩
    have k4 : merkleRoot (hasher8 p sbox).digest (path.zip (nodesAt 7 siblings.length 2 v)) (v 0) = root := k4
    rw [hn, h0] at k4
    exact k4
  | factors p q rest r => exact follows_factors env env' hO g h p q rest r

/-- What several attempts give. -/
theorem Attempts.follows [ByteRep F] {env env' : Env F G} (hO : env.oracle = env'.oracle) (g h : G) {stmts : List (Stmt F)} {dp : Env F G → Drv (Prover F G) (List G)} {P : Prop} (ha : Attempts stmts dp P)
    (hok : ∀ st ∈ stmts, st.Ok) : ∀ {p p' : Prover F G} {s : Verifier F G} {coms : List G}, Shared env env' g h p s → dp env p = (.ok coms, p') →
      coms.length = totalSize stmts ∧ ∃ s', verifyStmts env' g h stmts coms s = (.ok (), s') ∧ Shared env env' g h p' s' ∧ p.v <+: p'.v ∧ s.constraints <+: s'.constraints ∧
        ∀ σ : Assignment F, σ.Gates → σ.Sat s'.constraints → (∀ (i : ℕ) x, p'.v[i]? = some x → σ.committed i = x) → P := by
  induction ha with
  | nil =>
    intro p p' s coms J hd
    obtain ⟨rfl, rfl⟩ := Drv.pure_ok.mp hd
    exact ⟨rfl, s, rfl, J, List.prefix_rfl, List.prefix_rfl, fun _ _ _ _ => trivial⟩
  | @cons st stmts dp dps P Q ha has ih =>
    intro p p' s coms J hd
    obtain ⟨cs, p1, d1, hd⟩ := Drv.bind_ok.mp hd
    obtain ⟨cs', p2, d2, hd⟩ := Drv.bind_ok.mp hd
    obtain ⟨rfl, rfl⟩ := Drv.pure_ok.mp hd
    have hst := hok st (.head _)
    obtain ⟨hl1, s1, v1, J1, values, zs, ev, hz, hvl, hc⟩ := ha.follows hO g h hst p p1 s cs J d1
    obtain ⟨hl2, s2, v2, J2, e2, e3, hq⟩ := ih (fun st hst => hok st (.tail _ hst)) J1 d2
    obtain ⟨statics, points, hzero, hs, -⟩ := st.spec' env' g h hst
    obtain ⟨a1, a2, a3⟩ := hs cs s s1 hl1 v1
    have i0 := (J.inStep hO).2
    have i1 := (J1.inStep hO).2
    have l0 : s.V.length = p.v.length := by rw [i0.V, List.length_zipWith, i0.lenB, Nat.min_self]
    have l1 : s1.V.length = p1.v.length := by rw [i1.V, List.length_zipWith, i1.lenB, Nat.min_self]
    refine ⟨by simp [totalSize, hl1, hl2], s2, ?_, J2, ?_, a1.trans e3, fun σ hg hsat hcom => ⟨?_, hq σ hg hsat hcom⟩⟩
    · unfold verifyStmts
      rw [List.take_left' hl1, List.drop_left' hl1]
      exact Drv.bind_ok.mpr ⟨(), s1, v1, v2⟩
    · exact List.IsPrefix.trans ⟨values ++ zs, by rw [ev, List.append_assoc]⟩ e2
    · have hcom1 : ∀ (i : ℕ) x, p1.v[i]? = some x → σ.committed i = x := fun i x hx => hcom i x (by obtain ⟨t, ht⟩ := e2; rw [← ht, List.getElem?_append_left (List.getElem?_eq_some_iff.mp hx).1, hx])
      refine hc (fun i => σ.committed (s.V.length + i)) (fun i x hx => hcom1 _ _ ?_) (a3 σ hg (fun lc hlc => hsat lc (e3.subset hlc)) fun i x hx => ?_)
      · have hi := (List.getElem?_eq_some_iff.mp hx).1
        rw [ev, l0, List.append_assoc, List.getElem?_append_right (by omega), Nat.add_sub_cancel_left, List.getElem?_append_left hi, hx]
      · obtain ⟨hpt, rfl⟩ := hzero i x hx
        have hi := (List.getElem?_eq_some_iff.mp hpt).1
        have hle := a2.length_le
        rw [List.length_append, List.length_append, l1, ev, hl1] at hle
        simp only [List.length_append] at hle
        have hi' : i < zs.length := by omega
        refine hcom1 _ _ ?_
        rw [ev, l0, List.getElem?_append_right (by simp; omega), show p.v.length + st.size + i - (p.v ++ values).length = i by simp; omega, List.getElem?_eq_getElem hi', hz _ (List.getElem_mem hi')]

end Bp
