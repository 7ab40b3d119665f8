import Verif.Lemmas.Gadgets.Zip
import Verif.Lemmas.Bls

set_option linter.unusedSectionVars false
set_option linter.unusedSimpArgs false

/-! # C29: set membership with a bitmap -/

namespace Bp
variable {F G : Type} [Field F] [AddCommGroup G] [Module F G]

/-- What the loop over the commitments to bits does to the verifier. -/
theorem verifyBits_spec {env : Env F G} : ∀ {Vs : List G} {s s' : Verifier F G} {vars : List Var}, verifyBits env Vs s = (.ok vars, s') →
    s.constraints <+: s'.constraints ∧ s'.V = s.V ++ Vs ∧ vars = (List.range Vs.length).map (fun i => Var.committed (s.V.length + i))
  | [], s, s', vars, h => by
    obtain ⟨rfl, rfl⟩ := Drv.pure_ok.mp h
    simp
  | V :: Vs, s, s', vars, h => by
    obtain ⟨vs, s1, h1, h⟩ := Drv.bind_ok.mp h
    rw [Verifier.commits_ok] at h1
    obtain ⟨rfl, rfl⟩ := h1
    simp only [List.length_singleton, List.range_one, List.map_cons, List.map_nil, Nat.add_zero] at h
    obtain ⟨⟨⟩, s2, h2, h⟩ := Drv.bind_ok.mp h
    obtain ⟨rest, s3, h3, h⟩ := Drv.bind_ok.mp h
    obtain ⟨rfl, rfl⟩ := Drv.pure_ok.mp h
    obtain ⟨b1, b2, b3⟩ := verifyBits_spec h3
    obtain ⟨a1, a2, -⟩ := Verifier.gadget_sound h2
    simp only at a1 a2
    refine ⟨a1.trans b1, by rw [b2, a2]; simp, ?_⟩
    rw [b3, a2, List.length_cons, List.range_succ_eq_map]
    simp [Function.comp_def, Nat.add_assoc, Nat.add_comm 1]

/-- The loops over the bitmap, run side by side. -/
theorem Joint.bits {env env' : Env F G} (hO : env.oracle = env'.oracle) : ∀ (bs : List (F × F)) {p : Prover F G} {s : Verifier F G}, Joint env env' p s →
    (∀ b ∈ bs, b.1 = 0 ∨ b.1 = 1) →
    ∃ cs p' s', proveBits env bs p = (.ok cs, p') ∧ verifyBits env' (cs.map Prod.fst) s = (.ok (cs.map Prod.snd), s') ∧ Joint env env' p' s' ∧
      p'.pending = p.pending ∧ p'.aL.length = p.aL.length + bs.length ∧ Opened p p' bs (cs.map Prod.fst) ∧ p.Ext p' ∧
      List.Forall₂ p'.HasV (cs.map Prod.snd) (bs.map Prod.fst)
  | [], p, s, J, _ => ⟨[], p, s, rfl, rfl, J, rfl, rfl, ⟨by simp, by simp, rfl, rfl, rfl⟩, .refl _, .nil⟩
  | (b, r) :: bs, p, s, J, hb => by
    obtain ⟨cs, p1, s1, c1, c2, J1, hp1, hl1, e1, o1, hf⟩ := J.commitAll hO [(b, r)]
    obtain ⟨⟨c, v⟩, rfl⟩ : ∃ x, cs = [x] := List.length_eq_one_iff.mp (by simpa using hf.length_eq)
    simp only [List.map_cons, List.map_nil, List.forall₂_cons, List.forall₂_nil_left_iff, and_true] at hf
    obtain ⟨⟨⟩, ⟨⟩, p2, s2, g1, g2, J2, -, -, n2, hp2, hl2⟩ := J1.gadget hO
      (PS.bit (env := env) (onSpec := fun cb p => p.specify cb) (rnd := false) (v := ⟨v, some b⟩) J1.good (hb _ (.head _)) hf rfl) (fun _ _ h => h)
      (Prog.Same.bit (Alloc.pair v _)) (PC.bit _)
    obtain ⟨ds, p3, s3, k1, k2, J3, hp3, hl3, o3, e3, hf3⟩ := Joint.bits hO bs J2 fun x hx => hb x (.tail _ hx)
    refine ⟨(c, v) :: ds, p3, s3, ?_, ?_, J3, by rw [hp3, hp2, hp1], by rw [hl3, hl2, hl1, List.length_cons]; ring, (o1.next n2).trans o3, (e1.trans n2.ext).trans e3, ?_⟩
    · exact Drv.bind_ok.mpr ⟨_, p1, c1, Drv.bind_ok.mpr ⟨(), p2, g1, Drv.bind_ok.mpr ⟨ds, p3, k1, rfl⟩⟩⟩
    · exact Drv.bind_ok.mpr ⟨_, s1, c2, Drv.bind_ok.mpr ⟨(), s2, g2, Drv.bind_ok.mpr ⟨_, s3, k2, rfl⟩⟩⟩
    · exact .cons (hf.ext J1.good.wf (n2.ext.trans e3)) hf3

/-- C29, partial: whatever `verify_set_membership_alt` accepts has, in every satisfying assignment, a committed value that is an element of the set **or
zero with a non-empty set**.  Missing: ruling out zero, which is impossible (`c29_unsound`). -/
theorem c29_sound_partial (env : Env F G) (set : List ℕ) :
    SoundFor (set.length + 1) (verifySetMembershipAlt env set) (fun v => (∃ x ∈ set, v set.length = (x : F)) ∨ (v set.length = 0 ∧ set ≠ [])) := by
  intro coms s s' h
  unfold verifySetMembershipAlt at h
  obtain ⟨cs, s1, h1, h⟩ := Drv.bind_ok.mp h
  rw [Drv.lift_ok, takeComms_ok] at h1
  obtain ⟨⟨hl, rfl⟩, rfl⟩ := h1
  obtain ⟨vars, s2, h2, h⟩ := Drv.bind_ok.mp h
  obtain ⟨b1, b2, b3⟩ := verifyBits_spec h2
  obtain ⟨⟨⟩, s3, h3, h⟩ := Drv.bind_ok.mp h
  obtain ⟨d1, d2, d3⟩ := Verifier.gadget_sound h3
  obtain ⟨vv, s4, h4, h⟩ := Drv.bind_ok.mp h
  rw [Verifier.commits_ok] at h4
  obtain ⟨rfl, rfl⟩ := h4
  have e1 : ((coms.take (set.length + 1)).drop set.length).length = 1 := by simp; omega
  have e2 : (coms.take (set.length + 1)).take set.length = coms.take set.length := by rw [List.take_take]; simp
  rw [e1] at h
  rw [e2] at b2 b3
  simp only [List.range_one, List.map_cons, List.map_nil, Nat.add_zero] at h
  obtain ⟨a1, a2, a3⟩ := Verifier.gadget_sound h
  refine ⟨hl, (b1.trans d1).trans a1, ?_, fun σ hg hs => ?_⟩
  · rw [a2, d2, b2, List.append_assoc]
    rw [← e2, List.take_append_drop]
  · have hv := a3 (VS.vectorProduct hg _ _ _) hs
    have hlen : s3.V.length = s.V.length + set.length := by rw [d2, b2]; simp; omega
    simp only [Assignment.val, hlen] at hv
    rcases hv with hv | hv
    · refine .inr ⟨hv, ?_⟩
      rintro rfl
      have := d3 (VS.vectorSum _ _) (fun lc hlc => hs lc (a1.subset hlc))
      rw [b3] at this
      simp at this
    · exact .inl hv

/-- C29: the honest prover succeeds for every value that occurs exactly once in the set. -/
theorem c29_complete (env env' : Env F G) (hO : env.oracle = env'.oracle) (value : ℕ) (set : List ℕ) (hmem : set.count value = 1) (randomness : Option F)
    (rng : Option (ℕ → F)) (sys : ℕ → F) (hr : randomness.isSome ∨ rng.isSome) (pd : Option ℕ) :
    HonestPair env env' pd (3 * set.length)
      ((set.map fun elem => if elem = value then (1 : F) else 0).zip ((List.range set.length).map sys) ++ [((value : F), blindingOf randomness rng)])
      (proveSetMembershipAlt env value randomness set rng sys) (verifySetMembershipAlt env' set) := by
  intro p s J hp
  obtain ⟨hbl, hck⟩ := pickBlinding_ok hr
  have hbits : ∀ b ∈ (set.map fun elem => if elem = value then (1 : F) else 0).zip ((List.range set.length).map sys), b.1 = 0 ∨ b.1 = 1 := by
    intro b hb
    have := (List.of_mem_zip hb).1
    simp only [List.mem_map] at this
    obtain ⟨e, -, he⟩ := this
    rw [← he]
    split <;> simp
  obtain ⟨cs, p1, s1, c1, c2, J1, hp1, hl1, o1, e1, hf⟩ := J.bits hO _ hbits
  rw [zip_map_fst (by simp)] at hf
  have hlen : cs.length = set.length := by simpa using hf.length_eq
  have hsum : ∀ t : List ℕ, (t.map fun elem => if elem = value then (1 : F) else 0).sum = (t.count value : ℕ) := by
    intro t
    induction t with
    | nil => simp
    | cons e t ih => rw [List.map_cons, List.sum_cons, ih, List.count_cons]; by_cases h : e = value <;> simp [h, add_comm]
  obtain ⟨⟨⟩, ⟨⟩, p2, s2, g1, g2, J2, -, -, n2, hp2, hl2⟩ := J1.gadget hO
    (PS.vectorSum (env := env) (onSpec := fun cb p => p.specify cb) (rnd := false) (n := 1) J1.good hf (by rw [hsum, hmem])) (fun _ _ h => h)
    (Prog.Same.vectorSum _ _) (PC.vectorSum _ _)
  obtain ⟨ds, p3, s3, k1, k2, J3, hp3, hl3, e3, o3, hf3⟩ := J2.commitAll hO [((value : F), blindingOf randomness rng)]
  obtain ⟨⟨c, v⟩, rfl⟩ : ∃ x, ds = [x] := List.length_eq_one_iff.mp (by simpa using hf3.length_eq)
  simp only [List.map_cons, List.map_nil, List.forall₂_cons, List.forall₂_nil_left_iff, and_true] at hf3
  have hP := pair_zip (F := F) (ds := cs) (xs := set.map fun elem => if elem = value then (1 : F) else 0) (by simp [hlen])
  have hz : ∀ t : List ℕ, (List.zipWith (fun b (k : ℕ) => b * (k : F)) (t.map fun elem => if elem = value then (1 : F) else 0) t).sum = (t.count value : ℕ) * (value : F) := by
    intro t
    induction t with
    | nil => simp
    | cons e t ih => rw [List.map_cons, List.zipWith_cons_cons, List.sum_cons, ih, List.count_cons]; by_cases h : e = value <;> simp [h]; ring
  obtain ⟨⟨⟩, ⟨⟩, p4, s4, m1, m2, J4, -, -, n4, hp4, hl4⟩ := J3.gadget hO
    (PS.vectorProduct (env := env) (onSpec := fun cb p => p.specify cb) (rnd := false) (items := set) (v := ⟨v, some (value : F)⟩)
      (vec := List.zipWith (fun d x => ⟨d.2, some x⟩) cs (set.map fun elem => if elem = value then (1 : F) else 0)) J3.good ⟨hf3, rfl⟩
      ((hasA_zip hf).imp fun _ _ h => h.2) (by simp)
      (by
        intro i b k hb hk
        simp only [List.getElem?_map, hk, Option.map_some, Option.some.injEq] at hb
        by_cases h : k = value
        · rw [h]
        · rw [if_neg h] at hb; rw [← hb]; simp)
      (by rw [hz, hmem]; simp)) (fun _ _ h => h)
    (Prog.Same.vectorProduct rfl (hP.imp fun _ _ h => h.2)) (PC.vectorProduct _ _ _)
  refine ⟨cs.map Prod.fst ++ [c], p4, s4, ?_, ?_, J4, by rw [hp4, hp3, hp2, hp1, hp], ?_, ((o1.next n2).trans o3).next n4⟩
  · unfold proveSetMembershipAlt
    exact Drv.bind_ok.mpr ⟨(), p, Drv.lift_ok.mpr ⟨hck, rfl⟩, Drv.bind_ok.mpr ⟨cs, p1, c1, Drv.bind_ok.mpr ⟨(), p2, g1, Drv.bind_ok.mpr ⟨_, p2, Drv.lift_ok.mpr ⟨hbl, rfl⟩,
      Drv.bind_ok.mpr ⟨_, p3, k1, Drv.bind_ok.mpr ⟨(), p4, m1, rfl⟩⟩⟩⟩⟩⟩
  · unfold verifySetMembershipAlt
    refine Drv.bind_ok.mpr ⟨cs.map Prod.fst ++ [c], s, Drv.lift_ok.mpr ⟨takeComms_ok.mpr ⟨by simp [hlen], (List.take_of_length_le (by simp [hlen])).symm⟩, rfl⟩, ?_⟩
    rw [List.take_left' (by simp [hlen]), List.drop_left' (by simp [hlen])]
    exact Drv.bind_ok.mpr ⟨_, s1, c2, Drv.bind_ok.mpr ⟨(), s2, g2, Drv.bind_ok.mpr ⟨_, s3, k2, m2⟩⟩⟩
  · rw [hl4, hl3, hl2, hl1]
    simp
    ring

/-- C29, end to end. -/
theorem c29_end_to_end [DecidableEq G] (env env' : Env F G) (hO : env.oracle = env'.oracle) (h0 : ∀ l, env.oracle l ≠ 0) (value : ℕ) (set : List ℕ)
    (hmem : set.count value = 1) (hsz : nextPowerOfTwo (3 * set.length) < 2 ^ 32) (randomness : Option F) (rng : Option (ℕ → F)) (sys : ℕ → F)
    (hr : randomness.isSome ∨ rng.isSome) :
    EndToEnd env env' (3 * set.length)
      ((set.map fun elem => if elem = value then (1 : F) else 0).zip ((List.range set.length).map sys) ++ [((value : F), blindingOf randomness rng)])
      (proveSetMembershipAlt env value randomness set rng sys) (verifySetMembershipAlt env' set) := by
  refine (c29_complete env env' hO value set hmem randomness rng sys hr none).endToEnd hO h0 hsz (.inl ?_)
  have : 0 < set.length := List.length_pos_iff.mpr (by rintro rfl; simp at hmem)
  omega

/-- Hypotheses of the C29 theorems. -/
example : EndToEnd demoEnv demoEnv 12 [(0, 0), (1, 1), (0, 2), (0, 3), (5, 1)]
    (proveSetMembershipAlt demoEnv 5 (some 1) [2, 5, 6, 6] none (fun i => (i : Fr))) (verifySetMembershipAlt demoEnv [2, 5, 6, 6]) :=
  c29_end_to_end demoEnv demoEnv rfl demoEnv_ne_zero 5 [2, 5, 6, 6] (by decide) (by decide +kernel) _ _ _ (.inl rfl)
example : ∃ coms s', ∃ σ : Assignment Fr, verifySetMembershipAlt demoEnv [2, 5, 6] coms (Verifier.new [] 0) = (.ok (), s') ∧ σ.Gates ∧ σ.Sat s'.constraints :=
  (c29_complete demoEnv demoEnv rfl 5 [2, 5, 6] (by decide) (some 7) none (fun i => (i : Fr)) (.inl rfl) none).satisfiable rfl 3 4 []

/-- A prover that claims membership of 0: it commits to the bitmap 1,0,0,... but puts 0 on the unlinked wires of `vector_product_gadget`. -/
def forgeSetMembershipAlt (env : Env F G) (set : List ℕ) (sys : ℕ → F) : Drv (Prover F G) (List G) := do
  let bits ← proveBits env (((List.range set.length).map fun i => if i = 0 then (1 : F) else 0).zip ((List.range set.length).map sys))
  Prover.gadget env (vectorSumConstraints (bits.map Prod.snd) 1)
  let cs ← Prover.commits [((0 : F), sys set.length)]
  match cs with
  | [(cv, vv)] => do
    Prover.gadget env (vectorProductGadget set (bits.map fun d => ⟨d.2, some 0⟩) ⟨vv, some 0⟩)
    return bits.map Prod.fst ++ [cv]
  | _ => Drv.lift (Res.panic "unreachable")

/-- C29: for every non-empty set, a commitment to 0 is accepted as a member. -/
theorem c29_zero_accepted (env env' : Env F G) (hO : env.oracle = env'.oracle) (set : List ℕ) (hset : set ≠ []) (sys : ℕ → F) (pd : Option ℕ) :
    HonestPair env env' pd (3 * set.length)
      (((List.range set.length).map fun i => if i = 0 then (1 : F) else 0).zip ((List.range set.length).map sys) ++ [((0 : F), sys set.length)])
      (forgeSetMembershipAlt env set sys) (verifySetMembershipAlt env' set) := by
  intro p s J hp
  have hbits : ∀ b ∈ ((List.range set.length).map fun i => if i = 0 then (1 : F) else 0).zip ((List.range set.length).map sys), b.1 = 0 ∨ b.1 = 1 := by
    intro b hb
    have := (List.of_mem_zip hb).1
    simp only [List.mem_map] at this
    obtain ⟨e, -, he⟩ := this
    rw [← he]
    split <;> simp
  obtain ⟨cs, p1, s1, c1, c2, J1, hp1, hl1, o1, e1, hf⟩ := J.bits hO _ hbits
  rw [zip_map_fst (by simp)] at hf
  have hlen : cs.length = set.length := by simpa using hf.length_eq
  have hsum : ((List.range set.length).map fun i => if i = 0 then (1 : F) else 0).sum = ((1 : ℕ) : F) := by
    obtain ⟨n, hn⟩ := Nat.exists_eq_succ_of_ne_zero (List.length_pos_iff.mpr hset).ne'
    rw [hn, List.range_succ_eq_map]
    simp [Function.comp_def]
  obtain ⟨⟨⟩, ⟨⟩, p2, s2, g1, g2, J2, -, -, n2, hp2, hl2⟩ := J1.gadget hO
    (PS.vectorSum (env := env) (onSpec := fun cb p => p.specify cb) (rnd := false) (n := 1) J1.good hf hsum) (fun _ _ h => h)
    (Prog.Same.vectorSum _ _) (PC.vectorSum _ _)
  obtain ⟨ds, p3, s3, k1, k2, J3, hp3, hl3, e3, o3, hf3⟩ := J2.commitAll hO [((0 : F), sys set.length)]
  obtain ⟨⟨c, v⟩, rfl⟩ : ∃ x, ds = [x] := List.length_eq_one_iff.mp (by simpa using hf3.length_eq)
  simp only [List.map_cons, List.map_nil, List.forall₂_cons, List.forall₂_nil_left_iff, and_true] at hf3
  obtain ⟨⟨⟩, ⟨⟩, p4, s4, m1, m2, J4, -, -, n4, hp4, hl4⟩ := J3.gadget hO
    (PS.vectorProduct (env := env) (onSpec := fun cb p => p.specify cb) (rnd := false) (items := set) (v := ⟨v, some 0⟩)
      (vec := cs.map fun d => ⟨d.2, some (0 : F)⟩) (bits := cs.map fun _ => (0 : F)) J3.good ⟨hf3, rfl⟩
      (by rw [List.forall₂_map_left_iff, List.forall₂_map_right_iff]; exact List.forall₂_same.mpr fun _ _ => rfl) (by simp [hlen])
      (by
        intro i b k hb hk
        simp only [List.getElem?_map, Option.map_eq_some_iff] at hb
        obtain ⟨_, _, rfl⟩ := hb
        simp)
      (by
        rw [List.sum_eq_zero]
        intro x hx
        rw [List.zipWith_map_left] at hx
        simp only [zero_mul] at hx
        obtain ⟨i, hi, rfl⟩ := List.getElem_of_mem hx
        simp)) (fun _ _ h => h)
    (Prog.Same.vectorProduct (vec' := (cs.map Prod.snd).map fun d => ⟨d, none⟩) rfl (by
      rw [List.forall₂_map_left_iff, List.forall₂_map_right_iff, List.forall₂_map_right_iff]; exact List.forall₂_same.mpr fun _ _ => ⟨0, rfl⟩)) (PC.vectorProduct _ _ _)
  refine ⟨cs.map Prod.fst ++ [c], p4, s4, ?_, ?_, J4, by rw [hp4, hp3, hp2, hp1, hp], ?_, ((o1.next n2).trans o3).next n4⟩
  · unfold forgeSetMembershipAlt
    exact Drv.bind_ok.mpr ⟨cs, p1, c1, Drv.bind_ok.mpr ⟨(), p2, g1, Drv.bind_ok.mpr ⟨_, p3, k1, Drv.bind_ok.mpr ⟨(), p4, m1, rfl⟩⟩⟩⟩
  · unfold verifySetMembershipAlt
    refine Drv.bind_ok.mpr ⟨cs.map Prod.fst ++ [c], s, Drv.lift_ok.mpr ⟨takeComms_ok.mpr ⟨by simp [hlen], (List.take_of_length_le (by simp [hlen])).symm⟩, rfl⟩, ?_⟩
    rw [List.take_left' (by simp [hlen]), List.drop_left' (by simp [hlen])]
    exact Drv.bind_ok.mpr ⟨_, s1, c2, Drv.bind_ok.mpr ⟨(), s2, g2, Drv.bind_ok.mpr ⟨_, s3, k2, m2⟩⟩⟩
  · rw [hl4, hl3, hl2, hl1]
    simp
    ring

/-- C29, end to end: a forged proof of membership of 0 verifies, for every non-empty set. -/
theorem c29_zero_forgery_end_to_end [DecidableEq G] (env env' : Env F G) (hO : env.oracle = env'.oracle) (h0 : ∀ l, env.oracle l ≠ 0) (set : List ℕ) (hset : set ≠ [])
    (hsz : nextPowerOfTwo (3 * set.length) < 2 ^ 32) (sys : ℕ → F) :
    EndToEnd env env' (3 * set.length)
      (((List.range set.length).map fun i => if i = 0 then (1 : F) else 0).zip ((List.range set.length).map sys) ++ [((0 : F), sys set.length)])
      (forgeSetMembershipAlt env set sys) (verifySetMembershipAlt env' set) := by
  refine (c29_zero_accepted env env' hO set hset sys none).endToEnd hO h0 hsz (.inl ?_)
  have : 0 < set.length := List.length_pos_iff.mpr hset
  omega

/-- C29 is false: for every non-empty set without 0 (in the field) the statement is not enforced. -/
theorem c29_unsound (env : Env F G) (set : List ℕ) (hset : set ≠ []) (h0 : ∀ x ∈ set, (x : F) ≠ 0) (k : ℕ) :
    ¬ SoundFor k (verifySetMembershipAlt env set) (fun v => ∃ x ∈ set, v set.length = (x : F)) := by
  refine (c29_zero_accepted env env rfl set hset (fun _ => 0) none).not_sound rfl ?_
  rintro ⟨x, hx, e⟩
  refine h0 x hx ?_
  rw [← e]
  simp only [List.map_append, zip_map_fst (xs := (List.range set.length).map fun i => if i = 0 then (1 : F) else 0) (ys := (List.range set.length).map fun _ => (0 : F)) (by simp)]
  simp [List.getD_eq_getElem?_getD]

/-- The counterexample on the set of the repository's own test. -/
example : ¬ SoundFor 8 (verifySetMembershipAlt demoEnv [2, 3, 5, 6, 8, 20, 25]) (fun v => ∃ x : ℕ, x ∈ [2, 3, 5, 6, 8, 20, 25] ∧ v 7 = (x : Fr)) :=
  c29_unsound demoEnv [2, 3, 5, 6, 8, 20, 25] (by simp) (by decide +kernel) 8

end Bp
