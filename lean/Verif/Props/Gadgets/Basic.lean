import Verif.Lemmas.Gadgets.Hamming
import Verif.Lemmas.Gadgets.Driver
import Verif.Lemmas.Bls

set_option linter.unusedSectionVars false
set_option linter.unusedSimpArgs false

/-! # C24-C27: bits, ranges, bounds, non-zero -/

namespace Bp
variable {F G : Type} [Field F] [AddCommGroup G] [Module F G]

/-! ## C24 -/

/-- C24: after `bit_gadget`, every satisfying assignment gives the variable the value 0 or 1 (first phase). -/
theorem c24_bit_sound (env : Env F G) (v : Alloc F) (s s' : Verifier F G) (h : s.run1 env (bitGadget v) = .ok ((), s'))
    (σ : Assignment F) (hg : σ.Gates) (hs : σ.Sat s'.constraints) : σ.val v.var = 0 ∨ σ.val v.var = 1 :=
  VS.bit hg v (fun cb s => s.specify cb) (fun _ _ => rfl) _ _ _ h hs

/-- C24: the same inside a randomized callback. -/
theorem c24_bit_sound_randomized (env : Env F G) (v : Alloc F) (s s' : Verifier F G) (h : s.run2 env (bitGadget v) = .ok ((), s'))
    (σ : Assignment F) (hg : σ.Gates) (hs : σ.Sat s'.constraints) : σ.val v.var = 0 ∨ σ.val v.var = 1 :=
  VS.bit hg v _ (fun cb _ => cb.elim) _ _ _ h hs

/-- C24: from a satisfied prover, `bit_gadget` on a variable worth 0 or 1, with that assignment, succeeds and leaves a satisfied prover. -/
theorem c24_bit_complete (env : Env F G) (p : Prover F G) (h : p.Good) (v : Alloc F) (b : F) (hb : b = 0 ∨ b = 1) (hv : p.HasV v.var b)
    (ha : v.assignment = some b) : ∃ p', p.run1 env (bitGadget v) = .ok ((), p') ∧ p'.Good ∧ p.constraints <+: p'.constraints := by
  obtain ⟨a, p', h1, n⟩ := PS.bit (env := env) (onSpec := fun cb p => p.specify cb) (rnd := false) h hb hv ha
  exact ⟨p', h1, n.good, n.ext.cons⟩

/-- A prover and verifier that committed to `x` (with its variable), used in the examples. -/
theorem demo_committed (x : Fr) : ∃ (p : Prover Fr Fr) (s : Verifier Fr Fr) (v : Var), Joint demoEnv demoEnv p s ∧ p.HasV v x := by
  obtain ⟨cs, p1, s1, -, -, J1, -, -, -, -, hf⟩ := (Joint.new demoEnv demoEnv (3 : Fr) (4 : Fr) [] 0 0).commitAll rfl [(x, 6)]
  obtain ⟨⟨c, v⟩, rfl⟩ : ∃ x, cs = [x] := List.length_eq_one_iff.mp (by simpa using hf.length_eq)
  simp only [List.map_cons, List.map_nil, List.forall₂_cons, List.forall₂_nil_left_iff, and_true] at hf
  exact ⟨p1, s1, v, J1, hf⟩

/-- Hypotheses of the C24 theorems hold for a committed 1. -/
example : ∃ (v : Alloc Fr) (s s' : Verifier Fr Fr) (σ : Assignment Fr), s.run1 demoEnv (bitGadget v) = .ok ((), s') ∧ σ.Gates ∧ σ.Sat s'.constraints ∧ σ.val v.var = 1 := by
  obtain ⟨p, s, v, J, hv⟩ := demo_committed 1
  obtain ⟨⟨⟩, ⟨⟩, p2, s2, g1, g2, J2, -, -, n2, hp2, hl2⟩ := J.gadget rfl
    (PS.bit (env := demoEnv) (onSpec := fun cb p => p.specify cb) (rnd := false) (v := ⟨v, some 1⟩) J.good (.inr rfl) hv rfl) (fun _ _ h => h)
    (Prog.Same.bit (Alloc.pair v _)) (PC.bit _)
  exact ⟨⟨v, none⟩, s, s2, _, Verifier.gadget_ok.mp g2, (J2.satisfies rfl).1, (J2.satisfies rfl).2.1, (hv.next J.good n2).2⟩

/-! ## C25 -/

/-- C25: after `positive_no_gadget(v, n)`, every satisfying assignment makes `v` the image of an integer below `2^n`. -/
theorem c25_positive_sound [IntRep F] (env : Env F G) (v : Alloc F) (n : ℕ) (s s' : Verifier F G) (h : s.run1 env (positiveNoGadget v n) = .ok ((), s'))
    (σ : Assignment F) (hg : σ.Gates) (hs : σ.Sat s'.constraints) : ∃ k : ℕ, k < 2 ^ n ∧ σ.val v.var = (k : F) :=
  VS.positiveNo hg v n (fun cb s => s.specify cb) (fun _ _ => rfl) _ _ _ h hs

/-- C25: the same inside a randomized callback. -/
theorem c25_positive_sound_randomized [IntRep F] (env : Env F G) (v : Alloc F) (n : ℕ) (s s' : Verifier F G) (h : s.run2 env (positiveNoGadget v n) = .ok ((), s'))
    (σ : Assignment F) (hg : σ.Gates) (hs : σ.Sat s'.constraints) : ∃ k : ℕ, k < 2 ^ n ∧ σ.val v.var = (k : F) :=
  VS.positiveNo hg v n _ (fun cb _ => cb.elim) _ _ _ h hs

/-- C25: when `2^n` does not exceed the field order, that integer is the canonical representative of the value. -/
theorem c25_positive_representative [IntRep F] (env : Env F G) (v : Alloc F) (n : ℕ) (hn : 2 ^ n ≤ IntRep.order F) (s s' : Verifier F G)
    (h : s.run1 env (positiveNoGadget v n) = .ok ((), s')) (σ : Assignment F) (hg : σ.Gates) (hs : σ.Sat s'.constraints) :
    IntRep.rep (σ.val v.var) < 2 ^ n := by
  obtain ⟨k, hk, e⟩ := c25_positive_sound env v n s s' h σ hg hs
  rw [e, IntRep.rep_cast k (by omega)]
  exact hk

/-- C25: a value whose representative is below `2^n` is accepted. -/
theorem c25_positive_complete [IntRep F] (env : Env F G) (p : Prover F G) (h : p.Good) (v : Alloc F) (x : F) (n : ℕ) (hx : IntRep.rep x < 2 ^ n)
    (hv : p.HasV v.var x) (ha : v.assignment = some x) :
    ∃ p', p.run1 env (positiveNoGadget v n) = .ok ((), p') ∧ p'.Good ∧ p.constraints <+: p'.constraints := by
  obtain ⟨a, p', h1, n⟩ := PS.positiveNo (env := env) (onSpec := fun cb p => p.specify cb) (rnd := false) h hx hv ha
  exact ⟨p', h1, n.good, n.ext.cons⟩

/-- Hypotheses of the C25 theorems hold for a committed 5 and three bits. -/
example : ∃ (v : Alloc Fr) (s s' : Verifier Fr Fr) (σ : Assignment Fr), s.run1 demoEnv (positiveNoGadget v 3) = .ok ((), s') ∧ σ.Gates ∧ σ.Sat s'.constraints ∧
    σ.val v.var = 5 ∧ 2 ^ 3 ≤ IntRep.order Fr := by
  obtain ⟨p, s, v, J, hv⟩ := demo_committed 5
  obtain ⟨⟨⟩, ⟨⟩, p2, s2, g1, g2, J2, -, -, n2, hp2, hl2⟩ := J.gadget rfl
    (PS.positiveNo (env := demoEnv) (onSpec := fun cb p => p.specify cb) (rnd := false) (v := ⟨v, some 5⟩) (n := 3) J.good (by decide +kernel) hv rfl) (fun _ _ h => h)
    (Prog.Same.positiveNo (Alloc.pair v _) 3) (PC.positiveNo _ _)
  exact ⟨⟨v, none⟩, s, s2, _, Verifier.gadget_ok.mp g2, (J2.satisfies rfl).1, (J2.satisfies rfl).2.1, (hv.next J.good n2).2, by decide +kernel⟩

/-! ## C26 -/

theorem subU64_ok {debug : Bool} {a b d : ℕ} (h : subU64 debug a b = .ok d) : (b ≤ a ∧ d = a - b) ∨ (a < b ∧ d = a + 2 ^ 64 - b) := by
  unfold subU64 at h
  split at h
  · simp only [Except.ok.injEq] at h; left; exact ⟨by assumption, h.symm⟩
  · split at h
    · simp [Res.panic] at h
    · simp only [Except.ok.injEq] at h; right; exact ⟨by omega, h.symm⟩

theorem IntRep.cast_inj [IntRep F] {a b : ℕ} (ha : a < IntRep.order F) (hb : b < IntRep.order F) (h : (a : F) = b) : a = b := by
  rw [← IntRep.rep_cast a ha, ← IntRep.rep_cast b hb, h]

/-- What acceptance of the bound-check statement implies, without any assumption on sizes. -/
theorem verifyBoundedNum_spec [IntRep F] {env : Env F G} {debug : Bool} {lower upper n : ℕ} {coms : List G} {s s' : Verifier F G}
    (h : verifyBoundedNum env debug lower upper n coms s = (.ok (), s')) :
    3 ≤ coms.length ∧ s.constraints <+: s'.constraints ∧ s'.V = s.V ++ coms.take 3 ∧ ∀ σ : Assignment F, σ.Gates → σ.Sat s'.constraints →
      ∃ d k l : ℕ, subU64 debug upper lower = .ok d ∧ k < 2 ^ n ∧ l < 2 ^ n ∧
      σ.committed s.V.length = (lower : F) + k ∧ (upper : F) = σ.committed s.V.length + l ∧ (k : F) + l = d := by
  unfold verifyBoundedNum at h
  rw [Drv.bind_ok] at h
  obtain ⟨cs, s1, h1, h⟩ := h
  rw [Drv.lift_ok, takeComms_ok] at h1
  obtain ⟨⟨hl, rfl⟩, rfl⟩ := h1
  rw [Drv.bind_ok] at h
  obtain ⟨vars, s2, h2, h⟩ := h
  rw [Verifier.commits_ok] at h2
  obtain ⟨rfl, rfl⟩ := h2
  rw [List.length_take, Nat.min_eq_left hl] at h
  obtain ⟨a1, a2, a3⟩ := Verifier.gadget_sound h
  refine ⟨hl, a1, a2, fun σ hg hs => ?_⟩
  have := a3 (VS.boundCheck hg _ _ _ _ _ _ _) hs
  simpa [Assignment.val] using this

/-- C26: for bounds in `u64` and every bit size with `2^(n+1)` at most the field order, whatever `verify_bounded_num` accepts has, in every
satisfying assignment, a committed value that is an integer in `[lower, upper]`. -/
theorem c26_sound [IntRep F] (env : Env F G) (debug : Bool) (lower upper n : ℕ) (hl : lower < 2 ^ 64) (hu : upper < 2 ^ 64)
    (ho : 2 ^ 64 < IntRep.order F) (hn : 2 ^ (n + 1) ≤ IntRep.order F) :
    SoundFor 3 (verifyBoundedNum env debug lower upper n) (fun v => ∃ k : ℕ, lower ≤ k ∧ k ≤ upper ∧ v 0 = (k : F)) := by
  intro coms s s' h
  obtain ⟨hl, a1, a2, a3⟩ := verifyBoundedNum_spec h
  refine ⟨hl, a1, by rw [a2], fun σ hg hs => ?_⟩
  obtain ⟨d, k, l, hd, hk, hll, e1, e2, e3⟩ := a3 σ hg hs
  rw [pow_succ] at hn
  rcases subU64_ok hd with ⟨hle, rfl⟩ | ⟨hlt, rfl⟩
  · have : k + l = upper - lower := IntRep.cast_inj (F := F) (by omega) (by omega) (by push_cast; exact e3)
    exact ⟨lower + k, by omega, by omega, by simp [e1]⟩
  · exfalso
    rw [e1] at e2
    have e4 : ((2 ^ 64 : ℕ) : F) = ((0 : ℕ) : F) := by
      rw [Nat.cast_sub (by omega)] at e3
      push_cast at e3 ⊢
      linear_combination -e3 - e2
    have := IntRep.cast_inj (F := F) ho (by omega) e4
    omega

/-- C26: the honest prover's bound check is accepted, from every common history (including one with a half-allocated gate). -/
theorem c26_complete [IntRep F] (env env' : Env F G) (hO : env.oracle = env'.oracle) (debug : Bool) (lower val upper n : ℕ)
    (h1 : lower ≤ val) (h2 : val ≤ upper) (hord : upper < IntRep.order F) (hn : upper - lower < 2 ^ n)
    (randomness : Option F) (rng : Option (ℕ → F)) (sys : ℕ → F) (hr : randomness.isSome ∨ rng.isSome) (pd : Option ℕ) :
    HonestPair env env' pd (2 * n) [((val : F), blindingOf randomness rng), (((val - lower : ℕ) : F), sys 0), (((upper - val : ℕ) : F), sys 1)]
      (proveBoundedNum env debug val randomness lower upper n rng sys) (verifyBoundedNum env' debug lower upper n) := by
  intro p s J hp
  obtain ⟨hbl, hck⟩ := pickBlinding_ok hr
  obtain ⟨cs, p1, s1, c1, c2, J1, hp1, hl1, e1, o1, hf⟩ := J.commitAll hO [((val : F), blindingOf randomness rng), (((val - lower : ℕ) : F), sys 0), (((upper - val : ℕ) : F), sys 1)]
  obtain ⟨⟨cv, vv⟩, ⟨ca, va⟩, ⟨cb, vb⟩, rfl⟩ : ∃ x y z, cs = [x, y, z] := List.length_eq_three.mp (by simpa using hf.length_eq)
  simp only [List.map_cons, List.map_nil, List.forall₂_cons, List.forall₂_nil_left_iff, and_true] at hf
  obtain ⟨hv, ha, hb⟩ := hf
  have r1 : IntRep.rep (((val - lower : ℕ) : F)) < 2 ^ n := by rw [IntRep.rep_cast _ (by omega)]; omega
  have r2 : IntRep.rep (((upper - val : ℕ) : F)) < 2 ^ n := by rw [IntRep.rep_cast _ (by omega)]; omega
  have hd : ∀ a b, b ≤ a → subU64 debug a b = .ok (a - b) := fun a b hab => by simp [subU64, hab]
  have hps := PS.boundCheck (env := env) (onSpec := fun cb p => p.specify cb) (rnd := false) (debug := debug) (v := ⟨vv, some (val : F)⟩) (a := ⟨va, some ((val - lower : ℕ) : F)⟩)
    (b := ⟨vb, some ((upper - val : ℕ) : F)⟩) (n := n) J1.good ⟨hv, rfl⟩ ⟨ha, rfl⟩ ⟨hb, rfl⟩ (hd upper lower (by omega))
    (by push_cast [h1]; ring) (by push_cast [h2]; ring) (by push_cast [h1, h2, le_trans h1 h2]; ring) r1 r2
  obtain ⟨⟨⟩, ⟨⟩, p2, s2, g1, g2, J2, -, -, n2, hp2, hl2⟩ := J1.gadget hO hps (fun _ _ h => h)
    (Prog.Same.boundCheck (Alloc.pair vv _) (Alloc.pair va _) (Alloc.pair vb _) upper lower n) (PC.boundCheck _ _ _ _ _ _ _)
  refine ⟨[cv, ca, cb], p2, s2, ?_, ?_, J2, by rw [hp2, hp1, hp], by rw [hl2, hl1], o1.next n2⟩
  · unfold proveBoundedNum
    refine Drv.bind_ok.mpr ⟨(), p, Drv.lift_ok.mpr ⟨hck, rfl⟩, Drv.bind_ok.mpr ⟨_, p, Drv.lift_ok.mpr ⟨hd _ _ h1, rfl⟩, Drv.bind_ok.mpr ⟨_, p, Drv.lift_ok.mpr ⟨hd _ _ h2, rfl⟩, ?_⟩⟩⟩
    exact Drv.bind_ok.mpr ⟨(blindingOf randomness rng), p, Drv.lift_ok.mpr ⟨hbl, rfl⟩, Drv.bind_ok.mpr ⟨_, p1, c1, Drv.bind_ok.mpr ⟨(), p2, g1, rfl⟩⟩⟩
  · unfold verifyBoundedNum
    exact Drv.bind_ok.mpr ⟨[cv, ca, cb], s, rfl, Drv.bind_ok.mpr ⟨_, s1, c2, g2⟩⟩

/-- C26, end to end: `gen_proof_of_bounded_num` succeeds and `verify_proof_of_bounded_num` accepts. -/
theorem c26_end_to_end [IntRep F] [DecidableEq G] (env env' : Env F G) (hO : env.oracle = env'.oracle) (h0 : ∀ l, env.oracle l ≠ 0) (debug : Bool)
    (lower val upper n : ℕ) (h1 : lower ≤ val) (h2 : val ≤ upper) (hord : upper < IntRep.order F) (hn : upper - lower < 2 ^ n)
    (hsz : nextPowerOfTwo (2 * n) < 2 ^ 32) (hb : 1 < 2 * n ∨ env'.batchInvert [] = .ok ([], 1))
    (randomness : Option F) (rng : Option (ℕ → F)) (sys : ℕ → F) (hr : randomness.isSome ∨ rng.isSome) :
    EndToEnd env env' (2 * n) [((val : F), blindingOf randomness rng), (((val - lower : ℕ) : F), sys 0), (((upper - val : ℕ) : F), sys 1)]
      (proveBoundedNum env debug val randomness lower upper n rng sys) (verifyBoundedNum env' debug lower upper n) :=
  (c26_complete env env' hO debug lower val upper n h1 h2 hord hn randomness rng sys hr none).endToEnd hO h0 hsz hb

/-- A prover that runs the bound check on an arbitrary field element. -/
def forgeBoundedNum [IntRep F] (env : Env F G) (debug : Bool) (v : F) (lower upper n : ℕ) (sys : ℕ → F) : Drv (Prover F G) (List G) := do
  let cs ← Prover.commits [(v, sys 0), (v - lower, sys 1), (upper - v, sys 2)]
  match cs with
  | [(cv, vv), (ca, va), (cb, vb)] => do
    Prover.gadget env (boundCheckGadget debug ⟨vv, some v⟩ ⟨va, some (v - lower)⟩ ⟨vb, some (upper - v)⟩ upper lower n)
    return [cv, ca, cb]
  | _ => Drv.lift (Res.panic "unreachable")

/-- C26: without the size condition the claim fails badly: with `2^n` at least the field order the check is accepted for every value. -/
theorem c26_large_n_accepts_everything [IntRep F] (env env' : Env F G) (hO : env.oracle = env'.oracle) (debug : Bool) (v : F) (lower upper n : ℕ)
    (hlu : lower ≤ upper) (hn : IntRep.order F ≤ 2 ^ n) (sys : ℕ → F) (pd : Option ℕ) :
    HonestPair env env' pd (2 * n) [(v, sys 0), (v - lower, sys 1), (upper - v, sys 2)] (forgeBoundedNum env debug v lower upper n sys) (verifyBoundedNum env' debug lower upper n) := by
  intro p s J hp
  obtain ⟨cs, p1, s1, c1, c2, J1, hp1, hl1, e1, o1, hf⟩ := J.commitAll hO [(v, sys 0), (v - lower, sys 1), (upper - v, sys 2)]
  obtain ⟨⟨cv, vv⟩, ⟨ca, va⟩, ⟨cb, vb⟩, rfl⟩ : ∃ x y z, cs = [x, y, z] := List.length_eq_three.mp (by simpa using hf.length_eq)
  simp only [List.map_cons, List.map_nil, List.forall₂_cons, List.forall₂_nil_left_iff, and_true] at hf
  obtain ⟨hv, ha, hb⟩ := hf
  have r : ∀ x : F, IntRep.rep x < 2 ^ n := fun x => lt_of_lt_of_le (IntRep.rep_lt x) hn
  have hps := PS.boundCheck (env := env) (onSpec := fun cb p => p.specify cb) (rnd := false) (debug := debug) (v := ⟨vv, some v⟩) (a := ⟨va, some (v - lower)⟩)
    (b := ⟨vb, some (upper - v)⟩) (n := n) J1.good ⟨hv, rfl⟩ ⟨ha, rfl⟩ ⟨hb, rfl⟩ (max := upper) (min := lower) (d := upper - lower) (by simp [subU64, hlu])
    rfl rfl (by push_cast [hlu]; ring) (r _) (r _)
  obtain ⟨⟨⟩, ⟨⟩, p2, s2, g1, g2, J2, -, -, n2, hp2, hl2⟩ := J1.gadget hO hps (fun _ _ h => h)
    (Prog.Same.boundCheck (Alloc.pair vv _) (Alloc.pair va _) (Alloc.pair vb _) upper lower n) (PC.boundCheck _ _ _ _ _ _ _)
  refine ⟨[cv, ca, cb], p2, s2, ?_, ?_, J2, by rw [hp2, hp1, hp], by rw [hl2, hl1], o1.next n2⟩
  · unfold forgeBoundedNum
    exact Drv.bind_ok.mpr ⟨_, p1, c1, Drv.bind_ok.mpr ⟨(), p2, g1, rfl⟩⟩
  · unfold verifyBoundedNum
    exact Drv.bind_ok.mpr ⟨[cv, ca, cb], s, rfl, Drv.bind_ok.mpr ⟨_, s1, c2, g2⟩⟩

/-- C26: hence, for such `n` and any value `v` outside the interval, the statement of C26 is false. -/
theorem c26_large_n_unsound [IntRep F] (env : Env F G) (debug : Bool) (v : F) (lower upper n : ℕ) (hlu : lower ≤ upper) (hn : IntRep.order F ≤ 2 ^ n)
    (hv : ∀ k : ℕ, lower ≤ k → k ≤ upper → v ≠ (k : F)) :
    ¬ SoundFor 3 (verifyBoundedNum env debug lower upper n) (fun v => ∃ k : ℕ, lower ≤ k ∧ k ≤ upper ∧ v 0 = (k : F)) := by
  refine (c26_large_n_accepts_everything env env rfl debug v lower upper n hlu hn (fun _ => 0) none).not_sound rfl ?_
  rintro ⟨k, h1, h2, h3⟩
  exact hv k h1 h2 (by simpa using h3)

/-- Hypotheses of the C26 theorems: 18 ≤ 21 ≤ 65 with 64 bits on the BLS12-381 scalar field. -/
example : EndToEnd demoEnv demoEnv 128 [(21, 7), (3, 0), (44, 1)] (proveBoundedNum demoEnv true 21 (some 7) 18 65 64 none (fun i => (i : Fr))) (verifyBoundedNum demoEnv true 18 65 64) :=
  c26_end_to_end demoEnv demoEnv rfl demoEnv_ne_zero true 18 21 65 64 (by omega) (by omega) (by decide +kernel) (by norm_num) (by decide +kernel)
    (.inl (by omega)) _ _ _ (.inl rfl)
example : ∃ coms s', ∃ σ : Assignment Fr, verifyBoundedNum demoEnv true 18 65 64 coms (Verifier.new [] 0) = (.ok (), s') ∧ σ.Gates ∧ σ.Sat s'.constraints ∧ 2 ^ 64 < IntRep.order Fr ∧
    2 ^ (64 + 1) ≤ IntRep.order Fr := by
  obtain ⟨coms, s', σ, h1, h2, h3⟩ := (c26_complete demoEnv demoEnv rfl true 18 21 65 64 (by omega) (by omega) (by decide +kernel) (by norm_num) (some 7) none (fun i => i) (.inl rfl)
    none).satisfiable rfl 3 4 []
  exact ⟨coms, s', σ, h1, h2, h3, by decide +kernel, by decide +kernel⟩
/-- With 255 bits a value outside 18..65 is accepted. -/
example : ¬ SoundFor 3 (verifyBoundedNum demoEnv true 18 65 255) (fun v => ∃ k : ℕ, 18 ≤ k ∧ k ≤ 65 ∧ v 0 = (k : Fr)) := by
  refine c26_large_n_unsound demoEnv true 66 18 65 255 (by omega) (by decide +kernel) fun k h1 h2 h3 => ?_
  have := IntRep.cast_inj (F := Fr) (a := 66) (b := k) (by decide +kernel) (lt_of_le_of_lt h2 (by decide +kernel)) (by exact_mod_cast h3)
  omega

/-! ## C27 -/

/-- C27: whatever `verify_non_zero_val` accepts has, in every satisfying assignment, a non-zero committed value. -/
theorem c27_sound (env : Env F G) : SoundFor 2 (verifyNonZeroVal env) (fun v => v 0 ≠ (0 : F)) := by
  intro coms s s' h
  unfold verifyNonZeroVal at h
  obtain ⟨cs, s1, h1, h⟩ := Drv.bind_ok.mp h
  rw [Drv.lift_ok, takeComms_ok] at h1
  obtain ⟨⟨hl, rfl⟩, rfl⟩ := h1
  obtain ⟨vars, s2, h2, h⟩ := Drv.bind_ok.mp h
  rw [Verifier.commits_ok] at h2
  obtain ⟨rfl, rfl⟩ := h2
  rw [List.length_take, Nat.min_eq_left hl] at h
  obtain ⟨a1, a2, a3⟩ := Verifier.gadget_sound h
  refine ⟨hl, a1, by rw [a2], fun σ hg hs h0 => ?_⟩
  have := a3 (VS.isNonzero hg _ _) hs
  simp only [Assignment.val] at this h0
  rw [h0, zero_mul] at this
  exact zero_ne_one this

/-- C27: the honest prover succeeds for every non-zero value. -/
theorem c27_complete (env env' : Env F G) (hO : env.oracle = env'.oracle) (value : F) (hv0 : value ≠ 0) (randomness : Option F) (rng : Option (ℕ → F)) (sys : ℕ → F)
    (hr : randomness.isSome ∨ rng.isSome) (pd : Option ℕ) :
    HonestPair env env' pd 2 [(value, blindingOf randomness rng), (value⁻¹, sys 0)] (proveNonZeroVal env value randomness rng sys) (verifyNonZeroVal env') := by
  intro p s J hp
  obtain ⟨hbl, hck⟩ := pickBlinding_ok hr
  obtain ⟨cs, p1, s1, c1, c2, J1, hp1, hl1, e1, o1, hf⟩ := J.commitAll hO [(value, blindingOf randomness rng), (value⁻¹, sys 0)]
  obtain ⟨⟨cv, vv⟩, ⟨ci, vi⟩, rfl⟩ : ∃ x y, cs = [x, y] := List.length_eq_two.mp (by simpa using hf.length_eq)
  simp only [List.map_cons, List.map_nil, List.forall₂_cons, List.forall₂_nil_left_iff, and_true] at hf
  obtain ⟨hv, hi⟩ := hf
  obtain ⟨⟨⟩, ⟨⟩, p2, s2, g1, g2, J2, -, -, n2, hp2, hl2⟩ := J1.gadget hO
    (PS.isNonzero (env := env) (onSpec := fun cb p => p.specify cb) (rnd := false) J1.good hv hi (mul_inv_cancel₀ hv0)) (fun _ _ h => h)
    (Prog.Same.isNonzero vv vi) (PC.isNonzero _ _)
  refine ⟨[cv, ci], p2, s2, ?_, ?_, J2, by rw [hp2, hp1, hp], by rw [hl2, hl1], o1.next n2⟩
  · unfold proveNonZeroVal
    exact Drv.bind_ok.mpr ⟨(), p, Drv.lift_ok.mpr ⟨hck, rfl⟩, Drv.bind_ok.mpr ⟨(blindingOf randomness rng), p, Drv.lift_ok.mpr ⟨hbl, rfl⟩, Drv.bind_ok.mpr ⟨_, p1, c1, Drv.bind_ok.mpr ⟨(), p2, g1, rfl⟩⟩⟩⟩
  · unfold verifyNonZeroVal
    exact Drv.bind_ok.mpr ⟨[cv, ci], s, rfl, Drv.bind_ok.mpr ⟨_, s1, c2, g2⟩⟩

/-- C27, end to end. -/
theorem c27_end_to_end [DecidableEq G] (env env' : Env F G) (hO : env.oracle = env'.oracle) (h0 : ∀ l, env.oracle l ≠ 0) (value : F) (hv0 : value ≠ 0)
    (randomness : Option F) (rng : Option (ℕ → F)) (sys : ℕ → F) (hr : randomness.isSome ∨ rng.isSome) :
    EndToEnd env env' 2 [(value, blindingOf randomness rng), (value⁻¹, sys 0)] (proveNonZeroVal env value randomness rng sys) (verifyNonZeroVal env') :=
  (c27_complete env env' hO value hv0 randomness rng sys hr none).endToEnd hO h0 (by decide) (.inl (by omega))

/-- Hypotheses of the C27 theorems. -/
example : EndToEnd demoEnv demoEnv 2 [(5, 0), (5⁻¹, 0)] (proveNonZeroVal demoEnv 5 none (some fun i => i) (fun i => i)) (verifyNonZeroVal demoEnv) :=
  c27_end_to_end demoEnv demoEnv rfl demoEnv_ne_zero 5 (by decide +kernel) _ _ _ (.inr rfl)
example : ∃ coms s', ∃ σ : Assignment Fr, verifyNonZeroVal demoEnv coms (Verifier.new [] 0) = (.ok (), s') ∧ σ.Gates ∧ σ.Sat s'.constraints :=
  (c27_complete demoEnv demoEnv rfl 5 (by decide +kernel) (some 7) none (fun i => i) (.inl rfl) none).satisfiable rfl 3 4 []

end Bp
