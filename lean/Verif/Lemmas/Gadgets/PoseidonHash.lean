import Verif.Lemmas.Gadgets.Poseidon

set_option linter.unusedSectionVars false
set_option linter.unusedSimpArgs false

/-! # Poseidon: inverse S-box, hashes, entry points -/

namespace Bp
variable {F G : Type} [Field F] [AddCommGroup G] [Module F G]
variable {C C' : Type} {rnd : Bool} {env : Env F G} {σ : Assignment F} {onSpec : C → Prover F G → Prover F G}

/-! ## The inverse S-box -/

/-- Inversion that refuses zero. -/
def invChecked [DecidableEq F] (x : F) : Res F := if x = 0 then Res.panic "zero" else .ok x⁻¹

/-- The tail of `synthesizeInverse`, given the values put on the wires. -/
def synthesizeInverseWith (w : LC F → Option F → Option F × Option F) (input : LC F) (key : F) : Prog F C rnd Var := do
  let ipc := input.add (LC.ofScalar key)
  let valL ← Prog.eval ipc
  let (varL, _) ← Prog.allocSingle (w ipc valL).1
  let (varR, varO) ← Prog.allocSingle (w ipc valL).2
  isNonzeroGadget varL varR
  let o ← Prog.unwrap varO
  constrainLcWithScalar (LC.ofVar o) 1
  return varR

theorem synthesizeInverse_eq (l : LC F) (k : F) : (synthesizeInverse l k : Prog F C rnd Var) = synthesizeInverseWith (fun _ v => (v, v.map fun l => l⁻¹)) l k := rfl

/-- A dishonest prover that puts `w⁻¹` and `w` on the wires whatever the input is. -/
def synthesizeForged (w : F) : LC F → F → Prog F C rnd Var := synthesizeInverseWith fun _ _ => (some w⁻¹, some w)

theorem PS.inverseWith {p : Prover F G} (hg : p.Good) (hp : p.pending = none) {l : LC F} {x k a b : F} (hl : p.Has l x) {w : LC F → Option F → Option F × Option F}
    (hw : w (l.add (LC.ofScalar k)) (some (x + k)) = (some a, some b)) (hab : a * b = 1) :
    PS env onSpec p (synthesizeInverseWith w l k : Prog F C rnd Var) (fun v p' => p.Next p' ∧ p'.HasV v b) := by
  refine PS.bind (PS.eval hg (hl.add (.ofScalar k))) ?_
  rintro _ q ⟨rfl, rfl⟩
  rw [hw]
  refine PS.allocPair (f := fun u v => match u with | (varL, _) => match v with | (varR, varO) => _) hg hp a b ?_
  intro i p1 n1 h1 h2 h3
  refine PS.bind (PS.isNonzero n1.good h1 h2 hab) fun _ p2 n2 => ?_
  refine PS.bind (PS.unwrap _) ?_
  rintro _ p3 ⟨rfl, rfl⟩
  refine PS.bind (PS.conScalar n2.good ((Prover.Has.ofVar (h3.next n1.good n2)).congr hab)) fun _ p4 n4 => PS.pure ⟨(n1.trans n2).trans n4, (h2.next n1.good n2).next n2.good n4⟩

theorem synthOk_inverse [DecidableEq F] : SynthOk env onSpec none invChecked (synthesizeInverse : LC F → F → Prog F C rnd Var) := by
  intro p l x k y hg hp hl hy
  unfold invChecked at hy
  split at hy
  · simp [Res.panic] at hy
  · rename_i h0
    simp only [Except.ok.injEq] at hy
    subst hy
    rw [synthesizeInverse_eq]
    exact PS.inverseWith (a := x + k) hg hp hl rfl (mul_inv_cancel₀ h0)

theorem synthOk_forged {w : F} (hw : w ≠ 0) : SynthOk env onSpec none (fun _ => .ok w) (synthesizeForged w : LC F → F → Prog F C rnd Var) := by
  intro p l x k y hg hp hl hy
  simp only [Except.ok.injEq] at hy
  rw [← hy]
  exact PS.inverseWith hg hp hl rfl (inv_mul_cancel₀ hw)

theorem Prog.Same.inverseWith {RC : C → C' → Prop} {w w' : LC F → Option F → Option F × Option F} (hw : ∀ l x, ∃ a b, w l (some x) = (some a, some b)) (l l' : LC F) (k : F) :
    Prog.Same RC Eq (synthesizeInverseWith w l k : Prog F C rnd Var) (synthesizeInverseWith w' l' k) := by
  refine Prog.Same.bind .eval ?_
  rintro _ _ ⟨⟨x, rfl⟩, rfl⟩
  obtain ⟨a, b, hab⟩ := hw (l.add (LC.ofScalar k)) x
  rw [hab]
  refine Prog.Same.bind .allocSingle ?_
  rintro ⟨vl, _⟩ _ rfl
  refine Prog.Same.bind .allocSingle ?_
  rintro ⟨vr, vo⟩ _ rfl
  refine Prog.Same.bind (.isNonzero _ _) fun _ _ _ => Prog.Same.bind (.unwrap _) ?_
  rintro o _ rfl
  exact Prog.Same.bind (.conScalar .rfl' _) fun _ _ _ => .pure rfl

theorem synthSame_inverse {RC : C → C' → Prop} : SynthSame RC (synthesizeInverse : LC F → F → Prog F C rnd Var) synthesizeInverse :=
  fun l l' k _ => by
    rw [synthesizeInverse_eq, synthesizeInverse_eq]
    exact Prog.Same.inverseWith (fun _ x => ⟨x, x⁻¹, rfl⟩) l l' k

theorem synthSame_forged {RC : C → C' → Prop} (w : F) : SynthSame RC (synthesizeForged w : LC F → F → Prog F C rnd Var) synthesizeInverse :=
  fun l l' k _ => by
    rw [synthesizeInverse_eq]
    exact Prog.Same.inverseWith (fun _ _ => ⟨w⁻¹, w, rfl⟩) l l' k

theorem PC.inverseWith (w : LC F → Option F → Option F × Option F) (l : LC F) (k : F) : PC none (synthesizeInverseWith w l k : Prog F C rnd Var) 3 := by
  refine PC.bind (k := 0) (l := 3) (PC.eval _) fun v => (PC.allocPair (f := fun u v => match u with | (varL, _) => match v with | (varR, varO) => _) _ _ (k := 2) ?_)
  rintro ⟨vl, _⟩ ⟨vr, vo⟩
  exact PC.bind (k := 2) (l := 0) (PC.isNonzero _ _) fun _ => PC.bind (k := 0) (l := 0) (PC.unwrap _) fun _ => PC.bind (k := 0) (l := 0) (PC.conScalar _ _) fun _ => PC.pure _

theorem PC.inverse (l : LC F) (k : F) : PC none (synthesizeInverse l k : Prog F C rnd Var) 3 := by
  rw [synthesizeInverse_eq]
  exact PC.inverseWith _ l k
theorem PC.forged (w : F) (l : LC F) (k : F) : PC none (synthesizeForged w l k : Prog F C rnd Var) 3 := PC.inverseWith _ l k

/-! ## S-boxes by name -/

/-- Gates per S-box. -/
def SboxType.gates : SboxType → ℕ
  | .cube => 2
  | .inverse => 3
  | .quint => 3

theorem VS.sbox (hg : σ.Gates) {sbox : SboxType} (h : sbox ≠ .inverse) (l : LC F) (k : F) :
    VS env σ (sbox.synthesize l k : Prog F C rnd _) (fun v => (.ok (sbox.apply (l.value σ + k)) : Res F) = .ok (σ.val v)) := by
  cases sbox with
  | cube => exact VS.cube hg l k
  | quint => exact VS.quint hg l k
  | inverse => exact absurd rfl h

theorem synthOk_sbox {sbox : SboxType} (h : sbox ≠ .inverse) (pd : Option ℕ) : SynthOk env onSpec pd (fun x => .ok (sbox.apply x)) (sbox.synthesize : LC F → F → Prog F C rnd Var) := by
  cases sbox with
  | cube => exact synthOk_cube pd
  | quint => exact synthOk_quint pd
  | inverse => exact absurd rfl h

theorem synthSame_sbox {RC : C → C' → Prop} (sbox : SboxType) : SynthSame RC (sbox.synthesize : LC F → F → Prog F C rnd Var) sbox.synthesize := by
  cases sbox with
  | cube => exact synthSame_cube
  | quint => exact synthSame_quint
  | inverse => exact synthSame_inverse

theorem PC.sbox {sbox : SboxType} {pd : Option ℕ} (h : sbox ≠ .inverse ∨ pd = none) (l : LC F) (k : F) : PC pd (sbox.synthesize l k : Prog F C rnd _) sbox.gates := by
  cases sbox with
  | cube => exact PC.cube l k
  | quint => exact PC.quint l k
  | inverse =>
    obtain rfl := h.resolve_left (by simp)
    exact PC.inverse l k

/-! ## One hash -/

section hash
variable {f : F → Res F} {synth : LC F → F → Prog F C rnd Var}

theorem permWith_length {p : PoseidonParams F} {input ys : List F} (h : permWith f p input = .ok ys) : input.length = p.width := by
  by_contra hn
  rw [permWith, if_pos hn] at h
  simp [Res.panic] at h

theorem VS.hash (hs : ∀ l k, VS env σ (synth l k) (fun v => f (l.value σ + k) = .ok (σ.val v))) (p : PoseidonParams F) (hw : p.width ≠ 0) (input : List (LC F)) :
    VS env σ (hashConstraints synth p input) (fun l => hashWith f p (input.map (LC.value σ)) = .ok (l.value σ)) := by
  refine VS.bind (VS.perm hs p (.inl hw) input) fun out ho => (VS.index _ _).mono fun l hl => ?_
  simp only [hashWith, res_bind_ok]
  exact ⟨_, ho, idx_get.mpr (by rw [List.getElem?_map, hl]; rfl)⟩

theorem PS.hash {pd : Option ℕ} (hs : SynthOk env onSpec pd f synth) {pp : PoseidonParams F} {p : Prover F G} (hg : p.Good) (hp : p.pending = pd) {ls : List (LC F)} {xs : List F} {y : F}
    (hf : List.Forall₂ p.Has ls xs) (h : hashWith f pp xs = .ok y) : PS env onSpec p (hashConstraints synth pp ls) (fun l p' => p.Next p' ∧ p'.Has l y) := by
  simp only [hashWith, res_bind_ok] at h
  obtain ⟨out, ho, hy⟩ := h
  refine PS.bind (PS.perm hs hg hp hf ho) ?_
  rintro ms p1 ⟨n1, hms⟩
  obtain ⟨l, h1, h2⟩ := forall₂_getElem? hms (idx_get.mp hy)
  refine (PS.index h1).mono ?_
  rintro _ _ ⟨rfl, rfl⟩
  exact ⟨n1, h2⟩

theorem Prog.Same.hash {RC : C → C' → Prop} {synth' : LC F → F → Prog F C' rnd Var} (hs : SynthSame RC synth synth') (p : PoseidonParams F) {ls ls' : List (LC F)}
    (hf : List.Forall₂ LC.Equiv ls ls') : Prog.Same RC LC.Equiv (hashConstraints synth p ls) (hashConstraints synth' p ls') :=
  .bind (.perm hs p hf) fun _ _ h => .index h 1

theorem PC.hash {pd : Option ℕ} {c : ℕ} (hs : ∀ l k, PC pd (synth l k) c) (p : PoseidonParams F) (hw : p.width ≠ 0) (ls : List (LC F)) :
    PC pd (hashConstraints synth p ls) (permGates c p) := (PC.bind (PCQ.perm hs p (.inl hw) ls).pc fun _ => PC.index _ _).congr (by ring)

end hash

/-! ## Entry points -/

section entry

/-- The gadget behind the three hash statements when the parameters have the right width. -/
def preimageGadget (synth : LC F → F → Prog F C rnd Var) (p : PoseidonParams F) (output : F) (vars : List Var) (s : Var) : Prog F C rnd Unit := do
  let hash ← hashConstraints synth p (LC.ofVar s :: vars.map LC.ofVar)
  constrainLcWithScalar hash output

/-- `call` is the `k`:1 hash gadget for parameters `p`. -/
def IsCall (k : ℕ) (synth : LC F → F → Prog F C rnd Var) (p : PoseidonParams F) (output : F) (call : List Var → List Var → Prog F C rnd Unit) : Prop :=
  ∀ vars s, vars.length = k → (p.width = k + 1 → call vars [s] = preimageGadget synth p output vars s) ∧ (p.width ≠ k + 1 → ∃ w, call vars [s] = .panic w)

theorem hashConstraints_panic (synth : LC F → F → Prog F C rnd Var) (p : PoseidonParams F) (input : List (LC F)) (h : input.length ≠ p.width) :
    ∃ w, hashConstraints synth p input = .panic w := by
  refine ⟨"assert_eq: input.len(), width", ?_⟩
  simp only [hashConstraints, permConstraintsWith, if_pos h]
  rfl

theorem isCall2 (synth : LC F → F → Prog F C rnd Var) (p : PoseidonParams F) (output : F) : IsCall 2 synth p output (hash2Call p synth output) := by
  intro vars s hv
  obtain ⟨x, y, rfl⟩ := List.length_eq_two.mp hv
  constructor
  · intro h
    simp only [hash2Call, poseidonHash2Gadget, poseidonHash2Constraints, List.map_cons, List.map_nil]
    rw [if_neg (by simp; omega)]
    rfl
  · intro h
    simp only [hash2Call, poseidonHash2Gadget, poseidonHash2Constraints, List.map_cons, List.map_nil]
    rw [if_pos (by simp; omega)]
    exact ⟨_, rfl⟩

theorem isCall4 (synth : LC F → F → Prog F C rnd Var) (p : PoseidonParams F) (output : F) : IsCall 4 synth p output (hash4Call p synth output) := by
  intro vars s hv
  constructor
  · intro h
    simp only [hash4Call, poseidonHash4Gadget, poseidonHash4Constraints, List.map_cons, List.map_nil]
    rw [if_neg (by simp [hv]), if_neg (by simp [hv]), if_neg (by simp; omega)]
    simp only [List.append_nil, List.cons_append]
    rfl
  · intro h
    simp only [hash4Call, poseidonHash4Gadget, poseidonHash4Constraints, List.map_cons, List.map_nil]
    rw [if_neg (by simp [hv]), if_neg (by simp [hv]), if_pos (by simp; omega)]
    exact ⟨_, rfl⟩

theorem isCall8 (synth : LC F → F → Prog F C rnd Var) (p : PoseidonParams F) (output : F) : IsCall 8 synth p output (hash8Call p synth output) := by
  intro vars s hv
  constructor
  · intro h
    simp only [hash8Call, poseidonHash8Gadget, poseidonHash8Constraints]
    rw [if_neg (by simp [hv]), if_neg (by simp [hv])]
    rfl
  · intro h
    simp only [hash8Call, poseidonHash8Gadget, poseidonHash8Constraints]
    rw [if_neg (by simp [hv]), if_neg (by simp [hv])]
    obtain ⟨w, hw⟩ := hashConstraints_panic synth p (LC.ofVar s :: vars.map LC.ofVar) (by simp [hv]; omega)
    rw [hw]
    exact ⟨w, rfl⟩

theorem commitScalar_zero (g h : G) : commitScalar g h (0 : F) 0 = 0 := by simp [commitScalar]

theorem allocateStaticsForVerifier_one (g h : G) : (allocateStaticsForVerifier 1 g h : Drv (Verifier F G) (List Var)) = Verifier.commits [(0 : G)] := by
  simp [allocateStaticsForVerifier, staticValues, zeroConst, commitScalar_zero]

/-- Soundness of the generic entry point. -/
theorem preimage_sound (env : Env F G) (k : ℕ) (g h : G) {f : F → Res F} {synth : LC F → F → Prog1 F Var} (p : PoseidonParams F) (output : F)
    {call : List Var → List Var → Prog1 F Unit} (hc : IsCall k synth p output call)
    (hs : ∀ σ : Assignment F, σ.Gates → ∀ l x, VS env σ (synth l x) (fun v => f (l.value σ + x) = .ok (σ.val v))) :
    SoundForWith k [0] [0] (verifyPreimage env k g h call) (fun v => hashWith f p (0 :: (List.range k).map v) = .ok output) := by
  intro coms s s' hd
  unfold verifyPreimage at hd
  obtain ⟨cs, s1, h1, hd⟩ := Drv.bind_ok.mp hd
  rw [Drv.lift_ok, takeComms_ok] at h1
  obtain ⟨⟨hl, rfl⟩, rfl⟩ := h1
  obtain ⟨vars, s2, h2, hd⟩ := Drv.bind_ok.mp hd
  rw [Verifier.commits_ok] at h2
  obtain ⟨rfl, rfl⟩ := h2
  obtain ⟨st, s3, h3, hd⟩ := Drv.bind_ok.mp hd
  rw [allocateStaticsForVerifier_one, Verifier.commits_ok] at h3
  obtain ⟨rfl, rfl⟩ := h3
  rw [List.length_take, Nat.min_eq_left hl] at hd
  obtain ⟨a1, a2, a3⟩ := Verifier.gadget_sound hd
  refine ⟨hl, a1, by rw [a2], fun σ hg hsat hst => ?_⟩
  simp only [List.length_singleton, List.range_one, List.map_cons, List.map_nil, List.length_append, List.length_take, Nat.min_eq_left hl, Nat.add_zero] at a3 hd
  by_cases hw : p.width = k + 1
  · rw [(hc _ _ (by simp)).1 hw] at a3
    refine a3 (Q := fun _ => _) (VS.bind (VS.hash (hs σ hg) p (by omega) _) fun l hl' => (VS.conScalar _ _).mono fun _ hx => ?_) hsat
    rw [hx] at hl'
    rw [← hl']
    have h0 := hst 0 0 rfl
    simp only [Nat.add_zero] at h0
    simp [LC.value_ofVar, Assignment.val, h0, Function.comp_def]
  · obtain ⟨w, hw⟩ := (hc ((List.range k).map fun i => Var.committed (s.V.length + i)) (Var.committed (s.V.length + k)) (by simp)).2 hw
    rw [hw] at a3
    exact (a3 (Q := fun _ => False) VS.panic hsat).elim

/-- Completeness of the generic entry point; the prover may use other wire values (`synth`) than the verifier's code (`synth'`). -/
theorem preimage_honest (env env' : Env F G) (hO : env.oracle = env'.oracle) (pd : Option ℕ) (k : ℕ) (g h : G) {f : F → Res F} {synth synth' : LC F → F → Prog1 F Var} {c : ℕ}
    (p : PoseidonParams F) (output : F) {call call' : List Var → List Var → Prog1 F Unit} (hc : IsCall k synth p output call) (hc' : IsCall k synth' p output call')
    (h1 : SynthOk env (fun cb p => p.specify cb) pd f synth) (h2 : SynthSame Callback.Same synth synth') (h3 : ∀ l x, PC pd (synth l x) c)
    (inputs rands : List F) (hi : inputs.length = k) (hr : rands.length = k) (hh : hashWith f p (0 :: inputs) = .ok output)
    (randomness : Option (List F)) (rng : Option (ℕ → F)) (hrand : randomness = some rands ∨ ∃ g, randomness = none ∧ rng = some g ∧ rands = (List.range k).map g) :
    HonestPair env env' pd (permGates c p) (inputs.zip rands) (provePreimage env k inputs randomness rng call) (verifyPreimage env' k g h call') [(0, 0)] := by
  have hw : p.width = k + 1 := by
    simp only [hashWith, res_bind_ok] at hh
    obtain ⟨out, ho, -⟩ := hh
    have := permWith_length ho
    simp [hi] at this; omega
  intro q s J hp
  have hck : checkRandomness randomness rng = .ok () := checkRandomness_ok (by rcases hrand with h | ⟨g, h1, h2, -⟩ <;> simp [*])
  have hbl : pickBlindings randomness rng k = .ok rands := by
    rcases hrand with h | ⟨g, h1, h2, h3⟩
    · rw [h]; rfl
    · rw [h1, h2, h3]; rfl
  have hlen : checkLengths inputs rands k = .ok () := by unfold checkLengths; rw [if_neg (by simp [hi, hr])]
  obtain ⟨cs, p1, s1, c1, c2, J1, hp1, hl1, e1, o1, hf⟩ := J.commitAll hO (inputs.zip rands)
  obtain ⟨ds, p2, s2, d1, d2, J2, hp2, hl2, e2, o2, hf2⟩ := J1.commitAll hO [((0 : F), (0 : F))]
  obtain ⟨⟨cz, vz⟩, rfl⟩ : ∃ x, ds = [x] := List.length_eq_one_iff.mp (by simpa using hf2.length_eq)
  rw [zip_map_fst (by rw [hi, hr])] at hf
  simp only [List.map_cons, List.map_nil, List.forall₂_cons, List.forall₂_nil_left_iff, and_true] at hf2
  have hcs : (cs.map Prod.snd).length = k := by rw [hf.length_eq, hi]
  have hf1 : List.Forall₂ p2.Has ((cs.map Prod.snd).map LC.ofVar) inputs := by
    rw [List.forall₂_map_left_iff]
    exact hf.imp fun _ _ hx => .ofVar (hx.ext J1.good.wf e2)
  have hps : PS env (fun cb p => p.specify cb) p2 (preimageGadget synth p output (cs.map Prod.snd) vz) (fun _ p' => p2.Next p') := by
    refine PS.bind (PS.hash h1 J2.good (by rw [hp2, hp1, hp]) (.cons (.ofVar hf2) hf1) hh) ?_
    rintro l p3 ⟨n3, hl⟩
    exact (PS.conScalar n3.good hl).mono fun _ p4 n4 => n3.trans n4
  have heq : ∀ ls : List (LC F), List.Forall₂ LC.Equiv ls ls := fun ls => List.forall₂_same.mpr fun _ _ => .rfl'
  have hsame : Prog1.Same (fun _ _ => True) (preimageGadget synth p output (cs.map Prod.snd) vz) (preimageGadget synth' p output (cs.map Prod.snd) vz) :=
    .bind (.hash h2 p (heq _)) fun _ _ h => .conScalar h _
  have hpc : PC p2.pending (preimageGadget synth p output (cs.map Prod.snd) vz) (permGates c p) := by
    rw [hp2, hp1, hp]
    exact (PC.bind (PC.hash h3 p (by omega) _) fun _ => PC.conScalar _ _).congr (by ring)
  obtain ⟨⟨⟩, ⟨⟩, p3, s3, g1, g2, J3, -, -, n3, hp3, hl3⟩ := J2.gadget hO hps (fun _ _ h => h) hsame hpc
  rw [← (hc _ _ hcs).1 hw] at g1
  rw [← (hc' _ _ hcs).1 hw] at g2
  refine ⟨cs.map Prod.fst, p3, s3, ?_, ?_, J3, by rw [hp3, hp2, hp1, hp], by rw [hl3, hl2, hl1], (o1.statics o2).next n3⟩
  · unfold provePreimage
    refine Drv.bind_ok.mpr ⟨(), q, Drv.lift_ok.mpr ⟨hck, rfl⟩, Drv.bind_ok.mpr ⟨rands, q, Drv.lift_ok.mpr ⟨hbl, rfl⟩, Drv.bind_ok.mpr ⟨(), q, Drv.lift_ok.mpr ⟨hlen, rfl⟩,
      Drv.bind_ok.mpr ⟨cs, p1, c1, Drv.bind_ok.mpr ⟨[vz], p2, ?_, Drv.bind_ok.mpr ⟨(), p3, g1, rfl⟩⟩⟩⟩⟩⟩
    unfold allocateStaticsForProver
    refine Drv.bind_ok.mpr ⟨[(cz, vz)], p2, ?_, rfl⟩
    simpa [staticValues, zeroConst] using d1
  · unfold verifyPreimage
    refine Drv.bind_ok.mpr ⟨cs.map Prod.fst, s, Drv.lift_ok.mpr ⟨takeComms_ok.mpr ⟨by simpa using hcs.ge, ?_⟩, rfl⟩, Drv.bind_ok.mpr ⟨_, s1, c2, Drv.bind_ok.mpr ⟨[vz], s2, ?_, g2⟩⟩⟩
    · rw [List.take_of_length_le]; simpa using hcs.le
    · rw [allocateStaticsForVerifier_one]
      have hcz := o2.points
      simp only [List.map_cons, List.map_nil, zero_smul, add_zero, List.cons.injEq, and_true] at hcz
      simp only [List.map_cons, List.map_nil, hcz] at d2
      exact d2

end entry

end Bp
