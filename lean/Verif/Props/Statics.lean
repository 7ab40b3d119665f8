import Verif.Spec.Statics
import Verif.Props.Gadgets.Hades
import Verif.Props.Knowledge
import Verif.Props.Gadgets.Tree

set_option linter.unusedSectionVars false
set_option linter.unusedSimpArgs false

/-! # C101: the statics, and hashing few inputs with a wide permutation -/

namespace Bp
section values
variable {F : Type} [Field F]

theorem staticValues_eq (n : ℕ) : (staticValues n : List F) = (List.range (max n 1)).map staticAt := by
  rcases n with - | - | n
  · simp [staticValues, staticAt, zeroConst]
  · simp [staticValues, staticAt, zeroConst]
  · have hm : max (n + 1 + 1) 1 = n + 2 := by omega
    rw [hm]
    refine List.ext_getElem (by simp [staticValues]) fun i h1 h2 => ?_
    simp only [staticValues, zeroConst, paddingConst, staticAt, List.getElem_map, List.getElem_range]
    rcases i with - | - | i
    · simp
    · simp
    · simp

theorem padded_list (n : ℕ) (inputs : List F) :
    (List.range (n + 1 + inputs.length)).map (paddedAt inputs) = (0 : F) :: inputs ++ (List.range n).map (fun i => (staticAt (i + 1) : F)) := by
  refine List.ext_getElem (by simp; omega) fun i h1 h2 => ?_
  simp only [List.getElem_map, List.getElem_range]
  rcases i with - | i
  · simp [paddedAt]
  · by_cases hi : i < inputs.length
    · simp [paddedAt, hi, List.getElem_append, Nat.succ_le_of_lt hi]
    · have h3 : ¬ i + 1 ≤ inputs.length := by omega
      simp only [List.cons_append, List.getElem_cons_succ]
      rw [List.getElem_append_right (by omega)]
      simp only [List.getElem_map, List.getElem_range, paddedAt, staticAt, h3, if_false, Nat.add_eq_zero_iff, one_ne_zero, and_false]
      by_cases h4 : i = inputs.length
      · simp [h4]
      · rw [if_neg (by omega), if_neg (by omega)]

theorem hashOf_padded {p : PoseidonParams F} (hv : p.Valid) (sbox : SboxType) {w : ℕ} (hw : p.width = w + 2) (inputs : List F) :
    hashOf p sbox ((List.range (w + 2)).map (paddedAt inputs)) = .ok ((p.hades (w + 2)).paddedHash sbox.power inputs) := by
  obtain ⟨w', fb, fe, pr, ks, mds⟩ := p
  simp only at hw
  subst hw
  have h := c90_permutation hv sbox (fun i => paddedAt inputs i)
  have e : List.ofFn (fun i : Fin (w + 2) => paddedAt inputs (i : ℕ)) = (List.range (w + 2)).map (paddedAt inputs) :=
    List.ext_getElem (by simp) fun i h1 h2 => by simp only [List.getElem_ofFn, List.getElem_map, List.getElem_range]
  unfold hashOf hashWith
  unfold poseidonPermutation at h
  simp only at h
  rw [← e]
  rw [h]
  exact idx_get.mpr (by rw [List.getElem?_ofFn]; rfl)

end values

section c101
variable {F G : Type} [Field F] [AddCommGroup G] [Module F G]

/-- **C101**: both sides get the same variables for the statics, which are zero, the padding constant and zeros, all with blinding 0; the verifier's points are commitments to them that everybody can compute. -/
theorem c101_statics {env env' : Env F G} (hO : env.oracle = env'.oracle) {p : Prover F G} {s : Verifier F G} (J : Joint env env' p s) (n : ℕ) :
    ∃ p' s', allocateStaticsForProver n p = (.ok ((List.range (max n 1)).map fun i => .committed (p.v.length + i)), p') ∧
      allocateStaticsForVerifier (F := F) n p.g p.h s = (.ok ((List.range (max n 1)).map fun i => .committed (p.v.length + i)), s') ∧ Joint env env' p' s' ∧
      p'.v = p.v ++ (List.range (max n 1)).map staticAt ∧ p'.vBlinding = p.vBlinding ++ List.replicate (max n 1) 0 ∧
      s'.V = s.V ++ (List.range (max n 1)).map (fun i => (staticAt i : F) • p.g) ∧ p'.constraints = p.constraints ∧ s'.constraints = s.constraints ∧
      p'.pending = p.pending ∧ p'.aL = p.aL ∧ p.Ext p' ∧ p'.g = p.g ∧ p'.h = p.h := by
  obtain ⟨cs, p', s', h1, h2, J', hp, hl, e, o, hf⟩ := J.commitAll hO ((staticValues n).map fun x => (x, (0 : F)))
  have hV : s.V.length = p.v.length := (J.satisfies hO).2.2
  have h1' := h1
  simp only [Prover.commits, Prod.mk.injEq, Except.ok.injEq, Prover.commitAll_eq] at h1'
  obtain ⟨rfl, rfl⟩ := h1'
  rw [Verifier.commits_ok] at h2
  obtain ⟨h2, rfl⟩ := h2
  have hpts : (List.map Prod.fst (List.map (fun q : (F × F) × ℕ => (commitScalar p.g p.h q.1.1 q.1.2, Var.committed q.2)) (((staticValues n).map fun x => (x, (0 : F))).zipIdx p.v.length))) =
      (staticValues n).map fun x => commitScalar p.g p.h x (0 : F) := by
    rw [o.points]
    simp [commitScalar, Function.comp_def]
  have hlen : (staticValues n : List F).length = max n 1 := by rw [staticValues_eq]; simp
  have hvars := h2
  rw [hpts] at hvars
  simp only [List.length_map, hlen, hV] at hvars
  refine ⟨_, _, ?_, ?_, J', ?_, ?_, ?_, rfl, rfl, rfl, rfl, e, rfl, rfl⟩
  · unfold allocateStaticsForProver
    exact Drv.bind_ok.mpr ⟨_, _, h1, Drv.pure_ok.mpr ⟨hvars, rfl⟩⟩
  · unfold allocateStaticsForVerifier
    rw [Verifier.commits_ok]
    refine ⟨by simp [hlen, hV], by rw [hpts]⟩
  · simp [staticValues_eq, Function.comp_def]
  · simp only [List.map_map, Function.comp_def]
    rw [List.map_const', hlen]
  · rw [hpts]
    simp [staticValues_eq, commitScalar, Function.comp_def]

/-- The gadget behind the calls below. -/
def wideGadget (synth : LC F → F → Prog1 F Var) (p : PoseidonParams F) (output : F) (vars statics : List Var) : Prog1 F Unit :=
  match statics with
  | [] => Prog.panic "unreachable"
  | s :: rest => do
    let hash ← hashConstraints synth p (LC.ofVar s :: vars.map LC.ofVar ++ rest.map LC.ofVar)
    constrainLcWithScalar hash output

/-- `call` is the gadget for `k` inputs when the permutation has `n` places left for statics. -/
def IsWide (k n : ℕ) (synth : LC F → F → Prog1 F Var) (p : PoseidonParams F) (output : F) (call : List Var → List Var → Prog1 F Unit) : Prop :=
  ∀ vars statics, vars.length = k → statics.length = n → 0 < n → p.width = n + k → call vars statics = wideGadget synth p output vars statics

theorem isWide2 (n : ℕ) (synth : LC F → F → Prog1 F Var) (p : PoseidonParams F) (output : F) : IsWide 2 n synth p output (hash2Call p synth output) := by
  intro vars statics hv hs hn hw
  obtain ⟨x, y, rfl⟩ := List.length_eq_two.mp hv
  cases statics with
  | nil => simp at hs; omega
  | cons s rest =>
    simp only [hash2Call, poseidonHash2Gadget, poseidonHash2Constraints, List.map_cons, List.map_nil]
    rw [if_neg (by simp at hs ⊢; omega)]
    rfl

theorem isWide4 (n : ℕ) (synth : LC F → F → Prog1 F Var) (p : PoseidonParams F) (output : F) : IsWide 4 n synth p output (hash4Call p synth output) := by
  intro vars statics hv hs hn hw
  cases statics with
  | nil => simp at hs; omega
  | cons s rest =>
    simp only [hash4Call, poseidonHash4Gadget, poseidonHash4Constraints, List.map_cons]
    rw [if_neg (by simp [hv]), if_neg (by simp [hv]), if_neg (by simp at hs ⊢; omega)]
    rfl

theorem wide_sound (env : Env F G) (k n : ℕ) (hn : 0 < n) (g h : G) (p : PoseidonParams F) (hw : p.width = n + k) (output : F) (sbox : SboxType) (hsb : sbox ≠ .inverse)
    {call : List Var → List Var → Prog1 F Unit} (hc : IsWide k n sbox.synthesize p output call) :
    SoundForWith k ((List.range n).map staticAt) ((List.range n).map fun i => (staticAt i : F) • g) (verifyWide env k n g h call)
      (fun v => hashOf p sbox ((List.range (n + k)).map (paddedAt ((List.range k).map v))) = .ok output) := by
  intro coms s s' hd
  unfold verifyWide at hd
  obtain ⟨cs, s1, h1, hd⟩ := Drv.bind_ok.mp hd
  rw [Drv.lift_ok, takeComms_ok] at h1
  obtain ⟨⟨hl, rfl⟩, rfl⟩ := h1
  obtain ⟨vars, s2, h2, hd⟩ := Drv.bind_ok.mp hd
  rw [Verifier.commits_ok] at h2
  obtain ⟨rfl, rfl⟩ := h2
  obtain ⟨st, s3, h3, hd⟩ := Drv.bind_ok.mp hd
  unfold allocateStaticsForVerifier at h3
  rw [Verifier.commits_ok] at h3
  obtain ⟨rfl, rfl⟩ := h3
  rw [List.length_take, Nat.min_eq_left hl] at hd
  obtain ⟨a1, a2, a3⟩ := Verifier.gadget_sound hd
  have hmax : max n 1 = n := by omega
  have hlen : ((staticValues n : List F).map fun x => commitScalar g h x (0 : F)).length = n := by rw [staticValues_eq]; simp [hmax]
  refine ⟨hl, a1, ?_, fun σ hg hsat hst => ?_⟩
  · rw [a2]
    simp [staticValues_eq, commitScalar, Function.comp_def, hmax]
  · simp only [hlen, List.length_append, List.length_take, Nat.min_eq_left hl] at a3 hd
    rw [hc _ _ (by simp) (by simp) hn hw] at a3
    obtain ⟨n, rfl⟩ : ∃ j, n = j + 1 := ⟨n - 1, by omega⟩
    rw [List.range_succ_eq_map] at a3
    simp only [wideGadget, List.map_cons] at a3
    refine a3 (Q := fun _ => _) (VS.bind (VS.hash (f := fun x => .ok (sbox.apply x)) (fun l x => VS.sbox hg hsb l x) p (by omega) _) fun l hl' => (VS.conScalar _ _).mono fun _ hx => ?_) hsat
    rw [hx] at hl'
    have hsv : ∀ i, i < n + 1 → σ.committed (s.V.length + k + i) = staticAt i := fun i hi => hst i _ (by rw [List.getElem?_map, List.getElem?_range hi]; rfl)
    have e := padded_list n ((List.range k).map fun i => σ.committed (s.V.length + i))
    rw [List.length_map, List.length_range] at e
    rw [hashOf, ← hl', e]
    congr 1
    simp only [List.map_cons, List.map_append, List.map_map, Function.comp_def, LC.value_ofVar, Assignment.val, List.cons_append, List.cons.injEq, List.append_cancel_left_eq]
    refine ⟨?_, ?_⟩
    · rw [hsv 0 (by omega)]; simp [staticAt]
    · refine List.map_congr_left fun i hi => ?_
      rw [List.mem_range] at hi
      exact (hsv (i + 1) (by omega)).symm

theorem wide_honest {env env' : Env F G} (hO : env.oracle = env'.oracle) (k n : ℕ) (hn : 0 < n) (p : PoseidonParams F) (hw : p.width = n + k) (output : F) (sbox : SboxType) (hsb : sbox ≠ .inverse)
    {call : List Var → List Var → Prog1 F Unit} (hc : IsWide k n sbox.synthesize p output call) (inputs rands : List F) (hi : inputs.length = k) (hr : rands.length = k)
    (hh : hashOf p sbox ((List.range (n + k)).map (paddedAt inputs)) = .ok output) {q : Prover F G} {s : Verifier F G} (J : Joint env env' q s) :
    ∃ coms p' s', proveWide env n inputs rands call q = (.ok coms, p') ∧ verifyWide env' k n q.g q.h call coms s = (.ok (), s') ∧ Joint env env' p' s' ∧ p'.pending = q.pending ∧
      p'.aL.length = q.aL.length + permGates sbox.gates p ∧ p'.g = q.g ∧ p'.h = q.h ∧ coms = (inputs.zip rands).map fun c => c.1 • q.g + c.2 • q.h := by
  have hmax : max n 1 = n := by omega
  obtain ⟨cs, p1, s1, c1, c2, J1, hp1, hl1, e1, o1, hf⟩ := J.commitAll hO (inputs.zip rands)
  obtain ⟨p2, s2, d1, d2, J2, hv2, -, -, -, -, hp2, hl2, e2, hg2, hh2⟩ := c101_statics hO J1 n
  rw [hmax] at d1 d2 hv2
  rw [zip_map_fst (by rw [hi, hr])] at hf
  have hcs : (cs.map Prod.snd).length = k := by rw [hf.length_eq, hi]
  obtain ⟨m, rfl⟩ : ∃ j, n = j + 1 := ⟨n - 1, by omega⟩
  have hst : ∀ i, i < m + 1 → p2.HasV (.committed (p1.v.length + i)) (staticAt i) := by
    intro i hi'
    refine ⟨by simp [Prover.Stable, hv2]; omega, ?_⟩
    simp only [Prover.assignment, Assignment.val, hv2]
    rw [List.getD_eq_getElem?_getD, List.getElem?_append_right (by omega)]
    simp [hi']
  have hf1 : List.Forall₂ p2.Has ((cs.map Prod.snd).map LC.ofVar) inputs := by
    rw [List.forall₂_map_left_iff]
    exact hf.imp fun _ _ hx => .ofVar (hx.ext J1.good.wf e2)
  have hf2 : List.Forall₂ p2.Has (((List.range m).map fun i => Var.committed (p1.v.length + (i + 1))).map LC.ofVar) ((List.range m).map fun i => staticAt (i + 1)) := by
    rw [List.map_map, List.forall₂_map_left_iff, List.forall₂_map_right_iff]
    exact List.forall₂_same.mpr fun i hi' => .ofVar (hst (i + 1) (by have := List.mem_range.mp hi'; omega))
  have e := padded_list m inputs
  rw [hi] at e
  rw [e] at hh
  have hps : PS env (fun cb p => p.specify cb) p2 (wideGadget sbox.synthesize p output (cs.map Prod.snd) ((List.range (m + 1)).map fun i => .committed (p1.v.length + i))) (fun _ p' => p2.Next p') := by
    rw [List.range_succ_eq_map]
    simp only [wideGadget, List.map_cons, List.map_map, Function.comp_def]
    simp only [List.map_map, Function.comp_def] at hf1 hf2
    have h0 := hst 0 (by omega)
    simp only [staticAt, zero_ne_one, if_false] at h0
    refine PS.bind (PS.hash (synthOk_sbox hsb p2.pending) J2.good rfl (List.rel_append (.cons (.ofVar h0) hf1) hf2) hh) ?_
    rintro l p3 ⟨n3, hl⟩
    exact (PS.conScalar n3.good hl).mono fun _ p4 n4 => n3.trans n4
  have heq : ∀ ls : List (LC F), List.Forall₂ LC.Equiv ls ls := fun ls => List.forall₂_same.mpr fun _ _ => .rfl'
  have hsame : Prog1.Same (fun _ _ => True) (wideGadget sbox.synthesize p output (cs.map Prod.snd) ((List.range (m + 1)).map fun i => .committed (p1.v.length + i)))
      (wideGadget sbox.synthesize p output (cs.map Prod.snd) ((List.range (m + 1)).map fun i => .committed (p1.v.length + i))) := by
    rw [List.range_succ_eq_map]
    exact .bind (.hash (synthSame_sbox sbox) p (heq _)) fun _ _ h => .conScalar h _
  have hpc : PC p2.pending (wideGadget sbox.synthesize p output (cs.map Prod.snd) ((List.range (m + 1)).map fun i => .committed (p1.v.length + i))) (permGates sbox.gates p) := by
    rw [List.range_succ_eq_map]
    exact (PC.bind (PC.hash (PC.sbox (.inl hsb)) p (by omega) _) fun _ => PC.conScalar _ _).congr (by ring)
  obtain ⟨⟨⟩, ⟨⟩, p3, s3, g1, g2, J3, -, -, n3, hp3, hl3⟩ := J2.gadget hO hps (fun _ _ h => h) hsame hpc
  rw [← hc _ _ hcs (by simp) hn hw] at g1 g2
  refine ⟨cs.map Prod.fst, p3, s3, ?_, ?_, J3, by rw [hp3, hp2, hp1], by rw [hl3, hl2, hl1], by rw [n3.ext.g, hg2, o1.g], by rw [n3.ext.h, hh2, o1.h], o1.points⟩
  · unfold proveWide
    exact Drv.bind_ok.mpr ⟨cs, p1, c1, Drv.bind_ok.mpr ⟨_, p2, d1, Drv.bind_ok.mpr ⟨(), p3, g1, rfl⟩⟩⟩
  · unfold verifyWide
    rw [o1.g, o1.h] at d2
    refine Drv.bind_ok.mpr ⟨cs.map Prod.fst, s, Drv.lift_ok.mpr ⟨takeComms_ok.mpr ⟨by simpa using hcs.ge, ?_⟩, rfl⟩, Drv.bind_ok.mpr ⟨_, s1, c2, Drv.bind_ok.mpr ⟨_, s2, d2, g2⟩⟩⟩
    rw [List.take_of_length_le]; simpa using hcs.le

/-- **C101**: two inputs and a permutation of any width (3, 5 or 9): in every assignment that satisfies the constraints, and gives the statics the values to which their points are commitments, the output is the hash of the padded inputs. -/
theorem c101_sound_2 (env : Env F G) (n : ℕ) (hn : 0 < n) (g h : G) {p : PoseidonParams F} (hv : p.Valid) (hw : p.width = n + 2) (output : F) (sbox : SboxType) (hsb : sbox ≠ .inverse) :
    SoundForWith 2 ((List.range n).map staticAt) ((List.range n).map fun i => (staticAt i : F) • g) (verifyWide env 2 n g h (hash2Call p sbox.synthesize output))
      (fun v => (p.hades (n + 2)).paddedHash sbox.power [v 0, v 1] = output) := by
  have := wide_sound env 2 n hn g h p hw output sbox hsb (isWide2 n _ p output)
  simpa only [hashOf_padded hv sbox hw, Except.ok.injEq, show List.range 2 = [0, 1] from rfl, List.map_cons, List.map_nil] using this

/-- **C101**: four inputs. -/
theorem c101_sound_4 (env : Env F G) (n : ℕ) (hn : 0 < n) (g h : G) {p : PoseidonParams F} (hv : p.Valid) (hw : p.width = n + 4) (output : F) (sbox : SboxType) (hsb : sbox ≠ .inverse) :
    SoundForWith 4 ((List.range n).map staticAt) ((List.range n).map fun i => (staticAt i : F) • g) (verifyWide env 4 n g h (hash4Call p sbox.synthesize output))
      (fun v => (p.hades (n + 2 + 2)).paddedHash sbox.power [v 0, v 1, v 2, v 3] = output) := by
  have := wide_sound env 4 n hn g h p hw output sbox hsb (isWide4 n _ p output)
  simpa only [show n + 4 = n + 2 + 2 from rfl, hashOf_padded hv sbox hw, Except.ok.injEq, show List.range 4 = [0, 1, 2, 3] from rfl, List.map_cons, List.map_nil] using this

theorem wide_end_to_end [DecidableEq G] {env env' : Env F G} (hO : env.oracle = env'.oracle) (h0 : ∀ l, env.oracle l ≠ 0) (k n : ℕ) (hn : 0 < n) (p : PoseidonParams F) (hw : p.width = n + k) (output : F)
    (sbox : SboxType) (hsb : sbox ≠ .inverse) {call : List Var → List Var → Prog1 F Unit} (hc : IsWide k n sbox.synthesize p output call) (inputs rands : List F) (hi : inputs.length = k) (hr : rands.length = k)
    (hh : hashOf p sbox ((List.range (n + k)).map (paddedAt inputs)) = .ok output) (hsz : nextPowerOfTwo (permGates sbox.gates p) < 2 ^ 32)
    (hb : 1 < permGates sbox.gates p ∨ env'.batchInvert [] = .ok ([], 1)) (label : String) (g h : G) (c : Coins F) (Gs Hs : List G) (r : F) (hG : nextPowerOfTwo (permGates sbox.gates p) ≤ Gs.length)
    (hH : nextPowerOfTwo (permGates sbox.gates p) ≤ Hs.length) :
    ∃ pr coms, genProof env label g h c Gs Hs (proveWide env n inputs rands call) = .ok (pr, coms) ∧ verifyProof env' label (verifyWide env' k n g h call coms) pr g h Gs Hs r = .ok () ∧
      coms = (inputs.zip rands).map fun q => q.1 • g + q.2 • h := by
  obtain ⟨coms, p', s', h1, h2, J, -, hl, eg, eh, ec⟩ := wide_honest hO k n hn p hw output sbox hsb hc inputs rands hi hr hh (Joint.new env env' g h [.init label] 0 0)
  have hl' : p'.aL.length = permGates sbox.gates p := by rw [hl]; simp [Prover.new]
  obtain ⟨pr, t', h3, h4⟩ := J.accepts hO h0 c Gs Hs r (by rwa [hl']) (by rwa [hl']) (by rwa [hl']) (by rwa [hl'])
  rw [eg, eh] at h4
  refine ⟨pr, coms, ?_, ?_, ec⟩
  · simp only [genProof, h1, h3]
  · simp only [verifyProof]
    rw [show verifyWide env' k n g h call coms (Verifier.new [.init label] 0) = (.ok (), s') from h2]
    simp only
    rw [show s'.verify env' pr g h Gs Hs r = .ok t' from h4]

/-- **C101**: two inputs and a permutation of any width, end to end. -/
theorem c101_end_to_end_2 [DecidableEq G] {env env' : Env F G} (hO : env.oracle = env'.oracle) (h0 : ∀ l, env.oracle l ≠ 0) (n : ℕ) (hn : 0 < n) {p : PoseidonParams F} (hv : p.Valid) (hw : p.width = n + 2)
    (sbox : SboxType) (hsb : sbox ≠ .inverse) (x y r1 r2 : F) (hsz : nextPowerOfTwo (permGates sbox.gates p) < 2 ^ 32)
    (hb : 1 < permGates sbox.gates p ∨ env'.batchInvert [] = .ok ([], 1)) (label : String) (g h : G) (c : Coins F) (Gs Hs : List G) (r : F) (hG : nextPowerOfTwo (permGates sbox.gates p) ≤ Gs.length)
    (hH : nextPowerOfTwo (permGates sbox.gates p) ≤ Hs.length) :
    ∃ pr coms, genProof env label g h c Gs Hs (proveWide env n [x, y] [r1, r2] (hash2Call p sbox.synthesize ((p.hades (n + 2)).paddedHash sbox.power [x, y]))) = .ok (pr, coms) ∧
      verifyProof env' label (verifyWide env' 2 n g h (hash2Call p sbox.synthesize ((p.hades (n + 2)).paddedHash sbox.power [x, y])) coms) pr g h Gs Hs r = .ok () ∧
      coms = [x • g + r1 • h, y • g + r2 • h] :=
  wide_end_to_end hO h0 2 n hn p hw _ sbox hsb (isWide2 n _ p _) [x, y] [r1, r2] rfl rfl (hashOf_padded hv sbox hw _) hsz hb label g h c Gs Hs r hG hH

/-- **C101**: four inputs, end to end. -/
theorem c101_end_to_end_4 [DecidableEq G] {env env' : Env F G} (hO : env.oracle = env'.oracle) (h0 : ∀ l, env.oracle l ≠ 0) (n : ℕ) (hn : 0 < n) {p : PoseidonParams F} (hv : p.Valid) (hw : p.width = n + 4)
    (sbox : SboxType) (hsb : sbox ≠ .inverse) (inputs rands : List F) (hi : inputs.length = 4) (hr : rands.length = 4) (hsz : nextPowerOfTwo (permGates sbox.gates p) < 2 ^ 32)
    (hb : 1 < permGates sbox.gates p ∨ env'.batchInvert [] = .ok ([], 1)) (label : String) (g h : G) (c : Coins F) (Gs Hs : List G) (r : F) (hG : nextPowerOfTwo (permGates sbox.gates p) ≤ Gs.length)
    (hH : nextPowerOfTwo (permGates sbox.gates p) ≤ Hs.length) :
    ∃ pr coms, genProof env label g h c Gs Hs (proveWide env n inputs rands (hash4Call p sbox.synthesize ((p.hades (n + 2 + 2)).paddedHash sbox.power inputs))) = .ok (pr, coms) ∧
      verifyProof env' label (verifyWide env' 4 n g h (hash4Call p sbox.synthesize ((p.hades (n + 2 + 2)).paddedHash sbox.power inputs)) coms) pr g h Gs Hs r = .ok () ∧
      coms = (inputs.zip rands).map fun q => q.1 • g + q.2 • h :=
  wide_end_to_end hO h0 4 n hn p hw _ sbox hsb (isWide4 n _ p _) inputs rands hi hr (hashOf_padded hv sbox hw inputs) hsz hb label g h c Gs Hs r hG hH

theorem commits_statics (n : ℕ) (g h : G) : ∀ (i : ℕ) x, ((List.range n).map (staticAt : ℕ → F))[i]? = some x → ∃ P, ((List.range n).map fun i => (staticAt i : F) • g)[i]? = some P ∧ CommitsTo g h P x := by
  intro i x hx
  rw [List.getElem?_map, Option.map_eq_some_iff] at hx
  obtain ⟨j, hj, rfl⟩ := hx
  exact ⟨(staticAt j : F) • g, by rw [List.getElem?_map, hj]; rfl, 0, by simp⟩

/-- **C101**: what a convinced verifier knows about the two committed values. -/
theorem c101_convinced_2 [DecidableEq G] {label : String} {g h : G} {Gs Hs coms : List G} (env : Env F G) (n : ℕ) (hn : 0 < n) {p : PoseidonParams F} (hv : p.Valid) (hw : p.width = n + 2) (output : F)
    (sbox : SboxType) (hsb : sbox ≠ .inverse) (hc : Convinced label (verifyWide env 2 n g h (hash2Call p sbox.synthesize output) coms) g h Gs Hs)
    (v : ℕ → F) (ho : ∀ (i : ℕ) P, i < 2 → coms[i]? = some P → CommitsTo g h P (v i)) : (p.hades (n + 2)).paddedHash sbox.power [v 0, v 1] = output :=
  c55_openings (c101_sound_2 env n hn g h hv hw output sbox hsb) (commits_statics n g h) (fun v w e hv => by rw [← e 0 (by decide), ← e 1 (by decide)]; exact hv) hc v ho

/-- **C101**: the same for four. -/
theorem c101_convinced_4 [DecidableEq G] {label : String} {g h : G} {Gs Hs coms : List G} (env : Env F G) (n : ℕ) (hn : 0 < n) {p : PoseidonParams F} (hv : p.Valid) (hw : p.width = n + 4) (output : F)
    (sbox : SboxType) (hsb : sbox ≠ .inverse) (hc : Convinced label (verifyWide env 4 n g h (hash4Call p sbox.synthesize output) coms) g h Gs Hs)
    (v : ℕ → F) (ho : ∀ (i : ℕ) P, i < 4 → coms[i]? = some P → CommitsTo g h P (v i)) : (p.hades (n + 2 + 2)).paddedHash sbox.power [v 0, v 1, v 2, v 3] = output :=
  c55_openings (c101_sound_4 env n hn g h hv hw output sbox hsb) (commits_statics n g h) (fun v w e hv => by
    rw [← e 0 (by decide), ← e 1 (by decide), ← e 2 (by decide), ← e 3 (by decide)]; exact hv) hc v ho

end c101

section plain
variable {F : Type} [Field F]

/-- **C101**: with one static the padded hash is the hash of C90. -/
theorem c101_narrow (p : PoseidonParams F) (f : F → F) (x y : F) : (p.hades 3).paddedHash f [x, y] = (p.hades 3).hash f ![x, y] := by
  unfold Hades.paddedHash Hades.hash
  congr 1
  funext i
  match i with
  | 0 => rfl
  | 1 => rfl
  | 2 => rfl

/-- **C101**: the crate has no function that computes the padded hash: `Poseidon_hash_2` and `Poseidon_hash_4` panic for other widths than 3 and 5. -/
theorem c101_plain (p : PoseidonParams F) (sbox : SboxType) :
    (p.width ≠ 3 → ∀ x y, ∃ m, poseidonHash2 x y p sbox = Res.panic m) ∧ (p.width ≠ 5 → ∀ inputs, ∃ m, poseidonHash4 inputs p sbox = Res.panic m) := by
  refine ⟨fun hw x y => ⟨"assert_eq: input.len(), width", ?_⟩, fun hw inputs => ?_⟩
  · simp only [poseidonHash2, hashOf, hashWith, permWith]
    rw [if_pos (by simp; omega)]
    rfl
  · unfold poseidonHash4
    by_cases hl : inputs.length = 4
    · rw [if_neg (by simpa using hl)]
      refine ⟨"assert_eq: input.len(), width", ?_⟩
      simp only [hashOf, hashWith, permWith]
      rw [if_pos (by simp [hl]; omega)]
      rfl
    · rw [if_pos hl]
      exact ⟨_, rfl⟩

/-- The number of inputs is not always part of what is hashed: see `c101_separation`. -/
theorem c101_overlap {p : PoseidonParams F} (hv : p.Valid) (hw : p.width = 5) (sbox : SboxType) (x y : F) :
    poseidonHash4 [x, y, 101, 0] p sbox = .ok ((p.hades 5).paddedHash sbox.power [x, y]) := by
  have := c90_hash_4 hv hw sbox ![x, y, 101, 0]
  rw [show List.ofFn ![x, y, 101, (0 : F)] = [x, y, 101, 0] from rfl] at this
  rw [this]
  unfold Hades.paddedHash Hades.hash
  congr 2
  funext i
  match i with
  | 0 => rfl
  | 1 => rfl
  | 2 => rfl
  | 3 => rfl
  | 4 => rfl

/-- **C101**: different inputs are different states: inputs of the same number are told apart always, and so are inputs of different numbers, except that a full state (no place left for the padding constant) may be that of fewer inputs followed by 101 and zeros. -/
theorem c101_separation (h101 : (101 : F) ≠ 0) (w : ℕ) (xs ys : List F) (hl : xs.length ≤ ys.length) (hw : ys.length < w) :
    (∀ i < w, paddedAt xs i = paddedAt ys i) ↔ xs = ys ∨ (xs.length < ys.length ∧ ys.length + 1 = w ∧ ys = xs ++ 101 :: List.replicate (ys.length - xs.length - 1) 0) := by
  constructor
  · intro e
    have hin : ∀ (zs : List F) (i : ℕ) (hi : i < zs.length), paddedAt zs (i + 1) = zs[i] := fun zs i hi => by
      simp [paddedAt, Nat.succ_le_of_lt hi, hi]
    have hout : ∀ (zs : List F) (i : ℕ), zs.length ≤ i → paddedAt zs (i + 1) = if i = zs.length then (101 : F) else 0 := fun zs i hi => by
      simp [paddedAt, show ¬ i + 1 ≤ zs.length by omega]
    rcases Nat.lt_or_eq_of_le hl with hlt | heq
    · right
      have hfull : ys.length + 1 = w := by
        by_contra hne
        have := e (ys.length + 1) (by omega)
        rw [hout ys _ le_rfl, hout xs _ hl, if_pos rfl, if_neg (by omega)] at this
        exact h101 this.symm
      refine ⟨hlt, hfull, List.ext_getElem (by simp; omega) fun i h1 h2 => ?_⟩
      have := e (i + 1) (by omega)
      rw [hin ys i h1] at this
      rw [← this]
      by_cases hi : i < xs.length
      · rw [hin xs i hi, List.getElem_append_left hi]
      · rw [hout xs i (by omega), List.getElem_append_right (by omega)]
        by_cases h3 : i = xs.length
        · subst h3; simp
        · rw [if_neg h3]
          obtain ⟨j, hj⟩ : ∃ j, i - xs.length = j + 1 := ⟨i - xs.length - 1, by omega⟩
          simp [hj]
    · left
      refine List.ext_getElem heq fun i h1 h2 => ?_
      have := e (i + 1) (by omega)
      rwa [hin xs i h1, hin ys i h2] at this
  · rintro (rfl | ⟨hlt, hfull, e⟩) i hi
    · rfl
    · rcases i with - | i
      · rfl
      · have h1 : i < ys.length := by omega
        have e2 : paddedAt ys (i + 1) = ys.getD i 0 := by simp [paddedAt, Nat.succ_le_of_lt h1]
        rw [e2, e]
        by_cases h2 : i < xs.length
        · simp [paddedAt, Nat.succ_le_of_lt h2, List.getElem?_append_left h2, h2]
        · rw [List.getD_eq_getElem?_getD, List.getElem?_append_right (by omega)]
          by_cases h3 : i = xs.length
          · subst h3; simp [paddedAt]
          · obtain ⟨j, hj⟩ : ∃ j, i - xs.length = j + 1 := ⟨i - xs.length - 1, by omega⟩
            have h4 : ¬ i + 1 ≤ xs.length := by omega
            simp only [paddedAt, hj, h4, List.getElem?_cons_succ, List.getElem?_replicate]
            simp [h3]
            split <;> rfl

end plain

/-! ## Examples -/

/-- The state of [7, 8] and that of [7, 8, 101, 0] are the same in width 5 but not in width 9. -/
example : (∀ i < 5, paddedAt ([7, 8] : List Fr) i = paddedAt [7, 8, 101, 0] i) ∧ ¬ ∀ i < 9, paddedAt ([7, 8] : List Fr) i = paddedAt [7, 8, 101, 0] i :=
  have h101 : (101 : Fr) ≠ 0 := by decide +kernel
  ⟨(c101_separation h101 5 _ _ (by decide) (by decide)).mpr (.inr ⟨by decide, rfl, rfl⟩), fun e => by
    rcases (c101_separation h101 9 _ _ (by decide) (by decide)).mp e with h | ⟨-, h, -⟩ <;> simp at h⟩

/-- A collision between two and four inputs, for the parameters of width 5. -/
example : poseidonHash4 [7, 8, 101, 0] demoParams5 .quint = .ok ((demoParams5.hades 5).paddedHash SboxType.quint.power [(7 : Fr), 8]) :=
  c101_overlap demoParams5_valid rfl .quint 7 8

/-- Two inputs with the parameters of width 5: the statics are 0, 101 and 0. -/
example (label : String) (g h : Fr) (c : Coins Fr) (Gs Hs : List Fr) (r : Fr) (hG : 32 ≤ Gs.length) (hH : 32 ≤ Hs.length) :
    ∃ pr coms, genProof demoEnv label g h c Gs Hs (proveWide demoEnv 3 [7, 8] [3, 4] (hash2Call demoParams5 SboxType.quint.synthesize ((demoParams5.hades 5).paddedHash SboxType.quint.power [7, 8]))) = .ok (pr, coms) ∧
      verifyProof demoEnv label (verifyWide demoEnv 2 3 g h (hash2Call demoParams5 SboxType.quint.synthesize ((demoParams5.hades 5).paddedHash SboxType.quint.power [7, 8])) coms) pr g h Gs Hs r = .ok () ∧
      coms = [(7 : Fr) • g + (3 : Fr) • h, (8 : Fr) • g + (4 : Fr) • h] :=
  have e : nextPowerOfTwo (permGates SboxType.quint.gates demoParams5) = 32 := by decide +kernel
  c101_end_to_end_2 rfl demoEnv_ne_zero 3 (by decide) demoParams5_valid rfl .quint (by decide) 7 8 3 4 (by rw [e]; decide) (.inl (by decide +kernel)) label g h c Gs Hs r (by rw [e]; exact hG) (by rw [e]; exact hH)

/-- Four inputs with the parameters of width 9: five statics. -/
example (label : String) (g h : Fr) (c : Coins Fr) (Gs Hs : List Fr) (r : Fr) (hG : 32 ≤ Gs.length) (hH : 32 ≤ Hs.length) :
    ∃ pr coms, genProof demoEnv label g h c Gs Hs (proveWide demoEnv 5 [7, 8, 9, 10] [3, 4, 5, 6] (hash4Call demoParams9 SboxType.quint.synthesize ((demoParams9.hades 9).paddedHash SboxType.quint.power [7, 8, 9, 10]))) = .ok (pr, coms) ∧
      verifyProof demoEnv label (verifyWide demoEnv 4 5 g h (hash4Call demoParams9 SboxType.quint.synthesize ((demoParams9.hades 9).paddedHash SboxType.quint.power [7, 8, 9, 10])) coms) pr g h Gs Hs r = .ok () ∧
      coms = ([7, 8, 9, 10].zip [3, 4, 5, 6]).map fun q : Fr × Fr => q.1 • g + q.2 • h :=
  have e : nextPowerOfTwo (permGates SboxType.quint.gates demoParams9) = 32 := by decide +kernel
  c101_end_to_end_4 rfl demoEnv_ne_zero 5 (by decide) demoParams9_valid rfl .quint (by decide) [7, 8, 9, 10] [3, 4, 5, 6] rfl rfl (by rw [e]; decide) (.inl (by decide +kernel)) label g h c Gs Hs r (by rw [e]; exact hG) (by rw [e]; exact hH)

/-- The state for two inputs and width 5. -/
example (x y : Fr) : (List.range 5).map (paddedAt [x, y]) = [0, x, y, 101, 0] := by simp [paddedAt, List.range_succ]

/-- The statics of a new pair. -/
example : ∃ p' : Prover Fr Fr, (allocateStaticsForProver 3 (Prover.new (3 : Fr) (4 : Fr) [.init "statics"] 0)).2 = p' ∧ p'.v = [0, 101, 0] := by
  obtain ⟨p', s', h1, -, -, h2, -⟩ := c101_statics (env := demoEnv) (env' := demoEnv) rfl (Joint.new demoEnv demoEnv (3 : Fr) (4 : Fr) [.init "statics"] 0 0) 3
  exact ⟨p', by rw [h1], by rw [h2]; simp [Prover.new, staticAt, List.range_succ]⟩

/-- The verifier's code runs, so that `c101_sound_2` says something. -/
example : ∃ s' : Verifier Fr Fr, verifyWide demoEnv 2 3 (5 : Fr) 6 (hash2Call demoParams5 SboxType.quint.synthesize ((demoParams5.hades 5).paddedHash SboxType.quint.power [7, 8])) [7 * 5 + 3 * 6, 8 * 5 + 4 * 6] (Verifier.new [.init "wide"]) = (.ok (), s') := by
  obtain ⟨coms, p', s', -, h2, -, -, -, -, -, e⟩ := wide_honest (env := demoEnv) (env' := demoEnv) rfl 2 3 (by decide) demoParams5 rfl ((demoParams5.hades 5).paddedHash SboxType.quint.power [7, 8]) .quint (by decide)
    (isWide2 3 _ _ _) [7, 8] [3, 4] rfl rfl (hashOf_padded demoParams5_valid .quint rfl _) (Joint.new demoEnv demoEnv (5 : Fr) (6 : Fr) [.init "wide"] 0 0)
  exact ⟨s', by rw [e] at h2; exact h2⟩

end Bp
