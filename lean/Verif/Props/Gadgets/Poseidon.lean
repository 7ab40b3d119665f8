import Verif.Lemmas.Gadgets.PoseidonFun
import Verif.Lemmas.Gadgets.Zip
import Verif.Lemmas.Bls
import Verif.Props.Gadgets.Hamming
import Verif.Props.Gadgets.Compose

set_option linter.unusedSectionVars false
set_option linter.unusedSimpArgs false

/-! # C33, C34, C35: Poseidon -/

namespace Bp
variable {F G : Type} [Field F] [AddCommGroup G] [Module F G]

/-! ## C33 -/

/-- C33, soundness: after a run of the constraint version of the permutation on a verifier, every assignment satisfying the gates and the constraints gives the outputs the
values that `Poseidon_permutation` computes from the values of the inputs (cube and quint). -/
theorem c33_sound (env : Env F G) (p : PoseidonParams F) (hw : p.width ≠ 0 ∨ p.partialRounds = 0) (sbox : SboxType) (hs : sbox ≠ .inverse) (input outs : List (LC F)) (s s' : Verifier F G)
    (hr : s.run1 env (poseidonPermutationConstraints p sbox input) = .ok (outs, s')) (σ : Assignment F) (hg : σ.Gates) (hsat : σ.Sat s'.constraints) :
    poseidonPermutation p sbox (input.map (LC.value σ)) = .ok (outs.map (LC.value σ)) :=
  VS.perm (fun l k => VS.sbox hg hs l k) p hw input (fun cb s => s.specify cb) (fun _ _ => rfl) s outs s' hr hsat

/-- C33, completeness: on a prover whose constraints hold, with inputs of settled values on which the permutation is defined, the run succeeds, the outputs have the values of the
permutation, and all constraints hold afterwards. -/
theorem c33_complete (env : Env F G) (p : PoseidonParams F) (sbox : SboxType) (hs : sbox ≠ .inverse) (q : Prover F G) (hq : q.Good) (input : List (LC F)) (xs ys : List F)
    (hin : List.Forall₂ q.Has input xs) (hy : poseidonPermutation p sbox xs = .ok ys) :
    ∃ outs q', q.run1 env (poseidonPermutationConstraints p sbox input) = .ok (outs, q') ∧ q'.Good ∧ outs.map (LC.value q'.assignment) = ys ∧ q.Ext q' ∧ q'.pending = q.pending := by
  obtain ⟨outs, q', h1, n, h2⟩ := PS.perm (env := env) (onSpec := fun cb p => p.specify cb) (synthOk_sbox hs q.pending) hq rfl hin hy
  refine ⟨outs, q', h1, n.good, ?_, n.ext, n.pending⟩
  have : ∀ {ls : List (LC F)} {zs : List F}, List.Forall₂ q'.Has ls zs → ls.map (LC.value q'.assignment) = zs := by
    intro ls zs h
    induction h with
    | nil => rfl
    | cons h _ ih => rw [List.map_cons, ih, h.2]
  exact this h2

/-- C33: with parameters as `PoseidonParams::new` makes them, the permutation is defined on every input of the right length. -/
theorem c33_defined (p : PoseidonParams F) (hv : p.Valid) (sbox : SboxType) (xs : List F) (hx : xs.length = p.width) : ∃ ys, poseidonPermutation p sbox xs = .ok ys :=
  ⟨_, (permWith_eq sbox.apply hv hx).1⟩

theorem VS.constrainOutputs {C : Type} {rnd : Bool} {env : Env F G} {σ : Assignment F} (outs : List (LC F)) : ∀ (os : List F) (i : ℕ),
    VS env σ (constrainOutputs outs i os : Prog F C rnd Unit) (fun _ => ∀ j, ∀ o, os[j]? = some o → ∃ l, outs[i + j]? = some l ∧ l.value σ = o)
  | [], i => VS.pure (by simp)
  | o :: os, i => by
    refine VS.bind (VS.index _ _) fun l hl => VS.bind (VS.conScalar _ _) fun _ h0 => (VS.constrainOutputs outs os (i + 1)).mono fun _ hr j x hx => ?_
    cases j with
    | zero => simp only [List.getElem?_cons_zero, Option.some.injEq] at hx; exact ⟨l, hl, by rw [h0, hx]⟩
    | succ j =>
      obtain ⟨m, hm, hv⟩ := hr j x (by simpa using hx)
      exact ⟨m, by rw [← hm]; congr 1; omega, hv⟩

/-- C33 for the gadget: satisfying assignments have inputs whose permutation is the public output. -/
theorem c33_gadget_sound (env : Env F G) (p : PoseidonParams F) (hw : p.width ≠ 0 ∨ p.partialRounds = 0) (sbox : SboxType) (hs : sbox ≠ .inverse) (input : List (Alloc F)) (output : List F)
    (s s' : Verifier F G) (hr : s.run1 env (poseidonPermutationGadget input p sbox output) = .ok ((), s')) (σ : Assignment F) (hg : σ.Gates) (hsat : σ.Sat s'.constraints) :
    poseidonPermutation p sbox (input.map fun a => σ.val a.var) = .ok output := by
  have hlen : output.length = p.width := by
    by_contra h
    unfold poseidonPermutationGadget at hr
    rw [if_pos h] at hr
    simp [Verifier.run1, Verifier.run, Res.panic] at hr
  refine (?_ : VS env σ (poseidonPermutationGadget input p sbox output : Prog1 F Unit) fun _ => _) (fun cb s => s.specify cb) (fun _ _ => rfl) s () s' hr hsat
  unfold poseidonPermutationGadget
  rw [if_neg (by simpa using hlen)]
  refine VS.bind (VS.perm (f := fun x => .ok (sbox.apply x)) (fun l k => VS.sbox hg hs l k) p hw _) fun outs ho => (VS.constrainOutputs outs output 0).mono fun _ h => ?_
  have e : (input.map fun a => LC.ofVar a.var).map (LC.value σ) = input.map fun a => σ.val a.var := by simp [LC.value_ofVar]
  rw [e] at ho
  rw [poseidonPermutation, ho]
  congr 1
  have hl : outs.length = output.length := by
    have := permWith_length ho
    have h2 : (outs.map (LC.value σ)).length = p.width := by rw [← this]; exact permWith_out_length ho
    rw [hlen, ← h2, List.length_map]
  apply List.ext_getElem? fun j => ?_
  by_cases hj : j < output.length
  · obtain ⟨l, h1, h2⟩ := h j _ (List.getElem?_eq_getElem hj)
    rw [Nat.zero_add] at h1
    rw [List.getElem?_map, h1, Option.map_some, h2, List.getElem?_eq_getElem hj]
  · rw [List.getElem?_eq_none (by simp; omega), List.getElem?_eq_none (by omega)]

/-! ## C35 -/

section c35
variable (env env' : Env F G)

/-- C35, soundness of the 2:1 statement: the verifier commits to the point `0` (which opens to 0 with blinding 0) after the two commitments; in every satisfying assignment giving it the value
0, the hash of the two committed inputs is the public output. -/
theorem c35_sound_2 (output : F) (p : PoseidonParams F) (sbox : SboxType) (hs : sbox ≠ .inverse) (g h : G) :
    SoundForWith 2 [0] [(0 : F) • g + (0 : F) • h] (verifyPoseidon2 env output p sbox g h) (fun v => poseidonHash2 (v 0) (v 1) p sbox = .ok output) := by
  show SoundForWith 2 _ _ (verifyPreimage env 2 g h (hash2Call p sbox.synthesize output)) _
  have := preimage_sound env 2 g h (f := fun x => .ok (sbox.apply x)) p output (isCall2 sbox.synthesize p output) (fun σ hg l x => VS.sbox hg hs l x)
  simpa [zero_smul, poseidonHash2, zeroConst, hashOf, List.range_succ] using this

/-- C35, soundness of the 4:1 statement. -/
theorem c35_sound_4 (output : F) (p : PoseidonParams F) (sbox : SboxType) (hs : sbox ≠ .inverse) (g h : G) :
    SoundForWith 4 [0] [(0 : F) • g + (0 : F) • h] (verifyPoseidon4 env output p sbox g h) (fun v => poseidonHash4 [v 0, v 1, v 2, v 3] p sbox = .ok output) := by
  show SoundForWith 4 _ _ (verifyPreimage env 4 g h (hash4Call p sbox.synthesize output)) _
  have := preimage_sound env 4 g h (f := fun x => .ok (sbox.apply x)) p output (isCall4 sbox.synthesize p output) (fun σ hg l x => VS.sbox hg hs l x)
  simpa [zero_smul, poseidonHash4, zeroConst, hashOf, List.range_succ] using this

/-- C35, soundness of the 8:1 statement. -/
theorem c35_sound_8 (output : F) (p : PoseidonParams F) (sbox : SboxType) (hs : sbox ≠ .inverse) (g h : G) :
    SoundForWith 8 [0] [(0 : F) • g + (0 : F) • h] (verifyPoseidon8 env output p sbox g h)
      (fun v => poseidonHash8 [v 0, v 1, v 2, v 3, v 4, v 5, v 6, v 7] p sbox = .ok output) := by
  show SoundForWith 8 _ _ (verifyPreimage env 8 g h (hash8Call p sbox.synthesize output)) _
  have := preimage_sound env 8 g h (f := fun x => .ok (sbox.apply x)) p output (isCall8 sbox.synthesize p output) (fun σ hg l x => VS.sbox hg hs l x)
  simpa [zero_smul, poseidonHash8, zeroConst, hashOf, List.range_succ] using this

/-- How the blindings `rands` come from the arguments of the entry point. -/
def RandsFrom (k : ℕ) (randomness : Option (List F)) (rng : Option (ℕ → F)) (rands : List F) : Prop :=
  randomness = some rands ∨ ∃ g, randomness = none ∧ rng = some g ∧ rands = (List.range k).map g

variable {env env'}

/-- C35, completeness of the 2:1 statement. -/
theorem c35_complete_2 (hO : env.oracle = env'.oracle) (x y output : F) (p : PoseidonParams F) (sbox : SboxType) (hs : sbox ≠ .inverse) (hh : poseidonHash2 x y p sbox = .ok output) (g h : G)
    (r1 r2 : F) (randomness : Option (List F)) (rng : Option (ℕ → F)) (hr : RandsFrom 2 randomness rng [r1, r2]) (pd : Option ℕ) :
    HonestPair env env' pd (permGates sbox.gates p) [(x, r1), (y, r2)] (provePoseidon2 env [x, y] randomness output p sbox rng) (verifyPoseidon2 env' output p sbox g h) [(0, 0)] :=
  preimage_honest env env' hO pd 2 g h p output (isCall2 _ _ _) (isCall2 _ _ _) (synthOk_sbox hs pd) (synthSame_sbox sbox) (PC.sbox (.inl hs)) [x, y] [r1, r2] rfl rfl
    (by simpa [poseidonHash2, hashOf, zeroConst] using hh) randomness rng hr

/-- C35, completeness of the 4:1 statement. -/
theorem c35_complete_4 (hO : env.oracle = env'.oracle) (inputs : List F) (output : F) (p : PoseidonParams F) (sbox : SboxType) (hs : sbox ≠ .inverse) (hh : poseidonHash4 inputs p sbox = .ok output) (g h : G)
    (rands : List F) (hl : rands.length = 4) (randomness : Option (List F)) (rng : Option (ℕ → F)) (hr : RandsFrom 4 randomness rng rands) (pd : Option ℕ) :
    HonestPair env env' pd (permGates sbox.gates p) (inputs.zip rands) (provePoseidon4 env inputs randomness output p sbox rng) (verifyPoseidon4 env' output p sbox g h) [(0, 0)] := by
  by_cases hi : inputs.length = 4
  · rw [poseidonHash4, if_neg (by simpa using hi)] at hh
    exact preimage_honest env env' hO pd 4 g h p output (isCall4 _ _ _) (isCall4 _ _ _) (synthOk_sbox hs pd) (synthSame_sbox sbox) (PC.sbox (.inl hs)) inputs rands hi hl
      (by simpa [hashOf, zeroConst] using hh) randomness rng hr
  · rw [poseidonHash4, if_pos hi] at hh
    simp [Res.panic] at hh

/-- C35, completeness of the 8:1 statement. -/
theorem c35_complete_8 (hO : env.oracle = env'.oracle) (inputs : List F) (output : F) (p : PoseidonParams F) (sbox : SboxType) (hs : sbox ≠ .inverse) (hh : poseidonHash8 inputs p sbox = .ok output) (g h : G)
    (rands : List F) (hl : rands.length = 8) (randomness : Option (List F)) (rng : Option (ℕ → F)) (hr : RandsFrom 8 randomness rng rands) (pd : Option ℕ) :
    HonestPair env env' pd (permGates sbox.gates p) (inputs.zip rands) (provePoseidon8 env inputs randomness output p sbox rng) (verifyPoseidon8 env' output p sbox g h) [(0, 0)] := by
  by_cases hi : inputs.length = 8
  · rw [poseidonHash8, if_neg (by simpa using hi)] at hh
    exact preimage_honest env env' hO pd 8 g h p output (isCall8 _ _ _) (isCall8 _ _ _) (synthOk_sbox hs pd) (synthSame_sbox sbox) (PC.sbox (.inl hs)) inputs rands hi hl
      (by simpa [hashOf, zeroConst] using hh) randomness rng hr
  · rw [poseidonHash8, if_pos hi] at hh
    simp [Res.panic] at hh

/-- C35, end to end, 2:1. -/
theorem c35_end_to_end_2 [DecidableEq G] (hO : env.oracle = env'.oracle) (h0 : ∀ l, env.oracle l ≠ 0) (x y output : F) (p : PoseidonParams F) (sbox : SboxType) (hs : sbox ≠ .inverse)
    (hh : poseidonHash2 x y p sbox = .ok output) (g h : G) (r1 r2 : F) (randomness : Option (List F)) (rng : Option (ℕ → F)) (hr : RandsFrom 2 randomness rng [r1, r2])
    (hsz : nextPowerOfTwo (permGates sbox.gates p) < 2 ^ 32) (hb : 1 < permGates sbox.gates p ∨ env'.batchInvert [] = .ok ([], 1)) :
    EndToEnd env env' (permGates sbox.gates p) [(x, r1), (y, r2)] (provePoseidon2 env [x, y] randomness output p sbox rng) (verifyPoseidon2 env' output p sbox g h) :=
  (c35_complete_2 hO x y output p sbox hs hh g h r1 r2 randomness rng hr none).endToEnd hO h0 hsz hb

/-- C35, end to end, 4:1. -/
theorem c35_end_to_end_4 [DecidableEq G] (hO : env.oracle = env'.oracle) (h0 : ∀ l, env.oracle l ≠ 0) (inputs : List F) (output : F) (p : PoseidonParams F) (sbox : SboxType) (hs : sbox ≠ .inverse)
    (hh : poseidonHash4 inputs p sbox = .ok output) (g h : G) (rands : List F) (hl : rands.length = 4) (randomness : Option (List F)) (rng : Option (ℕ → F)) (hr : RandsFrom 4 randomness rng rands)
    (hsz : nextPowerOfTwo (permGates sbox.gates p) < 2 ^ 32) (hb : 1 < permGates sbox.gates p ∨ env'.batchInvert [] = .ok ([], 1)) :
    EndToEnd env env' (permGates sbox.gates p) (inputs.zip rands) (provePoseidon4 env inputs randomness output p sbox rng) (verifyPoseidon4 env' output p sbox g h) :=
  (c35_complete_4 hO inputs output p sbox hs hh g h rands hl randomness rng hr none).endToEnd hO h0 hsz hb

/-- C35, end to end, 8:1. -/
theorem c35_end_to_end_8 [DecidableEq G] (hO : env.oracle = env'.oracle) (h0 : ∀ l, env.oracle l ≠ 0) (inputs : List F) (output : F) (p : PoseidonParams F) (sbox : SboxType) (hs : sbox ≠ .inverse)
    (hh : poseidonHash8 inputs p sbox = .ok output) (g h : G) (rands : List F) (hl : rands.length = 8) (randomness : Option (List F)) (rng : Option (ℕ → F)) (hr : RandsFrom 8 randomness rng rands)
    (hsz : nextPowerOfTwo (permGates sbox.gates p) < 2 ^ 32) (hb : 1 < permGates sbox.gates p ∨ env'.batchInvert [] = .ok ([], 1)) :
    EndToEnd env env' (permGates sbox.gates p) (inputs.zip rands) (provePoseidon8 env inputs randomness output p sbox rng) (verifyPoseidon8 env' output p sbox g h) :=
  (c35_complete_8 hO inputs output p sbox hs hh g h rands hl randomness rng hr none).endToEnd hO h0 hsz hb

/-- C35: with parameters as `PoseidonParams::new` makes them the hashes are defined on all inputs. -/
theorem c35_defined (p : PoseidonParams F) (hv : p.Valid) (sbox : SboxType) :
    (p.width = 3 → ∀ x y, ∃ o, poseidonHash2 x y p sbox = .ok o) ∧ (p.width = 5 → ∀ xs, xs.length = 4 → ∃ o, poseidonHash4 xs p sbox = .ok o) ∧
      (p.width = 9 → ∀ xs, xs.length = 8 → ∃ o, poseidonHash8 xs p sbox = .ok o) := by
  refine ⟨fun h x y => hashOf_defined sbox hv (by omega) (by simp [h]), fun h xs hx => ?_, fun h xs hx => ?_⟩
  · rw [poseidonHash4, if_neg (by simpa using hx)]; exact hashOf_defined sbox hv (by omega) (by simp [h, hx])
  · rw [poseidonHash8, if_neg (by simpa using hx)]; exact hashOf_defined sbox hv (by omega) (by simp [h, hx])

end c35

/-! ## C34 -/

section c34
variable {env env' : Env F G}

/-- C34, completeness as far as it goes: with the inverse S-box the honest 2:1, 4:1 and 8:1 prover succeeds if no multiplier is half allocated on entry and no S-box sees the input 0
(`invChecked` is inversion that refuses zero). Missing: S-box input 0 (`c34_zero_unsatisfied`), half-allocated gates (`c53_inverse_*`), and soundness, which is false (`c34_unsound`). -/
theorem c34_complete_partial [DecidableEq F] (hO : env.oracle = env'.oracle) (k : ℕ) (inputs rands : List F) (output : F) (p : PoseidonParams F) (g h : G)
    (hh : hashWith invChecked p (0 :: inputs) = .ok output) (hi : inputs.length = k) (hl : rands.length = k) (randomness : Option (List F)) (rng : Option (ℕ → F)) (hr : RandsFrom k randomness rng rands) :
    (k = 2 → HonestPair env env' none (permGates 3 p) (inputs.zip rands) (provePoseidon2 env inputs randomness output p .inverse rng) (verifyPoseidon2 env' output p .inverse g h) [(0, 0)]) ∧
    (k = 4 → HonestPair env env' none (permGates 3 p) (inputs.zip rands) (provePoseidon4 env inputs randomness output p .inverse rng) (verifyPoseidon4 env' output p .inverse g h) [(0, 0)]) ∧
    (k = 8 → HonestPair env env' none (permGates 3 p) (inputs.zip rands) (provePoseidon8 env inputs randomness output p .inverse rng) (verifyPoseidon8 env' output p .inverse g h) [(0, 0)]) := by
  refine ⟨?_, ?_, ?_⟩ <;> rintro rfl
  · exact preimage_honest env env' hO none 2 g h p output (isCall2 _ _ _) (isCall2 _ _ _) synthOk_inverse synthSame_inverse PC.inverse inputs rands hi hl hh randomness rng hr
  · exact preimage_honest env env' hO none 4 g h p output (isCall4 _ _ _) (isCall4 _ _ _) synthOk_inverse synthSame_inverse PC.inverse inputs rands hi hl hh randomness rng hr
  · exact preimage_honest env env' hO none 8 g h p output (isCall8 _ _ _) (isCall8 _ _ _) synthOk_inverse synthSame_inverse PC.inverse inputs rands hi hl hh randomness rng hr

/-- A dishonest prover for the 2:1 statement with the inverse S-box: it never looks at its inputs. -/
def forgePoseidon2 (env : Env F G) (inputs : List F) (randomness : Option (List F)) (output : F) (p : PoseidonParams F) : Drv (Prover F G) (List G) :=
  provePreimage env 2 inputs randomness none (hash2Call p (synthesizeForged (output * (colSum p 1)⁻¹)) output)

/-- C34 is false: for the inverse S-box, *any* two committed values and *any* non-zero output are accepted, provided the second column of the matrix has a non-zero sum and there is a final full
round. -/
theorem c34_anything_accepted (hO : env.oracle = env'.oracle) (x y r1 r2 output : F) (h0 : output ≠ 0) (p : PoseidonParams F) (hv : p.Valid) (hw : p.width = 3) (he : p.fullRoundsEnd ≠ 0)
    (hc : colSum p 1 ≠ 0) (g h : G) :
    HonestPair env env' none (permGates 3 p) [(x, r1), (y, r2)] (forgePoseidon2 env [x, y] (some [r1, r2]) output p) (verifyPoseidon2 env' output p .inverse g h) [(0, 0)] :=
  preimage_honest env env' hO none 2 g h p output (isCall2 _ _ _) (isCall2 _ _ _) (synthOk_forged (mul_ne_zero h0 (inv_ne_zero hc))) (synthSame_forged _) (PC.forged _) [x, y] [r1, r2] rfl rfl
    (by rw [hashWith_const _ hv (by omega) he (by simp [hw]), inv_mul_cancel_right₀ hc]) _ _ (.inl rfl)

/-- C34 is false, end to end: real proofs of false hash statements are accepted. -/
theorem c34_forgery_end_to_end [DecidableEq G] (hO : env.oracle = env'.oracle) (h0' : ∀ l, env.oracle l ≠ 0) (x y r1 r2 output : F) (h0 : output ≠ 0) (p : PoseidonParams F) (hv : p.Valid) (hw : p.width = 3)
    (he : p.fullRoundsEnd ≠ 0) (hc : colSum p 1 ≠ 0) (g h : G) (hsz : nextPowerOfTwo (permGates 3 p) < 2 ^ 32) (hb : 1 < permGates 3 p ∨ env'.batchInvert [] = .ok ([], 1)) :
    EndToEnd env env' (permGates 3 p) [(x, r1), (y, r2)] (forgePoseidon2 env [x, y] (some [r1, r2]) output p) (verifyPoseidon2 env' output p .inverse g h) :=
  (c34_anything_accepted hO x y r1 r2 output h0 p hv hw he hc g h).endToEnd hO h0' hsz hb

/-- C34 is false: the verifier's constraints do not imply the hash statement.  For every such parameter set there are public outputs (all non-zero ones but the hash of some fixed inputs) for which
soundness fails. -/
theorem c34_unsound (p : PoseidonParams F) (hv : p.Valid) (hw : p.width = 3) (he : p.fullRoundsEnd ≠ 0) (hc : colSum p 1 ≠ 0) (g h : G) (x y output : F) (h0 : output ≠ 0)
    (hne : poseidonHash2 x y p .inverse ≠ .ok output) :
    ¬ SoundForWith 2 [0] [(0 : F) • g + (0 : F) • h] (verifyPoseidon2 env output p .inverse g h) (fun v => poseidonHash2 (v 0) (v 1) p .inverse = .ok output) := by
  intro hs
  obtain ⟨coms, p', s', h1, h2, J, -, -, o⟩ := c34_anything_accepted (env := env) (env' := env) rfl x y 0 0 output h0 p hv hw he hc g h _ _ (Joint.new env env (0 : G) (0 : G) [] 0 0) rfl
  have := (hs coms _ s' h2).2.2.2 _ (J.satisfies rfl).1 (J.satisfies rfl).2.1
  simp only [Prover.assignment, o.values, Verifier.new, Prover.new, List.length_nil, List.nil_append, Nat.zero_add] at this
  refine hne (this ?_)
  intro i z hz
  cases i with
  | zero => simp at hz ⊢; exact hz
  | succ i => simp at hz


/-! ### The honest prover and the value 0 -/

/-- The prover has recorded a constraint that its (settled) wire values violate. -/
def Prover.Bad (q : Prover F G) : Prop := ∃ c ∈ q.constraints, q.StableLC c ∧ c.value q.assignment ≠ 0

theorem Prover.Bad.ext {q q' : Prover F G} (h : q.Bad) (hw : q.WF) (e : q.Ext q') : q'.Bad := by
  obtain ⟨c, h1, h2, h3⟩ := h
  exact ⟨c, e.cons.subset h1, e.stableLC hw h2, by rw [e.valueLC hw h2]; exact h3⟩

/-- Every successful run of `c` from `q` ends in a bad state. -/
def Prover.EndsBad (env : Env F G) (q : Prover F G) {α : Type} (c : Prog1 F α) : Prop := ∀ a q', q.run1 env c = .ok (a, q') → q'.WF ∧ q'.Bad

theorem Prover.EndsBad.bind {q : Prover F G} {α β : Type} {c : Prog1 F α} {f : α → Prog1 F β} {Q : α → Prover F G → Prop} (h : PS env (fun cb p => p.specify cb) q c Q)
    (hf : ∀ a q', Q a q' → q'.EndsBad env (f a)) : q.EndsBad env (c >>= f) := by
  intro b q' hr
  obtain ⟨a, q1, h1, h2⟩ := h
  rw [Prog.bind_eq, Prover.run1, Prover.run_bind, h1] at hr
  exact hf a q1 h2 b q' hr

theorem Prover.EndsBad.left {q : Prover F G} {α β : Type} {c : Prog1 F α} (h : q.EndsBad env c) (f : α → Prog1 F β) : q.EndsBad env (c >>= f) := by
  intro b q' hr
  rw [Prog.bind_eq, Prover.run1, Prover.run_bind] at hr
  cases hc : Prover.run env (fun cb p => p.specify cb) c q with
  | error e => rw [hc] at hr; simp at hr
  | ok r =>
    obtain ⟨a, q1⟩ := r
    rw [hc] at hr
    obtain ⟨hw, hb⟩ := h a q1 hc
    obtain ⟨vs, st⟩ := Prover.run1_steps (c := f a) (p := q1) (p' := q') (a := b) (env := env) hr
    exact ⟨st.ext.wf hw, hb.ext hw st.ext⟩

theorem Prover.EndsBad.con {q : Prover F G} (hq : q.Good) {lc : LC F} {x : F} (h : q.Has lc x) (hx : x ≠ 0) : q.EndsBad env (Prog.con lc) := by
  intro a q' hr
  have e := Prover.ext_constrain q lc
  have : q' = q.constrain lc := by
    simp only [Prover.run1, Prog.con, Prover.run, Except.ok.injEq, Prod.mk.injEq] at hr
    exact hr.2.symm
  subst this
  refine ⟨e.wf hq.wf, lc, by simp [Prover.constrain], e.stableLC hq.wf h.1, ?_⟩
  rw [e.valueLC hq.wf h.1, h.2]
  exact hx

theorem endsBad_synthesizeInverse {q : Prover F G} (hq : q.Good) (hp : q.pending = none) {l : LC F} {x k : F} (hl : q.Has l x) (h0 : x + k = 0) : q.EndsBad env (synthesizeInverse l k : Prog1 F Var) := by
  intro a q' hr
  suffices h : PS env (fun cb p => p.specify cb) q (synthesizeInverse l k : Prog1 F Var) (fun _ p' => p'.WF ∧ p'.Bad) by
    obtain ⟨b, q2, h1, h2⟩ := h
    rw [Prover.run1, h1] at hr
    simp only [Except.ok.injEq, Prod.mk.injEq] at hr
    exact hr.2 ▸ h2
  refine PS.bind (PS.eval hq (hl.add (.ofScalar k))) ?_
  rintro _ q ⟨rfl, rfl⟩
  rw [h0, Option.map_some, inv_zero]
  refine PS.allocPair (f := fun u v => match u with | (varL, _) => match v with | (varR, varO) => _) hq hp 0 0 ?_
  intro i p1 n1 v1 v2 v3
  have key : p1.EndsBad env (isNonzeroGadget (.left i) (.right i) : Prog1 F Unit) := by
    refine Prover.EndsBad.bind (PS.mul n1.good (.ofVar v1) ((Prover.Has.ofVar Prover.Has.one).sub (.ofScalar 1))) ?_
    rintro ⟨_, _, o1⟩ p2 ⟨n2, _, _, w1⟩
    refine Prover.EndsBad.bind (PS.con n2.good ((Prover.Has.ofVar w1).congr (by ring))) fun _ p3 n3 => ?_
    have n23 := n2.trans n3
    refine Prover.EndsBad.bind (PS.mul n3.good (.ofVar (v1.next n1.good n23)) (.cons (v2.next n1.good n23) .nil)) ?_
    rintro ⟨_, _, o2⟩ p4 ⟨n4, _, _, w4⟩
    exact Prover.EndsBad.con n4.good (Prover.Has.varSub w4 (.ofScalar 1)) (by simp)
  have run : PS env (fun cb p => p.specify cb) p1 (isNonzeroGadget (.left i) (.right i) : Prog1 F Unit) (fun _ p' => p'.WF ∧ p'.Bad) := by
    suffices h : PS env (fun cb p => p.specify cb) p1 (isNonzeroGadget (.left i) (.right i) : Prog1 F Unit) (fun _ _ => True) by
      obtain ⟨b, q2, h1, -⟩ := h
      exact ⟨b, q2, h1, key b q2 h1⟩
    refine PS.bind (PS.mul n1.good (.ofVar v1) ((Prover.Has.ofVar Prover.Has.one).sub (.ofScalar 1))) ?_
    rintro ⟨_, _, o1⟩ p2 ⟨n2, _, _, w1⟩
    refine PS.bind (PS.con n2.good ((Prover.Has.ofVar w1).congr (by ring))) fun _ p3 n3 => ?_
    have n23 := n2.trans n3
    refine PS.bind (PS.mul n3.good (.ofVar (v1.next n1.good n23)) (.cons (v2.next n1.good n23) .nil)) ?_
    rintro ⟨_, _, o2⟩ p4 ⟨n4, _, _, w4⟩
    exact ⟨(), _, rfl, trivial⟩
  refine PS.bind run ?_
  rintro ⟨⟩ p5 ⟨hw5, hb5⟩
  refine PS.bind (PS.unwrap _) ?_
  rintro _ p6 ⟨rfl, rfl⟩
  have e := Prover.ext_constrain p6 ((LC.ofVar (.out i)).sub (LC.ofScalar 1) : LC F)
  exact ⟨_, _, rfl, e.wf hw5, hb5.ext hw5 e⟩

theorem endsBad_sboxLayer (keys : List F) : ∀ {ls : List (LC F)} {xs : List F} {off : ℕ} {q : Prover F G}, q.Good → q.pending = none → List.Forall₂ q.Has ls xs →
    (∃ i x k, xs[i]? = some x ∧ keys[off + i]? = some k ∧ x + k = 0) → q.EndsBad env (sboxLayerC (synthesizeInverse : LC F → F → Prog1 F Var) keys ls off)
  | [], _, off, q, hq, hp, hf, ⟨i, x, k, h1, _, _⟩ => by cases hf; simp at h1
  | l :: ls, x :: xs, off, q, hq, hp, hf, ⟨i, y, k, h1, h2, h3⟩ => by
    classical
    rw [List.forall₂_cons] at hf
    intro a q' hr
    cases hk : keys[off]? with
    | none =>
      simp only [sboxLayerC, Prog.index, hk] at hr
      simp [Prover.run1, Prog.bind_eq, Prog.bind, Prover.run, Res.panic, Prog.index, idx, hk, Prog.ofExcept] at hr
    | some k0 =>
      revert a q'
      refine Prover.EndsBad.bind (PS.index hk) ?_
      rintro k1 q1 ⟨e1, e2⟩
      rw [e1, e2]
      by_cases h0 : x + k0 = 0
      · exact (endsBad_synthesizeInverse hq hp hf.1 h0).left _
      · refine Prover.EndsBad.bind (synthOk_inverse _ _ _ _ (x + k0)⁻¹ hq hp hf.1 (by rw [invChecked, if_neg h0])) ?_
        rintro v q1 ⟨n1, _⟩
        refine (endsBad_sboxLayer keys n1.good (by rw [n1.pending, hp]) (Prover.has_all_next hq n1 hf.2) ?_).left _
        cases i with
        | zero =>
          simp only [List.getElem?_cons_zero, Option.some.injEq, Nat.add_zero] at h1 h2
          rw [hk] at h2
          simp only [Option.some.injEq] at h2
          exact absurd (by rw [h1, h2]; exact h3) h0
        | succ i => exact ⟨i, y, k, by simpa using h1, by rw [← h2]; congr 1; omega, h3⟩
  | _ :: _, [], _, _, _, _, hf, _ => by cases hf

/-- C34 fails for completeness too: if in the first full round some S-box sees the value 0 (state element plus round key), then every completed run of the inverse S-box constraints leaves the
honest prover with a recorded constraint that its own wire values violate (so no proof it makes can be the proof of a satisfied statement). -/
theorem c34_zero_unsatisfied (p : PoseidonParams F) (hfb : p.fullRoundsBeginning ≠ 0) (q : Prover F G) (hq : q.Good) (hp : q.pending = none) (input : List (LC F)) (xs : List F)
    (hin : List.Forall₂ q.Has input xs) (i : ℕ) (x k : F) (hx : xs[i]? = some x) (hk : p.roundKeys[i]? = some k) (h0 : x + k = 0) (outs : List (LC F)) (q' : Prover F G)
    (hr : q.run1 env (poseidonPermutationConstraints p .inverse input) = .ok (outs, q')) : ∃ c ∈ q'.constraints, c.value q'.assignment ≠ 0 := by
  suffices h : q.EndsBad env (poseidonPermutationConstraints p .inverse input : Prog1 F _) by
    obtain ⟨-, c, h1, -, h2⟩ := h outs q' hr
    exact ⟨c, h1, h2⟩
  clear hr
  unfold poseidonPermutationConstraints permConstraintsWith
  split
  · intro a q' hr; simp [Prover.run1, Prover.run, Res.panic] at hr
  · obtain ⟨n, hn⟩ := Nat.exists_eq_succ_of_ne_zero hfb
    rw [hn]
    exact ((endsBad_sboxLayer _ hq hp hin ⟨i, x, k, hx, by simpa using hk, h0⟩).left _).left _

/-! ### Half-allocated gates -/

/-- C53 fails for the inverse S-box: with a half-allocated multiplier on entry the verifier panics. -/
theorem inverse_verifier_panics {C : Type} {rnd : Bool} {onSpec : C → Verifier F G → Verifier F G} {s : Verifier F G} {i : ℕ} (hp : s.pending = some i) (l : LC F) (k : F) :
    s.RunPanics env onSpec (synthesizeInverse l k : Prog F C rnd Var) := by
  refine ⟨"called `Option::unwrap()` on a `None` value", ?_⟩
  simp [synthesizeInverse, isNonzeroGadget, Prog.bind_eq, Prog.index, Prog.eval, Prog.mul, Prog.con, Prog.allocSingle, Prog.bind, Verifier.run, Verifier.allocateSingle, Verifier.allocate, hp,
    Prog.ofExcept, Prog.unwrap, Res.panic, Verifier.multiply]

/-- C53 fails for the 2:1, 4:1 and 8:1 hash statements with the inverse S-box: with a half-allocated multiplier on entry the verifier panics, whatever commitments it is given (parameters of the
right width with at least one initial full round). -/
theorem c53_inverse_verifier_panics (p : PoseidonParams F) (hv : p.Valid) (hfb : p.fullRoundsBeginning ≠ 0) (output : F) (g h : G) (coms : List G) (s : Verifier F G) (i : ℕ)
    (hp : s.pending = some i) :
    (p.width = 3 → 2 ≤ coms.length → ∃ w, (verifyPoseidon2 env output p .inverse g h coms s).1 = .error (.panic w)) ∧
    (p.width = 5 → 4 ≤ coms.length → ∃ w, (verifyPoseidon4 env output p .inverse g h coms s).1 = .error (.panic w)) ∧
    (p.width = 9 → 8 ≤ coms.length → ∃ w, (verifyPoseidon8 env output p .inverse g h coms s).1 = .error (.panic w)) := by
  have key : ∀ k call, IsCall k (synthesizeInverse : LC F → F → Prog1 F Var) p output call → p.width = k + 1 → k ≤ coms.length →
      ∃ w, (verifyPreimage env k g h call coms s).1 = .error (.panic w) := by
    intro k call hc hw hl
    obtain ⟨k0, hk0⟩ : ∃ k0, p.roundKeys[0]? = some k0 := by
      refine ⟨_, List.getElem?_eq_getElem ?_⟩
      have := hv.keys
      have h1 : 0 < p.fullRoundsBeginning + p.partialRounds + p.fullRoundsEnd := by omega
      have h2 := Nat.mul_pos h1 (Nat.pos_of_ne_zero hv.pos)
      omega
    have hgad : ∀ (vars : List Var) (z : Var) (s : Verifier F G), s.pending = some i → vars.length = k → s.RunPanics env (fun cb s => s.specify cb) (call vars [z]) := by
      intro vars z s hs hvl
      rw [(hc vars z hvl).1 hw]
      obtain ⟨n, hn⟩ := Nat.exists_eq_succ_of_ne_zero hfb
      unfold preimageGadget hashConstraints permConstraintsWith
      rw [if_neg (by simp [hvl, hw]), hn]
      refine Verifier.RunPanics.bind_left (Verifier.RunPanics.bind_left (Verifier.RunPanics.bind_left (Verifier.RunPanics.bind_left ?_ _) _) _) _
      obtain ⟨w, h⟩ := inverse_verifier_panics (env := env) (onSpec := fun cb s => s.specify cb) hs (LC.ofVar z : LC F) k0 (C := Callback F) (rnd := false)
      refine ⟨w, ?_⟩
      simp only [sboxLayerC, Prog.index, hk0]
      rw [Prog.bind_eq, Verifier.run_bind]
      have : Verifier.run env (fun cb s => s.specify cb) (Prog.index p.roundKeys 0 : Prog1 F F) s = .ok (k0, s) := by
        simp [Prog.index, hk0, Verifier.run]
      simp only [Prog.index, hk0] at this
      rw [this]
      show Verifier.run env _ (Prog.bind _ _) s = _
      rw [Verifier.run_bind, h]
    obtain ⟨w, hw⟩ := hgad ((List.range k).map fun i => Var.committed (s.V.length + i)) (.committed (s.V.length + k)) (((s.commitAll (coms.take k)).2).commitAll [(0 : G)]).2
      (by rw [Verifier.commitAll_eq, Verifier.commitAll_eq]; exact hp) (by simp)
    refine ⟨w, ?_⟩
    unfold verifyPreimage
    show (Drv.bind _ _ s).1 = _
    rw [takeComms_ok.mpr ⟨hl, rfl⟩, allocateStaticsForVerifier_one]
    simp only [Drv.bind, Drv.lift, Bind.bind, Verifier.commits, Verifier.gadget, Verifier.run1]
    have e1 : (s.commitAll (coms.take k)).1 = (List.range k).map fun i => Var.committed (s.V.length + i) := by
      rw [Verifier.commitAll_eq]; simp [Nat.min_eq_left hl]
    have e2 : ((s.commitAll (coms.take k)).2.commitAll [(0 : G)]).1 = [Var.committed (s.V.length + k)] := by
      rw [Verifier.commitAll_eq, Verifier.commitAll_eq]; simp [Nat.min_eq_left hl]
    rw [e1, e2, hw]
  exact ⟨fun hw hl => key 2 _ (isCall2 _ _ _) hw hl, fun hw hl => key 4 _ (isCall4 _ _ _) hw hl, fun hw hl => key 8 _ (isCall8 _ _ _) hw hl⟩

end c34

/-! ## C48 -/

theorem provePreimage_refused (env : Env F G) (k : ℕ) (inputs : List F) (randomness : Option (List F)) (rng : Option (ℕ → F)) (call : List Var → List Var → Prog1 F Unit)
    (h : randomness = none ∧ rng = none ∨ ∃ rands, randomness = some rands ∧ (inputs.length ≠ k ∨ rands.length ≠ k)) : Refused (provePreimage env k inputs randomness rng call) := by
  rcases h with ⟨rfl, rfl⟩ | ⟨rands, rfl, h⟩
  · exact refused_bind refused_check _
  · unfold provePreimage
    rw [checkRandomness_ok (.inl rfl), drv_lift_bind]
    simp only [pickBlindings]
    rw [drv_lift_bind]
    obtain ⟨w, hw⟩ := checkLengths_wrong h
    exact refused_bind (refused_lift hw) _

/-- C48: the Poseidon statements without randomness, or with a wrong number of inputs or blindings. -/
theorem c48_poseidon (env : Env F G) (inputs : List F) (randomness : Option (List F)) (rng : Option (ℕ → F)) (output : F) (p : PoseidonParams F) (sbox : SboxType) :
    (randomness = none ∧ rng = none ∨ (∃ rands, randomness = some rands ∧ (inputs.length ≠ 2 ∨ rands.length ≠ 2)) → Refused (provePoseidon2 env inputs randomness output p sbox rng)) ∧
    (randomness = none ∧ rng = none ∨ (∃ rands, randomness = some rands ∧ (inputs.length ≠ 4 ∨ rands.length ≠ 4)) → Refused (provePoseidon4 env inputs randomness output p sbox rng)) ∧
    (randomness = none ∧ rng = none ∨ (∃ rands, randomness = some rands ∧ (inputs.length ≠ 8 ∨ rands.length ≠ 8)) → Refused (provePoseidon8 env inputs randomness output p sbox rng)) :=
  ⟨provePreimage_refused env 2 inputs randomness rng _, provePreimage_refused env 4 inputs randomness rng _, provePreimage_refused env 8 inputs randomness rng _⟩

/-! ## Examples -/

/-- Small parameters: one full round at the start and at the end, one partial round, width 3. -/
def demoParams : PoseidonParams Fr := ⟨3, 1, 1, 1, [1, 2, 3, 4, 5, 6, 7, 8, 9], [[1, 2, 3], [4, 5, 6], [7, 8, 10]]⟩
theorem demoParams_valid : demoParams.Valid := ⟨rfl, rfl, by simp [demoParams], by simp [demoParams]⟩
/-- The same for width 5. -/
def demoParams5 : PoseidonParams Fr := ⟨5, 1, 1, 0, [1, 2, 3, 4, 5, 6, 7, 8, 9, 10], [[1, 2, 3, 4, 5], [6, 7, 8, 9, 1], [2, 3, 4, 5, 7], [1, 1, 1, 1, 2], [3, 1, 4, 1, 5]]⟩
theorem demoParams5_valid : demoParams5.Valid := ⟨rfl, rfl, by simp [demoParams5], by simp [demoParams5]⟩

example : ∃ output, EndToEnd demoEnv demoEnv (permGates 3 demoParams) [(1, 3), (2, 4)] (provePoseidon2 demoEnv [1, 2] (some [3, 4]) output demoParams .quint none)
    (verifyPoseidon2 demoEnv output demoParams .quint 5 6) := by
  obtain ⟨o, ho⟩ := (c35_defined demoParams demoParams_valid .quint).1 rfl 1 2
  exact ⟨o, c35_end_to_end_2 rfl demoEnv_ne_zero 1 2 o demoParams .quint (by decide) ho 5 6 3 4 _ _ (.inl rfl) (by decide +kernel) (.inl (by decide +kernel))⟩
example : ∃ output, EndToEnd demoEnv demoEnv (permGates 2 demoParams5) [(1, 0), (2, 1), (3, 2), (4, 3)] (provePoseidon4 demoEnv [1, 2, 3, 4] none output demoParams5 .cube (some fun i => (i : Fr)))
    (verifyPoseidon4 demoEnv output demoParams5 .cube 5 6) := by
  obtain ⟨o, ho⟩ := (c35_defined demoParams5 demoParams5_valid .cube).2.1 rfl [1, 2, 3, 4] rfl
  exact ⟨o, c35_end_to_end_4 rfl demoEnv_ne_zero [1, 2, 3, 4] o demoParams5 .cube (by decide) ho 5 6 [0, 1, 2, 3] rfl _ _ (.inr ⟨_, rfl, rfl, by decide +kernel⟩) (by decide +kernel) (.inl (by decide +kernel))⟩
/-- A forged proof that (1, 2) hashes to 42. -/
example : EndToEnd demoEnv demoEnv (permGates 3 demoParams) [(1, 3), (2, 4)] (forgePoseidon2 demoEnv [1, 2] (some [3, 4]) 42 demoParams) (verifyPoseidon2 demoEnv 42 demoParams .inverse 5 6) :=
  c34_forgery_end_to_end rfl demoEnv_ne_zero 1 2 3 4 42 (by decide +kernel) demoParams demoParams_valid rfl (by simp [demoParams]) (by decide +kernel) 5 6 (by decide +kernel) (.inl (by decide +kernel))
/-- The honest inverse statement, where no S-box sees 0. -/
example : ∃ output, hashWith invChecked demoParams [0, 1, 2] = .ok output := by
  have : (hashWith invChecked demoParams [0, 1, 2]).isOk = true := by decide +kernel
  cases h : hashWith invChecked demoParams [0, 1, 2] with
  | error e => rw [h] at this; cases this
  | ok o => exact ⟨o, rfl⟩


/-- A concrete public output for which soundness fails. -/
example : ¬ SoundForWith 2 [0] [(0 : Fr) • (5 : Fr) + (0 : Fr) • (6 : Fr)] (verifyPoseidon2 demoEnv 42 demoParams .inverse 5 6) (fun v => poseidonHash2 (v 0) (v 1) demoParams .inverse = .ok 42) :=
  c34_unsound demoParams demoParams_valid rfl (by simp [demoParams]) (by decide +kernel) 5 6 1 2 42 (by decide +kernel) (by
    intro h
    have : ((poseidonHash2 (1 : Fr) 2 demoParams .inverse).toOption = some 42) := by rw [h]; rfl
    revert this
    decide +kernel)
theorem demo_good : (Prover.new (3 : Fr) (4 : Fr) [] 0 : Prover Fr Fr).Good := (Joint.new demoEnv demoEnv (3 : Fr) (4 : Fr) [] 0 0).good
/-- The hypotheses of `c33_complete` are met by a fresh prover with constant inputs. -/
example : ∃ ys outs q', (Prover.new (3 : Fr) (4 : Fr) [] 0 : Prover Fr Fr).run1 demoEnv (poseidonPermutationConstraints demoParams .quint [LC.ofScalar 7, LC.ofScalar 8, LC.ofScalar 9]) = .ok (outs, q') ∧
    poseidonPermutation demoParams .quint [7, 8, 9] = .ok ys ∧ outs.map (LC.value q'.assignment) = ys := by
  obtain ⟨ys, hy⟩ := c33_defined demoParams demoParams_valid .quint [7, 8, 9] rfl
  obtain ⟨outs, q', h1, -, h2, -⟩ := c33_complete demoEnv demoParams .quint (by decide) _ demo_good [LC.ofScalar 7, LC.ofScalar 8, LC.ofScalar 9] [7, 8, 9] ys
    (.cons (.ofScalar _) (.cons (.ofScalar _) (.cons (.ofScalar _) .nil))) hy
  exact ⟨ys, outs, q', h1, hy, h2⟩
/-- Some input of the first round is 0: state element -2 at the position with key 2. -/
example (outs : List (LC Fr)) (q' : Prover Fr Fr)
    (hr : (Prover.new (3 : Fr) (4 : Fr) [] 0 : Prover Fr Fr).run1 demoEnv (poseidonPermutationConstraints demoParams .inverse [LC.ofScalar 7, LC.ofScalar (-2), LC.ofScalar 9]) = .ok (outs, q')) :
    ∃ c ∈ q'.constraints, c.value q'.assignment ≠ 0 :=
  c34_zero_unsatisfied demoParams (by simp [demoParams]) _ demo_good rfl _ [7, -2, 9] (.cons (.ofScalar _) (.cons (.ofScalar _) (.cons (.ofScalar _) .nil))) 1 (-2) 2 rfl rfl (by ring) outs q' hr
example : ∃ w, (verifyPoseidon2 demoEnv 42 demoParams .inverse 5 6 [1, 2] ((Verifier.new (F := Fr) (G := Fr) [] 0).allocate none).2).1 = .error (.panic w) :=
  (c53_inverse_verifier_panics demoParams demoParams_valid (by simp [demoParams]) 42 5 6 [1, 2] _ 0 rfl).1 rfl (by simp)

end Bp
