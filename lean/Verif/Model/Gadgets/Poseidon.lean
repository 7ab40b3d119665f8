import Verif.Model.Gadgets.Simple

/-! # Poseidon: src/r1cs/gadgets/helper_constraints/poseidon.rs and src/r1cs/gadgets/poseidon_hash.rs

The permutation and its constraints are written once for an arbitrary S-box (`f` on values, `synth` on linear combinations) and then instantiated
with the three S-boxes of the crate.  The state is a list; Rust's `for i in 0..width` over a vector of length `width` becomes a
recursion over the list, with `off` the running `round_keys_offset`. -/

namespace Bp
variable {F G : Type} [Field F] [AddCommGroup G] [SMul F G]
variable {C : Type} {rnd : Bool}

/-- `PoseidonParams`, poseidon.rs:12-22 (all fields are public). -/
structure PoseidonParams (F : Type) where
  width : ℕ
  fullRoundsBeginning : ℕ
  fullRoundsEnd : ℕ
  partialRounds : ℕ
  roundKeys : List F
  mds : List (List F)

/-- The checks of `PoseidonParams::gen_MDS_matrix`, poseidon.rs:74-112: `width` rows of `width` entries. -/
def genMds (width : ℕ) (entries : List (List F)) : Res (List (List F)) :=
  if entries.length ≠ width ∨ ¬ (∀ row ∈ entries, row.length = width) then Res.panic "Incorrect width" else .ok entries

/-- `PoseidonParams::gen_round_keys`, poseidon.rs:47-71. -/
def genRoundKeys (width totalRounds : ℕ) (consts : List F) : Res (List F) :=
  if consts.length < totalRounds * width then Res.panic "Not enough round constants" else .ok (consts.take (totalRounds * width))

/-- `PoseidonParams::new`, poseidon.rs:25-45; `consts` and `entries` are the tables of poseidon_constants.rs for each width. -/
def PoseidonParams.new (consts : ℕ → List F) (entries : ℕ → List (List F)) (width fullB fullE partialR : ℕ) : Res (PoseidonParams F) :=
  if width ≠ 3 ∧ width ≠ 5 ∧ width ≠ 9 then Res.panic "Only width of 3, 5 or 9 are supported" else do
  let keys ← genRoundKeys width (fullB + partialR + fullE) (consts width)
  let m ← genMds width (entries width)
  return ⟨width, fullB, fullE, partialR, keys, m⟩

/-- `SboxType`, poseidon.rs:115-120. -/
inductive SboxType where
  | cube
  | inverse
  | quint
deriving DecidableEq, Repr

/-- `SboxType::apply_sbox`, poseidon.rs:123-138.  (`inverse` of zero is taken to be zero.) -/
def SboxType.apply : SboxType → F → F
  | .cube, x => x ^ 2 * x
  | .inverse, x => x⁻¹
  | .quint, x => (x ^ 2) ^ 2 * x

/-! ## The permutation on values -/

/-- S-box layer of a full round: `current_state[i] += round_keys[offset]; current_state[i] = sbox(current_state[i])`, poseidon.rs:222-226, 272-276. -/
def sboxLayer (f : F → Res F) (keys : List F) : List F → ℕ → Res (List F)
  | [], _ => .ok []
  | x :: xs, off => do
    let k ← idx keys off
    let y ← f (x + k)
    let ys ← sboxLayer f keys xs (off + 1)
    return y :: ys

/-- S-box layer of a partial round: keys are added everywhere, the S-box is applied to the last element only, poseidon.rs:244-251.  On an empty state
`width - 1` underflows. -/
def partialLayer (f : F → Res F) (keys : List F) : List F → ℕ → Res (List F)
  | [], _ => Res.panic "attempt to subtract with overflow"
  | [x], off => do
    let k ← idx keys off
    let y ← f (x + k)
    return [y]
  | x :: x' :: xs, off => do
    let k ← idx keys off
    let ys ← partialLayer f keys (x' :: xs) (off + 1)
    return (x + k) :: ys

/-- `current_state_temp[i] += current_state[j] * MDS_matrix[j][i]` for `j` from `j` on, poseidon.rs:230-232. -/
def mdsColumn (mds : List (List F)) (i : ℕ) : ℕ → List F → F → Res F
  | _, [], acc => .ok acc
  | j, x :: xs, acc => do
    let row ← idx mds j
    let m ← idx row i
    mdsColumn mds i (j + 1) xs (acc + x * m)

/-- The linear layer for columns `i .. i+n-1`, poseidon.rs:229-239. -/
def linearColumns (mds : List (List F)) (st : List F) : ℕ → ℕ → Res (List F)
  | _, 0 => .ok []
  | i, n + 1 => do
    let y ← mdsColumn mds i 0 st 0
    let ys ← linearColumns mds st (i + 1) n
    return y :: ys

/-- The linear layer, poseidon.rs:229-239 (same code at 254-264 and 279-289). -/
def linearLayer (mds : List (List F)) (st : List F) : Res (List F) := linearColumns mds st 0 st.length

/-- `n` rounds, each an S-box layer followed by the linear layer; returns the new key offset too.  poseidon.rs:220-288. -/
def permRounds (layer : List F → ℕ → Res (List F)) (mds : List (List F)) (width : ℕ) : ℕ → List F → ℕ → Res (List F × ℕ)
  | 0, st, off => .ok (st, off)
  | n + 1, st, off => do
    let a ← layer st off
    let b ← linearLayer mds a
    permRounds layer mds width n b (off + width)

/-- `Poseidon_permutation` for an S-box `f`, poseidon.rs:202-293. -/
def permWith (f : F → Res F) (p : PoseidonParams F) (input : List F) : Res (List F) :=
  if input.length ≠ p.width then Res.panic "assert_eq: input.len(), width" else do
  let (st, off) ← permRounds (sboxLayer f p.roundKeys) p.mds p.width p.fullRoundsBeginning input 0
  let (st, off) ← permRounds (partialLayer f p.roundKeys) p.mds p.width p.partialRounds st off
  let (st, _) ← permRounds (sboxLayer f p.roundKeys) p.mds p.width p.fullRoundsEnd st off
  return st

/-- `Poseidon_permutation`, poseidon.rs:202-293. -/
def poseidonPermutation (p : PoseidonParams F) (sbox : SboxType) (input : List F) : Res (List F) := permWith (fun x => .ok (sbox.apply x)) p input

/-! ## The constraints -/

/-- `synthesize_cube_sbox`, poseidon.rs:154-163. -/
def synthesizeCube (input : LC F) (key : F) : Prog F C rnd Var := do
  let ipc := input.add (LC.ofScalar key)
  let (i, _, sqr) ← Prog.mul ipc ipc
  let (_, _, cube) ← Prog.mul (LC.ofVar sqr) (LC.ofVar i)
  return cube

/-- `synthesize_quint_sbox`, poseidon.rs:166-176. -/
def synthesizeQuint (input : LC F) (key : F) : Prog F C rnd Var := do
  let ipc := input.add (LC.ofScalar key)
  let (i, _, sqr) ← Prog.mul ipc ipc
  let (_, _, qr) ← Prog.mul (LC.ofVar sqr) (LC.ofVar sqr)
  let (_, _, qi) ← Prog.mul (LC.ofVar qr) (LC.ofVar i)
  return qi

/-- `synthesize_inverse_sbox`, poseidon.rs:179-199. -/
def synthesizeInverse (input : LC F) (key : F) : Prog F C rnd Var := do
  let ipc := input.add (LC.ofScalar key)
  let valL ← Prog.eval ipc
  let (varL, _) ← Prog.allocSingle valL
  let (varR, varO) ← Prog.allocSingle (valL.map fun l => l⁻¹)
  isNonzeroGadget varL varR
  let o ← Prog.unwrap varO
  constrainLcWithScalar (LC.ofVar o) 1
  return varR

/-- `SboxType::synthesize_sbox`, poseidon.rs:140-151. -/
def SboxType.synthesize : SboxType → LC F → F → Prog F C rnd Var
  | .cube => synthesizeCube
  | .inverse => synthesizeInverse
  | .quint => synthesizeQuint

/-- S-box layer of a full round, poseidon.rs:331-338, 398-405. -/
def sboxLayerC (synth : LC F → F → Prog F C rnd Var) (keys : List F) : List (LC F) → ℕ → Prog F C rnd (List (LC F))
  | [], _ => pure []
  | x :: xs, off => do
    let k ← Prog.index keys off
    let y ← synth x k
    let ys ← sboxLayerC synth keys xs (off + 1)
    return LC.ofVar y :: ys

/-- S-box layer of a partial round, poseidon.rs:358-372. -/
def partialLayerC (synth : LC F → F → Prog F C rnd Var) (keys : List F) : List (LC F) → ℕ → Prog F C rnd (List (LC F))
  | [], _ => pure []
  | [x], off => do
    let k ← Prog.index keys off
    let y ← synth x k
    return [LC.ofVar y]
  | x :: x' :: xs, off => do
    let k ← Prog.index keys off
    let ys ← partialLayerC synth keys (x' :: xs) (off + 1)
    return x.add (LC.ofScalar k) :: ys

/-- One output of `apply_linear_layer`, poseidon.rs:304-315. -/
def mdsColumnC (mds : List (List F)) (i : ℕ) : ℕ → List (LC F) → LC F → Prog F C rnd (LC F)
  | _, [], acc => pure acc
  | j, x :: xs, acc => do
    let row ← Prog.index mds j
    let m ← Prog.index row i
    mdsColumnC mds i (j + 1) xs (acc.add (LC.smul m x))

/-- `apply_linear_layer` for columns `i .. i+n-1`.  poseidon.rs:304-315. -/
def linearColumnsC (mds : List (List F)) (st : List (LC F)) : ℕ → ℕ → Prog F C rnd (List (LC F))
  | _, 0 => pure []
  | i, n + 1 => do
    let y ← mdsColumnC mds i 0 st LC.empty
    let ys ← linearColumnsC mds st (i + 1) n
    return y :: ys

/-- `apply_linear_layer`, poseidon.rs:304-315. -/
def linearLayerC (mds : List (List F)) (st : List (LC F)) : Prog F C rnd (List (LC F)) := linearColumnsC mds st 0 st.length

/-- `input_vars[i] = next_input_vars.remove(0).simplify()`, poseidon.rs:380-384. -/
def simplifyAll : List (LC F) → Prog F C rnd (List (LC F))
  | [] => pure []
  | x :: xs => do
    let y ← Prog.simp x
    let ys ← simplifyAll xs
    return y :: ys

/-- `n` rounds, poseidon.rs:327-348, 354-385, 392-417; `post` is the simplification done after a partial round. -/
def permRoundsC (layer : List (LC F) → ℕ → Prog F C rnd (List (LC F))) (post : List (LC F) → Prog F C rnd (List (LC F))) (mds : List (List F)) (width : ℕ) :
    ℕ → List (LC F) → ℕ → Prog F C rnd (List (LC F) × ℕ)
  | 0, st, off => pure (st, off)
  | n + 1, st, off => do
    let a ← layer st off
    let b ← linearLayerC mds a
    let c ← post b
    permRoundsC layer post mds width n c (off + width)

/-- `Poseidon_permutation_constraints` for an S-box, poseidon.rs:295-422. -/
def permConstraintsWith (synth : LC F → F → Prog F C rnd Var) (p : PoseidonParams F) (input : List (LC F)) : Prog F C rnd (List (LC F)) :=
  if input.length ≠ p.width then Prog.panic "assert_eq: input.len(), width" else do
  let (st, off) ← permRoundsC (sboxLayerC synth p.roundKeys) pure p.mds p.width p.fullRoundsBeginning input 0
  let (st, off) ← permRoundsC (partialLayerC synth p.roundKeys) simplifyAll p.mds p.width p.partialRounds st off
  let (st, _) ← permRoundsC (sboxLayerC synth p.roundKeys) pure p.mds p.width p.fullRoundsEnd st off
  return st

/-- `Poseidon_permutation_constraints`, poseidon.rs:295-422. -/
def poseidonPermutationConstraints (p : PoseidonParams F) (sbox : SboxType) (input : List (LC F)) : Prog F C rnd (List (LC F)) :=
  permConstraintsWith sbox.synthesize p input

/-- The loop of `Poseidon_permutation_gadget`, poseidon.rs:438-440, from index `i` on. -/
def constrainOutputs (outs : List (LC F)) : ℕ → List F → Prog F C rnd Unit
  | _, [] => pure ()
  | i, o :: os => do
    let l ← Prog.index outs i
    constrainLcWithScalar l o
    constrainOutputs outs (i + 1) os

/-- `Poseidon_permutation_gadget`, poseidon.rs:424-443. -/
def poseidonPermutationGadget (input : List (Alloc F)) (p : PoseidonParams F) (sbox : SboxType) (output : List F) : Prog F C rnd Unit :=
  if output.length ≠ p.width then Prog.panic "assert_eq: output.len(), width" else do
  let outs ← poseidonPermutationConstraints p sbox (input.map fun a => LC.ofVar a.var)
  constrainOutputs outs 0 output

/-! ## Hashes -/

/-- `PADDING_CONST`, poseidon.rs:448. -/
def paddingConst : ℕ := 101
/-- `ZERO_CONST`, poseidon.rs:449. -/
def zeroConst : ℕ := 0

/-- `Poseidon_permutation(..).remove(1)` for an S-box `f`, poseidon.rs:463, 530, 597. -/
def hashWith (f : F → Res F) (p : PoseidonParams F) (input : List F) : Res F := do
  let out ← permWith f p input
  idx out 1

/-- `Poseidon_permutation(..).remove(1)`, poseidon.rs:463, 530, 597. -/
def hashOf (p : PoseidonParams F) (sbox : SboxType) (input : List F) : Res F := hashWith (fun x => .ok (sbox.apply x)) p input

/-- `Poseidon_hash_2`, poseidon.rs:451-465. -/
def poseidonHash2 (xl xr : F) (p : PoseidonParams F) (sbox : SboxType) : Res F := hashOf p sbox [(zeroConst : F), xl, xr]

/-- `Poseidon_hash_4`, poseidon.rs:518-532. -/
def poseidonHash4 (inputs : List F) (p : PoseidonParams F) (sbox : SboxType) : Res F :=
  if inputs.length ≠ 4 then Res.panic "assert_eq: inputs.len(), 4" else hashOf p sbox ((zeroConst : F) :: inputs)

/-- `Poseidon_hash_8`, poseidon.rs:587-599. -/
def poseidonHash8 (inputs : List F) (p : PoseidonParams F) (sbox : SboxType) : Res F :=
  if inputs.length ≠ 8 then Res.panic "assert_eq: inputs.len(), 8" else hashOf p sbox ((zeroConst : F) :: inputs)

/-- `permutation_output[1].to_owned()`, poseidon.rs:488-489, 552-553, 616-617. -/
def hashConstraints (synth : LC F → F → Prog F C rnd Var) (p : PoseidonParams F) (input : List (LC F)) : Prog F C rnd (LC F) := do
  let out ← permConstraintsWith synth p input
  Prog.index out 1

/-- `Poseidon_hash_2_constraints`, poseidon.rs:467-490; `synth` is `sbox_type.synthesize_sbox`. -/
def poseidonHash2Constraints (xl xr : LC F) (statics : List (LC F)) (p : PoseidonParams F) (synth : LC F → F → Prog F C rnd Var) : Prog F C rnd (LC F) :=
  if p.width < 2 ∨ statics.length ≠ p.width - 2 then Prog.panic "assert_eq: statics.len(), width - 2" else
  match statics with
  | [] => Prog.panic "index out of bounds"
  | s :: rest => hashConstraints synth p ([s, xl, xr] ++ rest)

/-- `Poseidon_hash_2_gadget`, poseidon.rs:492-516. -/
def poseidonHash2Gadget (xl xr : Var) (statics : List Var) (p : PoseidonParams F) (synth : LC F → F → Prog F C rnd Var) (output : F) : Prog F C rnd Unit := do
  let hash ← poseidonHash2Constraints (LC.ofVar xl) (LC.ofVar xr) (statics.map LC.ofVar) p synth
  constrainLcWithScalar hash output

/-- `Poseidon_hash_4_constraints`, poseidon.rs:534-554. -/
def poseidonHash4Constraints (inputs statics : List (LC F)) (p : PoseidonParams F) (synth : LC F → F → Prog F C rnd Var) : Prog F C rnd (LC F) :=
  if inputs.length ≠ 4 then Prog.panic "assert_eq: inputs.len(), 4" else
  if p.width < 4 ∨ statics.length ≠ p.width - 4 then Prog.panic "assert_eq: statics.len(), width - 4" else
  match statics with
  | [] => Prog.panic "removal index (is 0) should be < len (is 0)"
  | s :: rest => hashConstraints synth p (s :: inputs ++ rest)

/-- `Poseidon_hash_4_gadget`, poseidon.rs:556-583. -/
def poseidonHash4Gadget (input statics : List Var) (p : PoseidonParams F) (synth : LC F → F → Prog F C rnd Var) (output : F) : Prog F C rnd Unit :=
  if input.length ≠ 4 then Prog.panic "assert_eq: input.len(), 4" else do
  let hash ← poseidonHash4Constraints (input.map LC.ofVar) (statics.map LC.ofVar) p synth
  constrainLcWithScalar hash output

/-- `Poseidon_hash_8_constraints`, poseidon.rs:601-618. -/
def poseidonHash8Constraints (inputs : List (LC F)) (zero : LC F) (p : PoseidonParams F) (synth : LC F → F → Prog F C rnd Var) : Prog F C rnd (LC F) :=
  if inputs.length ≠ 8 then Prog.panic "assert_eq: input.len(), 8" else hashConstraints synth p (zero :: inputs)

/-- `Poseidon_hash_8_gadget`, poseidon.rs:620-643. -/
def poseidonHash8Gadget (input : List Var) (zero : Var) (p : PoseidonParams F) (synth : LC F → F → Prog F C rnd Var) (output : F) : Prog F C rnd Unit :=
  if input.length ≠ 8 then Prog.panic "assert_eq: input.len(), 8" else do
  let hash ← poseidonHash8Constraints (input.map LC.ofVar) (LC.ofVar zero) p synth
  constrainLcWithScalar hash output

/-! ## Entry points: poseidon_hash.rs -/

/-- What `allocate_statics_for_prover` commits, poseidon_hash.rs:20-37: zero, then the padding constant, then zeros, all with blinding 0. -/
def staticValues (n : ℕ) : List F :=
  [(zeroConst : F)] ++ (if 1 < n then [(paddingConst : F)] else []) ++ List.replicate (n - 2) (zeroConst : F)

/-- `allocate_statics_for_prover`, poseidon_hash.rs:20-37. -/
def allocateStaticsForProver (n : ℕ) : Drv (Prover F G) (List Var) := do
  let cs ← Prover.commits ((staticValues n).map fun x => (x, (0 : F)))
  return cs.map Prod.snd

/-- `allocate_statics_for_verifier`, poseidon_hash.rs:40-72. -/
def allocateStaticsForVerifier (n : ℕ) (g h : G) : Drv (Verifier F G) (List Var) :=
  Verifier.commits ((staticValues n : List F).map fun x => commitScalar g h x (0 : F))

/-- The common shape of `prove_knowledge_of_preimage_of_Poseidon_2/4/8`, poseidon_hash.rs:74-118, 217-262, 365-405: randomness, `k` commitments, one static,
then the gadget on the variables. -/
def provePreimage (env : Env F G) (k : ℕ) (inputs : List F) (randomness : Option (List F)) (rng : Option (ℕ → F)) (gadget : List Var → List Var → Prog1 F Unit) :
    Drv (Prover F G) (List G) := do
  Drv.lift (checkRandomness randomness rng)
  let rands ← Drv.lift (pickBlindings randomness rng k)
  Drv.lift (checkLengths inputs rands k)
  let cs ← Prover.commits (inputs.zip rands)
  let statics ← allocateStaticsForProver 1
  Prover.gadget env (gadget (cs.map Prod.snd) statics)
  return cs.map Prod.fst

/-- The common shape of `verify_knowledge_of_preimage_of_Poseidon_2/4/8`, poseidon_hash.rs:120-146, 264-293, 407-429. -/
def verifyPreimage (env : Env F G) (k : ℕ) (g h : G) (gadget : List Var → List Var → Prog1 F Unit) (commitments : List G) : Drv (Verifier F G) Unit := do
  let cs ← Drv.lift (takeComms commitments k)
  let vars ← Verifier.commits cs
  let statics ← allocateStaticsForVerifier 1 g h
  Verifier.gadget env (gadget vars statics)

/-- The gadget call of the 2:1 entry points (variables in order of commitment).  poseidon_hash.rs:96-115, 129-143. -/
def hash2Call (p : PoseidonParams F) (synth : LC F → F → Prog F C rnd Var) (output : F) (vars statics : List Var) : Prog F C rnd Unit :=
  match vars with
  | [xl, xr] => poseidonHash2Gadget xl xr statics p synth output
  | _ => Prog.panic "unreachable"

/-- The gadget call of the 4:1 entry points.  poseidon_hash.rs:243-259, 275-290. -/
def hash4Call (p : PoseidonParams F) (synth : LC F → F → Prog F C rnd Var) (output : F) (vars statics : List Var) : Prog F C rnd Unit :=
  poseidonHash4Gadget vars statics p synth output

/-- The gadget call of the 8:1 entry points.  poseidon_hash.rs:395-402, 418-426. -/
def hash8Call (p : PoseidonParams F) (synth : LC F → F → Prog F C rnd Var) (output : F) (vars statics : List Var) : Prog F C rnd Unit :=
  match statics with
  | [zero] => poseidonHash8Gadget vars zero p synth output
  | _ => Prog.panic "unreachable"

/-- `prove_knowledge_of_preimage_of_Poseidon_2`, poseidon_hash.rs:74-118. -/
def provePoseidon2 (env : Env F G) (inputs : List F) (randomness : Option (List F)) (output : F) (p : PoseidonParams F) (sbox : SboxType) (rng : Option (ℕ → F)) :
    Drv (Prover F G) (List G) := provePreimage env 2 inputs randomness rng (hash2Call p sbox.synthesize output)
/-- `verify_knowledge_of_preimage_of_Poseidon_2`, poseidon_hash.rs:120-146. -/
def verifyPoseidon2 (env : Env F G) (output : F) (p : PoseidonParams F) (sbox : SboxType) (g h : G) (commitments : List G) : Drv (Verifier F G) Unit :=
  verifyPreimage env 2 g h (hash2Call p sbox.synthesize output) commitments
/-- `prove_knowledge_of_preimage_of_Poseidon_4`, poseidon_hash.rs:217-262. -/
def provePoseidon4 (env : Env F G) (inputs : List F) (randomness : Option (List F)) (output : F) (p : PoseidonParams F) (sbox : SboxType) (rng : Option (ℕ → F)) :
    Drv (Prover F G) (List G) := provePreimage env 4 inputs randomness rng (hash4Call p sbox.synthesize output)
/-- `verify_knowledge_of_preimage_of_Poseidon_4`, poseidon_hash.rs:264-293. -/
def verifyPoseidon4 (env : Env F G) (output : F) (p : PoseidonParams F) (sbox : SboxType) (g h : G) (commitments : List G) : Drv (Verifier F G) Unit :=
  verifyPreimage env 4 g h (hash4Call p sbox.synthesize output) commitments
/-- `prove_knowledge_of_preimage_of_Poseidon_8`, poseidon_hash.rs:365-405. -/
def provePoseidon8 (env : Env F G) (inputs : List F) (randomness : Option (List F)) (output : F) (p : PoseidonParams F) (sbox : SboxType) (rng : Option (ℕ → F)) :
    Drv (Prover F G) (List G) := provePreimage env 8 inputs randomness rng (hash8Call p sbox.synthesize output)
/-- `verify_knowledge_of_preimage_of_Poseidon_8`, poseidon_hash.rs:407-429. -/
def verifyPoseidon8 (env : Env F G) (output : F) (p : PoseidonParams F) (sbox : SboxType) (g h : G) (commitments : List G) : Drv (Verifier F G) Unit :=
  verifyPreimage env 8 g h (hash8Call p sbox.synthesize output) commitments

end Bp
