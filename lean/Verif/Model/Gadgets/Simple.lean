import Verif.Model.Gadgets.Basic

/-! # Gadgets and their entry points: bound_check.rs, non_zero.rs, set_membership.rs, set_membership_alt.rs, set_non_membership.rs,
hamming_distance.rs, mimc.rs

The coins: `randomness` and `rng` are the arguments of the Rust functions, `sys` is the sequence returned by `FieldElement::random()`
during the call. -/

namespace Bp
variable {F G : Type} [Field F] [AddCommGroup G] [SMul F G]
variable {C : Type} {rnd : Bool}

/-- Rust's `u64` subtraction: panics on underflow in debug builds, wraps in release builds.  src/r1cs/gadgets/bound_check.rs:31 (`max - min`) and the differences of the prover, :52-53. -/
def subU64 (debug : Bool) (a b : ℕ) : Res ℕ :=
  if b ≤ a then .ok (a - b) else if debug then Res.panic "attempt to subtract with overflow" else .ok (a + 2 ^ 64 - b)

/-- Lift into gadget code.  For src/r1cs/gadgets/bound_check.rs:31. -/
def Prog.ofRes {α : Type} : Res α → Prog F C rnd α
  | .ok a => .ret a
  | .error (.err e) => .err e
  | .error (.panic w) => .panic w

/-! ## Bound check -/

/-- `bound_check_gadget`, bound_check.rs:12-37. -/
def boundCheckGadget [IntRep F] (debug : Bool) (v a b : Alloc F) (max min n : ℕ) : Prog F C rnd Unit := do
  Prog.con ((LC.varSub v.var (LC.ofScalar (min : F))).sub (LC.ofVar a.var))
  Prog.con (((LC.ofScalar (max : F)).sub (LC.ofVar v.var)).sub (LC.ofVar b.var))
  let d ← Prog.ofRes (subU64 debug max min)
  constrainLcWithScalar (LC.varAdd a.var (LC.ofVar b.var)) (d : F)
  positiveNoGadget a n
  positiveNoGadget b n

/-- `prove_bounded_num`, bound_check.rs:39-86. -/
def proveBoundedNum [IntRep F] (env : Env F G) (debug : Bool) (val : ℕ) (randomness : Option F) (lower upper n : ℕ) (rng : Option (ℕ → F)) (sys : ℕ → F) :
    Drv (Prover F G) (List G) := do
  Drv.lift (checkRandomness randomness rng)
  let a ← Drv.lift (subU64 debug val lower)
  let b ← Drv.lift (subU64 debug upper val)
  let bl ← Drv.lift (pickBlinding randomness rng)
  let cs ← Prover.commits [((val : F), bl), ((a : F), sys 0), ((b : F), sys 1)]
  match cs with
  | [(cv, vv), (ca, va), (cb, vb)] => do
    Prover.gadget env (boundCheckGadget debug ⟨vv, some (val : F)⟩ ⟨va, some (a : F)⟩ ⟨vb, some (b : F)⟩ upper lower n)
    return [cv, ca, cb]
  | _ => Drv.lift (Res.panic "unreachable")

/-- `verify_bounded_num`, bound_check.rs:88-124. -/
def verifyBoundedNum [IntRep F] (env : Env F G) (debug : Bool) (lower upper n : ℕ) (commitments : List G) : Drv (Verifier F G) Unit := do
  let cs ← Drv.lift (takeComms commitments 3)
  let vars ← Verifier.commits cs
  match vars with
  | [vv, va, vb] => Verifier.gadget env (boundCheckGadget debug ⟨vv, none⟩ ⟨va, none⟩ ⟨vb, none⟩ upper lower n)
  | _ => Drv.lift (Res.panic "unreachable")

/-! ## Non-zero -/

/-- `prove_non_zero_val`, non_zero.rs:11-42. -/
def proveNonZeroVal (env : Env F G) (value : F) (randomness : Option F) (rng : Option (ℕ → F)) (sys : ℕ → F) : Drv (Prover F G) (List G) := do
  Drv.lift (checkRandomness randomness rng)
  let bl ← Drv.lift (pickBlinding randomness rng)
  let cs ← Prover.commits [(value, bl), (value⁻¹, sys 0)]
  match cs with
  | [(cv, vv), (ci, vi)] => do
    Prover.gadget env (isNonzeroGadget vv vi)
    return [cv, ci]
  | _ => Drv.lift (Res.panic "unreachable")

/-- `verify_non_zero_val`, non_zero.rs:44-63. -/
def verifyNonZeroVal (env : Env F G) (commitments : List G) : Drv (Verifier F G) Unit := do
  let cs ← Drv.lift (takeComms commitments 2)
  let vars ← Verifier.commits cs
  match vars with
  | [vv, vi] => Verifier.gadget env (isNonzeroGadget vv vi)
  | _ => Drv.lift (Res.panic "unreachable")

/-! ## Set membership -/

/-- Body of the loop of `set_membership_gadget`, set_membership.rs:25-31; the loop state is `product`. -/
def setMembershipBody (v : Alloc F) (diffVars : List (Alloc F)) (set : List F) (i : ℕ) (product : LC F) : Prog F C rnd (LC F) := do
  let d ← Prog.index diffVars i
  let x ← Prog.index set i
  constrainLcWithScalar (LC.varAdd d.var (LC.ofVar v.var)) x
  let (_, _, o) ← Prog.mul product (LC.ofVar d.var)
  return LC.ofVar o

/-- `set_membership_gadget`, set_membership.rs:15-37. -/
def setMembershipGadget (v : Alloc F) (diffVars : List (Alloc F)) (set : List F) : Prog F C rnd Unit := do
  let product ← Prog.forN set.length (LC.ofVar .one) (setMembershipBody v diffVars set)
  Prog.con product

/-- `prove_set_membership`, set_membership.rs:39-79. -/
def proveSetMembership (env : Env F G) (value : F) (randomness : Option F) (set : List F) (rng : Option (ℕ → F)) (sys : ℕ → F) :
    Drv (Prover F G) (List G) := do
  Drv.lift (checkRandomness randomness rng)
  let bl ← Drv.lift (pickBlinding randomness rng)
  let diffs := set.map fun x => x - value
  let cs ← Prover.commits ((value, bl) :: diffs.zip ((List.range set.length).map sys))
  match cs with
  | (cv, vv) :: ds => do
    Prover.gadget env (setMembershipGadget ⟨vv, some value⟩ (List.zipWith (fun d x => ⟨d.2, some x⟩) ds diffs) set)
    return cv :: ds.map Prod.fst
  | _ => Drv.lift (Res.panic "unreachable")

/-- `verify_set_membership`, set_membership.rs:81-107. -/
def verifySetMembership (env : Env F G) (set : List F) (commitments : List G) : Drv (Verifier F G) Unit := do
  let cs ← Drv.lift (takeComms commitments (set.length + 1))
  let vars ← Verifier.commits cs
  match vars with
  | vv :: ds => Verifier.gadget env (setMembershipGadget ⟨vv, none⟩ (ds.map fun d => ⟨d, none⟩) set)
  | _ => Drv.lift (Res.panic "unreachable")

/-! ## Set non-membership -/

/-- Body of the loop of `set_non_membership_gadget`, set_non_membership.rs:25-30. -/
def setNonMembershipBody (v : Alloc F) (diffVars diffInvVars : List (Alloc F)) (set : List F) (i : ℕ) (_ : Unit) : Prog F C rnd Unit := do
  let d ← Prog.index diffVars i
  let x ← Prog.index set i
  constrainLcWithScalar (LC.varAdd d.var (LC.ofVar v.var)) x
  let di ← Prog.index diffInvVars i
  isNonzeroGadget d.var di.var

/-- `set_non_membership_gadget`, set_non_membership.rs:16-33. -/
def setNonMembershipGadget (v : Alloc F) (diffVars diffInvVars : List (Alloc F)) (set : List F) : Prog F C rnd Unit :=
  Prog.forN set.length () (setNonMembershipBody v diffVars diffInvVars set)

/-- Entries of even index.  The differences, src/r1cs/gadgets/set_non_membership.rs:61-83, 105-119. -/
def evens {α : Type} : List α → List α
  | x :: _ :: xs => x :: evens xs
  | [x] => [x]
  | [] => []
/-- Entries of odd index.  The inverses, src/r1cs/gadgets/set_non_membership.rs:61-83, 105-119. -/
def odds {α : Type} : List α → List α
  | _ :: y :: xs => y :: odds xs
  | _ => []

/-- The (difference, blinding), (inverse, blinding) pairs committed in turn, set_non_membership.rs:60-83. -/
def nonMembershipWitness (value : F) (set : List F) (sys : ℕ → F) : List (F × F) :=
  (List.range set.length).flatMap fun i => [(set.getD i 0 - value, sys (2 * i)), ((set.getD i 0 - value)⁻¹, sys (2 * i + 1))]

/-- `prove_set_non_membership`, set_non_membership.rs:35-88. -/
def proveSetNonMembership (env : Env F G) (value : F) (randomness : Option F) (set : List F) (rng : Option (ℕ → F)) (sys : ℕ → F) :
    Drv (Prover F G) (List G) := do
  Drv.lift (checkRandomness randomness rng)
  let bl ← Drv.lift (pickBlinding randomness rng)
  let w := nonMembershipWitness value set sys
  let cs ← Prover.commits ((value, bl) :: w)
  match cs with
  | (cv, vv) :: ds => do
    let allocs : List (Alloc F) := List.zipWith (fun d x => ⟨d.2, some x.1⟩) ds w
    Prover.gadget env (setNonMembershipGadget ⟨vv, some value⟩ (evens allocs) (odds allocs) set)
    return cv :: ds.map Prod.fst
  | _ => Drv.lift (Res.panic "unreachable")

/-- `verify_set_non_membership`, set_non_membership.rs:89-126. -/
def verifySetNonMembership (env : Env F G) (set : List F) (commitments : List G) : Drv (Verifier F G) Unit := do
  let cs ← Drv.lift (takeComms commitments (2 * set.length + 1))
  let vars ← Verifier.commits cs
  match vars with
  | vv :: ds =>
    let allocs : List (Alloc F) := ds.map fun d => ⟨d, none⟩
    Verifier.gadget env (setNonMembershipGadget ⟨vv, none⟩ (evens allocs) (odds allocs) set)
  | _ => Drv.lift (Res.panic "unreachable")

/-! ## Set membership with a bitmap -/

/-- Body of the loop of `vector_product_gadget`, set_membership_alt.rs:64-79; the loop state is `constraints`. -/
def vectorProductBody (items : List ℕ) (vector : List (Alloc F)) (value : Alloc F) (i : ℕ) (cons : List (Var × F)) : Prog F C rnd (List (Var × F)) := do
  let x ← Prog.index vector i
  let item ← Prog.index items i
  let (bitVar, itemVar, o1) ← Prog.allocMul (x.assignment.map fun bit => (bit, (item : F)))
  constrainLcWithScalar (LC.ofVar itemVar) (item : F)
  let (_, _, o2) ← Prog.mul (LC.ofVar bitVar) (LC.ofVar value.var)
  Prog.con (LC.varSub o1 (LC.ofVar o2))
  return cons ++ [(o1, 1)]

/-- `vector_product_gadget`, set_membership_alt.rs:56-85. -/
def vectorProductGadget (items : List ℕ) (vector : List (Alloc F)) (value : Alloc F) : Prog F C rnd Unit := do
  let cons ← Prog.forN items.length [(value.var, (-1 : F))] (vectorProductBody items vector value)
  Prog.con (LC.ofTerms cons)

/-- The loop of `prove_set_membership_alt` over the bitmap, set_membership_alt.rs:110-122: commit to the bit, then `bit_gadget`. -/
def proveBits (env : Env F G) : List (F × F) → Drv (Prover F G) (List (G × Var))
  | [] => pure []
  | (b, r) :: bs => do
    let cs ← Prover.commits [(b, r)]
    match cs with
    | [(com, var)] => do
      Prover.gadget env (bitGadget ⟨var, some b⟩)
      let rest ← proveBits env bs
      return (com, var) :: rest
    | _ => Drv.lift (Res.panic "unreachable")

/-- The loop of `verify_set_membership_alt`, set_membership_alt.rs:153-162. -/
def verifyBits (env : Env F G) : List G → Drv (Verifier F G) (List Var)
  | [] => pure []
  | V :: Vs => do
    let vars ← Verifier.commits [V]
    match vars with
    | [var] => do
      Verifier.gadget env (bitGadget ⟨var, none⟩)
      let rest ← verifyBits env Vs
      return var :: rest
    | _ => Drv.lift (Res.panic "unreachable")

/-- `prove_set_membership_alt`, set_membership_alt.rs:91-141. -/
def proveSetMembershipAlt (env : Env F G) (value : ℕ) (randomness : Option F) (set : List ℕ) (rng : Option (ℕ → F)) (sys : ℕ → F) :
    Drv (Prover F G) (List G) := do
  Drv.lift (checkRandomness randomness rng)
  let bitMap : List F := set.map fun elem => if elem = value then 1 else 0
  let bits ← proveBits env (bitMap.zip ((List.range set.length).map sys))
  Prover.gadget env (vectorSumConstraints (bits.map Prod.snd) 1)
  let bl ← Drv.lift (pickBlinding randomness rng)
  let cs ← Prover.commits [((value : F), bl)]
  match cs with
  | [(cv, vv)] => do
    Prover.gadget env (vectorProductGadget set (List.zipWith (fun d x => ⟨d.2, some x⟩) bits bitMap) ⟨vv, some (value : F)⟩)
    return bits.map Prod.fst ++ [cv]
  | _ => Drv.lift (Res.panic "unreachable")

/-- `verify_set_membership_alt`, set_membership_alt.rs:143-175.  (All `commitments.remove(0)` are done up front: a missing one panics.) -/
def verifySetMembershipAlt (env : Env F G) (set : List ℕ) (commitments : List G) : Drv (Verifier F G) Unit := do
  let cs ← Drv.lift (takeComms commitments (set.length + 1))
  let vars ← verifyBits env (cs.take set.length)
  Verifier.gadget env (vectorSumConstraints vars 1)
  let vv ← Verifier.commits (cs.drop set.length)
  match vv with
  | [vv] => Verifier.gadget env (vectorProductGadget set (vars.map fun d => ⟨d, none⟩) ⟨vv, none⟩)
  | _ => Drv.lift (Res.panic "unreachable")

/-! ## Hamming distance -/

/-- Body of the loop of `hamming_distance_gadget`, hamming_distance.rs:30-52; the loop state is `result`. -/
def hammingBody (original : List (Alloc F)) (new : List F) (i : ℕ) (result : List Var) : Prog F C rnd (List Var) := do
  let o ← Prog.index original i
  let x ← Prog.index new i
  let diff := LC.varSub o.var (LC.ofScalar x)
  let valDiff ← Prog.eval diff
  let valDiffInv := valDiff.map fun l => l⁻¹
  let (varDiff, _) ← Prog.allocSingle valDiff
  let (_, varO) ← Prog.allocSingle valDiffInv
  let var1or0 ← Prog.unwrap varO
  let oneMinus := LC.varSub .one (LC.ofVar var1or0)
  let (_, _, o) ← Prog.mul (LC.ofVar varDiff) oneMinus
  Prog.con (LC.ofVar o)
  return result ++ [var1or0]

/-- `hamming_distance_gadget`, hamming_distance.rs:17-57. -/
def hammingDistanceGadget (original : List (Alloc F)) (new : List F) (count : ℕ) : Prog F C rnd Unit :=
  if original.length ≠ new.length then .err (.gadgetError "Original and new are of different lengths") else do
  let result ← Prog.forN new.length [] (hammingBody original new)
  vectorSumConstraints result count

/-- `prove_hamming_distance`, hamming_distance.rs:58-85. -/
def proveHammingDistance (env : Env F G) (original new : List F) (count : ℕ) (sys : ℕ → F) : Drv (Prover F G) (List G) :=
  if original.length ≠ new.length then Drv.lift (Res.err (.gadgetError "Original and new are of different lengths")) else do
  let cs ← Prover.commits (original.zip ((List.range original.length).map sys))
  Prover.gadget env (hammingDistanceGadget (List.zipWith (fun d x => ⟨d.2, some x⟩) cs original) new count)
  return cs.map Prod.fst

/-- `verify_hamming_distance`, hamming_distance.rs:86-107. -/
def verifyHammingDistance (env : Env F G) (new : List F) (count : ℕ) (commitments : List G) : Drv (Verifier F G) Unit := do
  let vars ← Verifier.commits commitments
  Verifier.gadget env (hammingDistanceGadget (vars.map fun d => ⟨d, none⟩) new count)

/-! ## MiMC -/

/-- `mimc`, helper_constraints/mimc.rs:10-29, the loop. -/
def mimcLoop : F → F → List F → F
  | xl, _, [] => xl
  | xl, xr, c :: cs => mimcLoop ((xl + c) ^ 2 * (xl + c) + xr) xl cs

/-- `mimc`, helper_constraints/mimc.rs:10-29. -/
def mimc (xl xr : F) (constants : List F) (rounds : ℕ) : Res F :=
  if constants.length ≠ rounds then Res.panic "assert_eq: constants.len(), mimc_rounds" else .ok (mimcLoop xl xr constants)

/-- Body of the loop of `enforce_mimc_2_inputs`, helper_constraints/mimc.rs:60-76; the loop state is (left_v, right_v). -/
def mimcBody (constants : List F) (j : ℕ) (st : LC F × LC F) : Prog F C rnd (LC F × LC F) := do
  let c ← Prog.index constants j
  let lpc := st.1.add (LC.ofTerms [(.one, c)])
  let (l, _, lSqr) ← Prog.mul lpc lpc
  let (_, _, lCube) ← Prog.mul (LC.ofVar lSqr) (LC.ofVar l)
  return (LC.varAdd lCube st.2, st.1)

/-- `enforce_mimc_2_inputs`, helper_constraints/mimc.rs:50-77. -/
def enforceMimc2Inputs (left right : LC F) (rounds : ℕ) (constants : List F) : Prog F C rnd (LC F) := do
  let st ← Prog.forN rounds (left, right) (mimcBody constants)
  return st.1

/-- `mimc_gadget`, helper_constraints/mimc.rs:31-48. -/
def mimcGadget (left right : Alloc F) (rounds : ℕ) (constants : List F) (image : F) : Prog F C rnd Unit := do
  let res ← enforceMimc2Inputs (LC.ofVar left.var) (LC.ofVar right.var) rounds constants
  constrainLcWithScalar res image

/-- `prove_mimc_preimage`, mimc.rs:12-56. -/
def proveMimcPreimage (env : Env F G) (inputs : List F) (randomness : Option (List F)) (expected : F) (constants : List F) (rounds : ℕ)
    (rng : Option (ℕ → F)) : Drv (Prover F G) (List G) := do
  Drv.lift (checkRandomness randomness rng)
  let rands ← Drv.lift (pickBlindings randomness rng 2)
  Drv.lift (checkLengths inputs rands 2)
  let cs ← Prover.commits (inputs.zip rands)
  match cs, inputs with
  | [(cl, vl), (cr, vr)], [l, r] => do
    Prover.gadget env (mimcGadget ⟨vl, some l⟩ ⟨vr, some r⟩ rounds constants expected)
    return [cl, cr]
  | _, _ => Drv.lift (Res.panic "unreachable")

/-- `verify_mimc_preimage`, mimc.rs:58-87. -/
def verifyMimcPreimage (env : Env F G) (expected : F) (constants : List F) (rounds : ℕ) (commitments : List G) : Drv (Verifier F G) Unit := do
  let cs ← Drv.lift (takeComms commitments 2)
  let vars ← Verifier.commits cs
  match vars with
  | [vl, vr] => Verifier.gadget env (mimcGadget ⟨vl, none⟩ ⟨vr, none⟩ rounds constants expected)
  | _ => Drv.lift (Res.panic "unreachable")

end Bp
