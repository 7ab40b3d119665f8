import Verif.Model.Gadgets.Tree

/-! # Merkle inclusion gadgets: helper_constraints/sparse_merkle_tree_{4,8}_ary.rs (`vanilla_merkle_merkle_tree_{4,8}_verif_gadget`) and the entry points in
src/r1cs/gadgets/sparse_merkle_tree_{4,8}_ary.rs -/

namespace Bp
variable {F G : Type} [Field F] [AddCommGroup G] [SMul F G]
variable {C : Type} {rnd : Bool}

/-- The mutable variables of the loops: `proof_nodes` (popped from the end), `prev_hash`, `constraint_leaf_index` and `exp_4` / `exp_8`.  src/r1cs/gadgets/helper_constraints/sparse_merkle_tree_4_ary.rs:254-381, sparse_merkle_tree_8_ary.rs:278-486. -/
structure MerkleState (F : Type) where
  nodes : List Var
  prev : LC F
  terms : List (Var × F)
  exp : F

/-- `n` times `proof_nodes.pop().unwrap()`, 4_ary.rs:308-310, 8_ary.rs:348-354: the rest and the popped nodes `[N1, .., Nn]`. -/
def popNodes (n : ℕ) (nodes : List Var) : Prog F C rnd (List Var × List Var) :=
  if nodes.length < n then Prog.panic "called `Option::unwrap()` on a `None` value" else pure (nodes.take (nodes.length - n), nodes.drop (nodes.length - n))

/-- `allocate_multiplier` of a bit and its complement with the two constraints after it, 4_ary.rs:288-293, 295-300, 8_ary.rs:329-339. -/
def allocBit (bit : Option ℕ) : Prog F C rnd (Var × Var) := do
  let (b, b1, o) ← Prog.allocMul (bit.map fun b => ((Nat.cast b : F), (Nat.cast (1 - b) : F)))
  Prog.con (LC.ofVar o)
  Prog.con (LC.varAdd b (LC.varSub b1 (LC.ofScalar 1)))
  return (b, b1)

/-- `Variable::One() - v`.  sparse_merkle_tree_4_ary.rs:329, sparse_merkle_tree_8_ary.rs:371, 377, 382, 403, 431. -/
def oneMinus (v : Var) : LC F := LC.varSub .one (LC.ofVar v)

/-! ## 4-ary -/

/-- The two bits at position `j` of byte `i` of the little-endian encoding, 4_ary.rs:288-298 and `allocated_leaf_index_to_bytes`, helper_constraints/mod.rs:43-51.
`l[i]` panics for `i ≥ MODBYTES`; the verifier has no assignment and does not evaluate it. -/
def indexBits4 [ByteRep F] (x : Option F) (i j : ℕ) : Prog F C rnd (Option (ℕ × ℕ)) :=
  match x with
  | none => pure none
  | some x => if i < ByteRep.modBytes F then pure (some ((IntRep.rep x / 256 ^ i % 256) >>> (2 * j) % 2, (IntRep.rep x / 256 ^ i % 256) >>> (2 * j + 1) % 2))
      else Prog.panic "index out of bounds"

/-- The four children, 4_ary.rs:316-361 (`N` is `prev_hash`). -/
def select4 (b0 b0_1 b1 b1_1 : Var) (N N1 N2 N3 : LC F) : Prog F C rnd (List (LC F)) := do
  let (_, _, b0_1_b1_1) ← Prog.mul (LC.ofVar b0_1) (LC.ofVar b1_1)
  let (_, _, b0_1_b1) ← Prog.mul (LC.ofVar b0_1) (LC.ofVar b1)
  let (_, _, b0_b1_1) ← Prog.mul (LC.ofVar b0) (LC.ofVar b1_1)
  let (_, _, b0_b1) ← Prog.mul (LC.ofVar b0) (LC.ofVar b1)
  let (_, _, c0_1) ← Prog.mul (LC.ofVar b0_1_b1_1) N
  let (_, _, c0_2) ← Prog.mul (oneMinus b0_1_b1_1) N1
  let c0 := LC.varAdd c0_1 (LC.ofVar c0_2)
  let c1_1 := N1.sub (LC.ofVar c0_2)
  let (_, _, c1_2) ← Prog.mul (LC.ofVar b0_b1_1) N
  let (_, _, c1_3) ← Prog.mul (LC.ofVar b1) N2
  let c1 := (c1_1.add (LC.ofVar c1_2)).add (LC.ofVar c1_3)
  let c2_1 := N2.sub (LC.ofVar c1_3)
  let (_, _, c2_2) ← Prog.mul (LC.ofVar b0_1_b1) N
  let (_, _, c2_3) ← Prog.mul (LC.ofVar b0_b1) N3
  let c2 := (c2_1.add (LC.ofVar c2_2)).add (LC.ofVar c2_3)
  let (_, _, c3_1) ← Prog.mul (LC.ofVar b0_b1) N
  let c3_2 := N3.sub (LC.ofVar c2_3)
  let c3 := LC.varAdd c3_1 c3_2
  return [c0, c1, c2, c3]

/-- One level, 4_ary.rs:287-372. -/
def merkleLevel4 (bits : Option (ℕ × ℕ)) (statics : List (LC F)) (p : PoseidonParams F) (synth : LC F → F → Prog F C rnd Var) (st : MerkleState F) : Prog F C rnd (MerkleState F) := do
  let (b0, b0_1) ← allocBit (bits.map Prod.fst)
  let (b1, b1_1) ← allocBit (bits.map Prod.snd)
  let terms := st.terms ++ [(b1, 2 * st.exp)] ++ [(b0, st.exp)]
  let (nodes, popped) ← popNodes 3 st.nodes
  match popped with
  | [N1, N2, N3] => do
    let input ← select4 b0 b0_1 b1 b1_1 st.prev (LC.ofVar N1) (LC.ofVar N2) (LC.ofVar N3)
    let h ← poseidonHash4Constraints input statics p synth
    let h ← Prog.simp h
    return ⟨nodes, h, terms, st.exp * 4⟩
  | _ => Prog.panic "unreachable"

/-- `vanilla_merkle_merkle_tree_4_verif_gadget`, 4_ary.rs:254-381.  `if proof_nodes.is_empty() { break; }` leaves the inner loop; as the vector stays empty, all later iterations
of both loops do nothing. -/
def merkleGadget4 [ByteRep F] (depth : ℕ) (expectedRoot : F) (leafVal : Var) (leafIndex : Alloc F) (proofNodes statics : List Var) (p : PoseidonParams F)
    (synth : LC F → F → Prog F C rnd Var) : Prog F C rnd Unit := do
  let st ← Prog.forN (getByteSize depth 4) ⟨proofNodes, LC.ofVar leafVal, [(leafIndex.var, (-1 : F))], (1 : F)⟩ fun i st =>
    Prog.forN 4 st fun j st =>
      if st.nodes.isEmpty then pure st else do
      let bits ← indexBits4 leafIndex.assignment i j
      merkleLevel4 bits (statics.map LC.ofVar) p synth st
  Prog.con (LC.ofTerms st.terms)
  constrainLcWithScalar st.prev expectedRoot

/-! ## 8-ary -/

/-- `leaf_index_octets`: base-8 digits, least significant first, 8_ary.rs:298-302. -/
def indexOctets [ByteRep F] (x : Option F) (depth : ℕ) : Prog F C rnd (Option (List ℕ)) :=
  match x with
  | none => pure none
  | some x =>
    match getBase8Repr x depth with
    | .ok ds => pure (some ds.reverse)
    | .error (.panic w) => Prog.panic w
    | .error (.err e) => Prog.err e

/-- The three bits of octet number `k = i / 3`, 8_ary.rs:311-327. -/
def octetBits (octets : Option (List ℕ)) (k : ℕ) : Prog F C rnd (Option (ℕ × ℕ × ℕ)) :=
  match octets with
  | none => pure none
  | some l => do
    let octet ← Prog.index l k
    return some (octet >>> 0 % 2, octet >>> 1 % 2, octet >>> 2 % 2)

/-- The eight children, 8_ary.rs:359-472. -/
def select8 (b0 b0_1 b1 b1_1 b2 b2_1 : Var) (N N1 N2 N3 N4 N5 N6 N7 : LC F) : Prog F C rnd (List (LC F)) := do
  let (_, _, b0_1_b1_1) ← Prog.mul (LC.ofVar b0_1) (LC.ofVar b1_1)
  let (_, _, b1_1_b2_1) ← Prog.mul (LC.ofVar b1_1) (LC.ofVar b2_1)
  let (_, _, b0_b1) ← Prog.mul (LC.ofVar b0) (LC.ofVar b1)
  let (_, _, b1_b2) ← Prog.mul (LC.ofVar b1) (LC.ofVar b2)
  let (_, _, b0_b1_b2) ← Prog.mul (LC.ofVar b0_b1) (LC.ofVar b2)
  let (_, _, b0_1_b1_1_b2_1) ← Prog.mul (LC.ofVar b0_1_b1_1) (LC.ofVar b2_1)
  let (_, _, b01_1_b2_1) ← Prog.mul (oneMinus b0_b1) (LC.ofVar b2_1)
  let (_, _, c0_1) ← Prog.mul (LC.ofVar b0_1_b1_1_b2_1) N
  let (_, _, c0_2) ← Prog.mul (oneMinus b0_1_b1_1_b2_1) N1
  let c0 := LC.varAdd c0_1 (LC.ofVar c0_2)
  let (_, _, c1_1) ← Prog.mul (oneMinus b1_1_b2_1) N2
  let (_, _, c1_2) ← Prog.mul (LC.ofVar b1_1_b2_1) (LC.ofVar b0)
  let (_, _, c1_3) ← Prog.mul (LC.ofVar c1_2) N
  let c1_4 := N1.sub (LC.ofVar c0_2)
  let c1 := (LC.varAdd c1_1 (LC.ofVar c1_3)).add c1_4
  let c2_1 := N2.sub (LC.ofVar c1_1)
  let (_, _, c2_2) ← Prog.mul (LC.ofVar b0_1) (LC.ofVar b2_1)
  let (_, _, c2_3) ← Prog.mul (LC.ofVar c2_2) (LC.ofVar b1)
  let (_, _, c2_4) ← Prog.mul (LC.ofVar c2_3) N
  let (_, _, c2_5) ← Prog.mul (oneMinus b01_1_b2_1) N3
  let c2 := (c2_1.add (LC.ofVar c2_4)).add (LC.ofVar c2_5)
  let c3_1 := N3.sub (LC.ofVar c2_5)
  let (_, _, c3_2) ← Prog.mul (LC.ofVar b2_1) (LC.ofVar b0_b1)
  let (_, _, c3_3) ← Prog.mul (LC.ofVar c3_2) N
  let (_, _, c3_4) ← Prog.mul (LC.ofVar b2) N4
  let c3 := (c3_1.add (LC.ofVar c3_3)).add (LC.ofVar c3_4)
  let c4_1 := N4.sub (LC.ofVar c3_4)
  let (_, _, c4_2) ← Prog.mul (LC.ofVar b2) (LC.ofVar b0_1_b1_1)
  let (_, _, c4_3) ← Prog.mul (LC.ofVar c4_2) N
  let (_, _, c4_4) ← Prog.mul (LC.ofVar b2) (oneMinus b0_1_b1_1)
  let (_, _, c4_5) ← Prog.mul (LC.ofVar c4_4) N5
  let c4 := (c4_1.add (LC.ofVar c4_3)).add (LC.ofVar c4_5)
  let c5_1 := N5.sub (LC.ofVar c4_5)
  let (_, _, c5_2) ← Prog.mul (LC.ofVar b1_b2) N6
  let (_, _, c5_3) ← Prog.mul (LC.ofVar b2) (LC.ofVar b1_1)
  let (_, _, c5_4) ← Prog.mul (LC.ofVar c5_3) (LC.ofVar b0)
  let (_, _, c5_5) ← Prog.mul (LC.ofVar c5_4) N
  let c5 := (c5_1.add (LC.ofVar c5_2)).add (LC.ofVar c5_5)
  let (_, _, c6_1) ← Prog.mul (LC.ofVar b0_b1_b2) N7
  let (_, _, c6_2) ← Prog.mul (LC.ofVar b1_b2) (LC.ofVar b0_1)
  let (_, _, c6_3) ← Prog.mul (LC.ofVar c6_2) N
  let c6_4 := N6.sub (LC.ofVar c5_2)
  let c6 := (LC.varAdd c6_1 (LC.ofVar c6_3)).add c6_4
  let (_, _, c7_1) ← Prog.mul (LC.ofVar b0_b1_b2) N
  let c7_2 := N7.sub (LC.ofVar c6_1)
  let c7 := LC.varAdd c7_1 c7_2
  return [c0, c1, c2, c3, c4, c5, c6, c7]

/-- One level, 8_ary.rs:329-478. -/
def merkleLevel8 (bits : Option (ℕ × ℕ × ℕ)) (zero : LC F) (p : PoseidonParams F) (synth : LC F → F → Prog F C rnd Var) (st : MerkleState F) : Prog F C rnd (MerkleState F) := do
  let (b0, b0_1) ← allocBit (bits.map fun b => b.1)
  let (b1, b1_1) ← allocBit (bits.map fun b => b.2.1)
  let (b2, b2_1) ← allocBit (bits.map fun b => b.2.2)
  let terms := st.terms ++ [(b0, st.exp)] ++ [(b1, 2 * st.exp)] ++ [(b2, 4 * st.exp)]
  let (nodes, popped) ← popNodes 7 st.nodes
  match popped with
  | [N1, N2, N3, N4, N5, N6, N7] => do
    let input ← select8 b0 b0_1 b1 b1_1 b2 b2_1 st.prev (LC.ofVar N1) (LC.ofVar N2) (LC.ofVar N3) (LC.ofVar N4) (LC.ofVar N5) (LC.ofVar N6) (LC.ofVar N7)
    let h ← poseidonHash8Constraints input zero p synth
    let h ← Prog.simp h
    return ⟨nodes, h, terms, st.exp * 8⟩
  | _ => Prog.panic "unreachable"

/-- `vanilla_merkle_merkle_tree_8_verif_gadget`, 8_ary.rs:278-486.  `(0..get_bit_count(depth, 8)).step_by(3)` has `depth` elements. -/
def merkleGadget8 [ByteRep F] (depth : ℕ) (expectedRoot : F) (leafVal : Var) (leafIndex : Alloc F) (proofNodes : List Var) (zero : Var) (p : PoseidonParams F)
    (synth : LC F → F → Prog F C rnd Var) : Prog F C rnd Unit := do
  let octets ← indexOctets leafIndex.assignment depth
  let st ← Prog.forN depth ⟨proofNodes, LC.ofVar leafVal, [(leafIndex.var, (-1 : F))], (1 : F)⟩ fun k st =>
    if st.nodes.isEmpty then pure st else do
    let bits ← octetBits octets k
    merkleLevel8 bits (LC.ofVar zero) p synth st
  Prog.con (LC.ofTerms st.terms)
  constrainLcWithScalar st.prev expectedRoot

/-! ## Entry points -/

/-- The gadget call of the 4-ary entry points: leaf, index, nodes and statics.  src/r1cs/gadgets/sparse_merkle_tree_4_ary.rs:72-84, 114-127. -/
def merkleCall4 [ByteRep F] (root : F) (depth : ℕ) (p : PoseidonParams F) (synth : LC F → F → Prog F C rnd Var) (leaf : Var) (index : Alloc F) (nodes statics : List Var) : Prog F C rnd Unit :=
  merkleGadget4 depth root leaf index nodes statics p synth

/-- The gadget call of the 8-ary entry points (`statics.remove(0)`).  src/r1cs/gadgets/sparse_merkle_tree_8_ary.rs:72-84, 113-125. -/
def merkleCall8 [ByteRep F] (root : F) (depth : ℕ) (p : PoseidonParams F) (synth : LC F → F → Prog F C rnd Var) (leaf : Var) (index : Alloc F) (nodes statics : List Var) : Prog F C rnd Unit :=
  match statics with
  | zero :: _ => merkleGadget8 depth root leaf index nodes zero p synth
  | [] => Prog.panic "removal index (is 0) should be < len (is 0)"

/-- The common shape of `prove_leaf_inclusion_{4,8}_ary_merkle_tree`, sparse_merkle_tree_4_ary.rs:22-87, sparse_merkle_tree_8_ary.rs:22-86: leaf and index are committed with the caller's
(or the generator's) blindings, the proof nodes with blindings from the thread's generator (`coins`). -/
def proveInclusion (env : Env F G) (leaf leafIndex : F) (randomness : Option (List F)) (merkleProof : List (List F)) (rng : Option (ℕ → F)) (coins : ℕ → F)
    (call : Var → Alloc F → List Var → List Var → Prog1 F Unit) : Drv (Prover F G) (List G) := do
  Drv.lift (checkRandomness randomness rng)
  let rands ← Drv.lift (pickBlindings randomness rng 2)
  match rands with
  | [r0, r1] => do
    let cs ← Prover.commits [(leaf, r0), (leafIndex, r1)]
    let ns ← Prover.commits (merkleProof.flatten.mapIdx fun i x => (x, coins i))
    let statics ← allocateStaticsForProver 1
    match cs.map Prod.snd with
    | [varLeaf, varIdx] => do
      Prover.gadget env (call varLeaf ⟨varIdx, some leafIndex⟩ (ns.map Prod.snd) statics)
      return (cs ++ ns).map Prod.fst
    | _ => Drv.lift (Res.panic "unreachable")
  | _ => Drv.lift (Res.err (.gadgetError "Provided randomness should have size 2"))

/-- The common shape of `verify_leaf_inclusion_{4,8}_ary_merkle_tree`, sparse_merkle_tree_4_ary.rs:89-131, sparse_merkle_tree_8_ary.rs:88-129: `commitments.remove(0)` twice, then all the others
are proof nodes. -/
def verifyInclusion (env : Env F G) (g h : G) (call : Var → Alloc F → List Var → List Var → Prog1 F Unit) (commitments : List G) : Drv (Verifier F G) Unit :=
  match commitments with
  | cLeaf :: cIdx :: nodes => do
    let vars ← Verifier.commits [cLeaf, cIdx]
    let ns ← Verifier.commits nodes
    let statics ← allocateStaticsForVerifier 1 g h
    match vars with
    | [varLeaf, varIdx] => Verifier.gadget env (call varLeaf ⟨varIdx, none⟩ ns statics)
    | _ => Drv.lift (Res.panic "unreachable")
  | _ => Drv.lift (Res.panic "removal index (is 0) should be < len (is 0)")

/-- `prove_leaf_inclusion_4_ary_merkle_tree`, sparse_merkle_tree_4_ary.rs:22-87. -/
def proveInclusion4 [ByteRep F] (env : Env F G) (leaf leafIndex : F) (randomness : Option (List F)) (merkleProof : List (List F)) (root : F) (depth : ℕ) (p : PoseidonParams F) (sbox : SboxType)
    (rng : Option (ℕ → F)) (coins : ℕ → F) : Drv (Prover F G) (List G) :=
  proveInclusion env leaf leafIndex randomness merkleProof rng coins (merkleCall4 root depth p sbox.synthesize)
/-- `verify_leaf_inclusion_4_ary_merkle_tree`, sparse_merkle_tree_4_ary.rs:89-131. -/
def verifyInclusion4 [ByteRep F] (env : Env F G) (root : F) (depth : ℕ) (p : PoseidonParams F) (sbox : SboxType) (g h : G) (commitments : List G) : Drv (Verifier F G) Unit :=
  verifyInclusion env g h (merkleCall4 root depth p sbox.synthesize) commitments
/-- `prove_leaf_inclusion_8_ary_merkle_tree`, sparse_merkle_tree_8_ary.rs:22-86. -/
def proveInclusion8 [ByteRep F] (env : Env F G) (leaf leafIndex : F) (randomness : Option (List F)) (merkleProof : List (List F)) (root : F) (depth : ℕ) (p : PoseidonParams F) (sbox : SboxType)
    (rng : Option (ℕ → F)) (coins : ℕ → F) : Drv (Prover F G) (List G) :=
  proveInclusion env leaf leafIndex randomness merkleProof rng coins (merkleCall8 root depth p sbox.synthesize)
/-- `verify_leaf_inclusion_8_ary_merkle_tree`, sparse_merkle_tree_8_ary.rs:88-129. -/
def verifyInclusion8 [ByteRep F] (env : Env F G) (root : F) (depth : ℕ) (p : PoseidonParams F) (sbox : SboxType) (g h : G) (commitments : List G) : Drv (Verifier F G) Unit :=
  verifyInclusion env g h (merkleCall8 root depth p sbox.synthesize) commitments

end Bp
