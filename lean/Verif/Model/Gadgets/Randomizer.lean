import Verif.Model.Gadgets.Merkle

/-! # Randomizer: src/r1cs/gadgets/randomizer.rs

Two 4-ary trees differ only at listed leaves.  `std::collections::HashMap` and `HashSet` are modelled as association lists with distinct keys and as lists without
duplicates; the iteration order of a `HashSet` is the order of the list, so statements for all duplicate-free lists cover all iteration orders. -/

namespace Bp
variable {F G : Type} [Field F] [AddCommGroup G] [SMul F G]
variable {C : Type} {rnd : Bool}

/-! ## Choice of the indices and the new data -/

/-- The loop of `get_indices_to_modify`, randomizer.rs:56-63, over the chunks of `MODBYTES` bytes drained from the front of the SHAKE output (`fromBytes` is
`FieldElement::from_bytes(..).unwrap()`, which succeeds on chunks of this length); `m` is `data_size` as a big number.  Reducing modulo 0 with `rmod` of amcl does
not terminate, which is modelled as a fault. -/
def indicesLoop [IntRep F] [DecidableEq F] (fromBytes : List UInt8 → F) (m count : ℕ) : List (List UInt8) → List F → Res (List F)
  | [], indices => .ok indices
  | b :: target, indices =>
    if indices.length < count then
      if m = 0 then Res.panic "rmod by zero does not terminate" else
      indicesLoop fromBytes m count target (let n : F := ((IntRep.rep (fromBytes b) % m : ℕ) : F); if n ∈ indices then indices else indices ++ [n])
    else .ok indices

/-- `get_indices_to_modify`, randomizer.rs:40-65.  `shake bytes i` is byte `i` of the SHAKE256 output on `bytes`. -/
def getIndicesToModify [ByteRep F] [DecidableEq F] (shake : List UInt8 → ℕ → UInt8) (fromBytes : List UInt8 → F) (nonce : F) (dataSize countModified : ℕ) : Res (List F) :=
  indicesLoop fromBytes (IntRep.rep (dataSize : F)) countModified
    ((List.range (2 * countModified)).map fun k => (List.range (ByteRep.modBytes F)).map fun j => shake (toBytes nonce) (k * ByteRep.modBytes F + j)) []

/-- `randomize`, randomizer.rs:35-37; `hashMsg` is `FieldElement::from_msg_hash`. -/
def randomize [ByteRep F] (hashMsg : List UInt8 → F) (x : F) : F := hashMsg (toBytes x)

/-- The loop of `get_randomized_data`, randomizer.rs:74-81; `w[0]` is the low limb of `limbBits` bits (58 for the curves with 64-bit limbs). -/
def randomizedLoop [ByteRep F] (hashMsg : List UInt8 → F) (limbBits : ℕ) : List F → List (F × F) → List F → Res (List (F × F) × List F)
  | [], modified, newData => .ok (modified, newData)
  | i :: indices, modified, newData => do
    let old ← idx newData (IntRep.rep i % 2 ^ limbBits)
    randomizedLoop hashMsg limbBits indices (modified ++ [(i, old)]) (newData.set (IntRep.rep i % 2 ^ limbBits) (randomize hashMsg old))

/-- `get_randomized_data`, randomizer.rs:67-84. -/
def getRandomizedData [ByteRep F] (hashMsg : List UInt8 → F) (limbBits : ℕ) (originalData indices : List F) : Res (List (F × F) × List F) :=
  randomizedLoop hashMsg limbBits indices [] originalData

/-! ## The gadget -/

/-- `new_tree_modified_nodes: HashMap<Vec<u8>, LinearCombination>`, randomizer.rs:106. -/
structure NodeMap (F : Type) where
  map : List (List ℕ × LC F)

/-- `HashMap::get`.  randomizer.rs:173 (inside the indexing), 145-153. -/
def NodeMap.get? (m : NodeMap F) (key : List ℕ) : Option (LC F) := (m.map.find? fun e => e.1 = key).map Prod.snd

/-- `HashMap::insert`.  randomizer.rs:108, 151, 180, 191. -/
def NodeMap.insert (m : NodeMap F) (key : List ℕ) (lc : LC F) : NodeMap F := ⟨(key, lc) :: m.map.filter fun e => e.1 ≠ key⟩

/-- `map[&key]`: panics if the key is absent.  randomizer.rs:173, 195. -/
def NodeMap.index (m : NodeMap F) (key : List ℕ) : Res (LC F) :=
  match m.get? key with
  | some lc => .ok lc
  | none => Res.panic "no entry found for key"

/-- Hashing an original value up to the root, randomizer.rs:118-134: positions from leaf to root, sibling variables popped from the end. -/
def origPath (statics : List (LC F)) (p : PoseidonParams F) (synth : LC F → F → Prog F C rnd Var) : List ℕ → List Var → LC F → Prog F C rnd (LC F)
  | [], _, cur => pure cur
  | pos :: path, nodes, cur => do
    let (nodes, popped) ← popNodes 3 nodes
    let proof ← Prog.ofRes (vecInsert (popped.map LC.ofVar) pos cur)
    let h ← poseidonHash4Constraints proof statics p synth
    origPath statics p synth path nodes h

/-- Inserting the children `(k, c)` of the node at `pre` whose keys are absent, randomizer.rs:145-153. -/
def addChildren (pre : List ℕ) : List (F × ℕ) → NodeMap F → NodeMap F
  | [], m => m
  | (c, k) :: cs, m => addChildren pre cs (if (m.get? (pre ++ [k])).isSome then m else m.insert (pre ++ [k]) (LC.ofScalar c))

/-- The nodes of the new tree on the path to an index and their siblings, randomizer.rs:138-155 (`unwrap` of a failed `get` panics). -/
def addNodes [ByteRep F] (db : HashDb (List F)) : List ℕ → F → List ℕ → NodeMap F → Res (NodeMap F)
  | [], _, _, m => .ok m
  | pos :: path, cur, pre, m =>
    match db.get (toBytes cur) with
    | .error _ => Res.panic "called `Result::unwrap()` on an `Err` value"
    | .ok children => do
      let next ← idx children pos
      addNodes db path next (pre ++ [pos]) (addChildren pre children.zipIdx m)

/-- The siblings of the node at `path` on level `j`, randomizer.rs:168-175. -/
def levelSiblings (m : NodeMap F) (path : List ℕ) (j pj : ℕ) : List ℕ → Res (List (LC F))
  | [] => .ok []
  | k :: ks => do
    if pj ≠ k then
      let lc ← m.index (path.set j k)
      let rest ← levelSiblings m path j pj ks
      return lc :: rest
    else levelSiblings m path j pj ks

/-- Writing a value at a leaf of the new tree, randomizer.rs:167-192: levels `j = n-1, .., 0`. -/
def updatePath (depth : ℕ) (statics : List (LC F)) (p : PoseidonParams F) (synth : LC F → F → Prog F C rnd Var) : ℕ → List ℕ → LC F → NodeMap F → Prog F C rnd (NodeMap F)
  | 0, _, _, m => pure m
  | j + 1, path, lc, m => do
    let pj ← Prog.index path j
    let nodes ← Prog.ofRes (levelSiblings m path j pj (List.range 4))
    let nodes ← Prog.ofRes (vecInsert nodes pj lc)
    let h ← poseidonHash4Constraints nodes statics p synth
    updatePath depth statics p synth j (path.eraseIdx j) h ((if j + 1 = depth then m.insert path lc else m).insert (path.eraseIdx j) h)

/-- First loop, randomizer.rs:110-156. -/
def origLoop [ByteRep F] (depth : ℕ) (origRoot : Var) (newRoot : F) (db : HashDb (List F)) (statics : List (LC F)) (p : PoseidonParams F) (synth : LC F → F → Prog F C rnd Var) :
    List F → List Var → List (List Var) → NodeMap F → Prog F C rnd (NodeMap F)
  | i :: is, v :: vs, nodes :: proofs, m => do
    let path ← Prog.ofRes (getBase4Repr i depth)
    let h ← origPath statics p synth path.reverse nodes (LC.ofVar v)
    Prog.con (h.sub (LC.ofVar origRoot))
    let m ← Prog.ofRes (addNodes db path newRoot [] m)
    origLoop depth origRoot newRoot db statics p synth is vs proofs m
  | [], _, _, m => pure m
  | _, _, _, _ => Prog.panic "index out of bounds"

/-- Second loop, randomizer.rs:159-193. -/
def updateLoop4 [ByteRep F] (depth : ℕ) (statics : List (LC F)) (p : PoseidonParams F) (synth : LC F → F → Prog F C rnd Var) : List F → List Var → NodeMap F → Prog F C rnd (NodeMap F)
  | i :: is, v :: vs, m => do
    let path ← Prog.ofRes (getBase4Repr i depth)
    let m ← updatePath depth statics p synth depth path (LC.ofVar v) m
    updateLoop4 depth statics p synth is vs m
  | [], _, m => pure m
  | _ :: _, [], _ => Prog.panic "index out of bounds"

/-- `randomizer_gadget`, randomizer.rs:87-198. -/
def randomizerGadget [ByteRep F] (depth : ℕ) (origRoot : Var) (newTree : SparseTree F) (newDb : HashDb (List F)) (indices : List F) (origVals : List Var) (origValsProofs : List (List Var))
    (statics : List Var) (p : PoseidonParams F) (synth : LC F → F → Prog F C rnd Var) : Prog F C rnd Unit :=
  if newTree.depth ≠ depth then Prog.panic "assert_eq: new_tree.depth, depth" else
  if indices.length ≠ origVals.length then Prog.panic "assert_eq: indices.len(), orig_vals.len()" else do
  let m := (NodeMap.mk []).insert [] (LC.ofScalar newTree.root)
  let m ← origLoop depth origRoot newTree.root newDb (statics.map LC.ofVar) p synth indices origVals origValsProofs m
  let m ← updateLoop4 depth (statics.map LC.ofVar) p synth indices origVals m
  let r ← Prog.ofRes (m.index [])
  Prog.con (r.sub (LC.ofVar origRoot))

/-! ## Entry points -/

/-- The loop of `gen_proof_for_randomizer`, randomizer.rs:231-251; `coins` are the values of `FieldElement::random()`, from number `k` on.  Returns the commitments,
the variables of the values and those of the proofs. -/
def commitOrig [ByteRep F] [DecidableEq F] (T : TreeOps F) (origTree : SparseTree F) (origDb : HashDb (List F)) (coins : ℕ → F) :
    ℕ → List F → List F → Drv (Prover F G) (List G × List Var × List (List Var))
  | _, [], _ => pure ([], [], [])
  | k, i :: is, origVals => do
    let (v, proof) ← Drv.lift (origTree.get T i (some []) origDb)
    match proof, origVals with
    | some proof, o :: os =>
      if v ≠ o then Drv.lift (Res.panic "assertion `left == right` failed") else do
      let cv ← Prover.commits [(v, coins k)]
      let cn ← Prover.commits (proof.flatten.mapIdx fun j x => (x, coins (k + 1 + j)))
      let (cs, vs, ps) ← commitOrig T origTree origDb coins (k + 1 + proof.flatten.length) is os
      return ((cv ++ cn).map Prod.fst ++ cs, cv.map Prod.snd ++ vs, cn.map Prod.snd :: ps)
    | _, [] => Drv.lift (Res.panic "index out of bounds")
    | none, _ => Drv.lift (Res.panic "called `Option::unwrap()` on a `None` value")

/-- `gen_proof_for_randomizer` without the proof generation at its end, randomizer.rs:201-271 (put into `genProofUnwrap`, and into `genProof` in theorems about successful runs: the code `unwrap`s the result of `prove`, so an error
becomes a panic there). -/
def proveRandomizer [ByteRep F] [DecidableEq F] (env : Env F G) (origTree : SparseTree F) (origDb : HashDb (List F)) (newTree : SparseTree F) (newDb : HashDb (List F)) (modifiedIndices origVals : List F)
    (depth : ℕ) (p : PoseidonParams F) (sbox : SboxType) (coins : ℕ → F) : Drv (Prover F G) (List G) := do
  let c0 ← Prover.commits [(origTree.root, coins 0)]
  let (cs, vs, ps) ← commitOrig (tree4 p) origTree origDb coins 1 modifiedIndices origVals
  let statics ← allocateStaticsForProver 1
  match c0.map Prod.snd with
  | [root] => do
    Prover.gadget env (randomizerGadget depth root newTree newDb modifiedIndices vs ps statics p sbox.synthesize)
    return c0.map Prod.fst ++ cs
  | _ => Drv.lift (Res.panic "unreachable")

/-- The loop of `verify_proof_for_randomizer`, randomizer.rs:307-318, with the remaining commitments. -/
def commitVals (depth : ℕ) : ℕ → List G → Drv (Verifier F G) (List Var × List (List Var))
  | 0, _ => pure ([], [])
  | n + 1, commitments => do
    let c ← Drv.lift (takeComms commitments 1)
    let v ← Verifier.commits c
    let cs ← Drv.lift (takeComms (commitments.drop 1) (depth * 3))
    let ps ← Verifier.commits cs
    let (vs, pss) ← commitVals depth n ((commitments.drop 1).drop (depth * 3))
    return (v ++ vs, ps :: pss)

/-- `verify_proof_for_randomizer` without the check of the proof at its end, randomizer.rs:284-337. -/
def verifyRandomizer [ByteRep F] (env : Env F G) (newTree : SparseTree F) (newDb : HashDb (List F)) (modifiedIndices : List F) (depth : ℕ) (p : PoseidonParams F) (sbox : SboxType) (g h : G)
    (commitments : List G) : Drv (Verifier F G) Unit := do
  let c ← Drv.lift (takeComms commitments 1)
  let v ← Verifier.commits c
  let (vs, ps) ← commitVals depth modifiedIndices.length (commitments.drop 1)
  let statics ← allocateStaticsForVerifier 1 g h
  match v with
  | [root] => Verifier.gadget env (randomizerGadget depth root newTree newDb modifiedIndices vs ps statics p sbox.synthesize)
  | _ => Drv.lift (Res.panic "unreachable")

end Bp
