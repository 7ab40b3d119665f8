import Verif.Model.Gadgets.Poseidon

/-! # Sparse Merkle trees: src/utils/hash_db.rs, src/r1cs/gadgets/helper_constraints/sparse_merkle_tree_4_ary.rs:1-209 and sparse_merkle_tree_8_ary.rs:1-225

The two Rust files are copies of each other; the model is written once for trees with `2 ^ bits` children per node and a hash function on child lists
(`TreeOps`), and instantiated by `tree4` and `tree8`.  Line numbers of the 4-ary file come first.  Rust's fixed-size arrays `[FieldElement; 4]` are
lists; base-4 and base-8 digits (`u8`) are natural numbers. -/

namespace Bp
variable {F : Type} [Field F]

/-- Scalars have a byte encoding of fixed length `MODBYTES` (amcl constant, 48 for BLS12-381).  The keys of the database, sparse_merkle_tree_4_ary.rs:74, sparse_merkle_tree_8_ary.rs:80. -/
class ByteRep (F : Type) [Field F] extends IntRep F where
  modBytes : ℕ
  order_le : order ≤ 256 ^ modBytes

/-- `FieldElement::to_bytes` of amcl_wrapper: big-endian, `MODBYTES` bytes.  Called at sparse_merkle_tree_4_ary.rs:74, 143, 207, sparse_merkle_tree_8_ary.rs:80, 151, 223. -/
def toBytes [ByteRep F] (x : F) : List UInt8 :=
  ((List.range (ByteRep.modBytes F)).map fun i => UInt8.ofNat (IntRep.rep x / 256 ^ i)).reverse

/-! ## Hash database -/

/-- `InMemoryHashDb`, hash_db.rs:10-13: a `HashMap` from byte strings, as an association list with distinct keys. -/
structure HashDb (T : Type) where
  db : List (List UInt8 × T)

variable {T : Type}

/-- `InMemoryHashDb::new`, hash_db.rs:30-35. -/
def HashDb.new : HashDb T := ⟨[]⟩

/-- `InMemoryHashDb::insert`, hash_db.rs:16-18 (`HashMap::insert` replaces an existing entry). -/
def HashDb.insert (d : HashDb T) (hash : List UInt8) (value : T) : HashDb T := ⟨(hash, value) :: d.db.filter fun e => e.1 ≠ hash⟩

/-- `InMemoryHashDb::get`, hash_db.rs:20-27. -/
def HashDb.get (d : HashDb T) (hash : List UInt8) : Res T :=
  match d.db.find? fun e => e.1 = hash with
  | some e => .ok e.2
  | none => Res.err (.hashNotFoundInDB hash)

/-! ## Leaf index to path -/

/-- `get_bit_count`, helper_constraints/mod.rs:37-41, for a power of two `base` (it is called with 4 and 8 only; otherwise it panics). -/
def getBitCount (numDigits base : ℕ) : ℕ := numDigits * Nat.log 2 base

/-- `get_byte_size`, helper_constraints/mod.rs:25-34. -/
def getByteSize (numDigits base : ℕ) : ℕ := getBitCount numDigits base / 8 + if getBitCount numDigits base % 8 = 0 then 0 else 1

/-- The two `while` loops of `get_base_4_repr` / `get_base_8_repr`, with `k = num_digits - len` digits still to produce from `s`
(4_ary.rs:33-39, 8_ary.rs:35-41). -/
def baseLoop (bits : ℕ) : ℕ → ℕ → List ℕ
  | 0, _ => []
  | k + 1, s => if s = 0 then List.replicate (k + 1) 0 else s % 2 ^ bits :: baseLoop bits k (s / 2 ^ bits)

/-- `get_base_4_repr` (bits = 2), 4_ary.rs:21-43, and `get_base_8_repr` (bits = 3), 8_ary.rs:23-45. -/
def getBaseRepr [ByteRep F] (bits : ℕ) (scalar : F) (numDigits : ℕ) : Res (List ℕ) :=
  if getByteSize numDigits (2 ^ bits) > ByteRep.modBytes F then Res.panic "limit_bytes cannot be more than MODBYTES"
  else .ok (baseLoop bits numDigits (IntRep.rep scalar)).reverse

/-- `get_base_4_repr`, 4_ary.rs:21-43. -/
def getBase4Repr [ByteRep F] (scalar : F) (numDigits : ℕ) : Res (List ℕ) := getBaseRepr 2 scalar numDigits
/-- `get_base_8_repr`, 8_ary.rs:23-45. -/
def getBase8Repr [ByteRep F] (scalar : F) (numDigits : ℕ) : Res (List ℕ) := getBaseRepr 3 scalar numDigits

/-! ## Trees -/

/-- What distinguishes the two trees: bits per digit and the hash of a child list.  sparse_merkle_tree_4_ary.rs:21-43, 73 and sparse_merkle_tree_8_ary.rs:23-45, 79. -/
structure TreeOps (F : Type) where
  bits : ℕ
  hash : List F → Res F

/-- Children per node.  4 at sparse_merkle_tree_4_ary.rs:17, 8 at sparse_merkle_tree_8_ary.rs:17. -/
def TreeOps.arity (T : TreeOps F) : ℕ := 2 ^ T.bits

/-- 4-ary tree: hashes with `Poseidon_hash_4(.., hash_params, &SboxType::Quint)`, 4_ary.rs:73, 118, 188. -/
def tree4 (p : PoseidonParams F) : TreeOps F := ⟨2, fun xs => poseidonHash4 xs p .quint⟩
/-- 8-ary tree: hashes with `Poseidon_hash_8(.., hash_params, &SboxType::Quint)`, 8_ary.rs:79, 126, 204. -/
def tree8 (p : PoseidonParams F) : TreeOps F := ⟨3, fun xs => poseidonHash8 xs p .quint⟩

/-- `VanillaSparseMerkleTree_4`, 4_ary.rs:48-52, `VanillaSparseMerkleTree_8`, 8_ary.rs:50-54 (the hash parameters are in `TreeOps`). -/
structure SparseTree (F : Type) where
  depth : ℕ
  root : F

/-- `Vec::insert`: panics if the position is beyond the end.  Called at sparse_merkle_tree_4_ary.rs:109, 187, sparse_merkle_tree_8_ary.rs:114, 202. -/
def vecInsert {α : Type} (xs : List α) (i : ℕ) (x : α) : Res (List α) :=
  if i ≤ xs.length then .ok (xs.insertIdx i x) else Res.panic "insertion index should be <= len"

/-- `leaf_index_to_path`, 4_ary.rs:198-200, 8_ary.rs:214-216. -/
def leafIndexToPath [ByteRep F] (T : TreeOps F) (i : F) (depth : ℕ) : Res (List ℕ) := getBaseRepr T.bits i depth

/-- The loop of `new`, 4_ary.rs:62-78, 8_ary.rs:64-84; `prev` is the last entry of `empty_tree_hashes`. -/
def SparseTree.newLoop [ByteRep F] (T : TreeOps F) : ℕ → F → HashDb (List F) → Res (F × HashDb (List F))
  | 0, prev, db => .ok (prev, db)
  | n + 1, prev, db => do
    let input := List.replicate T.arity prev
    let new ← T.hash input
    SparseTree.newLoop T n new (db.insert (toBytes new) input)

/-- `new`, 4_ary.rs:55-87, 8_ary.rs:57-93. -/
def SparseTree.new [ByteRep F] (T : TreeOps F) (depth : ℕ) (db : HashDb (List F)) : Res (SparseTree F × HashDb (List F)) := do
  let (root, db) ← SparseTree.newLoop T depth 0 db
  return (⟨depth, root⟩, db)

/-- The loop of `get`, 4_ary.rs:142-161, 8_ary.rs:150-176; `proofVec` is `proof_vec`. -/
def SparseTree.getLoop [ByteRep F] (db : HashDb (List F)) : List ℕ → F → List (List F) → Res (F × List (List F))
  | [], cur, proofVec => .ok (cur, proofVec)
  | d :: ds, cur, proofVec => do
    let children ← db.get (toBytes cur)
    let next ← idx children d
    SparseTree.getLoop db ds next (proofVec ++ [children.eraseIdx d])

/-- `get`, 4_ary.rs:129-171, 8_ary.rs:137-186.  The caller's `proof`, if any, is extended. -/
def SparseTree.get [ByteRep F] (T : TreeOps F) (t : SparseTree F) (i : F) (proof : Option (List (List F))) (db : HashDb (List F)) :
    Res (F × Option (List (List F))) := do
  let path ← leafIndexToPath T i t.depth
  let (cur, proofVec) ← SparseTree.getLoop db path t.root []
  return (cur, proof.map (· ++ proofVec))

/-- The loop of `update`, 4_ary.rs:106-121, 8_ary.rs:111-129; the path is given from leaf to root and `sidenodes` is popped from the end. -/
def SparseTree.updateLoop [ByteRep F] (T : TreeOps F) : List ℕ → List (List F) → F → HashDb (List F) → Res (F × HashDb (List F))
  | [], _, curVal, db => .ok (curVal, db)
  | d :: ds, sidenodes, curVal, db =>
    match sidenodes.getLast? with
    | none => Res.panic "called `Option::unwrap()` on a `None` value"
    | some side => do
      let sideElem ← vecInsert side d curVal
      if sideElem.length ≠ T.arity then Res.panic "clone_from_slice: lengths differ" else
      let h ← T.hash sideElem
      SparseTree.updateLoop T ds sidenodes.dropLast h (db.insert (toBytes h) sideElem)

/-- `update`, 4_ary.rs:89-126, 8_ary.rs:95-134.  Returns the new root, the tree and the database. -/
def SparseTree.update [ByteRep F] (T : TreeOps F) (t : SparseTree F) (i val : F) (db : HashDb (List F)) : Res (F × SparseTree F × HashDb (List F)) := do
  let (_, sidenodes) ← t.get T i (some []) db
  match sidenodes with
  | none => Res.panic "called `Option::unwrap()` on a `None` value"
  | some sidenodes =>
    let path ← leafIndexToPath T i t.depth
    let (cur, db) ← SparseTree.updateLoop T path.reverse sidenodes val db
    return (cur, { t with root := cur }, db)

/-- The loop of `verify_proof`, 4_ary.rs:185-189, 8_ary.rs:201-205, from iteration `k` on. -/
def SparseTree.verifyLoop (T : TreeOps F) (depth : ℕ) (proof : List (List F)) : ℕ → List ℕ → F → Res F
  | _, [], curVal => .ok curVal
  | k, d :: ds, curVal => do
    let p ← idx proof (depth - 1 - k)
    let p ← vecInsert p d curVal
    let h ← T.hash p
    SparseTree.verifyLoop T depth proof (k + 1) ds h

/-- `verify_proof`, 4_ary.rs:174-196, 8_ary.rs:189-212. -/
def SparseTree.verifyProof [ByteRep F] [DecidableEq F] (T : TreeOps F) (t : SparseTree F) (i val : F) (proof : List (List F)) (root : Option F) : Res Bool := do
  let path ← leafIndexToPath T i t.depth
  let cur ← SparseTree.verifyLoop T t.depth proof 0 path.reverse val
  return decide (cur = root.getD t.root)

end Bp
