import Verif.Spec.Refuted

/-! # Specification: calls of the crate's proving functions with any secret inputs of the right shape -/

namespace Bp
variable {F G : Type} [Field F] [AddCommGroup G] [Module F G]

/-- The caller gives the blinding or a generator of random numbers. -/
def Given {α β : Type} (randomness : Option α) (rng : Option β) : Prop := randomness.isSome ∨ rng.isSome

/-- The caller gives `k` blindings or a generator of random numbers. -/
def GivenList {β : Type} (k : ℕ) (randomness : Option (List F)) (rng : Option β) : Prop := (∃ r, randomness = some r ∧ r.length = k) ∨ (randomness = none ∧ rng.isSome)

/-- `Request st dp`: `dp` is the proving function of the crate for the statement `st`, called with as many secret inputs as it asks for, of any value, and with blindings or a generator of random numbers.  Whether the statement is
true of the inputs plays no role; only `prove_bounded_num` in debug builds, where `val - lower` and `upper - val` are checked subtractions, is asked to have a value within the bounds. -/
inductive Request [ByteRep F] : Stmt F → (Env F G → Drv (Prover F G) (List G)) → Prop where
  | boundedNum (debug : Bool) (val lower upper n : ℕ) (hval : val < 2 ^ 64) (hd : debug = false ∨ (lower ≤ val ∧ val ≤ upper)) (randomness : Option F) (rng : Option (ℕ → F)) (hr : Given randomness rng) (sys : ℕ → F) :
      Request (.boundedNum debug lower upper n) (fun env => proveBoundedNum env debug val randomness lower upper n rng sys)
  | nonZero (value : F) (randomness : Option F) (rng : Option (ℕ → F)) (hr : Given randomness rng) (sys : ℕ → F) : Request .nonZero (fun env => proveNonZeroVal env value randomness rng sys)
  | setMembership (value : F) (set : List F) (randomness : Option F) (rng : Option (ℕ → F)) (hr : Given randomness rng) (sys : ℕ → F) :
      Request (.setMembership set) (fun env => proveSetMembership env value randomness set rng sys)
  | setMembershipAlt (value : ℕ) (set : List ℕ) (randomness : Option F) (rng : Option (ℕ → F)) (hr : Given randomness rng) (sys : ℕ → F) :
      Request (.setMembershipAlt set) (fun env => proveSetMembershipAlt env value randomness set rng sys)
  | setNonMembership (value : F) (set : List F) (randomness : Option F) (rng : Option (ℕ → F)) (hr : Given randomness rng) (sys : ℕ → F) :
      Request (.setNonMembership set) (fun env => proveSetNonMembership env value randomness set rng sys)
  | hamming (original new : List F) (hl : original.length = new.length) (count : ℕ) (sys : ℕ → F) : Request (.hamming new count) (fun env => proveHammingDistance env original new count sys)
  | mimc (x y image : F) (constants : List F) (rounds : ℕ) (randomness : Option (List F)) (rng : Option (ℕ → F)) (hr : GivenList 2 randomness rng) :
      Request (.mimc image constants rounds) (fun env => proveMimcPreimage env [x, y] randomness image constants rounds rng)
  | poseidon2 (a b output : F) (p : PoseidonParams F) (sbox : SboxType) (randomness : Option (List F)) (rng : Option (ℕ → F)) (hr : GivenList 2 randomness rng) :
      Request (.poseidon2 output p sbox) (fun env => provePoseidon2 env [a, b] randomness output p sbox rng)
  | poseidon4 (a b c d output : F) (p : PoseidonParams F) (sbox : SboxType) (randomness : Option (List F)) (rng : Option (ℕ → F)) (hr : GivenList 4 randomness rng) :
      Request (.poseidon4 output p sbox) (fun env => provePoseidon4 env [a, b, c, d] randomness output p sbox rng)
  | poseidon8 (a b c d a' b' c' d' output : F) (p : PoseidonParams F) (sbox : SboxType) (randomness : Option (List F)) (rng : Option (ℕ → F)) (hr : GivenList 8 randomness rng) :
      Request (.poseidon8 output p sbox) (fun env => provePoseidon8 env [a, b, c, d, a', b', c', d'] randomness output p sbox rng)
  | inclusion4 (leaf leafIndex root : F) (siblings : List (List F)) (p : PoseidonParams F) (sbox : SboxType) (hs : ∀ s ∈ siblings, s.length = 3) (hd : getByteSize siblings.length 4 ≤ ByteRep.modBytes F)
      (randomness : Option (List F)) (rng : Option (ℕ → F)) (hr : GivenList 2 randomness rng) (coins : ℕ → F) :
      Request (.inclusion4 root siblings.length p sbox) (fun env => proveInclusion4 env leaf leafIndex randomness siblings root siblings.length p sbox rng coins)
  | inclusion8 (leaf leafIndex root : F) (siblings : List (List F)) (p : PoseidonParams F) (sbox : SboxType) (hs : ∀ s ∈ siblings, s.length = 7) (hd : getByteSize siblings.length 8 ≤ ByteRep.modBytes F)
      (randomness : Option (List F)) (rng : Option (ℕ → F)) (hr : GivenList 2 randomness rng) (coins : ℕ → F) :
      Request (.inclusion8 root siblings.length p sbox) (fun env => proveInclusion8 env leaf leafIndex randomness siblings root siblings.length p sbox rng coins)
  | factors (p q : F × F) (rest : List (F × F)) (r : F) : Request (.factors rest.length r) (fun env => proveFactors env p q rest r)

/-- Several calls on one prover, one after the other; all commitments are returned. -/
inductive Requests [ByteRep F] : List (Stmt F) → (Env F G → Drv (Prover F G) (List G)) → Prop where
  | nil : Requests [] (fun _ => pure [])
  | cons {st stmts dp dps} : Request st dp → Requests stmts dps → Requests (st :: stmts) (fun env => do let cs ← dp env; let cs' ← dps env; return cs ++ cs')

end Bp
