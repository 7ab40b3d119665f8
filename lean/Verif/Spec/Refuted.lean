import Verif.Spec.Statements
import Verif.Model.Driver

/-! # Specification: the crate's own proving functions called on inputs for which the statement may be false -/

namespace Bp
variable {F G : Type} [Field F] [AddCommGroup G] [Module F G]

/-- The same environment with other answers to the challenges. -/
def Env.withOracle (env : Env F G) (O : Oracle F G) : Env F G := { env with oracle := O }

/-- `Attempt st dp P`: `dp` is the proving function of the crate for the statement `st`, called with some secret inputs and any coins, and `P` says that the statement is true of these inputs. -/
inductive Attempt [ByteRep F] : Stmt F → (Env F G → Drv (Prover F G) (List G)) → Prop → Prop where
  | boundedNum (debug : Bool) (val lower upper n : ℕ) (hval : val < 2 ^ 64) (randomness : Option F) (rng : Option (ℕ → F)) (sys : ℕ → F) :
      Attempt (.boundedNum debug lower upper n) (fun env => proveBoundedNum env debug val randomness lower upper n rng sys) (lower ≤ val ∧ val ≤ upper)
  | nonZero (value : F) (randomness : Option F) (rng : Option (ℕ → F)) (sys : ℕ → F) : Attempt .nonZero (fun env => proveNonZeroVal env value randomness rng sys) (value ≠ 0)
  | setMembership (value : F) (set : List F) (randomness : Option F) (rng : Option (ℕ → F)) (sys : ℕ → F) :
      Attempt (.setMembership set) (fun env => proveSetMembership env value randomness set rng sys) (value ∈ set)
  | setMembershipAlt (value : ℕ) (set : List ℕ) (randomness : Option F) (rng : Option (ℕ → F)) (sys : ℕ → F) :
      Attempt (.setMembershipAlt set) (fun env => proveSetMembershipAlt env value randomness set rng sys) (value ∈ set)
  | setNonMembership (value : F) (set : List F) (randomness : Option F) (rng : Option (ℕ → F)) (sys : ℕ → F) :
      Attempt (.setNonMembership set) (fun env => proveSetNonMembership env value randomness set rng sys) (value ∉ set)
  | mimc (x y image : F) (constants : List F) (rounds : ℕ) (randomness : Option (List F)) (rng : Option (ℕ → F)) :
      Attempt (.mimc image constants rounds) (fun env => proveMimcPreimage env [x, y] randomness image constants rounds rng) (Bp.mimc x y constants rounds = .ok image)
  | poseidon2 (a b output : F) (p : PoseidonParams F) (sbox : SboxType) (randomness : Option (List F)) (rng : Option (ℕ → F)) :
      Attempt (.poseidon2 output p sbox) (fun env => provePoseidon2 env [a, b] randomness output p sbox rng) (poseidonHash2 a b p sbox = .ok output)
  | poseidon4 (a b c d output : F) (p : PoseidonParams F) (sbox : SboxType) (randomness : Option (List F)) (rng : Option (ℕ → F)) :
      Attempt (.poseidon4 output p sbox) (fun env => provePoseidon4 env [a, b, c, d] randomness output p sbox rng) (poseidonHash4 [a, b, c, d] p sbox = .ok output)
  | poseidon8 (a b c d a' b' c' d' output : F) (p : PoseidonParams F) (sbox : SboxType) (randomness : Option (List F)) (rng : Option (ℕ → F)) :
      Attempt (.poseidon8 output p sbox) (fun env => provePoseidon8 env [a, b, c, d, a', b', c', d'] randomness output p sbox rng) (poseidonHash8 [a, b, c, d, a', b', c', d'] p sbox = .ok output)
  | inclusion4 (leaf leafIndex root : F) (siblings : List (List F)) (p : PoseidonParams F) (sbox : SboxType) (hs : ∀ s ∈ siblings, s.length = 3) (hd : getByteSize siblings.length 4 ≤ ByteRep.modBytes F)
      (randomness : Option (List F)) (rng : Option (ℕ → F)) (coins : ℕ → F) :
      Attempt (.inclusion4 root siblings.length p sbox) (fun env => proveInclusion4 env leaf leafIndex randomness siblings root siblings.length p sbox rng coins)
        (∃ path : List ℕ, path.length = siblings.length ∧ (∀ d ∈ path, d < 4) ∧ leafIndex = (Nat.ofDigits 4 path.reverse : ℕ) ∧ merkleRoot (hasher4 p sbox).digest (path.zip siblings) leaf = root)
  | inclusion8 (leaf leafIndex root : F) (siblings : List (List F)) (p : PoseidonParams F) (sbox : SboxType) (hs : ∀ s ∈ siblings, s.length = 7) (hd : getByteSize siblings.length 8 ≤ ByteRep.modBytes F)
      (randomness : Option (List F)) (rng : Option (ℕ → F)) (coins : ℕ → F) :
      Attempt (.inclusion8 root siblings.length p sbox) (fun env => proveInclusion8 env leaf leafIndex randomness siblings root siblings.length p sbox rng coins)
        (∃ path : List ℕ, path.length = siblings.length ∧ (∀ d ∈ path, d < 8) ∧ leafIndex = (Nat.ofDigits 8 path.reverse : ℕ) ∧ merkleRoot (hasher8 p sbox).digest (path.zip siblings) leaf = root)
  | factors (p q : F × F) (rest : List (F × F)) (r : F) : Attempt (.factors rest.length r) (fun env => proveFactors env p q rest r) (((p :: q :: rest).map Prod.fst).prod = r)

/-- Several attempts on one prover, one after the other; all commitments are returned.  `P` says that all the statements are true of the inputs. -/
inductive Attempts [ByteRep F] : List (Stmt F) → (Env F G → Drv (Prover F G) (List G)) → Prop → Prop where
  | nil : Attempts [] (fun _ => pure []) True
  | cons {st stmts dp dps P Q} : Attempt st dp P → Attempts stmts dps Q →
      Attempts (st :: stmts) (fun env => do let cs ← dp env; let cs' ← dps env; return cs ++ cs') (P ∧ Q)

end Bp
