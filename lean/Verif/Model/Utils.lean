import Verif.Model.Basic

/-! # Free functions of src/utils/mod.rs -/

namespace Bp
variable {F G : Type}

/-- The messages hashed by `get_generators`, utils/mod.rs:18-19: `prefix + i.to_string()` for `i` in `1..n+1`. -/
def generatorMessages (pre : String) (n : ℕ) : List String := (List.range' 1 n).map fun i => pre ++ toString i

/-- `get_generators`, utils/mod.rs:15-22; `hash` is `G1::from_msg_hash` on the UTF-8 bytes of a string. -/
def getGenerators (hash : String → G) (pre : String) (n : ℕ) : List G := (generatorMessages pre n).map hash

/-- The loop of `gen_challenges`, utils/mod.rs:32-36, `k` iterations, `last` being `r.last().unwrap()`; `enc` is `G1::to_bytes`, `gen` is `G1::generator()`,
`hash` is `FieldElement::from_msg_hash`. -/
def challengeLoop [Field F] [AddCommGroup G] [SMul F G] (hash : List UInt8 → F) (enc : G → List UInt8) (gen : G) : ℕ → F → List UInt8 → List F × List UInt8
  | 0, _, state => ([], state)
  | k + 1, last, state =>
    let state := state ++ enc (last • gen)
    let c := hash state
    let r := challengeLoop hash enc gen k c state
    (c :: r.1, r.2)

/-- `gen_challenges`, utils/mod.rs:24-38: the challenges and the new `state`. -/
def genChallenges [Field F] [AddCommGroup G] [SMul F G] (hash : List UInt8 → F) (enc : G → List UInt8) (gen : G) (input : List G) (state : List UInt8) (n : ℕ) : List F × List UInt8 :=
  let state := state ++ (input.map enc).flatten
  let c := hash state
  let r := challengeLoop hash enc gen (n - 1) c state
  (c :: r.1, r.2)

end Bp
