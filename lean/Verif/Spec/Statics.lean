import Verif.Spec.Hades
import Verif.Model.Gadgets.Poseidon

/-! # Specification: hashing few inputs with a wide permutation -/

namespace Bp
variable {F G : Type} [Field F] [AddCommGroup G] [SMul F G]

/-- What static number `i` holds: zero, the padding constant, zeros. -/
def staticAt (i : ℕ) : F := if i = 1 then 101 else 0

/-- The state in which `inputs` are hashed by a permutation of any width: zero, the inputs, 101, zeros. -/
def paddedAt (inputs : List F) (i : ℕ) : F := if i = 0 then 0 else if i ≤ inputs.length then inputs.getD (i - 1) 0 else if i = inputs.length + 1 then 101 else 0

/-- The hash of fewer inputs than the permutation has room for. -/
def Hades.paddedHash {w : ℕ} (H : Hades F (w + 2)) (f : F → F) (inputs : List F) : F := H.permute f (fun i => paddedAt inputs i) 1

/-- Code of a client that proves knowledge of a preimage for a permutation with room for more inputs: as in `prove_knowledge_of_preimage_of_Poseidon_2`, src/r1cs/gadgets/poseidon_hash.rs:92-117, with `n` statics instead of one. -/
def proveWide (env : Env F G) (n : ℕ) (inputs rands : List F) (gadget : List Var → List Var → Prog1 F Unit) : Drv (Prover F G) (List G) := do
  let cs ← Prover.commits (inputs.zip rands)
  let statics ← allocateStaticsForProver n
  Prover.gadget env (gadget (cs.map Prod.snd) statics)
  return cs.map Prod.fst

/-- The other side, as in src/r1cs/gadgets/poseidon_hash.rs:127-145. -/
def verifyWide (env : Env F G) (k n : ℕ) (g h : G) (gadget : List Var → List Var → Prog1 F Unit) (commitments : List G) : Drv (Verifier F G) Unit := do
  let cs ← Drv.lift (takeComms commitments k)
  let vars ← Verifier.commits cs
  let statics ← allocateStaticsForVerifier n g h
  Verifier.gadget env (gadget vars statics)

end Bp
