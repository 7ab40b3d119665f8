import Verif.Model.R1CS

/-! # Functions on `&mut Prover` / `&mut Verifier`

The gadget entry points (`prove_*`, `verify_*`) commit values and then run a gadget.  `Drv S α` is a function on a mutable state
returning a `Result`; the state is kept when it fails. -/

namespace Bp
variable {F G : Type}

/-- A function taking `&mut S` and returning `Result<α, R1CSError>` (or panicking).  For example src/r1cs/gadgets/bound_check.rs:39-86. -/
def Drv (S α : Type) := S → Res α × S

namespace Drv
variable {S α β : Type}

/-- Return normally.  `Ok(..)` at the end of a function, e.g. src/r1cs/gadgets/bound_check.rs:39-86. -/
def ret (a : α) : Drv S α := fun s => (.ok a, s)

/-- Sequencing with `?`.  For example src/r1cs/gadgets/bound_check.rs:50-86. -/
def bind (d : Drv S α) (f : α → Drv S β) : Drv S β := fun s =>
  match d s with
  | (.ok a, s') => f a s'
  | (.error e, s') => (.error e, s')

instance : Monad (Drv S) where
  pure := ret
  bind := bind

/-- A computation that does not touch the state.  For example `check_for_randomness_or_rng!(..)?`, src/r1cs/gadgets/bound_check.rs:50. -/
def lift (r : Res α) : Drv S α := fun s => (r, s)

end Drv

section
variable [Field F] [AddCommGroup G] [SMul F G]

/-- The prover left behind by a gadget that returns an error or panics: everything done until then stays done.  The methods of src/r1cs/prover.rs:604-691 change the prover through `&mut self`. -/
def Prover.leave (env : Env F G) {C : Type} {rnd : Bool} {α : Type} (onSpec : C → Prover F G → Prover F G) :
    Prog F C rnd α → Prover F G → Prover F G
  | .ret _, p => p
  | .err _, p => p
  | .panic _, p => p
  | .multiply l r k, p =>
    match p.multiply l r with
    | .ok (vs, p) => leave env onSpec (k vs) p
    | .error _ => p
  | .allocate x k, p =>
    match p.allocate x with
    | .ok (r, p) => leave env onSpec (k r) p
    | .error _ => p
  | .allocateMultiplier x k, p => leave env onSpec (k (p.allocateMultiplier x).1) (p.allocateMultiplier x).2
  | .constrain lc k, p => leave env onSpec k (p.constrain lc)
  | .specify cb k, p => leave env onSpec k (onSpec cb p)
  | .evaluateLc lc k, p =>
    match p.eval lc with
    | .ok x => leave env onSpec (k (some x)) p
    | .error _ => p
  | .allocateSingle x k, p =>
    match p.allocateSingle x with
    | .ok (r, p) => leave env onSpec (k r) p
    | .error _ => p
  | .challenge _ label k, p =>
    leave env onSpec (k (p.transcript.challengeScalar env.oracle label).1) { p with transcript := (p.transcript.challengeScalar env.oracle label).2 }
  | .simplify lc k, p => leave env onSpec (k (lc.simplify (env.hashOrd p.seed))) { p with seed := p.seed + 1 }

/-- The verifier left behind by a failing gadget.  The methods of src/r1cs/verifier.rs:460-534 change it through `&mut self`. -/
def Verifier.leave (env : Env F G) {C : Type} {rnd : Bool} {α : Type} (onSpec : C → Verifier F G → Verifier F G) :
    Prog F C rnd α → Verifier F G → Verifier F G
  | .ret _, s => s
  | .err _, s => s
  | .panic _, s => s
  | .multiply l r k, s => leave env onSpec (k (s.multiply l r).1) (s.multiply l r).2
  | .allocate x k, s => leave env onSpec (k (s.allocate x).1) (s.allocate x).2
  | .allocateMultiplier x k, s => leave env onSpec (k (s.allocateMultiplier x).1) (s.allocateMultiplier x).2
  | .constrain lc k, s => leave env onSpec k (s.constrain lc)
  | .specify cb k, s => leave env onSpec k (onSpec cb s)
  | .evaluateLc _ k, s => leave env onSpec (k none) s
  | .allocateSingle x k, s => leave env onSpec (k (s.allocateSingle x).1) (s.allocateSingle x).2
  | .challenge _ label k, s =>
    leave env onSpec (k (s.transcript.challengeScalar env.oracle label).1) { s with transcript := (s.transcript.challengeScalar env.oracle label).2 }
  | .simplify lc k, s => leave env onSpec (k (lc.simplify (env.hashOrd s.seed))) { s with seed := s.seed + 1 }

/-- Calling a gadget with `prover` as its constraint system.  For example src/r1cs/gadgets/bound_check.rs:80-88. -/
def Prover.gadget (env : Env F G) {α : Type} (c : Prog1 F α) : Drv (Prover F G) α := fun p =>
  match p.run1 env c with
  | .ok (a, p') => (.ok a, p')
  | .error e => (.error e, p.leave env (fun cb p => p.specify cb) c)

/-- Calling a gadget with `verifier` as its constraint system.  For example src/r1cs/gadgets/bound_check.rs:119-127. -/
def Verifier.gadget (env : Env F G) {α : Type} (c : Prog1 F α) : Drv (Verifier F G) α := fun s =>
  match s.run1 env c with
  | .ok (a, s') => (.ok a, s')
  | .error e => (.error e, s.leave env (fun cb s => s.specify cb) c)

/-- `prover.commit` on several (value, blinding) pairs in order.  For example src/r1cs/gadgets/bound_check.rs:57-78. -/
def Prover.commitAll : List (F × F) → Prover F G → List (G × Var) × Prover F G
  | [], p => ([], p)
  | (v, b) :: vs, p =>
    let q := p.commit v b
    let r := commitAll vs q.2
    (q.1 :: r.1, r.2)

/-- `verifier.commit` on several points in order.  For example src/r1cs/gadgets/bound_check.rs:101-117. -/
def Verifier.commitAll : List G → Verifier F G → List Var × Verifier F G
  | [], s => ([], s)
  | V :: Vs, s =>
    let q := s.commit V
    let r := commitAll Vs q.2
    (q.1 :: r.1, r.2)

/-- `prover.commit` as a driver step.  src/r1cs/prover.rs:119-129. -/
def Prover.commits (vs : List (F × F)) : Drv (Prover F G) (List (G × Var)) := fun p => (.ok (p.commitAll vs).1, (p.commitAll vs).2)
/-- `verifier.commit` as a driver step.  src/r1cs/verifier.rs:124-132. -/
def Verifier.commits (Vs : List G) : Drv (Verifier F G) (List Var) := fun s => (.ok (s.commitAll Vs).1, (s.commitAll Vs).2)

/-- The shape of the `gen_proof_*` functions (e.g. bound_check.rs:128-160): new transcript and prover, the `prove_*` step, `prover.prove`.  `c` are
the coins of `prove`.  (Three of them `unwrap` the result of `prove`: `genProofUnwrap`, which returns the same proofs, C78.) -/
def genProof (env : Env F G) (label : String) (g h : G) (c : Coins F) (Gs Hs : List G) {α : Type} (d : Drv (Prover F G) α) :
    Res (R1CSProof F G × α) :=
  match d (Prover.new g h [.init label]) with
  | (.error e, _) => .error e
  | (.ok a, p) =>
    match p.prove env c Gs Hs with
    | .ok (pr, _) => .ok (pr, a)
    | .error e => .error e

/-- The shape of every `verify_proof_*` function (e.g. bound_check.rs:162-178): new transcript and verifier, the `verify_*` step,
`verifier.verify`; `r` is the scalar drawn by `verify`. -/
def verifyProof [DecidableEq G] (env : Env F G) (label : String) (d : Drv (Verifier F G) Unit) (pr : R1CSProof F G) (g h : G) (Gs Hs : List G) (r : F) : Res Unit :=
  match d (Verifier.new [.init label]) with
  | (.error e, _) => .error e
  | (.ok _, s) =>
    match s.verify env pr g h Gs Hs r with
    | .ok _ => .ok ()
    | .error e => .error e

end

/-- `commitments.remove(0)` `k` times: panics when there are fewer.  (Rust interleaves the removals with `verifier.commit`; after a
panic the verifier is gone, so only the first failure matters.)  For example src/r1cs/gadgets/bound_check.rs:101, 107, 113. -/
def takeComms {α : Type} (comms : List α) (k : ℕ) : Res (List α) :=
  if k ≤ comms.length then .ok (comms.take k) else Res.panic "removal index (is 0) should be < len (is 0)"

/-- `check_for_randomness_or_rng!`, errors.rs:31-42. -/
def checkRandomness {α β : Type} (randomness : Option α) (rng : Option β) : Res Unit :=
  if randomness.isNone ∧ rng.isNone then Res.err (.gadgetError "Since randomness is None, provide") else .ok ()

/-- `check_for_input_and_randomness_length!`, errors.rs:44-55. -/
def checkLengths {α β : Type} (input : List α) (randomness : List β) (expected : ℕ) : Res Unit :=
  if input.length ≠ expected ∨ randomness.length ≠ expected then
    Res.err (.gadgetError s!"Both input and randomness should be of the same size {expected} but input size is {input.length} and randomness size is {randomness.length}")
  else .ok ()

/-- `randomness.unwrap_or_else(|| FieldElement::random_using_rng(rng.unwrap()))`; a random generator is the sequence of what it returns.  For example src/r1cs/gadgets/bound_check.rs:59. -/
def pickBlinding (randomness : Option F) (rng : Option (ℕ → F)) : Res F :=
  match randomness, rng with
  | some r, _ => .ok r
  | none, some g => .ok (g 0)
  | none, none => Res.panic "called `Option::unwrap()` on a `None` value"

/-- The same for a vector of `k` blindings drawn from the generator.  For example src/r1cs/gadgets/poseidon_hash.rs:85-91. -/
def pickBlindings (randomness : Option (List F)) (rng : Option (ℕ → F)) (k : ℕ) : Res (List F) :=
  match randomness, rng with
  | some r, _ => .ok r
  | none, some g => .ok ((List.range k).map g)
  | none, none => Res.panic "called `Option::unwrap()` on a `None` value"

/-- `for i in 0..n { .. }` with loop-carried state `a`.  For example src/r1cs/gadgets/helper_constraints/mimc.rs:60-76. -/
def Prog.loop {C : Type} {rnd : Bool} {σ : Type} (body : ℕ → σ → Prog F C rnd σ) : ℕ → ℕ → σ → Prog F C rnd σ
  | _, 0, a => .ret a
  | i, n + 1, a => (body i a).bind fun a' => loop body (i + 1) n a'

/-- `for i in 0..n { .. }`.  For example src/r1cs/gadgets/set_non_membership.rs:25-30. -/
def Prog.forN {C : Type} {rnd : Bool} {σ : Type} (n : ℕ) (a : σ) (body : ℕ → σ → Prog F C rnd σ) : Prog F C rnd σ := Prog.loop body 0 n a

end Bp
