import Verif.Model.Prog

/-! # Prover and verifier constraint systems: src/r1cs/prover.rs, src/r1cs/verifier.rs (everything except prove/verify) -/

namespace Bp
variable {F G : Type}

/-- `Prover`, prover.rs:33-57.  `seed` counts the HashMaps created so far (std's per-map hash seed); it is not a field of the
Rust struct but ambient process state. -/
structure Prover (F G : Type) where
  g : G
  h : G
  transcript : Transcript F G
  constraints : List (LC F)
  aL : List F
  aR : List F
  aO : List F
  v : List F
  vBlinding : List F
  deferred : List (Callback F)
  pending : Option ℕ
  seed : ℕ

/-- `Verifier`, verifier.rs:29-52 (`seed` as for the prover). -/
structure Verifier (F G : Type) where
  transcript : Transcript F G
  constraints : List (LC F)
  numVars : ℕ
  V : List G
  deferred : List (Callback F)
  pending : Option ℕ
  seed : ℕ

namespace Prover
variable [Field F] [AddCommGroup G] [SMul F G]

/-- `Prover::new`, prover.rs:84-100 (`seed` is the state of the hash seed counter at that time). -/
def new (g h : G) (t : Transcript F G) (seed : ℕ := 0) : Prover F G :=
  { g := g, h := h, transcript := t.r1csDomainSep, constraints := [], aL := [], aR := [], aO := [], v := [],
    vBlinding := [], deferred := [], pending := none, seed := seed }

/-- `Prover::commit`, prover.rs:119-129. -/
def commit (p : Prover F G) (v blinding : F) : (G × Var) × Prover F G :=
  let i := p.v.length
  let V := commitScalar p.g p.h v blinding
  ((V, .committed i),
   { p with v := p.v ++ [v], vBlinding := p.vBlinding ++ [blinding], transcript := p.transcript.commitPoint "V" V })

/-- The value of one variable inside `Prover::eval`, prover.rs:287-293; indexing panics when out of range. -/
def evalVar (p : Prover F G) : Var → Res F
  | .left i => idx p.aL i
  | .right i => idx p.aR i
  | .out i => idx p.aO i
  | .committed i => idx p.v i
  | .one => .ok 1

/-- `Prover::eval`, prover.rs:283-296. -/
def eval (p : Prover F G) (lc : LC F) : Res F :=
  lc.terms.foldlM (fun sum t => do
    let val ← p.evalVar t.1
    return sum + t.2 * val) 0

/-- `Prover::_allocate_vars`, prover.rs:695-711. -/
def allocateVars (p : Prover F G) (l r o : F) : (Var × Var × Var) × Prover F G :=
  ((.left p.aL.length, .right p.aR.length, .out p.aO.length),
   { p with aL := p.aL ++ [l], aR := p.aR ++ [r], aO := p.aO ++ [o] })

/-- `constrain`, prover.rs:659-663. -/
def constrain (p : Prover F G) (lc : LC F) : Prover F G := { p with constraints := p.constraints ++ [lc] }

/-- `multiply`, prover.rs:607-626. -/
def multiply (p : Prover F G) (left right : LC F) : Res ((Var × Var × Var) × Prover F G) := do
  let l ← p.eval left
  let r ← p.eval right
  let o := l * r
  let ((lv, rv, ov), p) := p.allocateVars l r o
  let p := p.constrain ⟨left.terms ++ [(lv, -1)]⟩
  let p := p.constrain ⟨right.terms ++ [(rv, -1)]⟩
  return ((lv, rv, ov), p)

/-- `allocate`, prover.rs:628-647.  The outer `Res` is a panic (`a_R[i]` out of range), the inner the returned `Result`. -/
def allocate (p : Prover F G) (assignment : Option F) : Res (Except R1CSError Var × Prover F G) :=
  match assignment with
  | none => .ok (.error .missingAssignment, p)
  | some x =>
    match p.pending with
    | none =>
      let i := p.aL.length
      .ok (.ok (.left i),
        { p with pending := some i, aL := p.aL ++ [x], aR := p.aR ++ [0], aO := p.aO ++ [0] })
    | some i =>
      if i < p.aR.length ∧ i < p.aO.length then do
        let l ← idx p.aL i
        return (.ok (.right i), { p with pending := none, aR := p.aR.set i x, aO := p.aO.set i (l * x) })
      else Res.panic "index out of bounds"

/-- `allocate_multiplier`, prover.rs:649-657. -/
def allocateMultiplier (p : Prover F G) (x : Option (F × F)) : Except R1CSError (Var × Var × Var) × Prover F G :=
  match x with
  | none => (.error .missingAssignment, p)
  | some (l, r) =>
    let (vs, p) := p.allocateVars l r (l * r)
    (.ok vs, p)

/-- `allocate_single`, prover.rs:677-690. -/
def allocateSingle (p : Prover F G) (x : Option F) : Res (Except R1CSError (Var × Option Var) × Prover F G) := do
  let (r, p) ← p.allocate x
  match r with
  | .error e => return (.error e, p)
  | .ok (.left i) => return (.ok (.left i, none), p)
  | .ok (.right i) => return (.ok (.right i, some (.out i)), p)
  | .ok _ => return (.error .formatError, p)

/-- `specify_randomized_constraints`, prover.rs:665-671. -/
def specify (p : Prover F G) (cb : Callback F) : Prover F G := { p with deferred := p.deferred ++ [cb] }

/-- `num_constraints`, prover.rs:595-597. -/
def numConstraints (p : Prover F G) : ℕ := p.constraints.length
/-- `num_multipliers`, prover.rs:599-601. -/
def numMultipliers (p : Prover F G) : ℕ := p.aO.length

/-- Running a gadget against a prover: `impl ConstraintSystem for Prover` (prover.rs:604-691) and
`impl ConstraintSystem for RandomizingProver` (prover.rs:714-763, which forwards every method). -/
def run (env : Env F G) {C : Type} {rnd : Bool} {α : Type} (onSpec : C → Prover F G → Prover F G) :
    Prog F C rnd α → Prover F G → Res (α × Prover F G)
  | .ret a, p => .ok (a, p)
  | .err e, _ => Res.err e
  | .panic w, _ => Res.panic w
  | .multiply l r k, p =>
    match p.multiply l r with
    | .ok (vs, p) => run env onSpec (k vs) p
    | .error e => .error e
  | .allocate x k, p =>
    match p.allocate x with
    | .ok (r, p) => run env onSpec (k r) p
    | .error e => .error e
  | .allocateMultiplier x k, p =>
    run env onSpec (k (p.allocateMultiplier x).1) (p.allocateMultiplier x).2
  | .constrain lc k, p => run env onSpec k (p.constrain lc)
  | .specify cb k, p => run env onSpec k (onSpec cb p)
  | .evaluateLc lc k, p =>
    match p.eval lc with
    | .ok x => run env onSpec (k (some x)) p
    | .error e => .error e
  | .allocateSingle x k, p =>
    match p.allocateSingle x with
    | .ok (r, p) => run env onSpec (k r) p
    | .error e => .error e
  | .challenge _ label k, p =>
    run env onSpec (k (p.transcript.challengeScalar env.oracle label).1)
      { p with transcript := (p.transcript.challengeScalar env.oracle label).2 }
  | .simplify lc k, p =>
    run env onSpec (k (lc.simplify (env.hashOrd p.seed))) { p with seed := p.seed + 1 }

/-- First-phase run.  src/r1cs/prover.rs:604-691. -/
def run1 (env : Env F G) {α : Type} (c : Prog1 F α) (p : Prover F G) : Res (α × Prover F G) :=
  run env (fun cb p => p.specify cb) c p

/-- Second-phase run (`RandomizingProver`).  src/r1cs/prover.rs:714-763. -/
def run2 (env : Env F G) (c : Callback F) (p : Prover F G) : Res (Unit × Prover F G) :=
  run env (fun (e : Empty) _ => e.elim) c p

/-- Running the callbacks in order, stopping at the first error, prover.rs:314-316. -/
def runCallbacks (env : Env F G) : List (Callback F) → Prover F G → Res (Prover F G)
  | [], p => .ok p
  | cb :: cbs, p =>
    match p.run2 env cb with
    | .ok (_, p) => runCallbacks env cbs p
    | .error e => .error e

/-- `create_randomized_constraints`, prover.rs:300-319. -/
def createRandomizedConstraints (env : Env F G) (p : Prover F G) : Res (Prover F G) :=
  let p := { p with pending := none }
  if p.deferred.length = 0 then
    .ok { p with transcript := p.transcript.r1cs1PhaseDomainSep }
  else
    let cbs := p.deferred
    runCallbacks env cbs { p with transcript := p.transcript.r1cs2PhaseDomainSep, deferred := [] }

end Prover

namespace Verifier
variable [Field F] [AddCommGroup G] [SMul F G]

/-- `Verifier::new`, verifier.rs:97-108. -/
def new (t : Transcript F G) (seed : ℕ := 0) : Verifier F G :=
  { transcript := t.r1csDomainSep, constraints := [], numVars := 0, V := [], deferred := [], pending := none, seed := seed }

/-- `Verifier::commit`, verifier.rs:124-132. -/
def commit (s : Verifier F G) (c : G) : Var × Verifier F G :=
  (.committed s.V.length, { s with transcript := s.transcript.commitPoint "V" c, V := s.V ++ [c] })

/-- `Verifier::_allocate_vars`, verifier.rs:538-548. -/
def allocateVars (s : Verifier F G) : (Var × Var × Var) × Verifier F G :=
  ((.left s.numVars, .right s.numVars, .out s.numVars), { s with numVars := s.numVars + 1 })

/-- `constrain`, verifier.rs:501-506. -/
def constrain (s : Verifier F G) (lc : LC F) : Verifier F G := { s with constraints := s.constraints ++ [lc] }

/-- `multiply`, verifier.rs:463-477. -/
def multiply (s : Verifier F G) (left right : LC F) : (Var × Var × Var) × Verifier F G :=
  let ((lv, rv, ov), s) := s.allocateVars
  let s := s.constrain ⟨left.terms ++ [(lv, -1)]⟩
  let s := s.constrain ⟨right.terms ++ [(rv, -1)]⟩
  ((lv, rv, ov), s)

/-- `allocate`, verifier.rs:479-492 (the assignment is ignored). -/
def allocate (s : Verifier F G) (_ : Option F) : Except R1CSError Var × Verifier F G :=
  match s.pending with
  | none => (.ok (.left s.numVars), { s with numVars := s.numVars + 1, pending := some s.numVars })
  | some i => (.ok (.right i), { s with pending := none })

/-- `allocate_multiplier`, verifier.rs:494-499. -/
def allocateMultiplier (s : Verifier F G) (_ : Option (F × F)) :
    Except R1CSError (Var × Var × Var) × Verifier F G :=
  (.ok s.allocateVars.1, s.allocateVars.2)

/-- `allocate_single`, verifier.rs:520-533. -/
def allocateSingle (s : Verifier F G) (_ : Option F) : Except R1CSError (Var × Option Var) × Verifier F G :=
  match s.allocate none with
  | (.error e, s) => (.error e, s)
  | (.ok (.left i), s) => (.ok (.left i, none), s)
  | (.ok (.right i), s) => (.ok (.right i, some (.out i)), s)
  | (.ok _, s) => (.error .formatError, s)

/-- `specify_randomized_constraints`, verifier.rs:508-514. -/
def specify (s : Verifier F G) (cb : Callback F) : Verifier F G := { s with deferred := s.deferred ++ [cb] }

/-- Running a gadget against a verifier: `impl ConstraintSystem for Verifier` (verifier.rs:460-534) and
`impl ConstraintSystem for RandomizingVerifier` (verifier.rs:551-600). -/
def run (env : Env F G) {C : Type} {rnd : Bool} {α : Type} (onSpec : C → Verifier F G → Verifier F G) :
    Prog F C rnd α → Verifier F G → Res (α × Verifier F G)
  | .ret a, s => .ok (a, s)
  | .err e, _ => Res.err e
  | .panic w, _ => Res.panic w
  | .multiply l r k, s => run env onSpec (k (s.multiply l r).1) (s.multiply l r).2
  | .allocate x k, s => run env onSpec (k (s.allocate x).1) (s.allocate x).2
  | .allocateMultiplier x k, s =>
    run env onSpec (k (s.allocateMultiplier x).1) (s.allocateMultiplier x).2
  | .constrain lc k, s => run env onSpec k (s.constrain lc)
  | .specify cb k, s => run env onSpec k (onSpec cb s)
  | .evaluateLc _ k, s => run env onSpec (k none) s
  | .allocateSingle x k, s => run env onSpec (k (s.allocateSingle x).1) (s.allocateSingle x).2
  | .challenge _ label k, s =>
    run env onSpec (k (s.transcript.challengeScalar env.oracle label).1)
      { s with transcript := (s.transcript.challengeScalar env.oracle label).2 }
  | .simplify lc k, s =>
    run env onSpec (k (lc.simplify (env.hashOrd s.seed))) { s with seed := s.seed + 1 }

/-- First-phase run.  src/r1cs/verifier.rs:460-534. -/
def run1 (env : Env F G) {α : Type} (c : Prog1 F α) (s : Verifier F G) : Res (α × Verifier F G) :=
  run env (fun cb s => s.specify cb) c s

/-- Second-phase run (`RandomizingVerifier`).  src/r1cs/verifier.rs:551-600. -/
def run2 (env : Env F G) (c : Callback F) (s : Verifier F G) : Res (Unit × Verifier F G) :=
  run env (fun (e : Empty) _ => e.elim) c s

/-- Running the callbacks in order, verifier.rs:259-261. -/
def runCallbacks (env : Env F G) : List (Callback F) → Verifier F G → Res (Verifier F G)
  | [], s => .ok s
  | cb :: cbs, s =>
    match s.run2 env cb with
    | .ok (_, s) => runCallbacks env cbs s
    | .error e => .error e

/-- `create_randomized_constraints`, verifier.rs:245-264. -/
def createRandomizedConstraints (env : Env F G) (s : Verifier F G) : Res (Verifier F G) :=
  let s := { s with pending := none }
  if s.deferred.length = 0 then
    .ok { s with transcript := s.transcript.r1cs1PhaseDomainSep }
  else
    let cbs := s.deferred
    runCallbacks env cbs { s with transcript := s.transcript.r1cs2PhaseDomainSep, deferred := [] }

end Verifier
end Bp
