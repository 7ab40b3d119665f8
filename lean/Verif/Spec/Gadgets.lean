import Verif.Model.Driver
import Verif.Spec.R1CS
import Verif.Lemmas.CS

/-! # Specification: what it means for a pair `prove_*` / `verify_*` to be complete and sound -/

namespace Bp
variable {F G : Type} [Field F] [AddCommGroup G] [SMul F G]

/-- A prover all of whose constraints are satisfied and mention only variables that exist and whose value is settled (not the right or
output wire of a half-allocated gate). -/
structure Prover.Good (p : Prover F G) : Prop where
  wf : p.WF
  sat : ∀ lc ∈ p.constraints, p.StableLC lc ∧ lc.value p.assignment = 0

/-- Prover and verifier after a common history (`Session`) without randomized constraints, with a satisfied prover. -/
structure Joint (env env' : Env F G) (p : Prover F G) (s : Verifier F G) : Prop where
  session : Session env env' p s
  good : p.Good
  deferred : p.deferred = []

/-- The blinding used for the main value: the caller's, else the first one drawn from the caller's generator. -/
def blindingOf : Option F → Option (ℕ → F) → F
  | some r, _ => r
  | none, some g => g 0
  | none, none => 0

/-- From `p` to `p'`, exactly the (value, blinding) pairs `openings`, giving the points `coms`, and then the publicly known pairs `statics` (whose points
are not returned) were committed. -/
structure Opened (p p' : Prover F G) (openings : List (F × F)) (coms : List G) (statics : List (F × F) := []) : Prop where
  values : p'.v = p.v ++ (openings ++ statics).map Prod.fst
  blindings : p'.vBlinding = p.vBlinding ++ (openings ++ statics).map Prod.snd
  points : coms = openings.map fun q => q.1 • p.g + q.2 • p.h
  g : p'.g = p.g
  h : p'.h = p.h

/-- The pair (`dp`, `dv`) is complete from every common history that left the pending gate `pd`: proving succeeds and returns the Pedersen
commitments to `openings`, verifying with them succeeds, both stay in a common satisfied state, and `m` gates are added.  `statics` are publicly known values
committed by both sides on top (e.g. a padding constant). -/
def HonestPair (env env' : Env F G) (pd : Option ℕ) (m : ℕ) (openings : List (F × F)) (dp : Drv (Prover F G) (List G)) (dv : List G → Drv (Verifier F G) Unit)
    (statics : List (F × F) := []) : Prop :=
  ∀ p s, Joint env env' p s → p.pending = pd → ∃ coms p' s', dp p = (.ok coms, p') ∧ dv coms s = (.ok (), s') ∧ Joint env env' p' s' ∧
    p'.pending = pd ∧ p'.aL.length = p.aL.length + m ∧ Opened p p' openings coms statics

/-- `dv`, which uses its first `k` commitments, is sound for the statement `R` about the values behind them: whenever it accepts the commitments
`coms`, every assignment that satisfies all gates and all constraints then present gives the commitments values for which `R` holds.  `dv` only adds
the commitments and constraints. -/
def SoundFor (k : ℕ) (dv : List G → Drv (Verifier F G) Unit) (R : (ℕ → F) → Prop) : Prop :=
  ∀ coms s s', dv coms s = (.ok (), s') → k ≤ coms.length ∧ s.constraints <+: s'.constraints ∧ s.V ++ coms.take k <+: s'.V ∧
    ∀ σ : Assignment F, σ.Gates → σ.Sat s'.constraints → R (fun i => σ.committed (s.V.length + i))

/-- The same when `dv` additionally commits, right after its `k` commitments, to the publicly known values `statics` with blinding 0 (points `points`): the statement `R` is
about assignments that give these their known values. -/
def SoundForWith (k : ℕ) (statics : List F) (points : List G) (dv : List G → Drv (Verifier F G) Unit) (R : (ℕ → F) → Prop) : Prop :=
  ∀ coms s s', dv coms s = (.ok (), s') → k ≤ coms.length ∧ s.constraints <+: s'.constraints ∧ s.V ++ coms.take k ++ points <+: s'.V ∧
    ∀ σ : Assignment F, σ.Gates → σ.Sat s'.constraints → (∀ i x, statics[i]? = some x → σ.committed (s.V.length + k + i) = x) →
      R (fun i => σ.committed (s.V.length + i))

/-- `gen_proof` with `dp` succeeds, returning commitments to `openings`, and `verify_proof` with `dv` accepts the result: for every label, all generators (at least the number of gates
rounded up to a power of two), all coins, all batching scalars and every oracle that never returns 0, on both sides whatever the hash seeds. -/
def EndToEnd [DecidableEq G] (env env' : Env F G) (m : ℕ) (openings : List (F × F)) (dp : Drv (Prover F G) (List G)) (dv : List G → Drv (Verifier F G) Unit) : Prop :=
  ∀ (label : String) (g h : G) (c : Coins F) (Gs Hs : List G) (r : F), nextPowerOfTwo m ≤ Gs.length → nextPowerOfTwo m ≤ Hs.length →
    ∃ pr coms, genProof env label g h c Gs Hs dp = .ok (pr, coms) ∧ verifyProof env' label (dv coms) pr g h Gs Hs r = .ok () ∧
      coms = openings.map fun q => q.1 • g + q.2 • h

end Bp
