import Verif.Spec.FiatShamir
import Verif.Spec.Flatten

/-! # Specification: statements with a public parameter that the log does not contain

The expected hash of a preimage statement and the root of a Merkle statement enter the constraints, and nothing else: they are not written to the transcript, so no challenge depends on them. -/

namespace Bp
variable {F G : Type} [Field F] [AddCommGroup G] [Module F G]

/-- The parameter of the statement is the constant of its last constraint, and occurs nowhere else: not in the log, not in the other constraints. -/
def Closes (dv : F → List G → Drv (Verifier F G) Unit) : Prop :=
  ∀ a coms s s', dv a coms s = (.ok (), s') → ∃ (pre : List (LC F)) (lc : LC F), s'.constraints = pre ++ [lc.sub (LC.ofScalar a)] ∧
    ∀ a', dv a' coms s = (.ok (), { s' with constraints := pre ++ [lc.sub (LC.ofScalar a')] })

/-- A prover of its own making: it takes the verifier's log and constraints, openings of the commitments, and any left and right wires at all; its outputs are the products. -/
def Verifier.madeUp (s : Verifier F G) (g h : G) (openings : List (F × F)) (aL aR : List F) : Prover F G :=
  { g := g, h := h, transcript := s.transcript, constraints := s.constraints, aL := aL, aR := aR, aO := List.zipWith (· * ·) aL aR, v := openings.map Prod.fst, vBlinding := openings.map Prod.snd,
    deferred := [], pending := s.pending, seed := s.seed }

/-- The log at which the challenges of a proof of that prover begin (after its first messages). -/
def Verifier.firstLog (s : Verifier F G) (g h : G) (openings : List (F × F)) (aL aR : List F) (c : Coins F) (Gs Hs : List G) : Transcript F G :=
  ((s.madeUp g h openings aL aR).start c Gs Hs).transcript.r1cs1PhaseDomainSep

/-- The parameter that makes up for what the wires violate, once the challenge `z` is known. -/
def fitting (a z : F) (constraints : List (LC F)) (σ : Assignment F) : F := a + zCombination z constraints σ / z ^ constraints.length

/-- The code's `prove`, run on wires that are all zero, makes a proof (with whatever coins and challenges, as long as no challenge is in `bad`) that the verifier accepts for a parameter other than `a`, the one computed from `z`. -/
def ZeroForges [DecidableEq G] (dv : F → List G → Drv (Verifier F G) Unit) (a : F) (openings statics : List (F × F)) (label : String) (env : Env F G) (g h : G) (Gs Hs : List G) (bad : Finset F) : Prop :=
  ∃ s : Verifier F G, dv a (openings.map fun o => commitScalar g h o.1 o.2) (Verifier.new [.init label]) = (.ok (), s) ∧ ∀ (O : Oracle F G) (c : Coins F), (∀ t, O t ∉ bad) →
    ∃ pr T a' s', (s.madeUp g h (openings ++ statics) (List.replicate s.numVars 0) (List.replicate s.numVars 0)).prove { env with oracle := O } c Gs Hs = .ok (pr, T) ∧
      a' = fitting a (drawn O (s.firstLog g h (openings ++ statics) (List.replicate s.numVars 0) (List.replicate s.numVars 0) c Gs Hs) pr).z s.constraints
        (s.madeUp g h (openings ++ statics) (List.replicate s.numVars 0) (List.replicate s.numVars 0)).assignment ∧
      a' ≠ a ∧ dv a' (openings.map fun o => commitScalar g h o.1 o.2) (Verifier.new [.init label]) = (.ok (), s') ∧ ∀ r, s'.verify { env with oracle := O } pr g h Gs Hs r = .ok T

/-- The prover chooses the parameter too: with the answers `cs` it proves the statement for the parameter `pick`, which the verifier uses (together with the label that belongs to it), and the claim is false. -/
def Forger.ForgesFor [DecidableEq G] {J : Type} (A : Forger F G) (pick : List F → J) (env : Env F G) (label : J → String) (dv : J → List G → Drv (Verifier F G) Unit) (m : ℕ) (claim : J → List G → Prop)
    (g h : G) (Gs Hs : List G) (Q : ℕ) (cs : List F) (r : F) : Prop :=
  A.Forges env (label (pick (cs.take Q))) (dv (pick (cs.take Q))) m (claim (pick (cs.take Q))) g h Gs Hs Q cs r

/-- With how many answers (`Q` for the prover, `D` for the verifier) and scalars of the verifier does that happen? -/
noncomputable def Forger.forgingFor [DecidableEq G] {J : Type} (A : Forger F G) (pick : List F → J) (env : Env F G) (label : J → String) (dv : J → List G → Drv (Verifier F G) Unit) (m : ℕ) (claim : J → List G → Prop)
    (g h : G) (Gs Hs : List G) (Q D : ℕ) : ℕ :=
  Nat.card {p : (Fin (Q + D) → F) × F // A.ForgesFor pick env label dv m claim g h Gs Hs Q (List.ofFn p.1) p.2}

end Bp
