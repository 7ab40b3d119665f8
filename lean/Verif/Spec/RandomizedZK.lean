import Verif.Spec.RandomOracle
import Verif.Spec.Log

/-! # Specification: zero knowledge of proofs with randomized constraints

As in Spec/RandomOracle.lean, for statements that may have callbacks (`specify_randomized_constraints`).  The callbacks draw challenges and create gates, for which the prover needs more random coins; how many must not depend on the
challenges. -/

namespace Bp
variable {F G : Type} [Field F] [AddCommGroup G] [Module F G]

/-- The number of challenges that the callbacks draw and of gates that they create, in a run where all challenges are zero (and where the points are zero).  Without callbacks both are zero. -/
def Verifier.secondPhase (s : Verifier F G) : ℕ × ℕ :=
  match (s.start blankProof).createRandomizedConstraints (Env.std fun _ => 0) with
  | .ok s0 => ((draws s0.transcript).length - (draws s.transcript).length, s0.numVars - s.numVars)
  | .error _ => (0, 0)

/-- The number of challenges of a proof: those of the callbacks, `y`, `z`, `u`, `x`, `w`, and one for every round of the inner-product proof. -/
def Verifier.allDraws (s : Verifier F G) : ℕ := s.secondPhase.1 + 5 + Nat.clog 2 (s.numVars + s.secondPhase.2)

namespace Distinguisher

/-- With which probability do they say yes, when the proofs are made by `Prover.prove`?  A new question gets a random answer; the coins of the prover are random. -/
noncomputable def real2 (env : Env F G) (Gs Hs : List G) : Distinguisher F G → Answered F G → ℚ
  | decide b, _ => if b then 1 else 0
  | ask q next, K => match K q with
    | some a => (next a).real2 env Gs Hs K
    | none => avg fun a : F => (next a).real2 env Gs Hs (K.add q a)
  | prove p s next, K => avg fun x : (Fin s.allDraws → F) × { c : Coins F // c.Drawn s.numVars s.secondPhase.2 } =>
    match p.prove { env with oracle := K.over (nextCoins s.transcript (List.ofFn x.1)) } x.2.1 Gs Hs with
    | .ok (pr, T) => (next pr).real2 env Gs Hs (K.record (K.over (nextCoins s.transcript (List.ofFn x.1))) s.transcript T)
    | .error _ => 0

/-- With which probability do they say yes, when the proofs are simulated?  The simulator draws the challenges (also those of the callbacks), makes the proof, and makes the oracle answer with these challenges. The witness is not
used. -/
noncomputable def simulated2 (env : Env F G) (g h : G) (Gs Hs : List G) : Distinguisher F G → Answered F G → ℚ
  | decide b, _ => if b then 1 else 0
  | ask q next, K => match K q with
    | some a => (next a).simulated2 env g h Gs Hs K
    | none => avg fun a : F => (next a).simulated2 env g h Gs Hs (K.add q a)
  | prove _ s next, K => avg fun x : (Fin s.allDraws → F) × { sc : SimCoins F G // sc.Drawn s.numVars s.secondPhase.2 } =>
    match s.simulate { env with oracle := nextCoins s.transcript (List.ofFn x.1) } g h Gs Hs x.2.1 with
    | .ok (pr, T) => (next pr).simulated2 env g h Gs Hs (K.record (nextCoins s.transcript (List.ofFn x.1)) s.transcript T)
    | .error _ => 0

end Distinguisher

/-- `p` has built the same first phase as `s`, for the same commitments; whatever the challenges, the callbacks succeed, the prover knows values that satisfy all constraints and gates, and the numbers of challenges and gates are
those of the dry run; there are enough generators.  The transcript may be anything; it may have been used for other proofs. -/
structure Provable2 (g h : G) (Gs Hs : List G) (p : Prover F G) (s : Verifier F G) : Prop where
  wf : p.WF
  inStep : InStep p s
  g_eq : p.g = g
  h_eq : p.h = h
  second : ∀ (env : Env F G) (T : Transcript F G), ∃ p2, ({ p with transcript := T } : Prover F G).createRandomizedConstraints env = .ok p2 ∧ p2.Satisfied ∧
    (∀ lc ∈ p2.constraints, ∀ t ∈ lc.terms, Var.InRange p2.aL.length p2.v.length t.1) ∧ p2.aL.length = p.aL.length + s.secondPhase.2 ∧ (draws p2.transcript).length = (draws T).length + s.secondPhase.1
  lenG : nextPowerOfTwo (p.aL.length + s.secondPhase.2) ≤ Gs.length
  lenH : nextPowerOfTwo (p.aL.length + s.secondPhase.2) ≤ Hs.length

/-- At most `Q` questions and at most `P` proofs, all of provable statements whose proofs have at most `D` challenges. -/
def Distinguisher.Within2 (g h : G) (Gs Hs : List G) (D : ℕ) : Distinguisher F G → ℕ → ℕ → Prop
  | .decide _, _, _ => True
  | .ask _ next, Q, P => ∃ Q', Q = Q' + 1 ∧ ∀ a, (next a).Within2 g h Gs Hs D Q' P
  | .prove p s next, Q, P => Provable2 g h Gs Hs p s ∧ s.allDraws ≤ D ∧ ∃ P', P = P' + 1 ∧ ∀ pr, (next pr).Within2 g h Gs Hs D Q P'

end Bp
