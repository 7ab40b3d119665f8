import Verif.Spec.Simulator
import Verif.Spec.Interactive
import Verif.Lemmas.CS
import Mathlib.Algebra.BigOperators.Finprod
import Mathlib.Data.Rat.Defs

/-! # Specification: zero knowledge of the proofs as they are made, with challenges computed from the log

Somebody who does not trust the provers may ask the random oracle anything, and may ask for proofs of statements of their own choice (with witnesses of their own choice), as often and in whatever order they like.
In one world the proofs are those of the code.  In the other world they are made by `Verifier.simulate` (C56) from the statement alone, for challenges drawn beforehand, which then become the answers of the oracle.
Zero knowledge says that the two worlds can hardly be told apart. -/

namespace Bp
variable {F G : Type} [Field F] [AddCommGroup G] [Module F G]

/-- The average of `f`. -/
noncomputable def avg {α : Type} (f : α → ℚ) : ℚ := (∑ᶠ a, f a) / Nat.card α

/-- Somebody who tries to tell the worlds apart: they decide, or ask the oracle the question `q`, or ask for a proof of the statement of `s` (a verifier with its circuit and commitments), for which they give the prover `p`, who
has a witness. -/
inductive Distinguisher (F G : Type) where
  | decide (b : Bool)
  | ask (q : Transcript F G) (next : F → Distinguisher F G)
  | prove (p : Prover F G) (s : Verifier F G) (next : R1CSProof F G → Distinguisher F G)

/-- The questions that the oracle has answered, and the answers. -/
abbrev Answered (F G : Type) := Transcript F G → Option F

/-- Answered answers are repeated, other questions are answered by `O`. -/
def Answered.over (K : Answered F G) (O : Oracle F G) : Oracle F G := fun t => (K t).getD (O t)

open Classical in
/-- The oracle has answered `q`. -/
noncomputable def Answered.add (K : Answered F G) (q : Transcript F G) (a : F) : Answered F G := fun t => if t = q then some a else K t

/-- The challenges drawn along the log `T` after its part `t0`. -/
def newDraws (t0 T : Transcript F G) : List (Transcript F G) := drawsFrom t0 (T.drop t0.length)

/-- The challenges that will be drawn when the log is `t0` are `w`, one after the other, whatever is logged between them. -/
def nextCoins (t0 : Transcript F G) (w : List F) : Oracle F G := publicCoins (List.replicate (draws t0).length 0 ++ w)

open Classical in
/-- The oracle has answered all the challenges along the log `T` after its part `t0`, as `O` does.  What it answered there before is forgotten. -/
noncomputable def Answered.record (K : Answered F G) (O : Oracle F G) (t0 T : Transcript F G) : Answered F G := fun t => if t ∈ newDraws t0 T then some (O t) else K t

namespace Distinguisher

/-- With which probability do they say yes, when the proofs are made by `Prover.prove`?  A new question gets a random answer; the coins of the prover are random. -/
noncomputable def real (env : Env F G) (Gs Hs : List G) : Distinguisher F G → Answered F G → ℚ
  | decide b, _ => if b then 1 else 0
  | ask q next, K => match K q with
    | some a => (next a).real env Gs Hs K
    | none => avg fun a : F => (next a).real env Gs Hs (K.add q a)
  | prove p s next, K => avg fun x : (Fin s.numDraws → F) × { c : Coins F // c.Drawn s.numVars 0 } =>
    match p.prove { env with oracle := K.over (nextCoins s.transcript (List.ofFn x.1)) } x.2.1 Gs Hs with
    | .ok (pr, T) => (next pr).real env Gs Hs (K.record (K.over (nextCoins s.transcript (List.ofFn x.1))) s.transcript T)
    | .error _ => 0

/-- With which probability do they say yes, when the proofs are simulated?  The simulator draws the challenges, makes the proof, and makes the oracle answer with these challenges. The witness is not used. -/
noncomputable def simulated (env : Env F G) (g h : G) (Gs Hs : List G) : Distinguisher F G → Answered F G → ℚ
  | decide b, _ => if b then 1 else 0
  | ask q next, K => match K q with
    | some a => (next a).simulated env g h Gs Hs K
    | none => avg fun a : F => (next a).simulated env g h Gs Hs (K.add q a)
  | prove _ s next, K => avg fun x : (Fin s.numDraws → F) × { sc : SimCoins F G // sc.Drawn s.numVars 0 } =>
    match s.simulate { env with oracle := nextCoins s.transcript (List.ofFn x.1) } g h Gs Hs x.2.1 with
    | .ok (pr, T) => (next pr).simulated env g h Gs Hs (K.record (nextCoins s.transcript (List.ofFn x.1)) s.transcript T)
    | .error _ => 0

end Distinguisher

/-- `p` has built the same circuit as `s`, for the same commitments, and knows values that satisfy it; there are no randomized constraints (as in all gadgets of the code), and there are enough generators.
Their transcript may be anything; it may have been used for other proofs. -/
structure Provable (g h : G) (Gs Hs : List G) (p : Prover F G) (s : Verifier F G) : Prop where
  wf : p.WF
  inStep : InStep p s
  g_eq : p.g = g
  h_eq : p.h = h
  satisfied : p.Satisfied
  inRange : ∀ lc ∈ p.constraints, ∀ t ∈ lc.terms, Var.InRange p.aL.length p.v.length t.1
  onePhase : p.deferred = []
  lenG : nextPowerOfTwo p.aL.length ≤ Gs.length
  lenH : nextPowerOfTwo p.aL.length ≤ Hs.length

/-- At most `Q` questions and at most `P` proofs, all of provable statements whose proofs have at most `D` challenges. -/
def Distinguisher.Within (g h : G) (Gs Hs : List G) (D : ℕ) : Distinguisher F G → ℕ → ℕ → Prop
  | .decide _, _, _ => True
  | .ask _ next, Q, P => ∃ Q', Q = Q' + 1 ∧ ∀ a, (next a).Within g h Gs Hs D Q' P
  | .prove p s next, Q, P => Provable g h Gs Hs p s ∧ s.numDraws ≤ D ∧ ∃ P', P = P' + 1 ∧ ∀ pr, (next pr).Within g h Gs Hs D Q P'

/-- They only differ in the witnesses they give. -/
inductive Distinguisher.SameStatements : Distinguisher F G → Distinguisher F G → Prop where
  | decide (b : Bool) : SameStatements (.decide b) (.decide b)
  | ask (q : Transcript F G) {next next' : F → Distinguisher F G} (h : ∀ a, SameStatements (next a) (next' a)) : SameStatements (.ask q next) (.ask q next')
  | prove (p p' : Prover F G) (s : Verifier F G) {next next' : R1CSProof F G → Distinguisher F G} (h : ∀ pr, SameStatements (next pr) (next' pr)) : SameStatements (.prove p s next) (.prove p' s next')

end Bp
