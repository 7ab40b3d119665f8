import Verif.Spec.FiatShamir
import Mathlib.LinearAlgebra.Span.Basic

/-! # Specification: a proof used elsewhere

A proof that has been made for one transcript is sent, as it is, to a verifier with another transcript: another label, or other commitments, and whatever statement. -/

namespace Bp
variable {F G : Type} [Field F] [AddCommGroup G] [Module F G]

/-- The blinding generator is not a combination of the others. -/
def Hiding (F : Type) {G : Type} [Field F] [AddCommGroup G] [Module F G] (g h : G) (Gs Hs : List G) : Prop := h ∉ Submodule.span F {P | P = g ∨ P ∈ Gs ∨ P ∈ Hs}

/-- The blindings of the first commitments of the prover are not all zero.  (They are drawn uniformly: this fails once in `|F|^3`.) -/
def Coins.Blind (c : Coins F) : Prop := c.iB1 ≠ 0 ∨ c.oB1 ≠ 0 ∨ c.sB1 ≠ 0

/-- Somebody who asks the oracle and then chooses the verifier to whom the proof is sent. -/
structure Replayer (F G : Type) where
  ask : List F → Transcript F G
  target : List F → Verifier F G

/-- The questions: `Q` of the replayer, then those of the verifier. -/
def Replayer.game (A : Replayer F G) (pr : R1CSProof F G) (Q : ℕ) (cs : List F) : Transcript F G :=
  if cs.length < Q then A.ask cs else (draws ((A.target (cs.take Q)).proofLog pr)).getD (cs.length - Q) []

open Classical in
/-- The oracle that has given the answers `O0` to the draws along the log `T`, and otherwise answers as `O`. -/
noncomputable def seen (O0 : Oracle F G) (T : Transcript F G) (O : Oracle F G) : Oracle F G := fun t => if t ∈ draws T then O0 t else O t

/-- A verifier (without randomized constraints) whose transcript is as `Verifier::new` and `commit` leave it: a label, the domain separator, the commitments. -/
def Verifier.Labelled (s : Verifier F G) (label : String) : Prop := s.deferred = [] ∧ s.transcript = .init label :: .domSep "r1cs v1" :: s.V.map (TEvent.point "V")

/-- The replayer, with the answers `cs`, has found a verifier that accepts the proof with the random scalar `r`.  The oracle has been used for the log `T` of the proof before. -/
def Replayer.Succeeds [DecidableEq G] (A : Replayer F G) (env : Env F G) (pr : R1CSProof F G) (T : Transcript F G) (g h : G) (Gs Hs : List G) (Q : ℕ) (cs : List F) (r : F) : Prop :=
  ∃ O T', Answers (A.game pr Q) O cs ∧ (A.target (cs.take Q)).verify { env with oracle := seen env.oracle T O } pr g h Gs Hs r = .ok T'

/-- With how many answers (`Q` for the replayer, `D` for the verifier) and scalars of the verifier does that happen? -/
noncomputable def Replayer.successes [DecidableEq G] (A : Replayer F G) (env : Env F G) (pr : R1CSProof F G) (T : Transcript F G) (g h : G) (Gs Hs : List G) (Q D : ℕ) : ℕ :=
  Nat.card {p : (Fin (Q + D) → F) × F // A.Succeeds env pr T g h Gs Hs Q (List.ofFn p.1) p.2}

end Bp
