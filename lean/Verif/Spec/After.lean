import Verif.Spec.Replay
import Verif.Spec.Log

/-! # Specification: forging after proofs have been seen

A prover who has been given proofs, made by others with the same oracle, tries to make a verifier accept a false statement.  The answers of the oracle to the draws of these proofs are fixed already. -/

namespace Bp
variable {F G : Type} [Field F] [AddCommGroup G] [Module F G]

open Classical in
/-- The oracle that has given the answers `O0` to the draws along the logs `Ts`, and otherwise answers as `O`. -/
noncomputable def known (O0 : Oracle F G) (Ts : List (Transcript F G)) (O : Oracle F G) : Oracle F G := fun t => if ∃ T ∈ Ts, t ∈ draws T then O0 t else O t

/-- A proof that somebody has made with the code's `prove`, for a transcript with some label.  (The prover has been filled by any calls of its interface, and need not know a true statement.) -/
structure Made (env : Env F G) (g h : G) (Gs Hs : List G) where
  label : String
  prover : Prover F G
  coins : Coins F
  proof : R1CSProof F G
  log : Transcript F G
  reach : prover.Reach env g h [.init label]
  made : prover.prove env coins Gs Hs = .ok (proof, log)

/-- The commitments of such a proof. -/
def Made.commitments {env : Env F G} {g h : G} {Gs Hs : List G} (q : Made env g h Gs Hs) : List G := List.zipWith (commitScalar g h) q.prover.v q.prover.vBlinding

/-- After the proofs with the logs `Ts` have been made, the prover chooses `m` commitments of which the claim is false, and the verifier accepts.  (Compare `Forger.Forges`.  The prover may depend on the proofs in any way.) -/
def Forger.ForgesAfter [DecidableEq G] (A : Forger F G) (Ts : List (Transcript F G)) (env : Env F G) (label : String) (dv : List G → Drv (Verifier F G) Unit) (m : ℕ) (claim : List G → Prop) (g h : G) (Gs Hs : List G) (Q : ℕ) (cs : List F)
    (r : F) : Prop :=
  (A.coms (cs.take Q)).length = m ∧ ¬ claim (A.coms (cs.take Q)) ∧ ∃ O s T, dv (A.coms (cs.take Q)) (Verifier.new [.init label]) = (.ok (), s) ∧ Answers (A.game s Q) O cs ∧
    s.verify { env with oracle := known env.oracle Ts O } (A.out (cs.take Q)) g h Gs Hs r = .ok T

/-- With how many sequences of answers (`Q` for the prover, `D` for the verifier) and random scalars of the verifier does that happen? -/
noncomputable def Forger.forgingAfter [DecidableEq G] (A : Forger F G) (Ts : List (Transcript F G)) (env : Env F G) (label : String) (dv : List G → Drv (Verifier F G) Unit) (m : ℕ) (claim : List G → Prop) (g h : G) (Gs Hs : List G)
    (Q D : ℕ) : ℕ :=
  Nat.card {p : (Fin (Q + D) → F) × F // A.ForgesAfter Ts env label dv m claim g h Gs Hs Q (List.ofFn p.1) p.2}

end Bp
