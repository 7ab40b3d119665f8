import Verif.Spec.FiatShamir
import Verif.Spec.Ipp

/-! # The game of the stand-alone inner-product argument

A prover who may ask the oracle chooses the commitment `P` and a proof; the verifier logs `P` (or does not) and calls `verify_ipp`. -/

namespace Bp
variable {F G : Type} [Field F] [AddCommGroup G] [SMul F G]

/-- The statement of the inner-product argument for vectors of length `n`: `P` commits to two vectors and to their inner product. -/
def IppClaim (n : ℕ) (Gf Hf : List F) (Q : G) (Gs Hs : List G) (P : G) : Prop :=
  ∃ a b : List F, a.length = n ∧ b.length = n ∧ P = msm (List.zipWith (· * ·) a Gf) Gs + msm (List.zipWith (· * ·) b Hf) Hs + dot a b • Q

/-- A prover: what it asks next after some answers, and the commitment and the proof it ends with. -/
structure IppForger (F G : Type) where
  ask : List F → Transcript F G
  com : List F → G
  out : List F → IppProof F G

/-- The log of a proof, if the log is `t` before it. -/
def ippLog (t : Transcript F G) (n : ℕ) (pr : IppProof F G) : Transcript F G := t.ippDomainSep n ++ roundsLog (pr.L.zip pr.R)

/-- The questions of the game: `q` questions of the prover, then all draws along the log of the verifier, who has logged the commitment after `t`. -/
def IppForger.game (A : IppForger F G) (t : Transcript F G) (l : String) (n q : ℕ) (cs : List F) : Transcript F G :=
  if cs.length < q then A.ask cs else (draws (ippLog (t.commitPoint l (A.com (cs.take q))) n (A.out (cs.take q)))).getD (cs.length - q) []

/-- With the answers `cs` the verifier accepts, although the statement is false. -/
def IppForger.Forges [DecidableEq G] (A : IppForger F G) (env : Env F G) (t : Transcript F G) (l : String) (n : ℕ) (Gf Hf : List F) (Q : G) (Gs Hs : List G) (q : ℕ) (cs : List F) : Prop :=
  ¬ IppClaim n Gf Hf Q Gs Hs (A.com (cs.take q)) ∧ ∃ O T, Answers (A.game t l n q) O cs ∧
    verifyIpp { env with oracle := O } n (t.commitPoint l (A.com (cs.take q))) Gf Hf (A.com (cs.take q)) Q Gs Hs (A.out (cs.take q)).a (A.out (cs.take q)).b (A.out (cs.take q)).L (A.out (cs.take q)).R = .ok T

/-- With how many of the sequences of answers (`q` for the prover, `D` for the verifier) does that happen? -/
noncomputable def IppForger.forging [DecidableEq G] (A : IppForger F G) (env : Env F G) (t : Transcript F G) (l : String) (n : ℕ) (Gf Hf : List F) (Q : G) (Gs Hs : List G) (q D : ℕ) : ℕ :=
  Nat.card {cs : Fin (q + D) → F // A.Forges env t l n Gf Hf Q Gs Hs q (List.ofFn cs)}

end Bp
