import Verif.Spec.RandomOracle
import Verif.Spec.Compose
import Verif.Spec.Soundness2

/-! # Specification: several proofs, one after the other, over one transcript

`Prover::new` and `Verifier::new` borrow the caller's transcript (src/r1cs/prover.rs:84-100, src/r1cs/verifier.rs:97-110), so the caller may go on with it for the next proof. -/

namespace Bp
variable {F G : Type} [Field F] [AddCommGroup G] [Module F G]

/-- Prove the statements one after the other: each new prover continues the transcript that the previous proof has left.  Returns the commitments and the proof of each statement, and the transcript. -/
def proveChain (env : Env F G) (g h : G) (Gs Hs : List G) : List (Part F G × Coins F) → Transcript F G → Res (List (List G × R1CSProof F G) × Transcript F G)
  | [], t => .ok ([], t)
  | (a, c) :: rest, t => match a.dp (Prover.new g h t 0) with
    | (.error e, _) => .error e
    | (.ok coms, p) => match p.prove env c Gs Hs with
      | .error e => .error e
      | .ok (pr, t') => match proveChain env g h Gs Hs rest t' with
        | .error e => .error e
        | .ok (l, T) => .ok ((coms, pr) :: l, T)

/-- What one verifier of the chain does: it builds its circuit, and checks the proof with a random scalar. -/
structure Check (F G : Type) where
  dv : Drv (Verifier F G) Unit
  proof : R1CSProof F G
  r : F

/-- Check the proofs one after the other: each new verifier continues the transcript that the previous check has left. -/
def verifyChain [DecidableEq G] (env : Env F G) (g h : G) (Gs Hs : List G) : List (Check F G) → Transcript F G → Res (Transcript F G)
  | [], t => .ok t
  | a :: rest, t => match a.dv (Verifier.new t 0) with
    | (.error e, _) => .error e
    | (.ok _, s) => match s.verify env a.proof g h Gs Hs a.r with
      | .error e => .error e
      | .ok t' => verifyChain env g h Gs Hs rest t'

/-- The checks for the proofs `out` of the statements `parts`, with the random scalars `rs`. -/
def checksOf (parts : List (Part F G × Coins F)) (out : List (List G × R1CSProof F G)) (rs : List F) : List (Check F G) :=
  (parts.zip (out.zip rs)).map fun x => ⟨x.1.1.dv x.2.1.1, x.2.1.2, x.2.2⟩

/-- The log of a list of proofs (without randomized constraints), each with its commitments. -/
def chainLog : Transcript F G → List (List G × R1CSProof F G) → Transcript F G
  | t, [] => t
  | t, (V, pr) :: l => chainLog (fullLog t V pr false [] (2 ^ pr.ipp.L.length)) l

/-- The proof without the final scalars of the inner-product argument (the only part that is not logged). -/
def R1CSProof.withFinal (pr : R1CSProof F G) (a b : F) : R1CSProof F G := { pr with ipp := { pr.ipp with a := a, b := b } }

/-- The linear relation between the generators that one gets from two different pairs of final scalars of one proof, with the challenges `ch` and the challenges `us` of the rounds. -/
def R1CSProof.finalRelation (pr : R1CSProof F G) (n1 : ℕ) (ch : Chals F) (us : List F) (a b : F) : GenRep F :=
  (fun i => (pr.ipp.a - a) * (foldCoeff us i * ufac n1 ch.u i), fun i => (pr.ipp.b - b) * (foldCoeff (us.map (·⁻¹)) i * (vpow ch.y⁻¹ i * ufac n1 ch.u i)), (pr.ipp.a * pr.ipp.b - a * b) * ch.w, 0)

end Bp
