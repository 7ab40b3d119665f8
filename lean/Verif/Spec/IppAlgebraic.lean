import Verif.Spec.Algebraic
import Verif.Spec.IppGame

/-! # The game of the stand-alone inner-product argument, for provers that make their points as combinations of the generators -/

namespace Bp
variable {F G M : Type} [Field F]

/-- What the verifier sees of a prover that calculates with combinations. -/
def IppForger.mapG (f : M → G) (A : IppForger F M) : IppForger F G where
  ask cs := (A.ask cs).mapG f
  com cs := f (A.com cs)
  out cs := (A.out cs).mapG f

section
variable [AddCommGroup M] [SMul F M]

/-- What `verify_ipp` (src/ipp.rs:204-260) compares with `P`: the same calculation, without the comparison, and the log. -/
def ippCalc (env : Env F M) (n : ℕ) (t : Transcript F M) (Gf Hf : List F) (Q : M) (Gs Hs : List M) (a b : F) (L R : List M) : Res (M × Transcript F M) := do
  let ((uSq, uInvSq, s), t) ←
    match verificationScalars env L R n t with
    | .ok x => Except.ok x
    | .error _ => Res.panic "unwrap of verification_scalars"
  let gs := (List.zipWith (fun g si => (a * si) * g) Gf s).take Gs.length
  let hs := List.zipWith (fun h si => (b * si) * h) Hf s.reverse
  let expected ← multiScalarMul ([a * b] ++ gs ++ hs ++ uSq.map (fun u => -u) ++ uInvSq.map (fun u => -u)) ([Q] ++ Gs ++ Hs ++ L ++ R)
  return (expected, t)

variable [AddCommGroup G] [SMul F G]

/-- `ρ` is a combination, different from the trivial one, that is the identity.  It is the difference of the commitment `P` and of what the verifier calculates from the proof, when both are calculated with combinations, or the
difference of two combinations (for the same point) that the prover has named in its questions `qs` or in the log of its proof. -/
def IppRelation (φ : M → G) (env : Env F G) (n : ℕ) (t : Transcript F M) (Gf Hf : List F) (P Q : M) (Gs Hs : List M) (pr : IppProof F M) (qs : List (Transcript F M)) (ρ : M) : Prop :=
  ρ ≠ 0 ∧ φ ρ = 0 ∧ ∃ p' T, ippCalc (Env.pull φ env) n t Gf Hf Q Gs Hs pr.a pr.b pr.L pr.R = .ok (p', T) ∧
    (ρ = p' - P ∨ ∃ p p', p ∈ (T :: qs).flatMap Transcript.points ∧ p' ∈ (T :: qs).flatMap Transcript.points ∧ ρ = p - p')

/-- With the answers `cs` the verifier, that sees the points, accepts, although the statement is false of the combination that is the commitment, and no relation is found. -/
def IppForger.Fools [DecidableEq G] (φ : M → G) (A : IppForger F M) (env : Env F G) (t : Transcript F M) (l : String) (n : ℕ) (Gf Hf : List F) (Q : M) (Gs Hs : List M) (q : ℕ) (cs : List F) : Prop :=
  ¬ IppClaim n Gf Hf Q Gs Hs (A.com (cs.take q)) ∧ ∃ O T, Answers ((A.mapG φ).game (t.mapG φ) l n q) O cs ∧
    verifyIpp { env with oracle := O } n (Transcript.commitPoint (t.mapG φ) l (φ (A.com (cs.take q)))) Gf Hf (φ (A.com (cs.take q))) (φ Q) (Gs.map φ) (Hs.map φ) (A.out (cs.take q)).a (A.out (cs.take q)).b
      ((A.out (cs.take q)).L.map φ) ((A.out (cs.take q)).R.map φ) = .ok T ∧
    ∀ ρ, ¬ IppRelation φ { env with oracle := O } n (t.commitPoint l (A.com (cs.take q))) Gf Hf (A.com (cs.take q)) Q Gs Hs (A.out (cs.take q)) (askedBy A.ask (cs.take q)) ρ

end

section
variable [AddCommGroup G] [Module F G]

/-- The generators as combinations of `Gs ++ Hs ++ [Q]`. -/
def IppRep.gens (F : Type) [Field F] (Gs Hs : List G) (Q : G) : List (Rep F (Gs ++ Hs ++ [Q])) := (List.range Gs.length).map (Rep.gen F _)
def IppRep.hens (F : Type) [Field F] (Gs Hs : List G) (Q : G) : List (Rep F (Gs ++ Hs ++ [Q])) := (List.range' Gs.length Hs.length).map (Rep.gen F _)
def IppRep.last (F : Type) [Field F] (Gs Hs : List G) (Q : G) : Rep F (Gs ++ Hs ++ [Q]) := Rep.gen F _ (Gs.length + Hs.length)

/-- With how many of the sequences of answers (`q` for the prover, `D` for the verifier) is the verifier fooled, by a prover that makes its points as combinations of the generators? -/
noncomputable def IppForger.fooling [DecidableEq G] (env : Env F G) {Gs Hs : List G} {Q : G} (A : IppForger F (Rep F (Gs ++ Hs ++ [Q]))) (t : Transcript F (Rep F (Gs ++ Hs ++ [Q]))) (l : String) (n : ℕ) (Gf Hf : List F) (q D : ℕ) : ℕ :=
  Nat.card {cs : Fin (q + D) → F // A.Fools (Rep.point F _) env t l n Gf Hf (IppRep.last F Gs Hs Q) (IppRep.gens F Gs Hs Q) (IppRep.hens F Gs Hs Q) q (List.ofFn cs)}

end
end Bp
