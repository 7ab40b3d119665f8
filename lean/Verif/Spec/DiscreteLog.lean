import Verif.Spec.Algebraic
import Verif.Spec.Challenge
import Verif.Spec.Sizes
import Verif.Model.Utils
import Mathlib.Algebra.BigOperators.Pi

/-! # Specification: from relations to discrete logarithms

The soundness theorems end with "or a non-trivial relation between the generators is found".  The generators of the code are hashes (`G1::from_msg_hash`) of different messages, i.e. random points when the hash is a random oracle.
Somebody who finds a relation between random points can compute discrete logarithms: of a point `X` to the base `B`, for any `B` and `X`. -/

namespace Bp
variable {F G ι Ω : Type} [Field F] [AddCommGroup G] [Module F G] [Fintype ι]

/-- The combination of the points `P i` with the coefficients `ρ i`. -/
def combine (P : ι → G) : (ι → F) →ₗ[F] G where
  toFun ρ := ∑ i, ρ i • P i
  map_add' ρ ρ' := by simp [add_smul, Finset.sum_add_distrib]
  map_smul' a ρ := by simp [mul_smul, Finset.smul_sum]

/-- The coefficients `ρ` are a non-trivial relation between the points. -/
def IsRelation (P : ι → G) (ρ : ι → F) : Prop := ρ ≠ 0 ∧ combine P ρ = 0

/-- Points made from `B` and `X`. -/
def planted (B X : G) (α β : ι → F) : ι → G := fun i => α i • B + β i • X

/-- How to compute the logarithm of `X` to the base `B`: make points from `B` and `X` with random coefficients `α`, `β`, run the finder `A` (with its coins `ω`) on them, and divide. -/
def logOf (A : Ω → (ι → G) → ι → F) (B : G) (ω : Ω) (α β : ι → F) (X : G) : F :=
  -(∑ i, A ω (planted B X α β) i * α i) / ∑ i, A ω (planted B X α β) i * β i

/-! ## Provers -/

/-- The combination that is just the point `P i`. -/
def unitOf [DecidableEq ι] (i : ι) : ι → F := Pi.single i 1

/-- The oracle that gives the answers `cs` to the questions `ask`, and answers 0 to all other questions. -/
def answersOf [DecidableEq F] [DecidableEq G] (ask : List F → Transcript F G) (cs : List F) : Oracle F G := fun q =>
  (((List.range cs.length).find? fun i => ask (cs.take i) = q).map fun i => cs.getD i 0).getD 0

/-- All combinations that the definition of `Relation` allows. -/
def candidates {M : Type} [AddCommGroup M] [Module F M] (φ : M →ₗ[F] G) (env : Env F G) (s : Verifier F M) (pr : R1CSProof F M) (g h : M) (Gs Hs : List M) (r : F) (O : Oracle F G) (qs : List (Transcript F M)) : List M :=
  match s.residual (Env.pull φ { env with oracle := O }) pr g h Gs Hs r with
  | .ok (ρ, t) => ρ :: ((t :: qs).flatMap Transcript.points).flatMap fun p => ((t :: qs).flatMap Transcript.points).map fun p' => p - p'
  | .error _ => []

/-- The first of them that is a relation. -/
def Forger.findRelation [DecidableEq ι] [DecidableEq F] [DecidableEq G] (env : Env F G) (label : String) (dv' : List (ι → F) → Drv (Verifier F (ι → F)) Unit) (g h : ι) (Gs Hs : List ι) (Q : ℕ)
    (A : Forger F (ι → F)) (P : ι → G) (cs : List F) (r : F) : ι → F :=
  let s := (dv' (A.coms (cs.take Q)) (Verifier.new [.init label])).2
  let O := answersOf ((A.mapG (combine P)).game (s.mapG (combine P)) Q) cs
  ((candidates (combine P) env s (A.out (cs.take Q)) (unitOf g) (unitOf h) (Gs.map unitOf) (Hs.map unitOf) r O (askedBy A.ask (cs.take Q))).find? fun ρ => ρ ≠ 0 ∧ combine P ρ = 0).getD 0

/-- The prover makes the verifier accept, although what it knows of the `m` commitments (how it has made them from the points `P`) does not make the claim true.  `P g`, `P h`, ... are the generators; there may be other points. -/
def Forger.Deceives [DecidableEq ι] [DecidableEq G] (A : Forger F (ι → F)) (env : Env F G) (label : String) (dv : List G → Drv (Verifier F G) Unit) (m : ℕ) (claim : List (ι → F) → Prop) (P : ι → G) (g h : ι) (Gs Hs : List ι) (Q : ℕ)
    (cs : List F) (r : F) : Prop :=
  (A.coms (cs.take Q)).length = m ∧ ¬ claim (A.coms (cs.take Q)) ∧ ∃ O s T, (A.mapG (combine P)).AcceptedWith env label dv (P g) (P h) (Gs.map P) (Hs.map P) Q cs r O s T

/-! ## The generators that the tests use -/

/-- A hash function that is only looked at on the messages `S`. -/
def hashOn (S : Finset String) (P : S → G) : String → G := fun w => if h : w ∈ S then P ⟨w, h⟩ else 0

/-- The messages hashed for the generators: `get_generators("G", n)`, `get_generators("H", n)`, and `"g"` and `"h"` (tests/multiple_constraint_systems.rs:43-46, tests/r1cs.rs:18-21). -/
def messages (n : ℕ) : Finset String := (generatorMessages "G" n ++ generatorMessages "H" n ++ ["g", "h"]).toFinset

/-- Some of the messages, in order. -/
def ofMessages (S : Finset String) (l : List String) : List S := l.filterMap fun w => if h : w ∈ S then some ⟨w, h⟩ else none

/-! ## Statements of the crate -/

/-- The number of challenges drawn for a proof of the statements. -/
def drawsOf [ByteRep F] (stmts : List (Stmt F)) : ℕ := 5 + Nat.clog 2 (totalGates stmts)

/-- The number of bad values of a challenge, for the statements. -/
def badOf [ByteRep F] (stmts : List (Stmt F)) : ℕ := max 7 (max (nextPowerOfTwo (totalGates stmts)) (totalConstraints stmts))

/-- The finder of relations that runs a prover for the statements; the coins are the answers to its questions and the verifier's `r`. -/
def finderOf [ByteRep F] [DecidableEq ι] [DecidableEq F] [DecidableEq G] (env : Env F G) (label : String) (stmts : List (Stmt F)) (g h : ι) (Gs Hs : List ι) (Q : ℕ) (A : (ι → G) → Forger F (ι → F))
    (ω : (Fin (Q + drawsOf stmts) → F) × F) (P : ι → G) : ι → F :=
  (A P).findRelation env label (verifyStmts (env.pull (combine P)) (unitOf g) (unitOf h) stmts) g h Gs Hs Q P (List.ofFn ω.1) ω.2

end Bp
