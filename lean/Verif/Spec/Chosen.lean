import Verif.Spec.R1CS
import Verif.Spec.FiatShamir
import Verif.Model.Driver

/-!
# Specification for C86: a prover that chooses a generator after the proof

`verify` (r1cs/verifier.rs:267-274) takes the generators `g`, `h`, `G`, `H` as arguments, and nothing that is appended to the transcript (r1cs/verifier.rs:97-128, 250-253, 279-323, 358) depends on them.  Here is what somebody does who may name one of them,
`G[0]`, after having asked for all challenges.
-/

namespace Bp
variable {F G : Type} [Field F] [AddCommGroup G] [Module F G]

/-- A proof without content: all points are the identity; `k` rounds in the inner-product argument. -/
def hollowProof (k : ℕ) (t_x t_x_blinding a : F) : R1CSProof F G where
  A_I1 := 0
  A_O1 := 0
  S1 := 0
  A_I2 := 0
  A_O2 := 0
  S2 := 0
  T_1 := 0
  T_3 := 0
  T_4 := 0
  T_5 := 0
  T_6 := 0
  t_x := t_x
  t_x_blinding := t_x_blinding
  e_blinding := 0
  ipp := { L := List.replicate k 0, R := List.replicate k 0, a := a, b := 0 }

/-- The proof and the generator.  `s` is the verifier before `verify`, `openings` are the values and blindings of all its commitments.  With the identity for all points, `t_x` and `t_x_blinding` are computed from the openings such that the first of
the two equations of `verify` holds; then `a` is chosen such that `G[0]` occurs in the second equation with coefficient `1`; and then `G[0]` such that the equation holds. -/
def Verifier.chooseGenerator (env : Env F G) (s : Verifier F G) (openings : List (F × F)) (g h : G) (Gs Hs : List G) : Res (R1CSProof F G × G) := do
  let s2 ← (s.start (hollowProof 0 0 0 0)).createRandomizedConstraints env
  let k := Nat.clog 2 s2.numVars
  let ch0 := drawn env.oracle s2.transcript (hollowProof k 0 0 0)
  let wt ← s2.flattenedConstraints ch0.z
  let t_x := ch0.x ^ 2 * ((∑ j ∈ Finset.range openings.length, wt.wV.getD j 0 * (openings.getD j (0, 0)).1) + (wt.wc + delta wt ch0.y s2.numVars))
  let t_x_blinding := ch0.x ^ 2 * ∑ j ∈ Finset.range openings.length, wt.wV.getD j 0 * (openings.getD j (0, 0)).2
  let ch := drawn env.oracle s2.transcript (hollowProof k t_x t_x_blinding 0)
  let us := ippRounds env.oracle s2.transcript (hollowProof k t_x t_x_blinding 0) (2 ^ k)
  let a := (ufac s.numVars ch.u 0 * (ch.x * wt.wR.getD 0 0) - 1) / (us.prod⁻¹ * ufac s.numVars ch.u 0)
  let pr := hollowProof k t_x t_x_blinding a
  pure (pr, - ippCheck s.numVars (2 ^ k) pr g h ((Gs.set 0 0).take (2 ^ k)) (Hs.take (2 ^ k)) wt ch us)

/-- The generators that `verify` takes. -/
structure Generators (G : Type) where
  g : G
  h : G
  Gs : List G
  Hs : List G

/-- The prover also says which of the sets of generators `gens` the verifier is to use; it decides with the answers it has got. -/
def Forger.ForgesOver [DecidableEq G] {J : Type} (A : Forger F G) (pick : List F → J) (gens : J → Generators G) (env : Env F G) (label : String) (dv : J → List G → Drv (Verifier F G) Unit) (m : ℕ) (claim : J → List G → Prop) (Q : ℕ) (cs : List F)
    (r : F) : Prop :=
  A.Forges env label (dv (pick (cs.take Q))) m (claim (pick (cs.take Q))) (gens (pick (cs.take Q))).g (gens (pick (cs.take Q))).h (gens (pick (cs.take Q))).Gs (gens (pick (cs.take Q))).Hs Q cs r

/-- With how many answers (`Q` for the prover, `D` for the verifier) and scalars of the verifier does that happen? -/
noncomputable def Forger.forgingOver [DecidableEq G] {J : Type} (A : Forger F G) (pick : List F → J) (gens : J → Generators G) (env : Env F G) (label : String) (dv : J → List G → Drv (Verifier F G) Unit) (m : ℕ) (claim : J → List G → Prop)
    (Q D : ℕ) : ℕ :=
  Nat.card {p : (Fin (Q + D) → F) × F // A.ForgesOver pick gens env label dv m claim Q (List.ofFn p.1) p.2}

end Bp
