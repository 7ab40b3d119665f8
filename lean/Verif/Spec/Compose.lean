import Verif.Spec.Gadgets

/-! # Specification: several statements in one proof -/

namespace Bp
variable {F G : Type} [Field F] [AddCommGroup G] [Module F G]

/-- One statement of a composite proof: its `prove_*` and `verify_*` calls, its number of gates, what it opens, and the publicly known values it commits to as well. -/
structure Part (F G : Type) where
  dp : Drv (Prover F G) (List G)
  dv : List G → Drv (Verifier F G) Unit
  gates : ℕ
  openings : List (F × F)
  statics : List (F × F) := []

/-- From `p` to `p'`, exactly the openings and statics of the parts were committed, in order, and each part's returned points are the Pedersen commitments to its openings. -/
structure OpenedAll (p p' : Prover F G) (parts : List (Part F G)) (comss : List (List G)) : Prop where
  values : p'.v = p.v ++ (parts.flatMap fun a => a.openings ++ a.statics).map Prod.fst
  blindings : p'.vBlinding = p.vBlinding ++ (parts.flatMap fun a => a.openings ++ a.statics).map Prod.snd
  points : comss = parts.map fun a => a.openings.map fun q => q.1 • p.g + q.2 • p.h
  g : p'.g = p.g
  h : p'.h = p.h

/-- Call the `prove_*` functions one after the other on the same prover. -/
def proveAll : List (Part F G) → Drv (Prover F G) (List (List G))
  | [] => pure []
  | a :: as => do
    let coms ← a.dp
    let rest ← proveAll as
    return coms :: rest

/-- Call the `verify_*` functions in the same order on the same verifier, each with its own commitments. -/
def verifyAll : List (Part F G) → List (List G) → Drv (Verifier F G) Unit
  | [], _ => pure ()
  | _ :: _, [] => Drv.lift (Res.panic "no commitments for this statement")
  | a :: as, coms :: rest => do
    a.dv coms
    verifyAll as rest

end Bp
