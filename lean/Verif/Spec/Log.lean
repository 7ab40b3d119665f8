import Verif.Spec.R1CS

/-! # Specification of the complete transcript log of a proof -/

namespace Bp
variable {F G : Type} [Field F] [AddCommGroup G] [SMul F G]

/-- Everything before `A_I2`: caller's transcript, domain separator, commitments in order, their number, first-phase
commitments, phase separator, callback challenges (by label). -/
def preLog (t0 : Transcript F G) (V : List G) (A_I1 A_O1 S1 : G) (two : Bool) (labels : List String) : Transcript F G :=
  t0 ++ .domSep "r1cs v1" :: (V.map (TEvent.point "V") ++ .u64 "m" V.length :: .point "A_I1" A_I1 :: .point "A_O1" A_O1 :: .point "S1" S1 ::
    .domSep (if two then "r1cs-2phase" else "r1cs-1phase") :: labels.map TEvent.challenge)

/-- The rounds of the inner-product argument: `L`, `R`, then the round's challenge. -/
def roundsLog (LR : List (G × G)) : Transcript F G := LR.flatMap fun q => [.point "L" q.1, .point "R" q.2, .challenge "u"]

/-- The whole log of a proof. -/
def fullLog (t0 : Transcript F G) (V : List G) (pr : R1CSProof F G) (two : Bool) (labels : List String) (N : ℕ) : Transcript F G :=
  preLog t0 V pr.A_I1 pr.A_O1 pr.S1 two labels ++
    ([.point "A_I2" pr.A_I2, .point "A_O2" pr.A_O2, .point "S2" pr.S2, .challenge "y", .challenge "z",
      .point "T_1" pr.T_1, .point "T_3" pr.T_3, .point "T_4" pr.T_4, .point "T_5" pr.T_5, .point "T_6" pr.T_6, .challenge "u", .challenge "x",
      .scalar "t_x" pr.t_x, .scalar "t_x_blinding" pr.t_x_blinding, .scalar "e_blinding" pr.e_blinding, .challenge "w",
      .domSep "ipp v1", .u64 "n" N] ++ roundsLog (pr.ipp.L.zip pr.ipp.R))

def TEvent.isChallenge : TEvent F G → Bool
  | .challenge _ => true
  | _ => false

/-- Where the challenges are drawn in a log. -/
def shape (t : Transcript F G) : List Bool := t.map TEvent.isChallenge

/-- Two oracles answer alike every challenge drawn along the log `t`. -/
def AgreeOn (O O' : Oracle F G) (t : Transcript F G) : Prop :=
  ∀ pre label, (pre ++ [TEvent.challenge label] <+: t) → O (pre ++ [.challenge label]) = O' (pre ++ [.challenge label])

/-- A verifier as its user builds it: created over a transcript, then any commits and first-phase gadget runs. -/
inductive Verifier.Reach (env : Env F G) (t0 : Transcript F G) : Verifier F G → Prop where
  | new (k : ℕ) : Reach env t0 (Verifier.new t0 k)
  | commit {s} (V : G) : Reach env t0 s → Reach env t0 (s.commit V).2
  | gadget {s s'} {α : Type} {c : Prog1 F α} {a : α} : Reach env t0 s → s.run1 env c = .ok (a, s') → Reach env t0 s'

/-- A prover as its user builds it. -/
inductive Prover.Reach (env : Env F G) (g h : G) (t0 : Transcript F G) : Prover F G → Prop where
  | new (k : ℕ) : Reach env g h t0 (Prover.new g h t0 k)
  | commit {p} (v b : F) : Reach env g h t0 p → Reach env g h t0 (p.commit v b).2
  | gadget {p p'} {α : Type} {c : Prog1 F α} {a : α} : Reach env g h t0 p → p.run1 env c = .ok (a, p') → Reach env g h t0 p'

end Bp
