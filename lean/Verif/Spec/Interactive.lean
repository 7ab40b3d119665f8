import Verif.Spec.FiatShamir

/-! # Specification: an interactive prover

Here the verifier draws its challenges at random, whatever the log says, and the prover can be anything: it computes each message from the challenges it has been sent.  (A proof system is said to have knowledge error `κ` if a prover
that is accepted with probability more than `κ` can be rewound until it has given enough answers to compute a witness.) -/

namespace Bp
variable {F G : Type} [Field F] [AddCommGroup G] [Module F G]

/-- A prover: each message is a function of all challenges drawn before it is sent. -/
structure Interactive (F G : Type) where
  A_I1 : G
  A_O1 : G
  S1 : G
  A_I2 : List F → G
  A_O2 : List F → G
  S2 : List F → G
  T_1 : List F → G
  T_3 : List F → G
  T_4 : List F → G
  T_5 : List F → G
  T_6 : List F → G
  t_x : List F → F
  t_x_blinding : List F → F
  e_blinding : List F → F
  L : List F → G
  R : List F → G
  a : List F → F
  b : List F → F

/-- What the prover has sent in the end, if the challenges were `cs`: `d` challenges for the randomized constraints, then `y`, `z` (after `A_I2`, `A_O2`, `S2`), `u`, `x` (after the `T_i`), `w` (after `t_x` and the blindings), and one
for each of the `k` pairs `L`, `R`. -/
def Interactive.proof (P : Interactive F G) (d k : ℕ) (cs : List F) : R1CSProof F G where
  A_I1 := P.A_I1
  A_O1 := P.A_O1
  S1 := P.S1
  A_I2 := P.A_I2 (cs.take d)
  A_O2 := P.A_O2 (cs.take d)
  S2 := P.S2 (cs.take d)
  T_1 := P.T_1 (cs.take (d + 2))
  T_3 := P.T_3 (cs.take (d + 2))
  T_4 := P.T_4 (cs.take (d + 2))
  T_5 := P.T_5 (cs.take (d + 2))
  T_6 := P.T_6 (cs.take (d + 2))
  t_x := P.t_x (cs.take (d + 4))
  t_x_blinding := P.t_x_blinding (cs.take (d + 4))
  e_blinding := P.e_blinding (cs.take (d + 4))
  ipp := ⟨(List.range k).map fun i => P.L (cs.take (d + 5 + i)), (List.range k).map fun i => P.R (cs.take (d + 5 + i)), P.a cs, P.b cs⟩

/-- The verifier's coins: the draw number `i` gives `cs[i]`, whatever is in the log. -/
def publicCoins (cs : List F) : Oracle F G := fun t => cs.getD ((draws t).length - 1) 0

/-- The verifier, with the challenges `cs` and the random scalar `r`, accepts. -/
def Interactive.Convinces [DecidableEq G] (P : Interactive F G) (env : Env F G) (s : Verifier F G) (g h : G) (Gs Hs : List G) (d k : ℕ) (cs : List F) (r : F) : Prop :=
  ∃ T, s.verify { env with oracle := publicCoins cs } (P.proof d k cs) g h Gs Hs r = .ok T

/-- The challenges on a branch of a tree of answers. -/
def R1CSTree.challenges {k q : ℕ} (t : R1CSTree F G k q) (a : Fin (2 ^ k)) (b : Fin (q + 1)) (c : Fin 5) (d : Fin 6) (e : Fin 2) (us : List F) : List F :=
  (t.chals a b c d e).y :: (t.chals a b c d e).z :: (t.chals a b c d e).u :: (t.chals a b c d e).x :: (t.chals a b c d e).w :: us

/-- The tree consists of answers of the prover, after the challenges `pre`. -/
def R1CSTree.AnswersOf {k q : ℕ} (t : R1CSTree F G k q) (P : Interactive F G) (pre : List F) : Prop :=
  ∀ a b c d e L R us α β, (((((t.ys a).zs b).us c).xs d).ipp e).Path L R us α β → t.proof a b c d ⟨L, R, α, β⟩ = P.proof pre.length k (pre ++ t.challenges a b c d e us)

/-- The knowledge error, times the number of scalars: `2^k` gates, `q` constraints. -/
def knowledgeError (k q : ℕ) : ℕ := 2 ^ k + q + 7 * k + 14

/-- The proof that the code's prover makes if it draws the challenges `cs` (and then zeros). -/
def Prover.answers (env : Env F G) (p : Prover F G) (c : Coins F) (Gs Hs : List G) (cs : List F) : R1CSProof F G :=
  match p.prove { env with oracle := publicCoins cs } c Gs Hs with
  | .ok q => q.1
  | .error _ => ⟨0, 0, 0, 0, 0, 0, 0, 0, 0, 0, 0, 0, 0, 0, ⟨[], [], 0, 0⟩⟩

/-- The code's prover as an interactive prover: when a message is due, it computes that message from the challenges it has
(the first three need none). -/
def Prover.interactive (env : Env F G) (p : Prover F G) (c : Coins F) (Gs Hs : List G) (d : ℕ) : Interactive F G where
  A_I1 := vecCommit p.h (Gs.take p.aL.length) (Hs.take p.aL.length) p.aL p.aR c.iB1
  A_O1 := msm p.aO (Gs.take p.aL.length) + c.oB1 • p.h
  S1 := vecCommit p.h (Gs.take p.aL.length) (Hs.take p.aL.length) (randomVec c.sL1 p.aL.length) (randomVec c.sR1 p.aL.length) c.sB1
  A_I2 cs := (p.answers env c Gs Hs cs).A_I2
  A_O2 cs := (p.answers env c Gs Hs cs).A_O2
  S2 cs := (p.answers env c Gs Hs cs).S2
  T_1 cs := (p.answers env c Gs Hs cs).T_1
  T_3 cs := (p.answers env c Gs Hs cs).T_3
  T_4 cs := (p.answers env c Gs Hs cs).T_4
  T_5 cs := (p.answers env c Gs Hs cs).T_5
  T_6 cs := (p.answers env c Gs Hs cs).T_6
  t_x cs := (p.answers env c Gs Hs cs).t_x
  t_x_blinding cs := (p.answers env c Gs Hs cs).t_x_blinding
  e_blinding cs := (p.answers env c Gs Hs cs).e_blinding
  L cs := (p.answers env c Gs Hs cs).ipp.L.getD (cs.length - (d + 5)) 0
  R cs := (p.answers env c Gs Hs cs).ipp.R.getD (cs.length - (d + 5)) 0
  a cs := (p.answers env c Gs Hs cs).ipp.a
  b cs := (p.answers env c Gs Hs cs).ipp.b

end Bp
