import Verif.Spec.ZK

/-! # Specification: proofs made without a witness

`Verifier.simulate` makes a proof from what the verifier knows (its state, i.e. circuit and commitments, and the generators), for challenges
that are known beforehand: it picks the two vectors of the inner-product argument and all but two of the points at random and solves the verifier's
two equations for `A_I1` and `T_1`. -/

namespace Bp
variable {F G : Type} [Field F] [AddCommGroup G] [Module F G]

/-- The challenges do not depend on what is sent: the answer of the oracle only depends on the position in the log, and on where the other challenges are. -/
def Oracle.Fixed (O : Oracle F G) : Prop := ∀ t t', shape t = shape t' → O t = O t'

/-- Random choices of the simulator. -/
structure SimCoins (F G : Type) where
  A_O1 : G
  S1 : G
  A_I2 : G
  A_O2 : G
  S2 : G
  T_3 : G
  T_4 : G
  T_5 : G
  T_6 : G
  t_x_blinding : F
  e_blinding : F
  l : ℕ → F
  r : ℕ → F

/-- The padded vectors of the inner-product argument. -/
def padL (l : ℕ → F) (n N : ℕ) : List F := (List.range n).map l ++ List.replicate (N - n) 0
def padR (r : ℕ → F) (y : F) (n N : ℕ) : List F := (List.range n).map r ++ (List.range (N - n)).map fun k => -(y ^ (n + k))

/-- A proof with nothing in it. -/
def blankProof : R1CSProof F G := ⟨0, 0, 0, 0, 0, 0, 0, 0, 0, 0, 0, 0, 0, 0, ⟨[], [], 0, 0⟩⟩

/-- What the simulator picks at random; `A_I1`, `T_1` and the inner-product proof are missing. -/
def SimCoins.first (sc : SimCoins F G) (t_x : F) : R1CSProof F G :=
  ⟨0, sc.A_O1, sc.S1, sc.A_I2, sc.A_O2, sc.S2, 0, sc.T_3, sc.T_4, sc.T_5, sc.T_6, t_x, sc.t_x_blinding, sc.e_blinding, ⟨[], [], 0, 0⟩⟩

/-- `A_I1` and `T_1` are the solutions of the two equations that the verifier checks. -/
def SimCoins.solved (sc : SimCoins F G) (s2 : Verifier F G) (n1 N : ℕ) (g h : G) (GN HN : List G) (wt : Weights F) (ch : Chals F) : R1CSProof F G :=
  let l := padL sc.l s2.numVars N
  let r := padR sc.r ch.y s2.numVars N
  let pr := sc.first (dot l r)
  { pr with
    A_I1 := ch.x⁻¹ • (msm l (ippG n1 N ch.u GN) + msm r (ippH n1 N ch.u ch.y HN) - ippPoint n1 N pr h GN HN wt ch)
    T_1 := -(ch.x⁻¹ • polyCheck s2.V pr g h wt s2.numVars ch) }

/-- The simulator.  A dry run with an empty proof finds the circuit and the challenges; the second run is for the transcript. -/
def Verifier.simulate (env : Env F G) (s : Verifier F G) (g h : G) (Gs Hs : List G) (sc : SimCoins F G) : Res (R1CSProof F G × Transcript F G) := do
  let s2 ← (s.start blankProof).createRandomizedConstraints env
  let ch := drawn env.oracle s2.transcript blankProof
  let wt ← s2.flattenedConstraints ch.z
  let n1 := s.numVars
  let N := nextPowerOfTwo s2.numVars
  let GN := Gs.take N
  let HN := Hs.take N
  let pr := sc.solved s2 n1 N g h GN HN wt ch
  let s2 ← (s.start pr).createRandomizedConstraints env
  let (ipp, t) ← createIpp env.oracle (logW s2.transcript pr) (ch.w • g) ((List.range N).map (ufac n1 ch.u))
    ((List.range N).map fun i => vpow ch.y⁻¹ i * ufac n1 ch.u i) GN HN (padL sc.l s2.numVars N) (padR sc.r ch.y s2.numVars N)
  return ({ pr with ipp := ipp }, t)

/-- Coins that `prove` does not draw (beyond the `n1` first-phase and `n2` second-phase gates) are zero. -/
def Coins.Drawn (n1 n2 : ℕ) (c : Coins F) : Prop :=
  (∀ i, n1 ≤ i → c.sL1 i = 0 ∧ c.sR1 i = 0) ∧ (∀ i, n2 ≤ i → c.sL2 i = 0 ∧ c.sR2 i = 0) ∧ (n2 = 0 → c.iB2 = 0 ∧ c.oB2 = 0 ∧ c.sB2 = 0)

/-- The same for the simulator: one entry of each vector for each gate, and no second-phase points without second-phase gates. -/
def SimCoins.Drawn (n1 n2 : ℕ) (c : SimCoins F G) : Prop :=
  (∀ i, n1 + n2 ≤ i → c.l i = 0 ∧ c.r i = 0) ∧ (n2 = 0 → c.A_I2 = 0 ∧ c.A_O2 = 0 ∧ c.S2 = 0)

end Bp
