import Verif.Model.R1CS
import Verif.Spec.Flatten
import Verif.Spec.Ipp
import Verif.Spec.Lockstep

/-! # Specification of the R1CS argument: challenges, and the two equations the verifier checks -/

namespace Bp
variable {F G : Type} [Field F] [AddCommGroup G] [SMul F G]
open Finset

/-! ## The transcript log at each challenge, from the log `t` after the randomized constraints -/

/-- Log when `y` is drawn. -/
def logY (t : Transcript F G) (pr : R1CSProof F G) : Transcript F G :=
  t ++ [.point "A_I2" pr.A_I2, .point "A_O2" pr.A_O2, .point "S2" pr.S2, .challenge "y"]
/-- Log when `z` is drawn. -/
def logZ (t : Transcript F G) (pr : R1CSProof F G) : Transcript F G := logY t pr ++ [.challenge "z"]
/-- Log when `u` is drawn. -/
def logU (t : Transcript F G) (pr : R1CSProof F G) : Transcript F G :=
  logZ t pr ++ [.point "T_1" pr.T_1, .point "T_3" pr.T_3, .point "T_4" pr.T_4, .point "T_5" pr.T_5, .point "T_6" pr.T_6, .challenge "u"]
/-- Log when `x` is drawn. -/
def logX (t : Transcript F G) (pr : R1CSProof F G) : Transcript F G := logU t pr ++ [.challenge "x"]
/-- Log when `w` is drawn. -/
def logW (t : Transcript F G) (pr : R1CSProof F G) : Transcript F G :=
  logX t pr ++ [.scalar "t_x" pr.t_x, .scalar "t_x_blinding" pr.t_x_blinding, .scalar "e_blinding" pr.e_blinding, .challenge "w"]

/-- The challenges of a proof. -/
def drawn (O : Oracle F G) (t : Transcript F G) (pr : R1CSProof F G) : Chals F :=
  ⟨O (logY t pr), O (logZ t pr), O (logU t pr), O (logX t pr), O (logW t pr)⟩

/-- Log after the first-phase messages (what `create_randomized_constraints` starts from). -/
def log1 (t : Transcript F G) (m : ℕ) (A_I1 A_O1 S1 : G) : Transcript F G :=
  t ++ [.u64 "m" m, .point "A_I1" A_I1, .point "A_O1" A_O1, .point "S1" S1]

/-- `<a,G> + <b,H> + r h`. -/
def vecCommit (h : G) (Gs Hs : List G) (a b : List F) (r : F) : G := msm a Gs + msm b Hs + r • h

/-- The prover state in which `prove` calls `create_randomized_constraints`. -/
def Prover.start (p : Prover F G) (c : Coins F) (Gs Hs : List G) : Prover F G :=
  { p with transcript := (log1 p.transcript p.v.length
      (vecCommit p.h (Gs.take p.aL.length) (Hs.take p.aL.length) p.aL p.aR c.iB1)
      (msm p.aO (Gs.take p.aL.length) + c.oB1 • p.h)
      (vecCommit p.h (Gs.take p.aL.length) (Hs.take p.aL.length) (randomVec c.sL1 p.aL.length) (randomVec c.sR1 p.aL.length) c.sB1)) }

/-- The verifier state in which `verify` calls `create_randomized_constraints`. -/
def Verifier.start (s : Verifier F G) (pr : R1CSProof F G) : Verifier F G :=
  { s with transcript := log1 s.transcript s.V.length pr.A_I1 pr.A_O1 pr.S1 }

/-- Everything a prover and a verifier can do together before `prove`/`verify`: both are created over the same transcript, the verifier
is given the points that `commit` returned, and both run the same gadget code (with assignments on the prover). -/
inductive Session (env env' : Env F G) : Prover F G → Verifier F G → Prop where
  | new (g h : G) (t : Transcript F G) (k k' : ℕ) : Session env env' (Prover.new g h t k) (Verifier.new t k')
  | commit {p s} (v b : F) : Session env env' p s → Session env env' (p.commit v b).2 (s.commit (p.commit v b).1.1).2
  | gadget {p s p' s'} {α β : Type} {RA : α → β → Prop} {c : Prog1 F α} {c' : Prog1 F β} {a : α} {b : β} :
      Session env env' p s → Prog1.Same RA c c' → p.run1 env c = .ok (a, p') → s.run1 env' c' = .ok (b, s') → Session env env' p' s'

/-- The round challenges of the inner-product argument inside a proof. -/
def ippRounds (O : Oracle F G) (t : Transcript F G) (pr : R1CSProof F G) (N : ℕ) : List F :=
  (ippChallenges O ((logW t pr).ippDomainSep N) (pr.ipp.L.zip pr.ipp.R)).1

/-! ## The two equations -/

/-- `1` for first-phase generators, `u` for the others. -/
def ufac (n1 : ℕ) (u : F) (i : ℕ) : F := if i < n1 then 1 else u

/-- `δ = Σ_i y^-i wR_i wL_i`. -/
def delta (wt : Weights F) (y : F) (n : ℕ) : F := ∑ i ∈ range n, vpow y⁻¹ i * wt.wR.getD i 0 * wt.wL.getD i 0

/-- The polynomial-commitment check: this must be the identity. -/
def polyCheck (V : List G) (pr : R1CSProof F G) (g h : G) (wt : Weights F) (n : ℕ) (ch : Chals F) : G :=
  ch.x ^ 2 • (∑ j ∈ range V.length, wt.wV.getD j 0 • V.getD j 0) + ch.x • pr.T_1 + ch.x ^ 3 • pr.T_3 + ch.x ^ 4 • pr.T_4
    + ch.x ^ 5 • pr.T_5 + ch.x ^ 6 • pr.T_6
    + (ch.x ^ 2 * (wt.wc + delta wt ch.y n)) • g - (pr.t_x • g + pr.t_x_blinding • h)

/-- The commitment to the left and right vectors that the inner-product argument is about (without the `t_x` part). -/
def ippPoint (n1 N : ℕ) (pr : R1CSProof F G) (h : G) (GN HN : List G) (wt : Weights F) (ch : Chals F) : G :=
  ch.x • pr.A_I1 + ch.x ^ 2 • pr.A_O1 + ch.x ^ 3 • pr.S1 + ch.u • (ch.x • pr.A_I2 + ch.x ^ 2 • pr.A_O2 + ch.x ^ 3 • pr.S2)
    - pr.e_blinding • h
    + ∑ i ∈ range N, (ufac n1 ch.u i * (ch.x * (vpow y⁻¹ i * wt.wR.getD i 0))) • GN.getD i 0
    + ∑ i ∈ range N, (ufac n1 ch.u i * (vpow y⁻¹ i * (ch.x * wt.wL.getD i 0 + wt.wO.getD i 0) - 1)) • HN.getD i 0
  where y : F := ch.y

/-- The generators of the inner-product argument. -/
def ippG (n1 N : ℕ) (u : F) (GN : List G) : List G := scaled ((List.range N).map (ufac n1 u)) GN
def ippH (n1 N : ℕ) (u y : F) (HN : List G) : List G := scaled ((List.range N).map (fun i => vpow y⁻¹ i * ufac n1 u i)) HN

/-- The inner-product check, with round challenges `us`: this must be the identity. -/
def ippCheck (n1 N : ℕ) (pr : R1CSProof F G) (g h : G) (GN HN : List G) (wt : Weights F) (ch : Chals F) (us : List F) : G :=
  ippPoint n1 N pr h GN HN wt ch + (ch.w * pr.t_x) • g
    + msm (us.map (fun u => u * u)) pr.ipp.L + msm (us.map (fun u => u⁻¹ * u⁻¹)) pr.ipp.R
    - (pr.ipp.a • foldAll us (ippG n1 N ch.u GN) + pr.ipp.b • foldAll (us.map (·⁻¹)) (ippH n1 N ch.u ch.y HN)
        + (pr.ipp.a * pr.ipp.b) • ch.w • g)

end Bp
