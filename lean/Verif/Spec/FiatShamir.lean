import Verif.Spec.Soundness2
import Verif.Spec.Log
import Verif.Model.Driver
import Mathlib.Data.Set.Card

/-! # Specification: soundness of the proofs as they are made, with challenges computed from the log

There is no interaction in the code: a challenge is `O t`, a function of the log `t`.  A prover can try as many logs as it likes, so soundness must say that, whatever it does, a false proof is accepted only if the oracle
gave, at one of the logs of that proof, an answer in a small set fixed before the answer is known. -/

namespace Bp
variable {F G : Type} [Field F] [AddCommGroup G] [SMul F G]

/-- There are wire values that satisfy all gates and, together with the committed points, all constraints (as commitments to zero). -/
def Verifier.Satisfiable (s : Verifier F G) (g h : G) : Prop :=
  ∃ σ : Assignment F, σ.Gates ∧ ∀ lc ∈ s.constraints, ∃ β : F, lc.commitment σ g s.V = β • h

/-- A rule that names, for every oracle and every log, bad answers: at most `B` of them, and those for a draw depend only on the answers to the draws before it (along the same log). -/
structure BadRule (F G : Type) (B : ℕ) where
  bad : Oracle F G → Transcript F G → Set F
  few : ∀ O t, (bad O t).encard ≤ B
  before : ∀ O O' pre l, AgreeOn O O' pre → bad O (pre ++ [.challenge l]) = bad O' (pre ++ [.challenge l])

/-- Along the log `t` some draw got a bad answer. -/
def BadRule.Hit {B : ℕ} (bad : BadRule F G B) (O : Oracle F G) (t : Transcript F G) : Prop :=
  ∃ pre l, pre ++ [TEvent.challenge l] <+: t ∧ O (pre ++ [.challenge l]) ∈ bad.bad O (pre ++ [.challenge l])

/-- The bound for a verifier without randomized constraints: its number of gates, rounded up to a power of two, its number of constraints, or 7. -/
def Verifier.badBound (s : Verifier F G) : ℕ := max 7 (max (nextPowerOfTwo s.numVars) s.constraints.length)

/-! ## Attacks -/

/-- The draws along a log (after `acc`), in order. -/
def drawsFrom : Transcript F G → Transcript F G → List (Transcript F G)
  | _, [] => []
  | acc, e :: t => if e.isChallenge then (acc ++ [e]) :: drawsFrom (acc ++ [e]) t else drawsFrom (acc ++ [e]) t

/-- The draws along a log, in order. -/
def draws (t : Transcript F G) : List (Transcript F G) := drawsFrom [] t

/-- A prover that asks the oracle: from the answers it has got, it computes the log it asks next, and the proof it ends with. -/
structure Attack (F G : Type) where
  ask : List F → Transcript F G
  out : List F → R1CSProof F G

/-- The questions that have been asked when the answers `cs` are given to somebody whose next question, after some answers, is given by `ask`. -/
def askedBy (ask : List F → Transcript F G) (cs : List F) : List (Transcript F G) := (List.range cs.length).map fun i => ask (cs.take i)

/-- The oracle gives these answers.  (If a question is repeated, its first answer counts.) -/
def Answers (ask : List F → Transcript F G) (O : Oracle F G) (cs : List F) : Prop := ∀ (i : ℕ) c, cs[i]? = some c → ask (cs.take i) ∉ askedBy ask (cs.take i) → O (ask (cs.take i)) = c

/-- The attack, with the answers `cs`, makes the verifier (with its random scalar `r`) accept, under an oracle `O` that gives these answers.  `T` is the log of the proof; all its draws have been asked, in whatever order. -/
structure Attack.AcceptedWith [DecidableEq G] (A : Attack F G) (env : Env F G) (s : Verifier F G) (g h : G) (Gs Hs : List G) (cs : List F) (r : F) (O : Oracle F G) (T : Transcript F G) : Prop where
  answers : Answers A.ask O cs
  accepts : s.verify { env with oracle := O } (A.out cs) g h Gs Hs r = .ok T
  asked : ∀ d ∈ draws T, d ∈ askedBy A.ask cs

/-- The attack makes the verifier accept, although the constraint system it has built is not satisfiable. -/
def Attack.Wins [DecidableEq G] (A : Attack F G) (env : Env F G) (s : Verifier F G) (g h : G) (Gs Hs : List G) (cs : List F) (r : F) : Prop :=
  ∃ O T s2, A.AcceptedWith env s g h Gs Hs cs r O T ∧ (s.start (A.out cs)).createRandomizedConstraints { env with oracle := O } = .ok s2 ∧ ¬ s2.Satisfiable g h

/-! ## The game

The prover asks `Q` questions, and then chooses the commitments and the proof.  The verifier makes its statement about the commitments, and checks the proof; for this it asks the oracle too. -/

/-- A prover that chooses its commitments too. -/
structure Forger (F G : Type) extends Attack F G where
  coms : List F → List G

/-- The log of a proof, for a verifier without randomized constraints. -/
def Verifier.proofLog (s : Verifier F G) (pr : R1CSProof F G) : Transcript F G :=
  s.transcript ++ [.u64 "m" s.V.length, .point "A_I1" pr.A_I1, .point "A_O1" pr.A_O1, .point "S1" pr.S1, .domSep "r1cs-1phase",
    .point "A_I2" pr.A_I2, .point "A_O2" pr.A_O2, .point "S2" pr.S2, .challenge "y", .challenge "z",
    .point "T_1" pr.T_1, .point "T_3" pr.T_3, .point "T_4" pr.T_4, .point "T_5" pr.T_5, .point "T_6" pr.T_6, .challenge "u", .challenge "x",
    .scalar "t_x" pr.t_x, .scalar "t_x_blinding" pr.t_x_blinding, .scalar "e_blinding" pr.e_blinding, .challenge "w",
    .domSep "ipp v1", .u64 "n" (nextPowerOfTwo s.numVars)] ++ roundsLog (pr.ipp.L.zip pr.ipp.R)

/-- The number of challenges of a proof, for a verifier without randomized constraints. -/
def Verifier.numDraws (s : Verifier F G) : ℕ := 5 + Nat.clog 2 s.numVars

/-- If the driver succeeds, it has not added callbacks for the second phase, and has only logged commitments. -/
def OnePhase {α : Type} (d : Drv (Verifier F G) α) : Prop :=
  ∀ s a s', d s = (.ok a, s') → s'.deferred = s.deferred ∧ ∃ Vs, s'.V = s.V ++ Vs ∧ s'.transcript = s.transcript ++ Vs.map (TEvent.point "V")

/-- The verifier's statement about `m` commitments has no randomized constraints, and what the verifier builds depends on the commitments only in that they are recorded, and logged. -/
structure Uniform (label : String) (m : ℕ) (dv : List G → Drv (Verifier F G) Unit) : Prop where
  onePhase : ∀ a, OnePhase (dv a)
  same : ∀ a b s s', a.length = m → b.length = m → dv a (Verifier.new [.init label]) = (.ok (), s) → dv b (Verifier.new [.init label]) = (.ok (), s') → s' = { s with V := s'.V, transcript := s'.transcript }

/-- The questions of the game: `Q` questions of the prover, then those of the verifier whose state is `s`. -/
def Forger.game (A : Forger F G) (s : Verifier F G) (Q : ℕ) (cs : List F) : Transcript F G :=
  if cs.length < Q then A.ask cs else (draws (s.proofLog (A.out (cs.take Q)))).getD (cs.length - Q) []

/-- With the answers `cs` (the first `Q` for the prover, the rest for the verifier) and the random scalar `r` the verifier, who checks the statement `dv` about the commitments, accepts.  `O` is an oracle that gives these answers. -/
structure Forger.AcceptedWith [DecidableEq G] (A : Forger F G) (env : Env F G) (label : String) (dv : List G → Drv (Verifier F G) Unit) (g h : G) (Gs Hs : List G) (Q : ℕ) (cs : List F) (r : F)
    (O : Oracle F G) (s : Verifier F G) (T : Transcript F G) : Prop where
  built : dv (A.coms (cs.take Q)) (Verifier.new [.init label]) = (.ok (), s)
  answers : Answers (A.game s Q) O cs
  accepts : s.verify { env with oracle := O } (A.out (cs.take Q)) g h Gs Hs r = .ok T

/-- The prover has chosen `m` commitments of which the claim is false, and the verifier accepts. -/
def Forger.Forges [DecidableEq G] (A : Forger F G) (env : Env F G) (label : String) (dv : List G → Drv (Verifier F G) Unit) (m : ℕ) (claim : List G → Prop) (g h : G) (Gs Hs : List G) (Q : ℕ) (cs : List F) (r : F) : Prop :=
  (A.coms (cs.take Q)).length = m ∧ ¬ claim (A.coms (cs.take Q)) ∧ ∃ O s T, A.AcceptedWith env label dv g h Gs Hs Q cs r O s T

/-- With how many sequences of answers (`Q` for the prover, `D` for the verifier) and random scalars of the verifier does that happen? -/
noncomputable def Forger.forging [DecidableEq G] (A : Forger F G) (env : Env F G) (label : String) (dv : List G → Drv (Verifier F G) Unit) (m : ℕ) (claim : List G → Prop) (g h : G) (Gs Hs : List G) (Q D : ℕ) : ℕ :=
  Nat.card {p : (Fin (Q + D) → F) × F // A.Forges env label dv m claim g h Gs Hs Q (List.ofFn p.1) p.2}

end Bp
