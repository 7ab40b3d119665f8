import Verif.Spec.FiatShamir
import Mathlib.Algebra.Module.LinearMap.Basic
import Mathlib.Algebra.Module.BigOperators

/-! # Specification: algebraic provers

The group of a curve is cyclic, so its generators always have linear relations; what is assumed of them is that nobody can compute one.  An algebraic prover says, for each point it names (in its questions to the oracle and in
its proof), how it has made it: a combination of the generators.  In the model it works with those combinations, elements of a module `M`; `φ` gives the point that a combination is. -/

namespace Bp
variable {F G M : Type}

/-! ## Replacing combinations by the points they are -/

/-- A transcript event. -/
def TEvent.mapG (f : M → G) : TEvent F M → TEvent F G
  | .init l => .init l
  | .domSep s => .domSep s
  | .u64 l n => .u64 l n
  | .point l p => .point l (f p)
  | .scalar l x => .scalar l x
  | .challenge l => .challenge l

/-- A transcript. -/
def Transcript.mapG (f : M → G) (t : Transcript F M) : Transcript F G := t.map (TEvent.mapG f)

/-- An inner-product proof. -/
def IppProof.mapG (f : M → G) (p : IppProof F M) : IppProof F G := ⟨p.L.map f, p.R.map f, p.a, p.b⟩

/-- A proof. -/
def R1CSProof.mapG (f : M → G) (p : R1CSProof F M) : R1CSProof F G :=
  ⟨f p.A_I1, f p.A_O1, f p.S1, f p.A_I2, f p.A_O2, f p.S2, f p.T_1, f p.T_3, f p.T_4, f p.T_5, f p.T_6, p.t_x, p.t_x_blinding, p.e_blinding, p.ipp.mapG f⟩

/-- The state of a verifier. -/
def Verifier.mapG (f : M → G) (s : Verifier F M) : Verifier F G := ⟨s.transcript.mapG f, s.constraints, s.numVars, s.V.map f, s.deferred, s.pending, s.seed⟩

variable [Field F]

/-- The same world, for one who names points by combinations: the oracle only sees the points. -/
def Env.pull (f : M → G) (env : Env F G) : Env F M where
  oracle := fun t => env.oracle (t.mapG f)
  hashOrd := env.hashOrd
  hashOrd_perm := env.hashOrd_perm
  batchInvert := env.batchInvert
  batchInvert_spec := env.batchInvert_spec

/-- The same world, with other points and another oracle. -/
def Env.seen (env : Env F M) (O : Oracle F G) : Env F G where
  oracle := O
  hashOrd := env.hashOrd
  hashOrd_perm := env.hashOrd_perm
  batchInvert := env.batchInvert
  batchInvert_spec := env.batchInvert_spec

section
variable [AddCommGroup G] [SMul F G]

/-- What `Verifier::verify` compares with the identity at its end (verifier.rs:449-456), and the log; like `Verifier.verify` otherwise. -/
def Verifier.residual (env : Env F G) (s : Verifier F G) (pr : R1CSProof F G) (g h : G) (Gs Hs : List G) (r : F) : Res (G × Transcript F G) := do
  let s := { s with transcript := s.transcript.appendU64 "m" s.V.length }
  let n1 := s.numVars
  let s := { s with transcript := ((s.transcript.commitPoint "A_I1" pr.A_I1).commitPoint "A_O1" pr.A_O1).commitPoint "S1" pr.S1 }
  let s ← s.createRandomizedConstraints env
  let n := s.numVars
  let N := nextPowerOfTwo n
  if Gs.length < N then Res.err .invalidGeneratorsLength else do
  let t := ((s.transcript.commitPoint "A_I2" pr.A_I2).commitPoint "A_O2" pr.A_O2).commitPoint "S2" pr.S2
  let (y, t) := t.challengeScalar env.oracle "y"
  let (z, t) := t.challengeScalar env.oracle "z"
  let t := ((((t.commitPoint "T_1" pr.T_1).commitPoint "T_3" pr.T_3).commitPoint "T_4" pr.T_4).commitPoint "T_5" pr.T_5).commitPoint "T_6" pr.T_6
  let (u, t) := t.challengeScalar env.oracle "u"
  let (x, t) := t.challengeScalar env.oracle "x"
  let t := ((t.commitScalar "t_x" pr.t_x).commitScalar "t_x_blinding" pr.t_x_blinding).commitScalar "e_blinding" pr.e_blinding
  let (w, t) := t.challengeScalar env.oracle "w"
  let wt ← s.flattenedConstraints z
  let (yInvs, yInvWR, delta) ← Verifier.yTerms wt y n N
  let ((uSq, uInvSq, sv), t) ←
    match verificationScalars env pr.ipp.L pr.ipp.R N t with
    | .ok x => Except.ok x
    | .error (.err _) => Res.err .verificationError
    | .error (.panic w) => Res.panic w
  let GN ← slice Gs 0 N
  let HN ← slice Hs 0 N
  let args := Verifier.checkArgs n1 n N s.V pr g h GN HN wt yInvs yInvWR delta ⟨y, z, u, x, w⟩ uSq uInvSq sv r
  let res ← multiScalarMul args.1 args.2
  return (res, t)

/-- The points (or combinations) named in a log. -/
def Transcript.points (t : Transcript F G) : List G := t.filterMap fun
  | .point _ p => some p
  | _ => none

variable [AddCommGroup M] [SMul F M]

/-! ## Attacks -/

/-- `ρ` is a combination, different from the trivial one, that is the identity.  It is what the prover gets when it does the verifier's final calculation with its combinations, or the difference of two combinations (for the
same point) that it has named in its questions `qs` or in the log of its proof.  `s`, `g`, `h`, `Gs`, `Hs` are the verifier's state and the generators, as combinations. -/
def Relation (φ : M → G) (env : Env F G) (s : Verifier F M) (pr : R1CSProof F M) (g h : M) (Gs Hs : List M) (r : F) (O : Oracle F G) (qs : List (Transcript F M)) (ρ : M) : Prop :=
  ρ ≠ 0 ∧ φ ρ = 0 ∧ ∃ ρ' t, s.residual (Env.pull φ { env with oracle := O }) pr g h Gs Hs r = .ok (ρ', t) ∧
    (ρ = ρ' ∨ ∃ p p', p ∈ (t :: qs).flatMap Transcript.points ∧ p' ∈ (t :: qs).flatMap Transcript.points ∧ ρ = p - p')

/-- The attack, calculating with combinations, with the answers `cs`, makes the verifier (that only sees the points) accept, under an oracle (that only sees the points) that gives these answers. -/
structure Attack.AcceptedVia [DecidableEq G] (φ : M → G) (A : Attack F M) (env : Env F G) (s : Verifier F M) (g h : M) (Gs Hs : List M) (cs : List F) (r : F) (O : Oracle F G) (T : Transcript F G) : Prop where
  answers : Answers (fun cs => (A.ask cs).mapG φ) O cs
  accepts : (s.mapG φ).verify { env with oracle := O } ((A.out cs).mapG φ) (φ g) (φ h) (Gs.map φ) (Hs.map φ) r = .ok T
  asked : ∀ d ∈ draws T, ∃ q ∈ askedBy A.ask cs, q.mapG φ = d

/-- The attack makes the verifier accept, although the constraint system it has built is not satisfiable by the committed combinations, and does not give a relation. -/
def Attack.WinsVia [DecidableEq G] (φ : M → G) (A : Attack F M) (env : Env F G) (s : Verifier F M) (g h : M) (Gs Hs : List M) (cs : List F) (r : F) : Prop :=
  ∃ O T s2, A.AcceptedVia φ env s g h Gs Hs cs r O T ∧ (∀ ρ, ¬ Relation φ env s (A.out cs) g h Gs Hs r O (askedBy A.ask cs) ρ) ∧
    (s.start (A.out cs)).createRandomizedConstraints (Env.pull φ { env with oracle := O }) = .ok s2 ∧ ¬ s2.Satisfiable g h

/-! ## The game -/

/-- What the verifier sees of a prover that calculates with combinations. -/
def Forger.mapG (f : M → G) (A : Forger F M) : Forger F G where
  ask cs := (A.ask cs).mapG f
  out cs := (A.out cs).mapG f
  coms cs := (A.coms cs).map f

/-- The prover has chosen `m` commitments of which (as combinations) the claim is false, the verifier (that only sees the points) accepts, and no relation is found.  `dv'` is the statement `dv` of the verifier, made with the
combinations. -/
def Forger.Fools [DecidableEq G] (φ : M → G) (A : Forger F M) (env : Env F G) (label : String) (dv : List G → Drv (Verifier F G) Unit) (dv' : List M → Drv (Verifier F M) Unit) (m : ℕ) (claim : List M → Prop)
    (g h : M) (Gs Hs : List M) (Q : ℕ) (cs : List F) (r : F) : Prop :=
  (A.coms (cs.take Q)).length = m ∧ ¬ claim (A.coms (cs.take Q)) ∧
  ∃ O s T, (A.mapG φ).AcceptedWith env label dv (φ g) (φ h) (Gs.map φ) (Hs.map φ) Q cs r O s T ∧
    ∀ ρ, ¬ Relation φ env (dv' (A.coms (cs.take Q)) (Verifier.new [.init label])).2 (A.out (cs.take Q)) g h Gs Hs r O (askedBy A.ask (cs.take Q)) ρ

end

variable [AddCommGroup G] [Module F G] [AddCommGroup M] [Module F M]

/-! ## Combinations of given generators -/

/-- The combinations of the points `gens`: one coefficient for each. -/
abbrev Rep (F : Type) {G : Type} (gens : List G) := Fin gens.length → F

/-- The point that a combination is. -/
def Rep.point (F : Type) [Field F] [Module F G] (gens : List G) : Rep F gens →ₗ[F] G where
  toFun c := ∑ i, c i • gens.get i
  map_add' c d := by simp [add_smul, Finset.sum_add_distrib]
  map_smul' a c := by simp [mul_smul, Finset.smul_sum]

/-- The combination with coefficient 1 at `gens[i]` and 0 elsewhere. -/
def Rep.gen (F : Type) [Field F] (gens : List G) (i : ℕ) : Rep F gens := fun j => if j.val = i then 1 else 0

/-- The generators themselves, as combinations of `Gs ++ Hs ++ [g, h]`. -/
def Rep.Gs (F : Type) [Field F] (g h : G) (Gs Hs : List G) : List (Rep F (Gs ++ Hs ++ [g, h])) := (List.range Gs.length).map (Rep.gen F _)
def Rep.Hs (F : Type) [Field F] (g h : G) (Gs Hs : List G) : List (Rep F (Gs ++ Hs ++ [g, h])) := (List.range' Gs.length Hs.length).map (Rep.gen F _)
def Rep.g (F : Type) [Field F] (g h : G) (Gs Hs : List G) : Rep F (Gs ++ Hs ++ [g, h]) := Rep.gen F _ (Gs.length + Hs.length)
def Rep.h (F : Type) [Field F] (g h : G) (Gs Hs : List G) : Rep F (Gs ++ Hs ++ [g, h]) := Rep.gen F _ (Gs.length + Hs.length + 1)

/-- With how many sequences of answers (`Q` for the prover, `D` for the verifier) and random scalars of the verifier is the verifier fooled, by a prover that makes its points as combinations of the generators? -/
noncomputable def Forger.fooling [DecidableEq G] (env : Env F G) (label : String) (dv : List G → Drv (Verifier F G) Unit) (g h : G) (Gs Hs : List G) (dv' : List (Rep F (Gs ++ Hs ++ [g, h])) → Drv (Verifier F (Rep F (Gs ++ Hs ++ [g, h]))) Unit) (m : ℕ)
    (claim : List (Rep F (Gs ++ Hs ++ [g, h])) → Prop) (A : Forger F (Rep F (Gs ++ Hs ++ [g, h]))) (Q D : ℕ) : ℕ :=
  Nat.card {p : (Fin (Q + D) → F) × F // A.Fools (Rep.point F _) env label dv dv' m claim (Rep.g F g h Gs Hs) (Rep.h F g h Gs Hs) (Rep.Gs F g h Gs Hs) (Rep.Hs F g h Gs Hs) Q (List.ofFn p.1) p.2}

end Bp
