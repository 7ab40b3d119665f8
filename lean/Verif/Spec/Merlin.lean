import Verif.Model.Merlin
import Verif.Spec.Challenge
import Verif.Spec.Algebraic

/-! # Specification: the hash sees bytes

What a prover or a distinguisher can ask is any sequence of STROBE operations, whether it comes from a log of the code or not. -/

namespace Bp
variable {F G M : Type}

/-- Different scalars, and different points, have different bytes; scalars have `a` bytes, points have `b`; these are different, and not 8. -/
structure Wire.Faithful (W : Wire F G) (a b : ℕ) : Prop where
  scalar_inj : Function.Injective W.scalar
  point_inj : Function.Injective W.point
  scalar_length : ∀ x, (W.scalar x).length = a
  point_length : ∀ p, (W.point p).length = b
  scalar_ne_point : a ≠ b
  scalar_ne_u64 : a ≠ 8
  point_ne_u64 : b ≠ 8

/-- An event that can follow the first one of a log: it is no `Transcript::new`, only domain separators have the label `dom-sep`, and numbers fit into 64 bits. -/
def TEvent.Regular : TEvent F G → Prop
  | .init _ => False
  | .domSep _ => True
  | .u64 l n => l ≠ "dom-sep" ∧ n < 2 ^ 64
  | .point l _ => l ≠ "dom-sep"
  | .scalar l _ => l ≠ "dom-sep"
  | .challenge _ => True

/-- A log that begins with `Transcript::new` and goes on with such events. -/
def Transcript.Regular : Transcript F G → Prop
  | .init _ :: t => ∀ e ∈ t, e.Regular
  | _ => False

/-! ## Forgers -/

/-- A question to the hash: the operations of a log, or any others. -/
inductive Query (F G : Type) where
  | log (t : Transcript F G)
  | raw (q : List StrobeOp)

/-- The operations. -/
def Query.ops (W : Wire F G) (f : M → G) : Query F M → List StrobeOp
  | .log t => (t.mapG f).ops W
  | .raw q => q

/-- The points (or combinations) it names. -/
def Query.logs : Query F M → List (Transcript F M)
  | .log t => [t]
  | .raw _ => []

/-- A prover that asks the hash (compare `Forger`). -/
structure RawForger (F M : Type) where
  ask : List F → Query F M
  out : List F → R1CSProof F M
  coms : List F → List M

/-- If the operations that it asks are those of a log that the code could have made, it knows how it has made the points in it. -/
def RawForger.Algebraic (W : Wire F G) (f : M → G) (A : RawForger F M) : Prop :=
  ∀ cs (t : Transcript F G), t.Regular → (A.ask cs).ops W f = t.ops W → ∃ t', A.ask cs = .log t' ∧ t'.mapG f = t

/-- The hash gives these answers.  (If a question is repeated, its first answer counts.) -/
def AnswersOps (ask : List F → List StrobeOp) (H : List StrobeOp → F) (cs : List F) : Prop :=
  ∀ (i : ℕ) c, cs[i]? = some c → (∀ j < i, ask (cs.take j) ≠ ask (cs.take i)) → H (ask (cs.take i)) = c

variable [Field F] [AddCommGroup G] [Module F G] [AddCommGroup M] [Module F M]

/-- The questions of the game: `Q` questions of the prover, then those of the verifier whose state is `s`. -/
def RawForger.game (W : Wire F G) (f : M → G) (A : RawForger F M) (s : Verifier F G) (Q : ℕ) (cs : List F) : List StrobeOp :=
  if cs.length < Q then (A.ask cs).ops W f else ((draws (s.proofLog ((A.out (cs.take Q)).mapG f))).getD (cs.length - Q) []).ops W

/-- The logs it has named. -/
def RawForger.named (A : RawForger F M) (cs : List F) : List (Transcript F M) := (List.range cs.length).flatMap fun i => (A.ask (cs.take i)).logs

/-- The prover has chosen `m` commitments of which (as combinations) the claim is false, the verifier (that only sees the points) accepts, and no relation is found (compare `Forger.Fools`).  The challenges are those of a hash of bytes
that gives the answers `cs`. -/
def RawForger.Fools [DecidableEq G] (W : Wire F G) (φ : M →ₗ[F] G) (A : RawForger F M) (env : Env F G) (label : String) (dv : List G → Drv (Verifier F G) Unit) (dv' : List M → Drv (Verifier F M) Unit) (m : ℕ) (claim : List M → Prop)
    (g h : M) (Gs Hs : List M) (Q : ℕ) (cs : List F) (r : F) : Prop :=
  (A.coms (cs.take Q)).length = m ∧ ¬ claim (A.coms (cs.take Q)) ∧
  ∃ (H : List StrobeOp → F) (s : Verifier F G) (T : Transcript F G), dv ((A.coms (cs.take Q)).map φ) (Verifier.new [.init label]) = (.ok (), s) ∧ AnswersOps (A.game W φ s Q) H cs ∧
    s.verify { env with oracle := Oracle.ofOps W H } ((A.out (cs.take Q)).mapG φ) (φ g) (φ h) (Gs.map φ) (Hs.map φ) r = .ok T ∧
    ∀ ρ, ¬ Relation φ env (dv' (A.coms (cs.take Q)) (Verifier.new [.init label])).2 (A.out (cs.take Q)) g h Gs Hs r (Oracle.ofOps W H) (A.named (cs.take Q)) ρ

/-! ## Distinguishers -/

/-- Like `Distinguisher`, but with any operations as questions. -/
inductive RawDistinguisher (F G : Type) where
  | decide (b : Bool)
  | ask (q : List StrobeOp) (next : F → RawDistinguisher F G)
  | prove (p : Prover F G) (s : Verifier F G) (next : R1CSProof F G → RawDistinguisher F G)

/-- The operations that the hash has been asked, and the answers. -/
abbrev AnsweredOps (F : Type) := List StrobeOp → Option F

/-- Answered answers are repeated, other questions are answered by `O`. -/
def AnsweredOps.over (W : Wire F G) (K : AnsweredOps F) (O : Oracle F G) : Oracle F G := fun t => (K (t.ops W)).getD (O t)

/-- The hash has answered `q`. -/
def AnsweredOps.add (K : AnsweredOps F) (q : List StrobeOp) (a : F) : AnsweredOps F := fun q' => if q' = q then some a else K q'

/-- The hash has answered all the challenges along the log `T` after its part `t0`, as `O` does. -/
def AnsweredOps.record (W : Wire F G) (K : AnsweredOps F) (O : Oracle F G) (t0 T : Transcript F G) : AnsweredOps F := fun q =>
  match (newDraws t0 T).find? fun t => t.ops W = q with
  | some t => some (O t)
  | none => K q

namespace RawDistinguisher

section
variable {n : ℕ} [Fact n.Prime] {G : Type} [AddCommGroup G] [Module (ZMod n) G]

/-- With which probability do they say yes, when the proofs are made by `Prover.prove`?  A new question gets `m` random bytes as answer. -/
noncomputable def real (m : ℕ) (W : Wire (ZMod n) G) (env : Env (ZMod n) G) (Gs Hs : List G) : RawDistinguisher (ZMod n) G → AnsweredOps (ZMod n) → ℚ
  | decide b, _ => if b then 1 else 0
  | ask q next, K => match K q with
    | some a => (next a).real m W env Gs Hs K
    | none => avg fun b : Bytes m => (next (challengeOf n b)).real m W env Gs Hs (K.add q (challengeOf n b))
  | prove p s next, K => avg fun x : (Fin s.numDraws → Bytes m) × { c : Coins (ZMod n) // c.Drawn s.numVars 0 } =>
    match p.prove { env with oracle := K.over W (nextCoins s.transcript (List.ofFn (challengesOf n x.1))) } x.2.1 Gs Hs with
    | .ok (pr, T) => (next pr).real m W env Gs Hs (K.record W (K.over W (nextCoins s.transcript (List.ofFn (challengesOf n x.1)))) s.transcript T)
    | .error _ => 0

/-- With which probability do they say yes, when the proofs are simulated? -/
noncomputable def simulated (m : ℕ) (W : Wire (ZMod n) G) (env : Env (ZMod n) G) (g h : G) (Gs Hs : List G) : RawDistinguisher (ZMod n) G → AnsweredOps (ZMod n) → ℚ
  | decide b, _ => if b then 1 else 0
  | ask q next, K => match K q with
    | some a => (next a).simulated m W env g h Gs Hs K
    | none => avg fun b : Bytes m => (next (challengeOf n b)).simulated m W env g h Gs Hs (K.add q (challengeOf n b))
  | prove _ s next, K => avg fun x : (Fin s.numDraws → Bytes m) × { sc : SimCoins (ZMod n) G // sc.Drawn s.numVars 0 } =>
    match s.simulate { env with oracle := nextCoins s.transcript (List.ofFn (challengesOf n x.1)) } g h Gs Hs x.2.1 with
    | .ok (pr, T) => (next pr).simulated m W env g h Gs Hs (K.record W (nextCoins s.transcript (List.ofFn (challengesOf n x.1))) s.transcript T)
    | .error _ => 0

end

/-- At most `Q` questions and at most `P` proofs, all of provable statements whose proofs have at most `D` challenges and whose logs are regular. -/
def Within (g h : G) (Gs Hs : List G) (D : ℕ) : RawDistinguisher F G → ℕ → ℕ → Prop
  | .decide _, _, _ => True
  | .ask _ next, Q, P => ∃ Q', Q = Q' + 1 ∧ ∀ a, (next a).Within g h Gs Hs D Q' P
  | .prove p s next, Q, P => (Provable g h Gs Hs p s ∧ s.transcript.Regular ∧ s.V.length < 2 ^ 64 ∧ nextPowerOfTwo s.numVars < 2 ^ 64) ∧ s.numDraws ≤ D ∧ ∃ P', P = P' + 1 ∧ ∀ pr, (next pr).Within g h Gs Hs D Q P'

/-- The same questions, and proofs of the same statements, maybe with other witnesses (compare `Distinguisher.SameStatements`). -/
inductive SameStatements : RawDistinguisher F G → RawDistinguisher F G → Prop where
  | decide (b : Bool) : SameStatements (.decide b) (.decide b)
  | ask (q : List StrobeOp) {next next' : F → RawDistinguisher F G} (h : ∀ a, SameStatements (next a) (next' a)) : SameStatements (.ask q next) (.ask q next')
  | prove (p p' : Prover F G) (s : Verifier F G) {next next' : R1CSProof F G → RawDistinguisher F G} (h : ∀ pr, SameStatements (next pr) (next' pr)) : SameStatements (.prove p s next) (.prove p' s next')

end RawDistinguisher

end Bp
