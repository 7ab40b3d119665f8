import Verif.Spec.Algebraic

/-! # Specification: statements with randomized constraints

A client may give callbacks to `specify_randomized_constraints`; they run after the prover has committed to the wires of the first phase, and draw challenges from the log.  Their constraints are not the statement itself: they
imply it only for most challenges.  So there is a claim about the values that are fixed before the callbacks run, and soundness must say that it is true when a proof is accepted. -/

namespace Bp
variable {F G : Type} [Field F] [AddCommGroup G] [Module F G]

/-- The two agree on the first `n` gates and the first `m` committed values. -/
structure Assignment.SameUpTo (n m : ℕ) (σ σ' : Assignment F) : Prop where
  left : ∀ i < n, σ.left i = σ'.left i
  right : ∀ i < n, σ.right i = σ'.right i
  out : ∀ i < n, σ.out i = σ'.out i
  committed : ∀ j < m, σ.committed j = σ'.committed j

/-- The callbacks that the verifier has in state `s` (when `verify` is called) randomize the claim, with `d` bad challenges for each draw.  `early`: the claim is about values that are fixed in the first phase.  `sound`: if it is
false of these, whatever the proof: when the constraints (all of them, with those of the callbacks) can be satisfied by adding values for the gates of the callbacks, then one of the draws of the callbacks got a bad answer. -/
structure Randomizes (env : Env F G) (s : Verifier F G) (d : ℕ) (claim : Assignment F → Prop) : Prop where
  early : ∀ σ σ', σ.SameUpTo s.numVars s.V.length σ' → claim σ → claim σ'
  sound : ∀ σ, ¬ claim σ → ∃ bad : BadRule F G d, ∀ (O : Oracle F G) (pr : R1CSProof F G) (s2 : Verifier F G), (s.start pr).createRandomizedConstraints { env with oracle := O } = .ok s2 →
    (∃ σ', σ.SameUpTo s.numVars s.V.length σ' ∧ σ'.Gates ∧ σ'.Sat s2.constraints) →
    ∃ pre l, (s.start pr).transcript <+: pre ∧ pre ++ [TEvent.challenge l] <+: s2.transcript ∧ O (pre ++ [.challenge l]) ∈ bad.bad O (pre ++ [.challenge l])

/-- There are wire values that satisfy all gates and, together with the committed points, all constraints (as commitments to zero), and the claim is true of them and of every opening of the committed points. -/
def Verifier.SatisfiableWith (s : Verifier F G) (g h : G) (claim : Assignment F → Prop) : Prop :=
  ∃ σ : Assignment F, σ.Gates ∧ (∀ lc ∈ s.constraints, ∃ β : F, lc.commitment σ g s.V = β • h) ∧
    ∀ v r : ℕ → F, (∀ j < s.V.length, s.V.getD j 0 = v j • g + r j • h) → claim { σ with committed := v }

/-- The attack makes the verifier accept, although the claim is not true of any values that satisfy the constraint system. -/
def Attack.WinsAgainst [DecidableEq G] (A : Attack F G) (env : Env F G) (s : Verifier F G) (claim : Assignment F → Prop) (g h : G) (Gs Hs : List G) (cs : List F) (r : F) : Prop :=
  ∃ O T s2, A.AcceptedWith env s g h Gs Hs cs r O T ∧ (s.start (A.out cs)).createRandomizedConstraints { env with oracle := O } = .ok s2 ∧ ¬ s2.SatisfiableWith g h claim

/-! ## Provers that choose the commitments -/

/-- The verifier's statement about `m` commitments has only logged commitments when its first phase is over, and what the verifier has then depends on the commitments only in that they are recorded, and logged.  (It may have
callbacks.) -/
structure Shaped (label : String) (m : ℕ) (dv : List G → Drv (Verifier F G) Unit) : Prop where
  log : ∀ a s, dv a (Verifier.new [.init label]) = (.ok (), s) → s.transcript = [.init label, .domSep "r1cs v1"] ++ s.V.map (TEvent.point "V")
  same : ∀ a b s s', a.length = m → b.length = m → dv a (Verifier.new [.init label]) = (.ok (), s) → dv b (Verifier.new [.init label]) = (.ok (), s') → s' = { s with V := s'.V, transcript := s'.transcript }

/-- The prover, that has asked for all the challenges of its proof, has chosen `m` commitments of which the claim is false, and the verifier accepts. -/
def Forger.Cheats [DecidableEq G] (A : Forger F G) (env : Env F G) (label : String) (dv : List G → Drv (Verifier F G) Unit) (m : ℕ) (claim : List G → Prop) (g h : G) (Gs Hs : List G) (cs : List F) (r : F) : Prop :=
  (A.coms cs).length = m ∧ ¬ claim (A.coms cs) ∧ ∃ O s T, dv (A.coms cs) (Verifier.new [.init label]) = (.ok (), s) ∧ A.toAttack.AcceptedWith env s g h Gs Hs cs r O T

/-- The same for a prover that calculates with combinations of the generators, of which the claim is false, and that does not give a relation.  `dv'` is the statement `dv` of the verifier, made with the combinations. -/
def Forger.CheatsVia {M : Type} [AddCommGroup M] [Module F M] [DecidableEq G] (φ : M →ₗ[F] G) (A : Forger F M) (env : Env F G) (label : String) (dv : List G → Drv (Verifier F G) Unit)
    (dv' : List M → Drv (Verifier F M) Unit) (m : ℕ) (claim : List M → Prop) (g h : M) (Gs Hs : List M) (cs : List F) (r : F) : Prop :=
  (A.coms cs).length = m ∧ ¬ claim (A.coms cs) ∧ ∃ O s T, dv ((A.coms cs).map φ) (Verifier.new [.init label]) = (.ok (), s) ∧
    Answers (fun cs => (A.ask cs).mapG φ) O cs ∧ s.verify { env with oracle := O } ((A.out cs).mapG φ) (φ g) (φ h) (Gs.map φ) (Hs.map φ) r = .ok T ∧ (∀ d ∈ draws T, ∃ q ∈ askedBy A.ask cs, q.mapG φ = d) ∧
    ∀ ρ, ¬ Relation φ env (dv' (A.coms cs) (Verifier.new [.init label])).2 (A.out cs) g h Gs Hs r O (askedBy A.ask cs) ρ

/-! ## Shuffles -/

/-- The first `k` values are the next `k` values in another order (each as often). -/
def Shuffled (k : ℕ) (v : ℕ → F) : Prop := ((List.range k).map v).Perm ((List.range k).map fun i => v (k + i))

/-- For `2k` gates and `4k + 1` constraints. -/
def shuffleBound (k : ℕ) : ℕ := max 7 (max (nextPowerOfTwo (2 * k)) (4 * k + 1))

end Bp
