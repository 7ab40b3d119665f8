import Verif.Spec.Lockstep
import Verif.Spec.Flatten
import Verif.Spec.R1CS
import Verif.Spec.Log

/-! # Specification: proofs of different witnesses are alike -/

namespace Bp
variable {F G : Type} [Field F] [AddCommGroup G] [Module F G]

/-- Whatever the transcript of the first phase, the second phase of the prover succeeds with a satisfying assignment, only uses variables that
exist, and there are enough generators. -/
def Prover.Ready (env : Env F G) (p : Prover F G) (Gs Hs : List G) : Prop :=
  ∀ T : Transcript F G, ∃ p2 k, ({ p with transcript := T } : Prover F G).createRandomizedConstraints env = .ok p2 ∧ p2.Satisfied ∧
    (∀ lc ∈ p2.constraints, ∀ t ∈ lc.terms, Var.InRange p2.aL.length p2.v.length t.1) ∧
    nextPowerOfTwo p2.aL.length = 2 ^ k ∧ 2 ^ k ≤ Gs.length ∧ 2 ^ k ≤ Hs.length

/-- With these coins `prove` succeeds and the challenges `x` and `y` that it draws are not zero. -/
def Prover.Regular (env : Env F G) (p : Prover F G) (Gs Hs : List G) (c : Coins F) : Prop :=
  ∃ p2 pr t', (p.start c Gs Hs).createRandomizedConstraints env = .ok p2 ∧ Prover.prove env p c Gs Hs = .ok (pr, t') ∧
    (drawn env.oracle p2.transcript pr).x ≠ 0 ∧ (drawn env.oracle p2.transcript pr).y ≠ 0

/-- The two sets of coins agree on all that `prove` does not draw: it draws `n1` and then `n2` masks for each side, and the second-phase
blindings only if there is a second phase (`n2 ≠ 0`). -/
def Coins.SameUnused (n1 n2 : ℕ) (c c' : Coins F) : Prop :=
  (∀ i, n1 ≤ i → c'.sL1 i = c.sL1 i ∧ c'.sR1 i = c.sR1 i) ∧ (∀ i, n2 ≤ i → c'.sL2 i = c.sL2 i ∧ c'.sR2 i = c.sR2 i) ∧
  (n2 = 0 → c'.iB2 = c.iB2 ∧ c'.oB2 = c.oB2 ∧ c'.sB2 = c.sB2)

end Bp
