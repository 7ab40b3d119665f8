import Verif.Model.Challenge
import Verif.Spec.RandomOracle
import Mathlib.Algebra.Field.ZMod

/-! # Specification: challenges that are made from random bytes -/

namespace Bp

open Classical in
/-- The probability of `E`, when all `a` are equally likely. -/
noncomputable def prob {α : Type} (E : α → Prop) : ℚ := avg fun a => if E a then 1 else 0

/-- How far a number below `N`, all being equally likely, is from uniform when it is reduced modulo `n`: `t (n - t) / (N n)`, for the remainder `t` of `N`. -/
def bias (n N : ℕ) : ℚ := ((N % n) * (n - N % n) : ℕ) / (N * n : ℕ)

/-- The challenges that are made from given bytes. -/
def challengesOf (n : ℕ) {m d : ℕ} (b : Fin d → Bytes m) : Fin d → ZMod n := fun i => challengeOf n (b i)

namespace Distinguisher
variable {n : ℕ} [Fact n.Prime] {G : Type} [AddCommGroup G] [Module (ZMod n) G]

/-- `Distinguisher.real`, with challenges made from `m` random bytes. -/
noncomputable def realBytes (m : ℕ) (env : Env (ZMod n) G) (Gs Hs : List G) : Distinguisher (ZMod n) G → Answered (ZMod n) G → ℚ
  | decide b, _ => if b then 1 else 0
  | ask q next, K => match K q with
    | some a => (next a).realBytes m env Gs Hs K
    | none => avg fun b : Bytes m => (next (challengeOf n b)).realBytes m env Gs Hs (K.add q (challengeOf n b))
  | prove p s next, K => avg fun x : (Fin s.numDraws → Bytes m) × { c : Coins (ZMod n) // c.Drawn s.numVars 0 } =>
    match p.prove { env with oracle := K.over (nextCoins s.transcript (List.ofFn (challengesOf n x.1))) } x.2.1 Gs Hs with
    | .ok (pr, T) => (next pr).realBytes m env Gs Hs (K.record (K.over (nextCoins s.transcript (List.ofFn (challengesOf n x.1)))) s.transcript T)
    | .error _ => 0

/-- `Distinguisher.simulated`, with challenges made from `m` random bytes. -/
noncomputable def simulatedBytes (m : ℕ) (env : Env (ZMod n) G) (g h : G) (Gs Hs : List G) : Distinguisher (ZMod n) G → Answered (ZMod n) G → ℚ
  | decide b, _ => if b then 1 else 0
  | ask q next, K => match K q with
    | some a => (next a).simulatedBytes m env g h Gs Hs K
    | none => avg fun b : Bytes m => (next (challengeOf n b)).simulatedBytes m env g h Gs Hs (K.add q (challengeOf n b))
  | prove _ s next, K => avg fun x : (Fin s.numDraws → Bytes m) × { sc : SimCoins (ZMod n) G // sc.Drawn s.numVars 0 } =>
    match s.simulate { env with oracle := nextCoins s.transcript (List.ofFn (challengesOf n x.1)) } g h Gs Hs x.2.1 with
    | .ok (pr, T) => (next pr).simulatedBytes m env g h Gs Hs (K.record (nextCoins s.transcript (List.ofFn (challengesOf n x.1))) s.transcript T)
    | .error _ => 0

end Distinguisher

end Bp
