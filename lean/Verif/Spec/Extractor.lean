import Verif.Spec.Interactive
import Mathlib.Algebra.BigOperators.Group.Finset.Basic
import Mathlib.Data.Fintype.Basic
import Mathlib.Data.Rat.Defs

/-! # Specification: an extractor that rewinds a prover

A randomized program that may run a prover with challenges of its choice (so it may rewind it), and how often it does so on average. -/

namespace Bp
variable {F G : Type} [Field F] [AddCommGroup G] [Module F G]

/-- A program that rewinds a prover. -/
inductive Rewinding (F : Type) (α : Type) where
  /-- it stops -/
  | done (a : α)
  /-- it draws one of the elements of `S`, all with the same probability -/
  | draw (S : Finset F) (next : F → Rewinding F α)
  /-- it runs the prover with the challenges `cs`, and sees whether the verifier accepts -/
  | run (cs : List F) (next : Bool → Rewinding F α)

namespace Rewinding
variable {α β : Type}

/-- One program after the other. -/
def bind : Rewinding F α → (α → Rewinding F β) → Rewinding F β
  | done a, f => f a
  | draw S next, f => draw S fun c => (next c).bind f
  | run cs next, f => run cs fun b => (next b).bind f

/-- The expected value of `f`, if the verifier accepts the challenges in `W`. -/
def expect (W : List F → Bool) (f : α → ℚ) : Rewinding F α → ℚ
  | done a => f a
  | draw S next => (∑ c ∈ S, (next c).expect W f) / S.card
  | run cs next => (next (W cs)).expect W f

/-- The expected number of runs of the prover. -/
def runs (W : List F → Bool) : Rewinding F α → ℚ
  | done _ => 0
  | draw S next => (∑ c ∈ S, (next c).runs W) / S.card
  | run cs next => 1 + (next (W cs)).runs W

/-- The program may stop with `a`. -/
def Outcome (W : List F → Bool) (a : α) : Rewinding F α → Prop
  | done b => b = a
  | draw S next => ∃ c ∈ S, (next c).Outcome W a
  | run cs next => (next (W cs)).Outcome W a

/-- The probability that it finds something. -/
def success (W : List F → Bool) (E : Rewinding F (Option α)) : ℚ := E.expect W fun o => if o.isSome then 1 else 0

end Rewinding

/-- Challenges that were accepted, arranged in a tree: those below a node have the same beginning. -/
inductive Branches (F : Type) where
  | leaf
  | node (l : List (F × Branches F))

/-- The challenges along one branch. -/
inductive Branches.Path : Branches F → List F → Prop where
  | leaf : Path .leaf []
  | node {l : List (F × Branches F)} {c : F} {t : Branches F} {cs : List F} : (c, t) ∈ l → Path t cs → Path (.node l) (c :: cs)

/-- All branches are accepted, and there are `m + 1` different challenges at each draw, where `m` is the entry of `thr` for this draw. -/
def Branches.Good (W : List F → Bool) : List ℕ → List F → Branches F → Prop
  | [], cs, .leaf => W cs = true
  | m :: thr, cs, .node l => l.length = m + 1 ∧ (l.map Prod.fst).Nodup ∧ ∀ q ∈ l, Branches.Good W thr (cs ++ [q.1]) q.2
  | _, _, _ => False

section
variable [DecidableEq F]

/-- Draw challenges from `S` (with `k` elements), without repetition, until `n` more branches are found below them with `sub`. -/
def collect (sub : F → Rewinding F (Option (Branches F))) : ℕ → ℕ → Finset F → List (F × Branches F) → Rewinding F (Option (Branches F))
  | _, 0, _, found => .done (some (.node found))
  | 0, _ + 1, _, _ => .done none
  | k + 1, n + 1, S, found => .draw S fun c => (sub c).bind fun
    | none => collect sub k (n + 1) (S.erase c) found
    | some t => collect sub k n (S.erase c) ((c, t) :: found)

variable [Fintype F]

/-- The extractor: run the prover once with random challenges.  If it is not accepted, give up.  Otherwise rewind it to its last challenge, and run it with other challenges until enough are accepted; then rewind it to the challenge
before that, and so on. -/
def extractor : List ℕ → List F → Rewinding F (Option (Branches F))
  | [], cs => .run cs fun b => .done (if b then some .leaf else none)
  | m :: thr, cs => .draw Finset.univ fun c => (extractor thr (cs ++ [c])).bind fun
    | none => .done none
    | some t => collect (fun c => extractor thr (cs ++ [c])) (Fintype.card F - 1) m (Finset.univ.erase c) [(c, t)]

end

/-- How many challenges of a kind are not enough: `y`, `z`, `u`, `x`, `w`, those of the rounds, and the random scalar of the verifier. -/
def needed (k q : ℕ) : List ℕ := 2 ^ k :: q :: 5 :: 6 :: 2 :: (List.replicate k 7 ++ [1])

/-- Does the verifier accept the prover?  `cs` are the challenges (after `pre`, for the randomized constraints), and the random scalar of the verifier. -/
def Interactive.accepted [DecidableEq G] (P : Interactive F G) (env : Env F G) (s : Verifier F G) (g h : G) (Gs Hs : List G) (pre : List F) (k : ℕ) (cs : List F) : Bool :=
  (s.verify { env with oracle := publicCoins (pre ++ cs.dropLast) } (P.proof pre.length k (pre ++ cs.dropLast)) g h Gs Hs (cs.getLastD 0)).isOk

end Bp
