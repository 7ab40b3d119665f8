import Verif.Model.Env

/-! # Gadget programs

A Rust gadget is generic code `fn gadget<CS: ConstraintSystem>(cs: &mut CS, ..) -> Result<.., R1CSError>`: all it can do with `cs`
is call the trait's methods (constraint_system.rs:26-136).  `Prog` is the free monad over those methods, so a
gadget is a `Prog` and "every gadget" is "every `Prog`".

* `C` is the type of callbacks accepted by `specify_randomized_constraints`.  In the first phase it is
  `Prog F Empty true Unit`; inside a callback `specify_randomized_constraints(cb)` just runs `cb(self)`
  (prover.rs:740-745, verifier.rs:577-582), which is ordinary sequencing of `cb`, so `C = Empty` there.
* `rnd` tells whether `challenge_scalar` (trait `RandomizedConstraintSystem`) is available.
* `simplify` is not a method of the trait; it is an operation here because `LinearCombination::simplify` depends on the
  HashMap seed, which is ambient state. -/

namespace Bp

/-- Gadget code: the calls of the methods of src/r1cs/constraint_system.rs:24-136. -/
inductive Prog (F : Type) (C : Type) (rnd : Bool) (α : Type) : Type where
  /-- return normally -/
  | ret (a : α)
  /-- return `Err(e)` -/
  | err (e : R1CSError)
  /-- panic in gadget code -/
  | panic (why : String)
  /-- `multiply` -/
  | multiply (l r : LC F) (k : Var × Var × Var → Prog F C rnd α)
  /-- `allocate`; the continuation receives the `Result` -/
  | allocate (x : Option F) (k : Except R1CSError Var → Prog F C rnd α)
  /-- `allocate_multiplier` -/
  | allocateMultiplier (x : Option (F × F)) (k : Except R1CSError (Var × Var × Var) → Prog F C rnd α)
  /-- `constrain` -/
  | constrain (lc : LC F) (k : Prog F C rnd α)
  /-- `specify_randomized_constraints` -/
  | specify (cb : C) (k : Prog F C rnd α)
  /-- `evaluate_lc` -/
  | evaluateLc (lc : LC F) (k : Option F → Prog F C rnd α)
  /-- `allocate_single` -/
  | allocateSingle (x : Option F) (k : Except R1CSError (Var × Option Var) → Prog F C rnd α)
  /-- `challenge_scalar` -/
  | challenge (h : rnd = true) (label : String) (k : F → Prog F C rnd α)
  /-- `LinearCombination::simplify` -/
  | simplify (lc : LC F) (k : LC F → Prog F C rnd α)

/-- Second-phase callbacks: `Fn(&mut RandomizedCS) -> Result<(), R1CSError>`.  src/r1cs/constraint_system.rs:97-99. -/
abbrev Callback (F : Type) := Prog F Empty true Unit

/-- First-phase programs.  src/r1cs/constraint_system.rs:24-113. -/
abbrev Prog1 (F : Type) (α : Type) := Prog F (Callback F) false α

namespace Prog
variable {F C : Type} {rnd : Bool} {α β : Type}

/-- Sequencing.  One call after the other, e.g. src/r1cs/gadgets/helper_constraints/bit.rs:7-33. -/
def bind : Prog F C rnd α → (α → Prog F C rnd β) → Prog F C rnd β
  | ret a, f => f a
  | err e, _ => err e
  | panic w, _ => panic w
  | multiply l r k, f => multiply l r (fun x => bind (k x) f)
  | allocate x k, f => allocate x (fun y => bind (k y) f)
  | allocateMultiplier x k, f => allocateMultiplier x (fun y => bind (k y) f)
  | constrain lc k, f => constrain lc (bind k f)
  | specify cb k, f => specify cb (bind k f)
  | evaluateLc lc k, f => evaluateLc lc (fun y => bind (k y) f)
  | allocateSingle x k, f => allocateSingle x (fun y => bind (k y) f)
  | challenge h l k, f => challenge h l (fun y => bind (k y) f)
  | simplify lc k, f => simplify lc (fun y => bind (k y) f)

instance : Monad (Prog F C rnd) where
  pure := ret
  bind := bind

/-- `e?` for a `Result` obtained from a method.  For example src/r1cs/gadgets/helper_constraints/bit.rs:7-33. -/
def ofExcept : Except R1CSError α → Prog F C rnd α
  | .ok a => ret a
  | .error e => err e

/-- `cs.multiply(l, r)`.  src/r1cs/constraint_system.rs:42-46. -/
def mul (l r : LC F) : Prog F C rnd (Var × Var × Var) := multiply l r ret
/-- `cs.allocate(x)?`.  src/r1cs/constraint_system.rs:58. -/
def alloc (x : Option F) : Prog F C rnd Var := allocate x ofExcept
/-- `cs.allocate_multiplier(x)?`.  src/r1cs/constraint_system.rs:67-70. -/
def allocMul (x : Option (F × F)) : Prog F C rnd (Var × Var × Var) := allocateMultiplier x ofExcept
/-- `cs.constrain(lc)`.  src/r1cs/constraint_system.rs:76. -/
def con (lc : LC F) : Prog F C rnd Unit := constrain lc (ret ())
/-- `cs.evaluate_lc(&lc)`.  src/r1cs/constraint_system.rs:102. -/
def eval (lc : LC F) : Prog F C rnd (Option F) := evaluateLc lc ret
/-- `cs.allocate_single(x)?`.  src/r1cs/constraint_system.rs:107-110. -/
def allocSingle (x : Option F) : Prog F C rnd (Var × Option Var) := allocateSingle x ofExcept
/-- `lc.simplify()`.  src/r1cs/linear_combination.rs:53-67. -/
def simp (lc : LC F) : Prog F C rnd (LC F) := simplify lc ret
/-- `cs.specify_randomized_constraints(cb)`.  src/r1cs/constraint_system.rs:97-99. -/
def spec (cb : C) : Prog F C rnd Unit := specify cb (ret ())
/-- `cs.challenge_scalar(label)`.  src/r1cs/constraint_system.rs:135. -/
def chal (label : String) : Prog F C true F := challenge rfl label ret
/-- Rust `Option::unwrap`.  For example src/r1cs/gadgets/helper_constraints/poseidon.rs:179-199. -/
def unwrap : Option α → Prog F C rnd α
  | some a => ret a
  | none => panic "called `Option::unwrap()` on a `None` value"
/-- Rust indexing in gadget code.  For example src/r1cs/gadgets/set_membership.rs:25-31. -/
def index (xs : List α) (i : ℕ) : Prog F C rnd α :=
  match xs[i]? with
  | some a => ret a
  | none => panic "index out of bounds"

end Prog
end Bp
