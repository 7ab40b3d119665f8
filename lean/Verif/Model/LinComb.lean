import Verif.Model.Basic

/-! # Variables and linear combinations: src/r1cs/linear_combination.rs -/

namespace Bp

/-- `Variable`, linear_combination.rs:11-23. -/
inductive Var where
  | committed (i : ℕ)
  | left (i : ℕ)
  | right (i : ℕ)
  | out (i : ℕ)
  | one
deriving DecidableEq, Repr

/-- `AllocatedQuantity`, linear_combination.rs:25-29. -/
structure Alloc (F : Type) where
  var : Var
  assignment : Option F

/-- `LinearCombination`, linear_combination.rs:34-37. -/
structure LC (F : Type) where
  terms : List (Var × F)

namespace LC
variable {F : Type} [Field F]

/-- `Default`, linear_combination.rs:39-43. -/
def empty : LC F := ⟨[]⟩

/-- `From<Variable>`, linear_combination.rs:74-81. -/
def ofVar (v : Var) : LC F := ⟨[(v, 1)]⟩

/-- `From<FieldElement>`, linear_combination.rs:83-89. -/
def ofScalar (s : F) : LC F := ⟨[(.one, s)]⟩

/-- `FromIterator` (owned and by reference), linear_combination.rs:91-111. -/
def ofTerms (ts : List (Var × F)) : LC F := ⟨ts⟩

/-- `Mul<LinearCombination> for FieldElement` and `for &FieldElement`, linear_combination.rs:115-139. -/
def smul (s : F) (l : LC F) : LC F := ⟨l.terms.map (fun t => (t.1, t.2 * s))⟩

/-- `Neg for LinearCombination`, linear_combination.rs:141-150. -/
def neg (l : LC F) : LC F := ⟨l.terms.map (fun t => (t.1, -t.2))⟩

/-- `Add for LinearCombination` (and `AddAssign`), linear_combination.rs:152-159, 175-179. -/
def add (l r : LC F) : LC F := ⟨l.terms ++ r.terms⟩

/-- `Sub for LinearCombination`, linear_combination.rs:161-173. -/
def sub (l r : LC F) : LC F := ⟨l.terms ++ r.terms.map (fun t => (t.1, -t.2))⟩

/-- `Add<Variable> for FieldElement`, linear_combination.rs:183-191. -/
def scalarAddVar (s : F) (v : Var) : LC F := ⟨[(.one, s), (v, 1)]⟩

/-- `Sub for Variable`, linear_combination.rs:193-199. -/
def varSub (v : Var) (l : LC F) : LC F := (ofVar v).sub l

/-- `Neg for Variable`, linear_combination.rs:201-207. -/
def varNeg (v : Var) : LC F := (ofVar v).neg

/-- `Add for Variable`, linear_combination.rs:209-215. -/
def varAdd (v : Var) (l : LC F) : LC F := (ofVar v).add l

/-- `Sub<Variable> for FieldElement`, linear_combination.rs:219-227. -/
def scalarSubVar (s : F) (v : Var) : LC F := ⟨[(.one, s), (v, -1)]⟩

/-- `Mul<Variable> for FieldElement`, linear_combination.rs:229-237. -/
def scalarMulVar (s : F) (v : Var) : LC F := ⟨[(v, s)]⟩

/-- The `HashMap<Variable, FieldElement>` of `simplify`, as an association list with distinct keys:
`*vars.entry(var).or_insert(zero) += val`, linear_combination.rs:58-60. -/
def upsert (m : List (Var × F)) (v : Var) (x : F) : List (Var × F) :=
  match m with
  | [] => [(v, 0 + x)]
  | (w, y) :: m => if w = v then (w, y + x) :: m else (w, y) :: upsert m v x

/-- The map built by the first loop of `simplify`, linear_combination.rs:55-60. -/
def collect (ts : List (Var × F)) : List (Var × F) :=
  ts.foldl (fun m t => upsert m t.1 t.2) []

/-- `LinearCombination::simplify`, linear_combination.rs:53-67.  `ord` is the order in which the HashMap
yields its entries (a permutation, arbitrary otherwise). -/
def simplify (ord : List (Var × F) → List (Var × F)) (l : LC F) : LC F := ⟨ord (collect l.terms)⟩

/-- `LinearCombination::len`, linear_combination.rs:69-71. -/
def len (l : LC F) : ℕ := l.terms.length

end LC
end Bp
