import Verif.Spec.Soundness

/-! # Specification: special soundness of the R1CS argument

The tree of answers of a rewound prover, the witness and the candidate relations computed from its scalars. -/

namespace Bp
variable {F G : Type} [Field F] [AddCommGroup G] [SMul F G]
open Finset

/-! ## Interpolation -/

/-- Coefficients of the polynomial `Π_(j ≠ i) (X - x_j) / (x_i - x_j)`, `j` running through `js`. -/
def lagrangeCoeff {n : ℕ} (x : Fin n → F) (i : Fin n) : List (Fin n) → ℕ → F
  | [], e => if e = 0 then 1 else 0
  | j :: js, e => if j = i then lagrangeCoeff x i js e else
      ((if e = 0 then 0 else lagrangeCoeff x i js (e - 1)) - x j * lagrangeCoeff x i js e) / (x i - x j)

/-- Coefficient `e` of the polynomial (of degree less than `n`, with coefficients in `M`) with the value `X i` at `x i`. -/
def interp {M : Type} [AddCommGroup M] [Module F M] {n : ℕ} (x : Fin n → F) (X : Fin n → M) (e : ℕ) : M :=
  ∑ i, lagrangeCoeff x i (List.finRange n) e • X i

/-! ## The tree of answers -/

/-- After `x`: the answers `t_x`, `t_x_blinding`, `e_blinding`, then two challenges `w`, each followed by an inner-product tree. -/
structure XFork (F G : Type) where
  x : F
  t_x : F
  t_x_blinding : F
  e_blinding : F
  w : Fin 2 → F
  ipp : Fin 2 → IppTree F G
/-- After `u`: six challenges `x`. -/
structure UFork (F G : Type) where
  u : F
  xs : Fin 6 → XFork F G
/-- After `z`: the points `T_i`, then five challenges `u`. -/
structure ZFork (F G : Type) where
  z : F
  T_1 : G
  T_3 : G
  T_4 : G
  T_5 : G
  T_6 : G
  us : Fin 5 → UFork F G
/-- After `y`: as many challenges `z` as there are constraints, plus one. -/
structure YFork (F G : Type) (q : ℕ) where
  y : F
  zs : Fin (q + 1) → ZFork F G
/-- The commitments of both phases, then as many challenges `y` as there are (padded) gates, `N = 2^k`. -/
structure R1CSTree (F G : Type) (k q : ℕ) where
  A_I1 : G
  A_O1 : G
  S1 : G
  A_I2 : G
  A_O2 : G
  S2 : G
  ys : Fin (2 ^ k) → YFork F G q

namespace R1CSTree
variable {k q : ℕ}

/-- The challenges asked at each point are different, and all but `z` are non-zero. -/
structure Full (t : R1CSTree F G k q) : Prop where
  y0 : ∀ a, (t.ys a).y ≠ 0
  yd : ∀ a a', a ≠ a' → (t.ys a).y ≠ (t.ys a').y
  zd : ∀ a b b', b ≠ b' → ((t.ys a).zs b).z ≠ ((t.ys a).zs b').z
  u0 : ∀ a b c, (((t.ys a).zs b).us c).u ≠ 0
  ud : ∀ a b c c', c ≠ c' → (((t.ys a).zs b).us c).u ≠ (((t.ys a).zs b).us c').u
  x0 : ∀ a b c d, ((((t.ys a).zs b).us c).xs d).x ≠ 0
  xd : ∀ a b c d d', d ≠ d' → ((((t.ys a).zs b).us c).xs d).x ≠ ((((t.ys a).zs b).us c).xs d').x
  w0 : ∀ a b c d e, ((((t.ys a).zs b).us c).xs d).w e ≠ 0
  wd : ∀ a b c d, ((((t.ys a).zs b).us c).xs d).w 0 ≠ ((((t.ys a).zs b).us c).xs d).w 1
  ipp : ∀ a b c d e, (((((t.ys a).zs b).us c).xs d).ipp e).Full k

/-- The challenges of a branch. -/
def chals (t : R1CSTree F G k q) (a : Fin (2 ^ k)) (b : Fin (q + 1)) (c : Fin 5) (d : Fin 6) (e : Fin 2) : Chals F :=
  ⟨(t.ys a).y, ((t.ys a).zs b).z, (((t.ys a).zs b).us c).u, ((((t.ys a).zs b).us c).xs d).x, ((((t.ys a).zs b).us c).xs d).w e⟩

/-- The proof sent on a branch, given the end of the inner-product argument. -/
def proof (t : R1CSTree F G k q) (a : Fin (2 ^ k)) (b : Fin (q + 1)) (c : Fin 5) (d : Fin 6) (ipp : IppProof F G) : R1CSProof F G where
  A_I1 := t.A_I1
  A_O1 := t.A_O1
  S1 := t.S1
  A_I2 := t.A_I2
  A_O2 := t.A_O2
  S2 := t.S2
  T_1 := ((t.ys a).zs b).T_1
  T_3 := ((t.ys a).zs b).T_3
  T_4 := ((t.ys a).zs b).T_4
  T_5 := ((t.ys a).zs b).T_5
  T_6 := ((t.ys a).zs b).T_6
  t_x := ((((t.ys a).zs b).us c).xs d).t_x
  t_x_blinding := ((((t.ys a).zs b).us c).xs d).t_x_blinding
  e_blinding := ((((t.ys a).zs b).us c).xs d).e_blinding
  ipp := ipp

end R1CSTree

/-! ## Combinations of the generators -/

/-- Coefficients of a linear combination of `G_0 .. G_(n-1)`, `H_0 .. H_(n-1)`, `g` and `h`. -/
abbrev GenRep (F : Type) := (ℕ → F) × (ℕ → F) × F × F

/-- Its value. -/
def GenRep.value (n : ℕ) (g h : G) (Gs Hs : List G) (ρ : GenRep F) : G :=
  ∑ i ∈ range n, ρ.1 i • Gs.getD i 0 + ∑ i ∈ range n, ρ.2.1 i • Hs.getD i 0 + ρ.2.2.1 • g + ρ.2.2.2 • h

/-- All coefficients are zero. -/
def GenRep.Trivial (n : ℕ) (ρ : GenRep F) : Prop := (∀ i < n, ρ.1 i = 0) ∧ (∀ i < n, ρ.2.1 i = 0) ∧ ρ.2.2.1 = 0 ∧ ρ.2.2.2 = 0

/-- From the generators of the inner-product argument inside the proof (`u_i G_i`, `y^-i u_i H_i` with `u_i = 1` for first-phase gates and `u` for the others, and `w g`) to `G`, `H`, `g`. -/
def IppRep.lift (n1 : ℕ) (y u w : F) (ρ : IppRep F) : GenRep F :=
  (fun i => ufac n1 u i * ρ.1 i, fun i => vpow y⁻¹ i * ufac n1 u i * ρ.2.1 i, w * ρ.2.2, 0)

/-! ## Extraction; `n1` is the number of first-phase gates, `W z` are the flattened constraints -/

/-- Coefficients of the commitment to the left and right vectors, from one of the two inner-product trees. -/
def XFork.lr (n1 k : ℕ) (y u : F) (f : XFork F G) (e : Fin 2) : GenRep F := IppRep.lift n1 y u (f.w e) ((f.ipp e).extract k - (0, 0, f.t_x))

/-- The public part of that commitment. -/
def XFork.pub (n1 : ℕ) (y u : F) (wt : Weights F) (f : XFork F G) : GenRep F :=
  (fun i => ufac n1 u i * (f.x * (vpow y⁻¹ i * wt.wR.getD i 0)), fun i => ufac n1 u i * (vpow y⁻¹ i * (f.x * wt.wL.getD i 0 + wt.wO.getD i 0) - 1), 0, -f.e_blinding)

/-- The rest: coefficients of `x A_I + x² A_O + x³ S`. -/
def XFork.wires (n1 k : ℕ) (y u : F) (wt : Weights F) (f : XFork F G) : GenRep F := f.lr n1 k y u 0 - f.pub n1 y u wt

/-- Coefficients of `A_I` (`e = 0`), `A_O` (`e = 1`) and `S` (`e = 2`), where `A_I = A_I1 + u A_I2` and so on, from the first three challenges `x`. -/
def UFork.extract (n1 k : ℕ) (y : F) (wt : Weights F) (f : UFork F G) (e : ℕ) : GenRep F :=
  interp (fun d : Fin 3 => (f.xs (d.castLE (by decide))).x) (fun d : Fin 3 => (f.xs (d.castLE (by decide))).x⁻¹ • (f.xs (d.castLE (by decide))).wires n1 k y f.u wt) e

/-- The coefficient of `x²` of the polynomial `t(x)`, and of its blinding, from the six challenges `x`. -/
def UFork.t2 (f : UFork F G) : F := interp (fun d => (f.xs d).x) (fun d => (f.xs d).x⁻¹ * (f.xs d).t_x) 1
def UFork.tau2 (f : UFork F G) : F := interp (fun d => (f.xs d).x) (fun d => (f.xs d).x⁻¹ * (f.xs d).t_x_blinding) 1

namespace R1CSTree
variable {k q : ℕ} (n1 : ℕ) (W : F → Weights F) (t : R1CSTree F G k q)

/-- The first branch is used to extract the wires. -/
def y₀ : YFork F G q := t.ys ⟨0, Nat.two_pow_pos k⟩
def z₀ : ZFork F G := t.y₀.zs 0

/-- Coefficients of `A_I1`, `A_O1`, `S1` (`e = 0, 1, 2`), from the first two challenges `u`. -/
def phase1 (e : ℕ) : GenRep F :=
  interp (fun c : Fin 2 => (t.z₀.us (c.castLE (by decide))).u) (fun c : Fin 2 => (t.z₀.us (c.castLE (by decide))).extract n1 k t.y₀.y (W t.z₀.z) e) 0
/-- Coefficients of `A_I2`, `A_O2`, `S2`. -/
def phase2 (e : ℕ) : GenRep F :=
  interp (fun c : Fin 2 => (t.z₀.us (c.castLE (by decide))).u) (fun c : Fin 2 => (t.z₀.us (c.castLE (by decide))).extract n1 k t.y₀.y (W t.z₀.z) e) 1

/-- The extracted wires: for a first-phase gate the coefficients of `A_I1` (on `G_i`, `H_i`) and `A_O1` (on `G_i`), for a second-phase gate those of `A_I2` and `A_O2`. -/
def left (i : ℕ) : F := if i < n1 then (t.phase1 n1 W 0).1 i else (t.phase2 n1 W 0).1 i
def right (i : ℕ) : F := if i < n1 then (t.phase1 n1 W 0).2.1 i else (t.phase2 n1 W 0).2.1 i
def out (i : ℕ) : F := if i < n1 then (t.phase1 n1 W 1).1 i else (t.phase2 n1 W 1).1 i

/-- The extracted assignment for `n` gates, with given committed values. -/
def assignment (n : ℕ) (v : ℕ → F) : Assignment F where
  left i := if i < n then t.left n1 W i else 0
  right i := if i < n then t.right n1 W i else 0
  out i := if i < n then t.out n1 W i else 0
  committed := v

/-- The extracted blinding of constraint `j`. -/
def blinding (j : ℕ) : F := - interp (fun b => (t.y₀.zs b).z) (fun b => ((t.y₀.zs b).us 0).tau2) (j + 1)

/-- The candidate relations. -/
def relations : List (GenRep F) :=
  (List.finRange (2 ^ k)).flatMap fun a =>
    -- the gate equations, weighted with the powers of `y`
    [((0 : ℕ → F), (0 : ℕ → F), ∑ i ∈ range (2 ^ k), (t.ys a).y ^ i * (t.left n1 W i * t.right n1 W i - t.out n1 W i), interp (fun b => ((t.ys a).zs b).z) (fun b => (((t.ys a).zs b).us 0).tau2) 0)] ++
    (List.finRange (q + 1)).flatMap fun b => (List.finRange 5).flatMap fun c =>
      let f := ((t.ys a).zs b).us c
      -- the same `t_2` for all `u`
      [((0 : ℕ → F), (0 : ℕ → F), f.t2 - (((t.ys a).zs b).us 0).t2, f.tau2 - (((t.ys a).zs b).us 0).tau2)] ++
      -- the same wires for all challenges
      [t.phase1 n1 W 0 + f.u • t.phase2 n1 W 0 - f.extract n1 k (t.ys a).y (W ((t.ys a).zs b).z) 0,
       t.phase1 n1 W 1 + f.u • t.phase2 n1 W 1 - f.extract n1 k (t.ys a).y (W ((t.ys a).zs b).z) 1] ++
      (List.finRange 6).flatMap fun d =>
        let p := f.xs d
        [p.x • f.extract n1 k (t.ys a).y (W ((t.ys a).zs b).z) 0 + p.x ^ 2 • f.extract n1 k (t.ys a).y (W ((t.ys a).zs b).z) 1
            + p.x ^ 3 • f.extract n1 k (t.ys a).y (W ((t.ys a).zs b).z) 2 - p.wires n1 k (t.ys a).y f.u (W ((t.ys a).zs b).z),
         p.lr n1 k (t.ys a).y f.u 0 - p.lr n1 k (t.ys a).y f.u 1] ++
        -- those of the inner-product argument
        (List.finRange 2).flatMap fun e => ((p.ipp e).relations k).map (IppRep.lift n1 (t.ys a).y f.u (p.w e))

end R1CSTree

/-! ## Constraints about commitments -/

/-- The value of a variable as a commitment: committed variables are worth their commitments, the others their value times `g`. -/
def Assignment.commit (σ : Assignment F) (g : G) (V : List G) : Var → G
  | .committed j => V.getD j 0
  | v => σ.val v • g

/-- The value of a linear combination as a commitment. -/
def LC.commitment (σ : Assignment F) (g : G) (V : List G) (l : LC F) : G := (l.terms.map fun t => t.2 • σ.commit g V t.1).sum

/-- The part of a linear combination that is about committed variables, with the given values. -/
def LC.committedPart (v : ℕ → F) (l : LC F) : F := (l.terms.map fun t => match t.1 with | .committed j => t.2 * v j | _ => 0).sum

/-- The flattened constraints of the verifier (`none` are out of range when it accepts). -/
def Verifier.weights (s : Verifier F G) (z : F) : Weights F :=
  match s.flattenedConstraints z with
  | .ok w => w
  | .error _ => ⟨[], [], [], [], 0⟩

/-! ## Acceptance -/

/-- On every branch (including those of the inner-product trees) the verifier accepts the proof made of the answers, for two different values of the random scalar `r`, in an environment
(one for each branch) whose oracle returns the challenges of that branch.  `s` is the verifier before `verify`, `s2` is its state after the randomized constraints. -/
def R1CSTree.Accepted [DecidableEq G] {k q : ℕ} (t : R1CSTree F G k q) (s s2 : Verifier F G) (g h : G) (Gs Hs : List G) : Prop :=
  ∀ a b c d e L R us α β, (((((t.ys a).zs b).us c).xs d).ipp e).Path L R us α β → ∃ (env : Env F G) (r r' : F) (T T' : Transcript F G), r ≠ r' ∧
    (s.start (t.proof a b c d ⟨L, R, α, β⟩)).createRandomizedConstraints env = .ok s2 ∧
    drawn env.oracle s2.transcript (t.proof a b c d ⟨L, R, α, β⟩) = t.chals a b c d e ∧
    ippRounds env.oracle s2.transcript (t.proof a b c d ⟨L, R, α, β⟩) (2 ^ k) = us ∧
    (k ≠ 0 ∨ env.batchInvert [] = .ok ([], 1)) ∧
    s.verify env (t.proof a b c d ⟨L, R, α, β⟩) g h Gs Hs r = .ok T ∧ s.verify env (t.proof a b c d ⟨L, R, α, β⟩) g h Gs Hs r' = .ok T'

/-- Candidate relations that also use openings `V_j = v_j g + r_j h` of the commitments: the value of each constraint, and its blinding. -/
def R1CSTree.openRelations {k q : ℕ} (t : R1CSTree F G k q) (n1 n : ℕ) (W : F → Weights F) (cs : List (LC F)) (v r : ℕ → F) : List (GenRep F) :=
  (List.finRange cs.length).map fun j => (0, 0, (cs[j.val]).value (t.assignment n1 W n v), (cs[j.val]).committedPart r - t.blinding j.val)

end Bp
