import Verif.Model.Basic

/-! # Vector polynomials: src/utils/vector_poly.rs -/

namespace Bp
variable {F : Type} [Field F]

/-- `VecPoly1`, vector_poly.rs:8. -/
structure VecPoly1 (F : Type) where
  c0 : List F
  c1 : List F

/-- `VecPoly3`, vector_poly.rs:11-16. -/
structure VecPoly3 (F : Type) where
  c0 : List F
  c1 : List F
  c2 : List F
  c3 : List F

/-- `Poly2`, vector_poly.rs:19. -/
structure Poly2 (F : Type) where
  t0 : F
  t1 : F
  t2 : F

/-- `Poly6`, vector_poly.rs:22-29. -/
structure Poly6 (F : Type) where
  t1 : F
  t2 : F
  t3 : F
  t4 : F
  t5 : F
  t6 : F

/-- `VecPoly1::zero`, vector_poly.rs:32-34. -/
def VecPoly1.zero (n : ℕ) : VecPoly1 F := ⟨List.replicate n 0, List.replicate n 0⟩

/-- `VecPoly1::inner_product` (Karatsuba), vector_poly.rs:36-53. -/
def VecPoly1.innerProduct (l r : VecPoly1 F) : Res (Poly2 F) := do
  let t0 ← Bp.innerProduct l.c0 r.c0
  let t2 ← Bp.innerProduct l.c1 r.c1
  let lp ← vecPlus l.c0 l.c1
  let rp ← vecPlus r.c0 r.c1
  let t1 ← Bp.innerProduct lp rp
  return ⟨t0, t1 - (t0 + t2), t2⟩

/-- `VecPoly1::eval`, vector_poly.rs:55-62: loops over `0..self.0.len()` and indexes the other vector. -/
def VecPoly1.eval (l : VecPoly1 F) (x : F) : Res (List F) :=
  (List.range l.c0.length).mapM fun i => do
    let a ← idx l.c0 i
    let b ← idx l.c1 i
    return a + b * x

/-- `VecPoly3::zero`, vector_poly.rs:66-73. -/
def VecPoly3.zero (n : ℕ) : VecPoly3 F :=
  ⟨List.replicate n 0, List.replicate n 0, List.replicate n 0, List.replicate n 0⟩

/-- `VecPoly3::special_inner_product`, vector_poly.rs:79-97. -/
def VecPoly3.specialInnerProduct (lhs rhs : VecPoly3 F) : Res (Poly6 F) := do
  let t1 ← innerProduct lhs.c1 rhs.c0
  let a2 ← innerProduct lhs.c1 rhs.c1
  let b2 ← innerProduct lhs.c2 rhs.c0
  let a3 ← innerProduct lhs.c2 rhs.c1
  let b3 ← innerProduct lhs.c3 rhs.c0
  let a4 ← innerProduct lhs.c1 rhs.c3
  let b4 ← innerProduct lhs.c3 rhs.c1
  let t5 ← innerProduct lhs.c2 rhs.c3
  let t6 ← innerProduct lhs.c3 rhs.c3
  return ⟨t1, a2 + b2, a3 + b3, a4 + b4, t5, t6⟩

/-- `VecPoly3::eval`, vector_poly.rs:99-106. -/
def VecPoly3.eval (l : VecPoly3 F) (x : F) : Res (List F) :=
  (List.range l.c0.length).mapM fun i => do
    let a ← idx l.c0 i
    let b ← idx l.c1 i
    let c ← idx l.c2 i
    let d ← idx l.c3 i
    return a + x * (b + x * (c + x * d))

/-- `Poly2::eval`, vector_poly.rs:110-112. -/
def Poly2.eval (p : Poly2 F) (x : F) : F := p.t0 + x * (p.t1 + x * p.t2)

/-- `Poly6::eval`, vector_poly.rs:116-119. -/
def Poly6.eval (p : Poly6 F) (x : F) : F :=
  x * (p.t1 + x * (p.t2 + x * (p.t3 + x * (p.t4 + x * (p.t5 + x * p.t6)))))

end Bp
