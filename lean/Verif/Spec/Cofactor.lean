import Verif.Spec.Algebraic
import Mathlib.Data.ZMod.Basic
import Mathlib.Algebra.Module.ZMod
import Mathlib.Algebra.Group.Subgroup.Basic

/-! # Specification: points outside the group of prime order

The points of a curve are a group `E` that is larger than the group `G` (of prime order) in which the generators live: its order is a multiple `q k` of the prime `q`.  Nothing in the code keeps points of `E` that are not in `G`
out of commitments and proofs.  On `E` the scalars (numbers modulo `q`) do not act as a field: a point is multiplied by the integer that represents the scalar (or by something that agrees with it on `G`).  Of the multiplication of points
of `E` by scalars nothing is assumed but that there is a map from `E` to `G` that respects addition and multiplication by scalars. -/

namespace Bp
variable {F E G : Type}

/-- A map from points to points that respects addition and multiplication by scalars. -/
structure PointHom (F E G : Type) [AddCommGroup E] [SMul F E] [AddCommGroup G] [SMul F G] extends E →+ G where
  map_smul' : ∀ (x : F) (P : E), toFun (x • P) = x • toFun P

section
variable [AddCommGroup E] [SMul F E] [AddCommGroup G] [SMul F G]

instance : FunLike (PointHom F E G) E G where
  coe π := π.toFun
  coe_injective π π' h := by
    cases π; cases π'
    congr
    exact DFunLike.coe_injective h

instance : AddMonoidHomClass (PointHom F E G) E G where
  map_add π := π.map_add'
  map_zero π := π.map_zero'

instance : MulActionHomClass (PointHom F E G) F E G where
  map_smulₛₗ π := π.map_smul'

end

/-- The answers along the log `t`, given to somebody who sees the points of the log only through a map. -/
def Oracle.along (O : Oracle F E) (t : Transcript F E) : Oracle F G := fun u => O (t.take u.length)

/-- Points are multiplied by the integer that represents the scalar. -/
@[reducible] def intSMul (q : ℕ) (E : Type) [AddCommGroup E] : SMul (ZMod q) E := ⟨fun x P => x.val • P⟩

/-- The points of order `q`. -/
def primePart (q : ℕ) (E : Type) [AddCommGroup E] : AddSubgroup E where
  carrier := {P | q • P = 0}
  add_mem' {a b} ha hb := by
    show q • (a + b) = 0
    rw [smul_add, show q • a = 0 from ha, show q • b = 0 from hb, add_zero]
  zero_mem' := smul_zero q
  neg_mem' {a} ha := by
    show q • (-a) = 0
    rw [smul_neg, show q • a = 0 from ha, neg_zero]

/-- On them the numbers modulo `q` act as a field. -/
@[reducible] def primeModule (q : ℕ) (E : Type) [AddCommGroup E] : Module (ZMod q) (primePart q E) :=
  AddCommGroup.zmodModule fun P => Subtype.ext P.2

/-! ## Provers that say how they have made their points -/

section
variable [AddCommGroup E] [SMul F E] [AddCommGroup G] [SMul F G] {M : Type} [AddCommGroup M] [SMul F M]

/-- A point of `E`, together with a combination that is the same point when both are mapped to `G`. -/
def tagged (φ : PointHom F M G) (π : PointHom F E G) : AddSubgroup (M × E) where
  carrier := {x | φ x.1 = π x.2}
  add_mem' {a b} ha hb := by
    show φ (a.1 + b.1) = π (a.2 + b.2)
    rw [map_add, map_add, ha, hb]
  zero_mem' := by
    show φ 0 = π 0
    rw [map_zero, map_zero]
  neg_mem' {a} ha := by
    show φ (-a.1) = π (-a.2)
    rw [map_neg, map_neg, ha]

/-- The points of a prover that says, for each point it names, which combination it is (up to what the map to `G` forgets). -/
def Tagged (φ : PointHom F M G) (π : PointHom F E G) : Type := tagged φ π

variable {φ : PointHom F M G} {π : PointHom F E G}

instance : AddCommGroup (Tagged φ π) := inferInstanceAs (AddCommGroup (tagged φ π))
instance [DecidableEq M] [DecidableEq E] : DecidableEq (Tagged φ π) := inferInstanceAs (DecidableEq (tagged φ π))
instance : SMul F (Tagged φ π) where
  smul x p := ⟨(x • p.1.1, x • p.1.2), by
    show φ (x • p.1.1) = π (x • p.1.2)
    rw [map_smul, map_smul, show φ p.1.1 = π p.1.2 from p.2]⟩

/-- Tag a point. -/
def Tagged.mk (c : M) (P : E) (e : φ c = π P) : Tagged φ π := ⟨(c, P), e⟩

/-- The combination. -/
def Tagged.rep (φ : PointHom F M G) (π : PointHom F E G) : PointHom F (Tagged φ π) M where
  toFun x := x.1.1
  map_zero' := rfl
  map_add' _ _ := rfl
  map_smul' _ _ := rfl

/-- The point. -/
def Tagged.point (φ : PointHom F M G) (π : PointHom F E G) : PointHom F (Tagged φ π) E where
  toFun x := x.1.2
  map_zero' := rfl
  map_add' _ _ := rfl
  map_smul' _ _ := rfl

end
end Bp
