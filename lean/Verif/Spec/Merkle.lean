import Mathlib.Data.Nat.Digits.Defs
import Verif.Spec.Tree
import Verif.Spec.Gadgets
import Verif.Model.Gadgets.Merkle

/-! # Specification of the Merkle inclusion statements -/

namespace Bp
variable {F G : Type} [Field F] [AddCommGroup G] [SMul F G]

/-- 4-ary hashing with any S-box (`tree4 p` is the case `Quint`). -/
def hasher4 (p : PoseidonParams F) (sbox : SboxType) : TreeOps F := ⟨2, fun xs => poseidonHash4 xs p sbox⟩
/-- 8-ary hashing with any S-box (`tree8 p` is the case `Quint`). -/
def hasher8 (p : PoseidonParams F) (sbox : SboxType) : TreeOps F := ⟨3, fun xs => poseidonHash8 xs p sbox⟩

/-- `m` groups of `n` values: `v k, v (k+1), ..`. -/
def nodesAt (n m k : ℕ) (v : ℕ → F) : List (List F) := (List.range m).map fun i => (List.range n).map fun j => v (k + n * i + j)

/-- The statement about committed values `v`: `v 0` is at index `v 1` below `root`, `m` levels down, with the siblings `v off, v (off + 1), ..` (from root to leaf): some path of `m` digits
whose value is the index leads from `root` to the leaf. -/
def IncludedFrom (T : TreeOps F) (m off : ℕ) (root : F) (v : ℕ → F) : Prop :=
  ∃ path : List ℕ, path.length = m ∧ (∀ d ∈ path, d < T.arity) ∧ v 1 = (Nat.ofDigits T.arity path.reverse : ℕ) ∧
    merkleRoot T.digest (path.zip (nodesAt (T.arity - 1) m off v)) (v 0) = root

/-- The same with the siblings right after leaf and index. -/
def Included (T : TreeOps F) (m : ℕ) (root : F) (v : ℕ → F) : Prop := IncludedFrom T m 2 root v

/-- As `SoundForWith`, for a `dv` that uses all its commitments, when it is given `k` of them. -/
def SoundForExactly (k : ℕ) (statics : List F) (points : List G) (dv : List G → Drv (Verifier F G) Unit) (R : (ℕ → F) → Prop) : Prop :=
  ∀ coms s s', coms.length = k → dv coms s = (.ok (), s') → s.constraints <+: s'.constraints ∧ s.V ++ coms ++ points <+: s'.V ∧
    ∀ σ : Assignment F, σ.Gates → σ.Sat s'.constraints → (∀ i x, statics[i]? = some x → σ.committed (s.V.length + k + i) = x) →
      R (fun i => σ.committed (s.V.length + i))

end Bp
