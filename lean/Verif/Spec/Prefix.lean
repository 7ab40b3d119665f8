import Verif.Lemmas.Prove2
import Verif.Spec.Api

/-! # Results with shorter and with longer vectors of generators -/

namespace Bp

/-- The two results are the same, or the first is the error about the number of generators, or the first is a panic. -/
def Res.SameUnlessShort {α : Type} (a b : Res α) : Prop := a = b ∨ a = Res.err .invalidGeneratorsLength ∨ Panics a

/-- The generating function `gen` uses the first generators of the vectors only: with longer vectors it returns what it returns with shorter ones, unless these were too short. -/
def FirstMatter {F G : Type} (gen : String → G → G → Coins F → List G → List G → Res (R1CSProof F G × List G)) : Prop :=
  ∀ (label : String) (g h : G) (c : Coins F) (Gs Gs' Hs Hs' : List G), Gs <+: Gs' → Hs <+: Hs' → (gen label g h c Gs Hs).SameUnlessShort (gen label g h c Gs' Hs')

end Bp
