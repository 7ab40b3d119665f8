import Verif.Model.Gadgets.Basic
import Mathlib.Data.ZMod.Basic
import Mathlib.FieldTheory.Finite.Basic

/-! # Prime fields have canonical integer representatives -/

namespace Bp

/-- The representative in `[0, p)`. -/
instance (p : ℕ) [Fact p.Prime] : IntRep (ZMod p) where
  order := p
  rep := ZMod.val
  rep_lt := ZMod.val_lt
  cast_rep x := ZMod.natCast_zmod_val x
  rep_cast _ hn := ZMod.val_cast_of_lt hn

end Bp
