import Verif.Lemmas.Gadgets.Mds

/-! # All square submatrices of the shipped matrices are invertible -/

namespace Bp

theorem mds_bls381_3 : minorsOk Curve.bls381.order 3 (columnsN 3 (Curve.bls381.mds 3)) = true := by decide +kernel
theorem mds_bls381_5 : minorsOk Curve.bls381.order 5 (columnsN 5 (Curve.bls381.mds 5)) = true := by decide +kernel
theorem mds_bls381_9 : minorsOk Curve.bls381.order 9 (columnsN 9 (Curve.bls381.mds 9)) = true := by decide +kernel
theorem mds_bn254_3 : minorsOk Curve.bn254.order 3 (columnsN 3 (Curve.bn254.mds 3)) = true := by decide +kernel
theorem mds_bn254_5 : minorsOk Curve.bn254.order 5 (columnsN 5 (Curve.bn254.mds 5)) = true := by decide +kernel
theorem mds_bn254_9 : minorsOk Curve.bn254.order 9 (columnsN 9 (Curve.bn254.mds 9)) = true := by decide +kernel
theorem mds_ed25519_3 : minorsOk Curve.ed25519.order 3 (columnsN 3 (Curve.ed25519.mds 3)) = true := by decide +kernel
theorem mds_ed25519_5 : minorsOk Curve.ed25519.order 5 (columnsN 5 (Curve.ed25519.mds 5)) = true := by decide +kernel
theorem mds_ed25519_9 : minorsOk Curve.ed25519.order 9 (columnsN 9 (Curve.ed25519.mds 9)) = true := by decide +kernel
theorem mds_secp256k1_5 : minorsOk Curve.secp256k1.order 5 (columnsN 5 (Curve.secp256k1.mds 5)) = true := by decide +kernel

end Bp
