import Verif.Model.Env

/-! # Inner-product argument: src/ipp.rs -/

namespace Bp
variable {F G : Type} [Field F] [AddCommGroup G] [SMul F G]

/-- `InnerProductArgumentProof`, ipp.rs:13-20. -/
structure IppProof (F G : Type) where
  L : List G
  R : List G
  a : F
  b : F

/-- `usize::is_power_of_two` (Rust std).  Called at src/ipp.rs:48, src/r1cs/gadgets/helper_constraints/mod.rs:38. -/
def isPowerOfTwo (n : ℕ) : Bool := n == 2 ^ Nat.log 2 n

/-- The scalar part of the fold loop, ipp.rs:116-117, 182-183: `lo[i] * x + y * hi[i]`. -/
def foldScalars (x y : F) (lo hi : List F) : List F :=
  List.zipWith (fun l r => l * x + y * r) lo hi

/-- The point part of the fold loop, ipp.rs:185, 187: `lo[i].binary_scalar_mul(&hi[i], x, y) = x*lo[i] + y*hi[i]`. -/
def foldPoints (x y : F) (lo hi : List G) : List G :=
  List.zipWith (fun l r => x • l + y • r) lo hi

/-- The point part of the first fold loop, which also applies the factors, ipp.rs:119-129. -/
def foldPointsFactors (x y : F) (flo fhi : List F) (lo hi : List G) : List G :=
  List.zipWith (fun (p : F × G) (q : F × G) => (x * p.1) • p.2 + (y * q.1) • q.2)
    (List.zip flo lo) (List.zip fhi hi)

/-- The `while n != 1` loop and the final return of `create_ipp`, ipp.rs:138-201.
`n = 0` cannot occur (the caller asserts a power of two); Rust would not terminate there. -/
def ippLoop (O : Oracle F G) (Q : G) (n : ℕ) (t : Transcript F G) (Gs Hs : List G) (a b : List F)
    (Ls Rs : List G) : Res (IppProof F G × Transcript F G) :=
  if n ≤ 1 then do
    let a0 ← idx a 0
    let b0 ← idx b 0
    return (⟨Ls, Rs, a0, b0⟩, t)
  else do
    let n' := n / 2
    let aL := a.take n'
    let aR := a.drop n'
    let bL := b.take n'
    let bR := b.drop n'
    let GL := Gs.take n'
    let GR := Gs.drop n'
    let HL := Hs.take n'
    let HR := Hs.drop n'
    let cL ← innerProduct aL bR
    let cR ← innerProduct aR bL
    let L ← multiScalarMul (aL ++ bR ++ [cL]) (GR ++ HL ++ [Q])
    let R ← multiScalarMul (aR ++ bL ++ [cR]) (GL ++ HR ++ [Q])
    let t := (t.commitPoint "L" L).commitPoint "R" R
    let (u, t) := t.challengeScalar O "u"
    let ui := u⁻¹
    ippLoop O Q n' t (foldPoints ui u GL GR) (foldPoints u ui HL HR)
      (foldScalars u ui aL aR) (foldScalars ui u bL bR) (Ls ++ [L]) (Rs ++ [R])
termination_by n
decreasing_by omega

/-- `IPP::create_ipp`, ipp.rs:35-202. -/
def createIpp (O : Oracle F G) (t : Transcript F G) (Q : G) (Gf Hf : List F) (Gs Hs : List G) (a b : List F) :
    Res (IppProof F G × Transcript F G) := do
  let n := Gs.length
  if isPowerOfTwo n = false then Res.panic "assert: n is a power of two" else
  if Hs.length ≠ n ∨ a.length ≠ n ∨ b.length ≠ n ∨ Gf.length ≠ n ∨ Hf.length ≠ n then
    Res.panic "assert_eq: lengths" else do
  let t := t.ippDomainSep n
  if n ≠ 1 then do
    let n' := n / 2
    let aL := a.take n'
    let aR := a.drop n'
    let bL := b.take n'
    let bR := b.drop n'
    let GL := Gs.take n'
    let GR := Gs.drop n'
    let HL := Hs.take n'
    let HR := Hs.drop n'
    let GfL := Gf.take n'
    let GfR := Gf.drop n'
    let HfL := Hf.take n'
    let HfR := Hf.drop n'
    let cL ← innerProduct aL bR
    let cR ← innerProduct aR bL
    let aLG ← hadamard aL GfR
    let bRH ← hadamard bR HfL
    let L ← multiScalarMul (aLG ++ bRH ++ [cL]) (GR ++ HL ++ [Q])
    let aRG ← hadamard aR GfL
    let bLH ← hadamard bL HfR
    let R ← multiScalarMul (aRG ++ bLH ++ [cR]) (GL ++ HR ++ [Q])
    let t := (t.commitPoint "L" L).commitPoint "R" R
    let (u, t) := t.challengeScalar O "u"
    let ui := u⁻¹
    ippLoop O Q n' t (foldPointsFactors ui u GfL GfR GL GR) (foldPointsFactors u ui HfL HfR HL HR)
      (foldScalars u ui aL aR) (foldScalars ui u bL bR) [L] [R]
  else
    ippLoop O Q n t Gs Hs a b [] []

/-- Recomputation of the round challenges, ipp.rs:282-288 (`zip` stops at the shorter vector). -/
def ippChallenges (O : Oracle F G) (t : Transcript F G) : List (G × G) → List F × Transcript F G
  | [] => ([], t)
  | (L, R) :: rest =>
    let t := (t.commitPoint "L" L).commitPoint "R" R
    let (u, t) := t.challengeScalar O "u"
    let (us, t) := ippChallenges O t rest
    (u :: us, t)

/-- The loop computing `s`, ipp.rs:303-312; `lg_i = 31 - leading_zeros(i)` is the position of the top bit. -/
def sLoop (lgN : ℕ) (sq : List F) (s0 : F) (n : ℕ) : Res (List F) :=
  (List.range' 1 (n - 1)).foldlM (fun s i => do
    let lgI := Nat.log 2 i
    let k := 2 ^ lgI
    let u ← idx sq ((lgN - 1) - lgI)
    let si ← idx s (i - k)
    return s ++ [si * u]) [s0]

/-- The part of `verification_scalars` after the challenges are known, ipp.rs:290-314: squares, inverse squares and `s`. -/
def ippScalars (env : Env F G) (lgN : ℕ) (us : List F) (n : ℕ) : Res (List F × List F × List F) := do
  let (uinvs, prodInv) ← env.batchInvert us
  let sq := us.map (fun u => u * u)
  let invSq ← (List.range us.length).mapM (fun i => do
    let ui ← idx uinvs i
    return ui * ui)
  let s ← sLoop lgN sq prodInv n
  return (sq, invSq, s)

/-- `IPP::verification_scalars`, ipp.rs:262-315.  Returns `(u_sq, u_inv_sq, s)` and the new log. -/
def verificationScalars (env : Env F G) (L R : List G) (n : ℕ) (t : Transcript F G) :
    Res ((List F × List F × List F) × Transcript F G) := do
  let lgN := L.length
  if lgN ≥ 32 then Res.err .verificationError else
  if n ≠ 2 ^ lgN then Res.err .verificationError else do
  let t := t.ippDomainSep n
  let (us, t) := ippChallenges env.oracle t (L.zip R)
  let sc ← ippScalars env lgN us n
  return (sc, t)

/-- `IPP::verify_ipp`, ipp.rs:204-260.  The error of `verification_scalars` is `unwrap`ped, i.e. becomes a panic. -/
def verifyIpp [DecidableEq G] (env : Env F G) (n : ℕ) (t : Transcript F G) (Gf Hf : List F) (P Q : G) (Gs Hs : List G)
    (a b : F) (L R : List G) : Res (Transcript F G) := do
  let ((uSq, uInvSq, s), t) ←
    match verificationScalars env L R n t with
    | .ok x => Except.ok x
    | .error _ => Res.panic "unwrap of verification_scalars"
  let gs := (List.zipWith (fun g si => (a * si) * g) Gf s).take Gs.length
  let hs := List.zipWith (fun h si => (b * si) * h) Hf s.reverse
  let scalars := [a * b] ++ gs ++ hs ++ uSq.map (fun u => -u) ++ uInvSq.map (fun u => -u)
  let points := [Q] ++ Gs ++ Hs ++ L ++ R
  let expected ← multiScalarMul scalars points
  if expected = P then return t else Res.err .verificationError

end Bp
