import Verif.Model.CS
import Verif.Model.Ipp
import Verif.Model.VecPoly

/-! # `Prover::prove` and `Verifier::verify`: src/r1cs/prover.rs, src/r1cs/verifier.rs, src/r1cs/proof.rs -/

namespace Bp
variable {F G : Type} [Field F] [AddCommGroup G] [SMul F G]

/-- `R1CSProof`, proof.rs:26-58. -/
structure R1CSProof (F G : Type) where
  A_I1 : G
  A_O1 : G
  S1 : G
  A_I2 : G
  A_O2 : G
  S2 : G
  T_1 : G
  T_3 : G
  T_4 : G
  T_5 : G
  T_6 : G
  t_x : F
  t_x_blinding : F
  e_blinding : F
  ipp : IppProof F G

/-- `w[i] += d` with the Rust bounds check.  src/r1cs/prover.rs:161-179, src/r1cs/verifier.rs:170-188. -/
def addAt (xs : List F) (i : ℕ) (d : F) : Res (List F) :=
  match xs[i]? with
  | some x => .ok (xs.set i (x + d))
  | none => Res.panic "index out of bounds"

/-- Flattened weights `(wL, wR, wO, wV, wc)`; the prover does not use `wc`.  src/r1cs/prover.rs:142-150, src/r1cs/verifier.rs:149-158. -/
structure Weights (F : Type) where
  wL : List F
  wR : List F
  wO : List F
  wV : List F
  wc : F

namespace Prover

/-- Body of the inner loop of `Prover::flattened_constraints`, prover.rs:161-179. -/
def flattenTerm (e : F) (w : Weights F) (t : Var × F) : Res (Weights F) :=
  match t.1 with
  | .left i => do return { w with wL := ← addAt w.wL i (e * t.2) }
  | .right i => do return { w with wR := ← addAt w.wR i (e * t.2) }
  | .out i => do return { w with wO := ← addAt w.wO i (e * t.2) }
  | .committed i => do return { w with wV := ← addAt w.wV i (-(e * t.2)) }
  | .one => .ok w

/-- Outer loop of `Prover::flattened_constraints`, prover.rs:159-181; `e` is `exp_z`. -/
def flattenLoop (z : F) : F → List (LC F) → Weights F → Res (Weights F)
  | _, [], w => .ok w
  | e, lc :: lcs, w => do
    let w ← lc.terms.foldlM (flattenTerm e) w
    flattenLoop z (e * z) lcs w

/-- `Prover::flattened_constraints`, prover.rs:142-184 (`wc` stays 0: "the prover doesn't need to handle constant terms"). -/
def flattenedConstraints (p : Prover F G) (z : F) : Res (Weights F) :=
  let n := p.aL.length
  let m := p.v.length
  flattenLoop z z p.constraints
    ⟨List.replicate n 0, List.replicate n 0, List.replicate n 0, List.replicate m 0, 0⟩

end Prover

namespace Verifier

/-- Body of the inner loop of `Verifier::flattened_constraints`, verifier.rs:170-188. -/
def flattenTerm (e : F) (w : Weights F) (t : Var × F) : Res (Weights F) :=
  match t.1 with
  | .left i => do return { w with wL := ← addAt w.wL i (e * t.2) }
  | .right i => do return { w with wR := ← addAt w.wR i (e * t.2) }
  | .out i => do return { w with wO := ← addAt w.wO i (e * t.2) }
  | .committed i => do return { w with wV := ← addAt w.wV i (-(e * t.2)) }
  | .one => .ok { w with wc := w.wc - e * t.2 }

/-- Outer loop of `Verifier::flattened_constraints`, verifier.rs:168-190. -/
def flattenLoop (z : F) : F → List (LC F) → Weights F → Res (Weights F)
  | _, [], w => .ok w
  | e, lc :: lcs, w => do
    let w ← lc.terms.foldlM (flattenTerm e) w
    flattenLoop z (e * z) lcs w

/-- `Verifier::flattened_constraints`, verifier.rs:149-193. -/
def flattenedConstraints (s : Verifier F G) (z : F) : Res (Weights F) :=
  let n := s.numVars
  let m := s.V.length
  flattenLoop z z s.constraints
    ⟨List.replicate n 0, List.replicate n 0, List.replicate n 0, List.replicate m 0, 0⟩

end Verifier

/-- All random scalars drawn by `prove` (prover.rs:336-341, 387-402, 490-494); the vectors are given as
functions, `FieldElementVector::random(n)` takes the first `n` values. -/
structure Coins (F : Type) where
  iB1 : F
  oB1 : F
  sB1 : F
  sL1 : ℕ → F
  sR1 : ℕ → F
  iB2 : F
  oB2 : F
  sB2 : F
  sL2 : ℕ → F
  sR2 : ℕ → F
  t1B : F
  t3B : F
  t4B : F
  t5B : F
  t6B : F

/-- `FieldElementVector::random(n)`.  Called at src/r1cs/prover.rs:340-341, 401-402. -/
def randomVec (f : ℕ → F) (n : ℕ) : List F := (List.range n).map f

namespace Prover

/-- A pair of wire commitments and a blinding commitment, prover.rs:346-362 and 412-427:
`A_I = <a_L,G>+<a_R,H>+i*h`, `A_O = <a_O,G>+o*h`, `S = <s_L,G>+<s_R,H>+s*h`. -/
def commitWires (h : G) (Gs Hs : List G) (aL aR aO sL sR : List F) (iB oB sB : F) : Res (G × G × G) := do
  let A_I ← commitVectors Gs Hs h aL aR iB
  let A_O := (← multiScalarMul aO Gs) + oB • h
  let S ← commitVectors Gs Hs h sL sR sB
  return (A_I, A_O, S)

/-- The second-phase blindings, prover.rs:387-399: zero when there are no second-phase gates. -/
def _root_.Bp.Coins.phase2 (c : Coins F) (n2 : ℕ) : F × F × F := if n2 > 0 then (c.iB2, c.oB2, c.sB2) else (0, 0, 0)

/-- The second-phase wire commitments, prover.rs:385-430 (`n1` first-phase gates): the identity when there are no second-phase gates. -/
def commitPhase2 (p : Prover F G) (coins : Coins F) (Gs Hs : List G) (n1 : ℕ) : Res (G × G × G) :=
  let n := p.aL.length
  let n2 := n - n1
  if n2 > 0 then do
    let Gn2 ← slice Gs n1 n
    let Hn2 ← slice Hs n1 n
    let aL2 ← slice p.aL n1 p.aL.length
    let aR2 ← slice p.aR n1 p.aR.length
    let aO2 ← slice p.aO n1 p.aO.length
    commitWires p.h Gn2 Hn2 aL2 aR2 aO2 (randomVec coins.sL2 n2) (randomVec coins.sR2 n2)
      (coins.phase2 n2).1 (coins.phase2 n2).2.1 (coins.phase2 n2).2.2
  else .ok (0, 0, 0)

/-- The blinded vector polynomials, prover.rs:458-486.  In iteration `i` the Rust variable `exp_y` is `y^i`. -/
def lrPolys (p : Prover F G) (w : Weights F) (y : F) (yInvs sL sR : List F) (n : ℕ) : Res (VecPoly3 F × VecPoly3 F) := do
  let l1 ← (List.range n).mapM (fun i => do return (← idx p.aL i) + (← idx yInvs i) * (← idx w.wR i))
  let l2 ← (List.range n).mapM (fun i => idx p.aO i)
  let l3 ← (List.range n).mapM (fun i => idx sL i)
  let r0 ← (List.range n).mapM (fun i => do return (← idx w.wO i) - y ^ i)
  let r1 ← (List.range n).mapM (fun i => do return y ^ i * (← idx p.aR i) + (← idx w.wL i))
  let r3 ← (List.range n).mapM (fun i => do return y ^ i * (← idx sR i))
  return (⟨List.replicate n 0, l1, l2, l3⟩, ⟨r0, r1, List.replicate n 0, r3⟩)

/-- `G_factors`, prover.rs:552-556. -/
def gFactors (n1 n2 pad : ℕ) (u : F) : List F := List.replicate n1 1 ++ List.replicate (n2 + pad) u

/-- `H_factors`, prover.rs:557-563. -/
def hFactors (yInvs gf : List F) : List F := List.zipWith (fun y g => y * g) yInvs gf

/-- `Prover::prove`, prover.rs:322-593.  Returns the proof and the final transcript log. -/
def prove (env : Env F G) (p : Prover F G) (coins : Coins F) (Gs Hs : List G) :
    Res (R1CSProof F G × Transcript F G) := do
  -- 327-334
  let p := { p with transcript := p.transcript.appendU64 "m" p.v.length }
  let n1 := p.aL.length
  if Gs.length < n1 then Res.err .invalidGeneratorsLength else do
  -- 336-366
  let Gn1 ← slice Gs 0 n1
  let Hn1 ← slice Hs 0 n1
  let sL1 := randomVec coins.sL1 n1
  let sR1 := randomVec coins.sR1 n1
  let (A_I1, A_O1, S1) ← commitWires p.h Gn1 Hn1 p.aL p.aR p.aO sL1 sR1 coins.iB1 coins.oB1 coins.sB1
  let p := { p with transcript := ((p.transcript.commitPoint "A_I1" A_I1).commitPoint "A_O1" A_O1).commitPoint "S1" S1 }
  -- 369
  let p ← p.createRandomizedConstraints env
  -- 374-381
  let n := p.aL.length
  let n2 := n - n1
  let N := nextPowerOfTwo n
  let pad := N - n
  if Gs.length < N then Res.err .invalidGeneratorsLength else do
  -- 385-430
  let (iB2, oB2, sB2) := coins.phase2 n2
  let sL2 := randomVec coins.sL2 n2
  let sR2 := randomVec coins.sR2 n2
  let (A_I2, A_O2, S2) ← p.commitPhase2 coins Gs Hs n1
  -- 432-439
  let t := ((p.transcript.commitPoint "A_I2" A_I2).commitPoint "A_O2" A_O2).commitPoint "S2" S2
  let (y, t) := t.challengeScalar env.oracle "y"
  let (z, t) := t.challengeScalar env.oracle "z"
  -- 441-488
  let w ← p.flattenedConstraints z
  let yInvs := vandermonde y⁻¹ N
  let (lp, rp) ← p.lrPolys w y yInvs (sL1 ++ sL2) (sR1 ++ sR2) n
  let tp ← VecPoly3.specialInnerProduct lp rp
  -- 490-509
  let T_1 := commitScalar p.g p.h tp.t1 coins.t1B
  let T_3 := commitScalar p.g p.h tp.t3 coins.t3B
  let T_4 := commitScalar p.g p.h tp.t4 coins.t4B
  let T_5 := commitScalar p.g p.h tp.t5 coins.t5B
  let T_6 := commitScalar p.g p.h tp.t6 coins.t6B
  let t := ((((t.commitPoint "T_1" T_1).commitPoint "T_3" T_3).commitPoint "T_4" T_4).commitPoint "T_5" T_5).commitPoint "T_6" T_6
  let (u, t) := t.challengeScalar env.oracle "u"
  let (x, t) := t.challengeScalar env.oracle "x"
  -- 513-535
  let t2B ← innerProduct w.wV p.vBlinding
  let tbp : Poly6 F := ⟨coins.t1B, t2B, coins.t3B, coins.t4B, coins.t5B, coins.t6B⟩
  let t_x := tp.eval x
  let t_x_blinding := tbp.eval x
  let lv ← lp.eval x
  let lvec := lv ++ List.replicate pad 0
  let rv ← rp.eval x
  let rvec := rv ++ (List.range pad).map (fun k => -(y ^ (n + k)))
  -- 537-550
  let iB := coins.iB1 + u * iB2
  let oB := coins.oB1 + u * oB2
  let sB := coins.sB1 + u * sB2
  let e_blinding := x * (iB + x * (oB + x * sB))
  let t := ((t.commitScalar "t_x" t_x).commitScalar "t_x_blinding" t_x_blinding).commitScalar "e_blinding" e_blinding
  let (wch, t) := t.challengeScalar env.oracle "w"
  let Q := wch • p.g
  -- 552-574
  let gf := gFactors n1 n2 pad u
  let hf := hFactors yInvs gf
  let GN ← slice Gs 0 N
  let HN ← slice Hs 0 N
  let (ipp, t) ← createIpp env.oracle t Q gf hf GN HN lvec rvec
  return (⟨A_I1, A_O1, S1, A_I2, A_O2, S2, T_1, T_3, T_4, T_5, T_6, t_x, t_x_blinding, e_blinding, ipp⟩, t)

end Prover

/-- The challenges used by the final check of `verify`.  src/r1cs/verifier.rs:305-323. -/
structure Chals (F : Type) where
  y : F
  z : F
  u : F
  x : F
  w : F

namespace Verifier

/-- The part of the check that only depends on the flattened weights, verifier.rs:341-352:
`(y_inv_vec, y_inv_wR padded, delta)`. -/
def yTerms (wt : Weights F) (y : F) (n N : ℕ) : Res (List F × List F × F) := do
  let pad := N - n
  let yInvs := vandermonde y⁻¹ N
  let yInvWR := List.zipWith (fun wRi e => wRi * e) wt.wR yInvs ++ List.replicate pad 0
  let d ← slice yInvWR 0 n
  let delta ← innerProduct d wt.wL
  return (yInvs, yInvWR, delta)

/-- `u_for_g` / `u_for_h`, verifier.rs:362-365. -/
def uFactors (n1 n2 pad : ℕ) (u : F) : List F := List.replicate n1 1 ++ List.replicate (n2 + pad) u

/-- `g_scalars`, verifier.rs:368-373. -/
def gScalars (yInvWR us s : List F) (x a : F) (N : ℕ) : List F :=
  List.zipWith (fun (q : F × F) si => q.2 * (x * q.1 - a * si)) (List.zip yInvWR us) (s.take N)

/-- `h_scalars`, verifier.rs:375-390. -/
def hScalars (yInvs us s wL wO : List F) (x b : F) (N pad : ℕ) : List F :=
  List.zipWith (fun (q : ((F × F) × F) × F) wOi =>
      q.1.1.2 * (q.1.1.1 * (x * q.2 + wOi - b * q.1.2) - 1))
    (List.zip (List.zip (List.zip yInvs us) (s.reverse.take N)) (wL ++ List.replicate pad 0))
    (wO ++ List.replicate pad 0)

/-- The scalars and points of the final multi-exponentiation, verifier.rs:362-446. -/
def checkArgs (n1 n N : ℕ) (V : List G) (pr : R1CSProof F G) (g h : G) (GN HN : List G) (wt : Weights F)
    (yInvs yInvWR : List F) (delta : F) (ch : Chals F) (uSq uInvSq s : List F) (r : F) : List F × List G :=
  let n2 := n - n1
  let pad := N - n
  let a := pr.ipp.a
  let b := pr.ipp.b
  let x := ch.x
  let uf := uFactors n1 n2 pad ch.u
  let gs := gScalars yInvWR uf s x a N
  let hs := hScalars yInvs uf s wt.wL wt.wO x b N pad
  let x2 := x * x
  let x3 := x * x2
  let rx2 := r * x2
  let rx := r * x
  let rx3 := r * x3
  let rx4 := rx3 * x
  let rx5 := rx4 * x
  let rx6 := rx5 * x
  let w' := ch.w * (pr.t_x - a * b) + r * (x2 * (wt.wc + delta) - pr.t_x)
  let p' := -(pr.e_blinding + r * pr.t_x_blinding)
  ([x, x2, x3, ch.u * x, ch.u * x2, ch.u * x3] ++ wt.wV.map (fun c => c * rx2) ++ [rx, rx3, rx4, rx5, rx6] ++ [w'] ++ [p']
      ++ gs ++ hs ++ uSq ++ uInvSq,
   [pr.A_I1, pr.A_O1, pr.S1, pr.A_I2, pr.A_O2, pr.S2] ++ V ++ [pr.T_1, pr.T_3, pr.T_4, pr.T_5, pr.T_6] ++ [g, h]
      ++ GN ++ HN ++ pr.ipp.L ++ pr.ipp.R)

/-- `Verifier::verify`, verifier.rs:267-457; `r` is the random batching scalar drawn at line 392. Returns the final log. -/
def verify [DecidableEq G] (env : Env F G) (s : Verifier F G) (pr : R1CSProof F G) (g h : G) (Gs Hs : List G) (r : F) :
    Res (Transcript F G) := do
  -- 279-284
  let s := { s with transcript := s.transcript.appendU64 "m" s.V.length }
  let n1 := s.numVars
  let s := { s with transcript :=
    ((s.transcript.commitPoint "A_I1" pr.A_I1).commitPoint "A_O1" pr.A_O1).commitPoint "S1" pr.S1 }
  -- 287
  let s ← s.createRandomizedConstraints env
  -- 290-299
  let n := s.numVars
  let N := nextPowerOfTwo n
  if Gs.length < N then Res.err .invalidGeneratorsLength else do
  -- 301-323
  let t := ((s.transcript.commitPoint "A_I2" pr.A_I2).commitPoint "A_O2" pr.A_O2).commitPoint "S2" pr.S2
  let (y, t) := t.challengeScalar env.oracle "y"
  let (z, t) := t.challengeScalar env.oracle "z"
  let t := ((((t.commitPoint "T_1" pr.T_1).commitPoint "T_3" pr.T_3).commitPoint "T_4" pr.T_4).commitPoint "T_5" pr.T_5).commitPoint "T_6" pr.T_6
  let (u, t) := t.challengeScalar env.oracle "u"
  let (x, t) := t.challengeScalar env.oracle "x"
  let t := ((t.commitScalar "t_x" pr.t_x).commitScalar "t_x_blinding" pr.t_x_blinding).commitScalar "e_blinding" pr.e_blinding
  let (w, t) := t.challengeScalar env.oracle "w"
  -- 325-352
  let wt ← s.flattenedConstraints z
  let (yInvs, yInvWR, delta) ← yTerms wt y n N
  -- 354-360
  let ((uSq, uInvSq, sv), t) ←
    match verificationScalars env pr.ipp.L pr.ipp.R N t with
    | .ok x => Except.ok x
    | .error (.err _) => Res.err .verificationError
    | .error (.panic w) => Res.panic w
  -- 362-456
  let GN ← slice Gs 0 N
  let HN ← slice Hs 0 N
  let args := checkArgs n1 n N s.V pr g h GN HN wt yInvs yInvWR delta ⟨y, z, u, x, w⟩ uSq uInvSq sv r
  let res ← multiScalarMul args.1 args.2
  if res = 0 then return t else Res.err .verificationError

end Verifier
end Bp
