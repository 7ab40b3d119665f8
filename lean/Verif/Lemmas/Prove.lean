import Verif.Lemmas.Verify

set_option linter.unusedSectionVars false
set_option linter.unusedSimpArgs false

namespace Bp
variable {F G : Type} [Field F] [AddCommGroup G] [Module F G]
open Finset

/-- Left blinded polynomial. -/
def hlp (p : Prover F G) (w : Weights F) (y : F) (sL : List F) (n : ℕ) : VecPoly3 F :=
  ⟨List.replicate n 0, (List.range n).map (fun i => p.aL.getD i 0 + vpow y⁻¹ i * w.wR.getD i 0), (List.range n).map (fun i => p.aO.getD i 0),
    (List.range n).map (fun i => sL.getD i 0)⟩

/-- Right blinded polynomial. -/
def hrp (p : Prover F G) (w : Weights F) (y : F) (sR : List F) (n : ℕ) : VecPoly3 F :=
  ⟨(List.range n).map (fun i => w.wO.getD i 0 - y ^ i), (List.range n).map (fun i => y ^ i * p.aR.getD i 0 + w.wL.getD i 0), List.replicate n 0,
    (List.range n).map (fun i => y ^ i * sR.getD i 0)⟩

/-- Left vector of the inner-product argument. -/
def hlvec (lp : VecPoly3 F) (x : F) (n pad : ℕ) : List F :=
  ((List.range n).map fun i => lp.c0.getD i 0 + x * (lp.c1.getD i 0 + x * (lp.c2.getD i 0 + x * lp.c3.getD i 0))) ++ List.replicate pad 0

/-- Right vector of the inner-product argument. -/
def hrvec (rp : VecPoly3 F) (x y : F) (n pad : ℕ) : List F :=
  ((List.range n).map fun i => rp.c0.getD i 0 + x * (rp.c1.getD i 0 + x * (rp.c2.getD i 0 + x * rp.c3.getD i 0)))
    ++ (List.range pad).map (fun k => -(y ^ (n + k)))

/-- What an honestly made proof consists of. -/
structure Honest (env : Env F G) (p p2 : Prover F G) (c : Coins F) (Gs Hs : List G) (k : ℕ) (ch : Chals F) (wp : Weights F) (lp rp : VecPoly3 F)
    (pr : R1CSProof F G) (t' : Transcript F G) : Prop where
  hA_I1 : pr.A_I1 = vecCommit p.h (Gs.take p.aL.length) (Hs.take p.aL.length) p.aL p.aR c.iB1
  hA_O1 : pr.A_O1 = msm p.aO (Gs.take p.aL.length) + c.oB1 • p.h
  hS1 : pr.S1 = vecCommit p.h (Gs.take p.aL.length) (Hs.take p.aL.length) (randomVec c.sL1 p.aL.length) (randomVec c.sR1 p.aL.length) c.sB1
  hA_I2 : pr.A_I2 = vecCommit p2.h ((Gs.drop p.aL.length).take (p2.aL.length - p.aL.length)) ((Hs.drop p.aL.length).take (p2.aL.length - p.aL.length))
    (p2.aL.drop p.aL.length) (p2.aR.drop p.aL.length) (if p.aL.length < p2.aL.length then c.iB2 else 0)
  hA_O2 : pr.A_O2 = msm (p2.aO.drop p.aL.length) ((Gs.drop p.aL.length).take (p2.aL.length - p.aL.length))
    + (if p.aL.length < p2.aL.length then c.oB2 else 0) • p2.h
  hS2 : pr.S2 = vecCommit p2.h ((Gs.drop p.aL.length).take (p2.aL.length - p.aL.length)) ((Hs.drop p.aL.length).take (p2.aL.length - p.aL.length))
    (randomVec c.sL2 (p2.aL.length - p.aL.length)) (randomVec c.sR2 (p2.aL.length - p.aL.length)) (if p.aL.length < p2.aL.length then c.sB2 else 0)
  hch : ch = drawn env.oracle p2.transcript pr
  hwp : p2.flattenedConstraints ch.z = .ok wp
  hlp : lp = hlp p2 wp ch.y (randomVec c.sL1 p.aL.length ++ randomVec c.sL2 (p2.aL.length - p.aL.length)) p2.aL.length
  hrp : rp = hrp p2 wp ch.y (randomVec c.sR1 p.aL.length ++ randomVec c.sR2 (p2.aL.length - p.aL.length)) p2.aL.length
  hT_1 : pr.T_1 = commitScalar p2.g p2.h (lp.sip rp).t1 c.t1B
  hT_3 : pr.T_3 = commitScalar p2.g p2.h (lp.sip rp).t3 c.t3B
  hT_4 : pr.T_4 = commitScalar p2.g p2.h (lp.sip rp).t4 c.t4B
  hT_5 : pr.T_5 = commitScalar p2.g p2.h (lp.sip rp).t5 c.t5B
  hT_6 : pr.T_6 = commitScalar p2.g p2.h (lp.sip rp).t6 c.t6B
  ht_x : pr.t_x = (lp.sip rp).eval ch.x
  ht_x_blinding : pr.t_x_blinding = (⟨c.t1B, dot wp.wV p2.vBlinding, c.t3B, c.t4B, c.t5B, c.t6B⟩ : Poly6 F).eval ch.x
  he_blinding : pr.e_blinding = ch.x * ((c.iB1 + ch.u * (if p.aL.length < p2.aL.length then c.iB2 else 0)) + ch.x *
    ((c.oB1 + ch.u * (if p.aL.length < p2.aL.length then c.oB2 else 0)) + ch.x * (c.sB1 + ch.u * (if p.aL.length < p2.aL.length then c.sB2 else 0))))
  hipp : createIpp env.oracle (logW p2.transcript pr) (ch.w • p2.g) ((List.range (2 ^ k)).map (ufac p.aL.length ch.u))
    ((List.range (2 ^ k)).map (fun i => vpow ch.y⁻¹ i * ufac p.aL.length ch.u i)) (Gs.take (2 ^ k)) (Hs.take (2 ^ k))
    (hlvec lp ch.x p2.aL.length (2 ^ k - p2.aL.length)) (hrvec rp ch.x ch.y p2.aL.length (2 ^ k - p2.aL.length)) = .ok (pr.ipp, t')

theorem commitVectors_ok {h : G} {Gs Hs : List G} {a b : List F} {r : F} (h1 : a.length = Gs.length) (h2 : b.length = Hs.length) :
    commitVectors Gs Hs h a b r = .ok (vecCommit h Gs Hs a b r) := by
  unfold commitVectors
  rw [multiScalarMul_ok h1, multiScalarMul_ok h2]
  rfl

theorem commitWires_ok {h : G} {Gs Hs : List G} {aL aR aO sL sR : List F} {iB oB sB : F} {n : ℕ} (hG : Gs.length = n) (hH : Hs.length = n)
    (h1 : aL.length = n) (h2 : aR.length = n) (h3 : aO.length = n) (h4 : sL.length = n) (h5 : sR.length = n) :
    Prover.commitWires h Gs Hs aL aR aO sL sR iB oB sB =
      .ok (vecCommit h Gs Hs aL aR iB, msm aO Gs + oB • h, vecCommit h Gs Hs sL sR sB) := by
  unfold Prover.commitWires
  rw [commitVectors_ok (by omega) (by omega), multiScalarMul_ok (by omega), commitVectors_ok (by omega) (by omega)]
  rfl

theorem lrPolys_ok (p : Prover F G) (hw : p.WF) (w : Weights F) (m : ℕ) (hl : w.Len p.aL.length m) (y : F) (N : ℕ) (hN : p.aL.length ≤ N) (sL sR : List F)
    (hsL : sL.length = p.aL.length) (hsR : sR.length = p.aL.length) :
    p.lrPolys w y (vandermonde y⁻¹ N) sL sR p.aL.length = .ok (hlp p w y sL p.aL.length, hrp p w y sR p.aL.length) := by
  have h1 := hw.lenR
  have h2 := hw.lenO
  unfold Prover.lrPolys
  rw [mapM_range_ok _ (fun i => p.aL.getD i 0 + vpow y⁻¹ i * w.wR.getD i 0), mapM_range_ok _ (fun i => p.aO.getD i 0),
    mapM_range_ok _ (fun i => sL.getD i 0), mapM_range_ok _ (fun i => w.wO.getD i 0 - y ^ i), mapM_range_ok _ (fun i => y ^ i * p.aR.getD i 0 + w.wL.getD i 0),
    mapM_range_ok _ (fun i => y ^ i * sR.getD i 0)]
  · rfl
  · intro i hi; rw [idx_lt 0 (by omega)]; rfl
  · intro i hi; rw [idx_lt 0 (by omega), idx_lt 0 (by rw [hl.L]; omega)]; rfl
  · intro i hi; rw [idx_lt 0 (by rw [hl.O]; omega)]; rfl
  · intro i hi; rw [idx_lt 0 (by omega)]
  · intro i hi; rw [idx_lt 0 (by omega)]
  · intro i hi
    rw [idx_lt 0 (by omega), idx_lt 0 (by simp [vandermonde]; omega), idx_lt 0 (by rw [hl.R]; omega)]
    simp only [vandermonde, getD_map_range, show i < N by omega, if_true]
    rfl

theorem gFactors_eq (n1 n N : ℕ) (u : F) (h1 : n1 ≤ n) (h2 : n ≤ N) :
    Prover.gFactors n1 (n - n1) (N - n) u = (List.range N).map (ufac n1 u) := uFactors_eq n1 n N u h1 h2

theorem hFactors_eq (n1 N : ℕ) (u y : F) :
    Prover.hFactors (vandermonde y⁻¹ N) ((List.range N).map (ufac n1 u)) = (List.range N).map (fun i => vpow y⁻¹ i * ufac n1 u i) := by
  refine ext_getD 0 (n := N) (by simp [Prover.hFactors, vandermonde]) (by simp) fun i hi => ?_
  rw [getD_map_range, if_pos hi, Prover.hFactors, getD_zipWith _ _ _ _ _ 0 0 (by simpa [vandermonde] using hi) (by simpa using hi), vandermonde, getD_map_range,
    getD_map_range, if_pos hi, if_pos hi]

end Bp

namespace Bp
variable {F G : Type} [Field F] [AddCommGroup G] [Module F G]
open Finset

theorem slice_drop {α} {xs : List α} {a b : ℕ} (h1 : a ≤ b) (h2 : b ≤ xs.length) : slice xs a b = .ok ((xs.drop a).take (b - a)) := by
  simp [slice, h1, h2]

theorem length_randomVec (f : ℕ → F) (n : ℕ) : (randomVec f n).length = n := by simp [randomVec]

/-- The second-phase commitments as `prove` computes them. -/
theorem phase2_wires (p2 : Prover F G) (hw : p2.WF) (c : Coins F) (Gs Hs : List G) (n1 : ℕ) (h1 : n1 ≤ p2.aL.length) (hG : p2.aL.length ≤ Gs.length)
    (hH : p2.aL.length ≤ Hs.length) :
    p2.commitPhase2 c Gs Hs n1 =
    .ok (vecCommit p2.h ((Gs.drop n1).take (p2.aL.length - n1)) ((Hs.drop n1).take (p2.aL.length - n1))
        (p2.aL.drop n1) (p2.aR.drop n1) (if n1 < p2.aL.length then c.iB2 else 0),
      msm (p2.aO.drop n1) ((Gs.drop n1).take (p2.aL.length - n1)) + (if n1 < p2.aL.length then c.oB2 else 0) • p2.h,
      vecCommit p2.h ((Gs.drop n1).take (p2.aL.length - n1)) ((Hs.drop n1).take (p2.aL.length - n1))
        (randomVec c.sL2 (p2.aL.length - n1)) (randomVec c.sR2 (p2.aL.length - n1)) (if n1 < p2.aL.length then c.sB2 else 0)) := by
  have e1 := hw.lenR
  have e2 := hw.lenO
  unfold Prover.commitPhase2 Coins.phase2
  by_cases h : n1 < p2.aL.length
  · have h' : p2.aL.length - n1 > 0 := by omega
    simp only [h, h', if_true]
    rw [slice_drop h1 hG, slice_drop h1 hH, slice_drop h1 le_rfl, slice_drop (by omega) le_rfl, slice_drop (by omega) le_rfl]
    simp only [bind, Except.bind]
    rw [List.take_of_length_le (l := p2.aL.drop n1) (by simp), List.take_of_length_le (l := p2.aR.drop n1) (by simp),
      List.take_of_length_le (l := p2.aO.drop n1) (by simp),
      commitWires_ok (n := p2.aL.length - n1) (by simp; omega) (by simp; omega) (by simp) (by simp; omega) (by simp; omega) (length_randomVec _ _) (length_randomVec _ _)]
  · have h' : ¬ (p2.aL.length - n1 > 0) := by omega
    have h0 : p2.aL.length - n1 = 0 := by omega
    simp only [h, h', if_false]
    have z1 : p2.aL.drop n1 = [] := by simp; omega
    have z2 : p2.aR.drop n1 = [] := by simp; omega
    have z3 : p2.aO.drop n1 = [] := by simp; omega
    rw [h0, z1, z2, z3]
    simp [vecCommit, msm_nil_left, randomVec]

theorem Prover.flattened_total (p : Prover F G) (z : F)
    (h : ∀ lc ∈ p.constraints, ∀ t ∈ lc.terms, Var.InRange p.aL.length p.v.length t.1) : ∃ w, p.flattenedConstraints z = .ok w := by
  obtain ⟨w, hw⟩ := Verifier.flattenLoop_of_inRange z p.constraints (e := z) (Verifier.len0 p.aL.length p.v.length) h
  have := Prover.flattenLoop_eq z 0 p.constraints z ⟨List.replicate p.aL.length 0, List.replicate p.aL.length 0, List.replicate p.aL.length 0, List.replicate p.v.length 0, 0⟩
  rw [hw] at this
  exact ⟨_, this⟩

theorem Prover.flattened_len {p : Prover F G} {z : F} {w : Weights F} (h : p.flattenedConstraints z = .ok w) : w.Len p.aL.length p.v.length := by
  obtain ⟨w', h1, rfl⟩ := Prover.flattened_ok h
  have := (Verifier.flattenLoop_ok z p.constraints (Verifier.len0 p.aL.length p.v.length) h1).2.1
  exact ⟨this.L, this.R, this.O, this.V⟩

theorem length_hlvec (lp : VecPoly3 F) (x : F) (n N : ℕ) (h : n ≤ N) : (hlvec lp x n (N - n)).length = N := by
  simp [hlvec]; omega

theorem length_hrvec (lp : VecPoly3 F) (x y : F) (n N : ℕ) (h : n ≤ N) : (hrvec lp x y n (N - n)).length = N := by
  simp [hrvec]; omega

/-- On an in-range system with enough generators `prove` succeeds, and the proof has the expected components. -/
theorem prove_ok (env : Env F G) (p p2 : Prover F G) (c : Coins F) (Gs Hs : List G) (hwp : p.WF)
    (hcrc : (p.start c Gs Hs).createRandomizedConstraints env = .ok p2) (k : ℕ) (hkN : nextPowerOfTwo p2.aL.length = 2 ^ k)
    (hG : 2 ^ k ≤ Gs.length) (hH : 2 ^ k ≤ Hs.length)
    (hin : ∀ lc ∈ p2.constraints, ∀ t ∈ lc.terms, Var.InRange p2.aL.length p2.v.length t.1) :
    ∃ pr t' ch wp lp rp, Prover.prove env p c Gs Hs = .ok (pr, t') ∧ Honest env p p2 c Gs Hs k ch wp lp rp pr t' := by
  obtain ⟨vs, hst⟩ := Prover.createRandomizedConstraints_steps hcrc
  have hws : (p.start c Gs Hs).WF := by
    cases hwp; constructor <;> assumption
  have hw2 : p2.WF := hst.ext.wf hws
  have e1 := hwp.lenR
  have e2 := hwp.lenO
  have hn1 : p.aL.length ≤ p2.aL.length := hst.ext.lenL
  have hnN : p2.aL.length ≤ 2 ^ k := hkN ▸ nextPowerOfTwo_ge _
  obtain ⟨A_I1, hA_I1⟩ : ∃ a, a = vecCommit p.h (Gs.take p.aL.length) (Hs.take p.aL.length) p.aL p.aR c.iB1 := ⟨_, rfl⟩
  obtain ⟨A_O1, hA_O1⟩ : ∃ a, a = msm p.aO (Gs.take p.aL.length) + c.oB1 • p.h := ⟨_, rfl⟩
  obtain ⟨S1, hS1⟩ : ∃ a, a = vecCommit p.h (Gs.take p.aL.length) (Hs.take p.aL.length) (randomVec c.sL1 p.aL.length)
    (randomVec c.sR1 p.aL.length) c.sB1 := ⟨_, rfl⟩
  have hcrc' : Prover.createRandomizedConstraints env { p with transcript := p.transcript ++ [.u64 "m" p.v.length, .point "A_I1" A_I1,
      .point "A_O1" A_O1, .point "S1" S1] } = .ok p2 := by rw [hA_I1, hA_O1, hS1]; exact hcrc
  have hwires := phase2_wires p2 hw2 c Gs Hs p.aL.length hn1 (by omega) (by omega)
  obtain ⟨A_I2, hA_I2⟩ : ∃ a, a = vecCommit p2.h ((Gs.drop p.aL.length).take (p2.aL.length - p.aL.length)) ((Hs.drop p.aL.length).take (p2.aL.length - p.aL.length))
    (p2.aL.drop p.aL.length) (p2.aR.drop p.aL.length) (if p.aL.length < p2.aL.length then c.iB2 else 0) := ⟨_, rfl⟩
  obtain ⟨A_O2, hA_O2⟩ : ∃ a, a = msm (p2.aO.drop p.aL.length) ((Gs.drop p.aL.length).take (p2.aL.length - p.aL.length))
    + (if p.aL.length < p2.aL.length then c.oB2 else 0) • p2.h := ⟨_, rfl⟩
  obtain ⟨S2, hS2⟩ : ∃ a, a = vecCommit p2.h ((Gs.drop p.aL.length).take (p2.aL.length - p.aL.length)) ((Hs.drop p.aL.length).take (p2.aL.length - p.aL.length))
    (randomVec c.sL2 (p2.aL.length - p.aL.length)) (randomVec c.sR2 (p2.aL.length - p.aL.length)) (if p.aL.length < p2.aL.length then c.sB2 else 0) := ⟨_, rfl⟩
  rw [← hA_I2, ← hA_O2, ← hS2] at hwires
  obtain ⟨y, hy⟩ : ∃ y, y = env.oracle (p2.transcript ++ [.point "A_I2" A_I2, .point "A_O2" A_O2, .point "S2" S2, .challenge "y"]) := ⟨_, rfl⟩
  obtain ⟨z, hz⟩ : ∃ y, y = env.oracle (p2.transcript ++ [.point "A_I2" A_I2, .point "A_O2" A_O2, .point "S2" S2, .challenge "y", .challenge "z"]) := ⟨_, rfl⟩
  obtain ⟨wp, hwpz⟩ := Prover.flattened_total p2 z hin
  have hl := Prover.flattened_len hwpz
  have hlr := lrPolys_ok p2 hw2 wp _ hl y (2 ^ k) hnN (randomVec c.sL1 p.aL.length ++ randomVec c.sL2 (p2.aL.length - p.aL.length))
    (randomVec c.sR1 p.aL.length ++ randomVec c.sR2 (p2.aL.length - p.aL.length)) (by simp [length_randomVec]; omega) (by simp [length_randomVec]; omega)
  obtain ⟨lp, hlp'⟩ : ∃ a, a = hlp p2 wp y (randomVec c.sL1 p.aL.length ++ randomVec c.sL2 (p2.aL.length - p.aL.length)) p2.aL.length := ⟨_, rfl⟩
  obtain ⟨rp, hrp'⟩ : ∃ a, a = hrp p2 wp y (randomVec c.sR1 p.aL.length ++ randomVec c.sR2 (p2.aL.length - p.aL.length)) p2.aL.length := ⟨_, rfl⟩
  rw [← hlp', ← hrp'] at hlr
  have hsip : VecPoly3.specialInnerProduct lp rp = .ok (lp.sip rp) :=
    VecPoly3.specialInnerProduct_ok lp rp (n := p2.aL.length) (by simp [hlp', hlp]) (by simp [hlp', hlp]) (by simp [hlp', hlp])
      (by simp [hrp', hrp]) (by simp [hrp', hrp]) (by simp [hrp', hrp])
  have hev := fun x => VecPoly3.eval_ok lp x (n := p2.aL.length) (by simp [hlp', hlp]) (by simp [hlp', hlp]) (by simp [hlp', hlp]) (by simp [hlp', hlp])
  have hev' := fun x => VecPoly3.eval_ok rp x (n := p2.aL.length) (by simp [hrp', hrp]) (by simp [hrp', hrp]) (by simp [hrp', hrp]) (by simp [hrp', hrp])
  unfold Prover.prove
  simp only [bind, Except.bind, Transcript.challengeScalar, Transcript.commitPoint, Transcript.commitScalar, Transcript.appendU64,
    List.append_assoc, List.cons_append, List.nil_append]
  rw [if_neg (by omega), slice_ok (by omega), slice_ok (by omega)]
  simp only
  rw [commitWires_ok (n := p.aL.length) (by simp; omega) (by simp; omega) rfl e1 e2 (length_randomVec _ _) (length_randomVec _ _), ← hA_I1, ← hA_O1, ← hS1]
  simp only [hcrc']
  rw [hkN, if_neg (by omega)]
  rw [hwires]
  simp only
  rw [← hy, ← hz]
  simp only [hwpz, hlr, hsip]
  rw [innerProduct_ok (by rw [hl.V, hw2.lenB])]
  simp only [hev, hev']
  rw [slice_ok hG, slice_ok hH]
  simp only
  rw [gFactors_eq _ _ _ _ hn1 hnN, hFactors_eq]
  have hb : (c.phase2 (p2.aL.length - p.aL.length)) = (if p.aL.length < p2.aL.length then c.iB2 else 0, if p.aL.length < p2.aL.length then c.oB2 else 0,
      if p.aL.length < p2.aL.length then c.sB2 else 0) := by
    unfold Coins.phase2
    by_cases h : p.aL.length < p2.aL.length
    · rw [if_pos (by omega), if_pos h, if_pos h, if_pos h]
    · rw [if_neg (by omega), if_neg h, if_neg h, if_neg h]
  rw [hb]
  obtain ⟨u, hu⟩ : ∃ u, u = env.oracle (p2.transcript ++ [.point "A_I2" A_I2, .point "A_O2" A_O2, .point "S2" S2, .challenge "y", .challenge "z",
      .point "T_1" (commitScalar p2.g p2.h (lp.sip rp).t1 c.t1B), .point "T_3" (commitScalar p2.g p2.h (lp.sip rp).t3 c.t3B),
      .point "T_4" (commitScalar p2.g p2.h (lp.sip rp).t4 c.t4B), .point "T_5" (commitScalar p2.g p2.h (lp.sip rp).t5 c.t5B),
      .point "T_6" (commitScalar p2.g p2.h (lp.sip rp).t6 c.t6B), .challenge "u"]) := ⟨_, rfl⟩
  obtain ⟨x, hx⟩ : ∃ u, u = env.oracle (p2.transcript ++ [.point "A_I2" A_I2, .point "A_O2" A_O2, .point "S2" S2, .challenge "y", .challenge "z",
      .point "T_1" (commitScalar p2.g p2.h (lp.sip rp).t1 c.t1B), .point "T_3" (commitScalar p2.g p2.h (lp.sip rp).t3 c.t3B),
      .point "T_4" (commitScalar p2.g p2.h (lp.sip rp).t4 c.t4B), .point "T_5" (commitScalar p2.g p2.h (lp.sip rp).t5 c.t5B),
      .point "T_6" (commitScalar p2.g p2.h (lp.sip rp).t6 c.t6B), .challenge "u", .challenge "x"]) := ⟨_, rfl⟩
  rw [← hu, ← hx]
  have hlv := length_hlvec lp x p2.aL.length (2 ^ k) hnN
  have hrv := length_hrvec rp x y p2.aL.length (2 ^ k) hnN
  unfold hlvec at hlv
  unfold hrvec at hrv
  have key := fun t Q => createIpp_complete env.oracle t Q k ((List.range (2 ^ k)).map (ufac p.aL.length u))
    ((List.range (2 ^ k)).map (fun i => vpow y⁻¹ i * ufac p.aL.length u i)) (Gs.take (2 ^ k)) (Hs.take (2 ^ k)) _ _ (by simpa using hG) (by simpa using hH) hlv hrv
    (by simp) (by simp)
  simp only
  generalize ht : (p2.transcript ++ _ : Transcript F G) = t
  obtain ⟨ipp, -, -, hipp, -⟩ := key t (env.oracle t • p2.g)
  rw [hipp]
  refine ⟨_, _, ⟨y, z, u, x, env.oracle t⟩, wp, lp, rp, rfl, hA_I1, hA_O1, hS1, hA_I2, hA_O2, hS2, ?_, hwpz, hlp', hrp', rfl, rfl, rfl, rfl, rfl, rfl, rfl, rfl, ?_⟩
  · simp only [drawn, logY_norm, logZ_norm, logU_norm, logX_norm, logW_norm]
    rw [← hy, ← hz, ← hu, ← hx, ht]
  · rw [logW_norm, ht]
    exact hipp

end Bp
