import Verif.Lemmas.Complete

/-! # Coins that explain a proof: the randomness with which another witness gives the same proof -/

set_option linter.unusedSectionVars false
set_option linter.unusedSimpArgs false

namespace Bp
variable {F G : Type} [Field F] [AddCommGroup G] [Module F G]
open Finset

/-- The masks of all gates. -/
def Coins.maskL (c : Coins F) (n1 i : ℕ) : F := if i < n1 then c.sL1 i else c.sL2 (i - n1)
def Coins.maskR (c : Coins F) (n1 i : ℕ) : F := if i < n1 then c.sR1 i else c.sR2 (i - n1)

theorem randomVec_append (f g : ℕ → F) (n1 n : ℕ) (h : n1 ≤ n) : randomVec f n1 ++ randomVec g (n - n1) = (List.range n).map fun i => if i < n1 then f i else g (i - n1) := by
  obtain ⟨m, rfl⟩ := Nat.exists_eq_add_of_le h
  rw [Nat.add_sub_cancel_left, List.range_add, List.map_append, randomVec, randomVec, List.map_map]
  congr 1
  · exact List.map_congr_left fun i hi => by rw [if_pos (List.mem_range.mp hi)]
  · exact List.map_congr_left fun i _ => by simp

/-- Entry `i` of the left and right vectors. -/
def lEntry (p2 : Prover F G) (w : Weights F) (ch : Chals F) (m : F) (i : ℕ) : F :=
  ch.x * (p2.aL.getD i 0 + vpow ch.y⁻¹ i * w.wR.getD i 0) + ch.x ^ 2 * p2.aO.getD i 0 + ch.x ^ 3 * m
def rEntry (p2 : Prover F G) (w : Weights F) (ch : Chals F) (m : F) (i : ℕ) : F :=
  (w.wO.getD i 0 - ch.y ^ i) + ch.x * (ch.y ^ i * p2.aR.getD i 0 + w.wL.getD i 0) + ch.x ^ 3 * (ch.y ^ i * m)

/-- The masks that lead to given entries. -/
def lMask (p2 : Prover F G) (w : Weights F) (ch : Chals F) (l : F) (i : ℕ) : F := ch.x⁻¹ ^ 3 * (l - lEntry p2 w ch 0 i)
def rMask (p2 : Prover F G) (w : Weights F) (ch : Chals F) (r : F) (i : ℕ) : F := ch.x⁻¹ ^ 3 * (vpow ch.y⁻¹ i * (r - rEntry p2 w ch 0 i))

theorem lEntry_mask {p2 : Prover F G} {w : Weights F} {ch : Chals F} (hx : ch.x ≠ 0) (l : F) (i : ℕ) : lEntry p2 w ch (lMask p2 w ch l i) i = l := by
  rw [lEntry, lMask, lEntry]
  generalize vpow ch.y⁻¹ i * w.wR.getD i 0 = a
  field_simp
  ring
theorem rEntry_mask {p2 : Prover F G} {w : Weights F} {ch : Chals F} (hx : ch.x ≠ 0) (hy : ch.y ≠ 0) (r : F) (i : ℕ) : rEntry p2 w ch (rMask p2 w ch r i) i = r := by
  rw [rEntry, rMask, rEntry, vpow_inv hy, inv_pow, inv_pow]
  have := pow_ne_zero i hy
  generalize ch.y ^ i = Y at *
  field_simp
  ring
theorem lMask_entry {p2 : Prover F G} {w : Weights F} {ch : Chals F} (hx : ch.x ≠ 0) (m : F) (i : ℕ) : lMask p2 w ch (lEntry p2 w ch m i) i = m := by
  rw [lMask, lEntry, lEntry]
  generalize vpow ch.y⁻¹ i * w.wR.getD i 0 = a
  field_simp
  ring
theorem rMask_entry {p2 : Prover F G} {w : Weights F} {ch : Chals F} (hx : ch.x ≠ 0) (hy : ch.y ≠ 0) (m : F) (i : ℕ) : rMask p2 w ch (rEntry p2 w ch m i) i = m := by
  rw [rMask, rEntry, rEntry, vpow_inv hy, inv_pow, inv_pow]
  have := pow_ne_zero i hy
  generalize ch.y ^ i = Y at *
  field_simp
  ring

theorem hlvec_entry (p2 : Prover F G) (w : Weights F) (ch : Chals F) (m : ℕ → F) (n pad : ℕ) :
    hlvec (hlp p2 w ch.y ((List.range n).map m) n) ch.x n pad = ((List.range n).map fun i => lEntry p2 w ch (m i) i) ++ List.replicate pad 0 := by
  rw [hlvec, hlp]
  congr 1
  refine List.map_congr_left fun i hi => ?_
  have hi := List.mem_range.mp hi
  simp only [getD_map_range, hi, if_true, getD_replicate, ite_self, lEntry]
  ring
theorem hrvec_entry (p2 : Prover F G) (w : Weights F) (ch : Chals F) (m : ℕ → F) (n pad : ℕ) :
    hrvec (hrp p2 w ch.y ((List.range n).map m) n) ch.x ch.y n pad = ((List.range n).map fun i => rEntry p2 w ch (m i) i) ++ (List.range pad).map fun k => -(ch.y ^ (n + k)) := by
  rw [hrvec, hrp]
  congr 1
  refine List.map_congr_left fun i hi => ?_
  have hi := List.mem_range.mp hi
  simp only [getD_map_range, hi, if_true, getD_replicate, ite_self, rEntry]
  ring

/-- The product polynomial. -/
def tPoly (p2 : Prover F G) (w : Weights F) (ch : Chals F) (mL mR : ℕ → F) : Poly6 F :=
  (hlp p2 w ch.y ((List.range p2.aL.length).map mL) p2.aL.length).sip (hrp p2 w ch.y ((List.range p2.aL.length).map mR) p2.aL.length)

theorem tPoly_congr {p2 : Prover F G} {w : Weights F} {ch : Chals F} {mL mR mL' mR' : ℕ → F} (hL : ∀ i < p2.aL.length, mL i = mL' i) (hR : ∀ i < p2.aL.length, mR i = mR' i) :
    tPoly p2 w ch mL mR = tPoly p2 w ch mL' mR' := by
  rw [tPoly, tPoly, List.map_congr_left fun i hi => hL i (List.mem_range.mp hi), List.map_congr_left fun i hi => hR i (List.mem_range.mp hi)]

/-- The value of the product polynomial only depends on the entries. -/
theorem tPoly_eval (p2 : Prover F G) (w : Weights F) (ch : Chals F) (mL mR : ℕ → F) :
    (tPoly p2 w ch mL mR).eval ch.x = dot ((List.range p2.aL.length).map fun i => lEntry p2 w ch (mL i) i) ((List.range p2.aL.length).map fun i => rEntry p2 w ch (mR i) i) := by
  have := dot_hvec (hlp p2 w ch.y ((List.range p2.aL.length).map mL) p2.aL.length) (hrp p2 w ch.y ((List.range p2.aL.length).map mR) p2.aL.length) ch.x ch.y p2.aL.length p2.aL.length le_rfl
    (by simp [hlp]) (by simp [hlp]) (by simp [hlp]) (by simp [hrp]) (by simp [hrp]) (by simp [hrp])
    (fun i hi => by rw [hlp]; simp only [getD_replicate, ite_self]) (fun i hi => by rw [hrp]; simp only [getD_replicate, ite_self])
  rw [hlvec_entry, hrvec_entry, Nat.sub_self] at this
  rw [tPoly, ← this]
  simp

/-- The coins with which the prover `p` (after its second phase: `p2`) gives the proof `pr` with entries `l`, `r` of the two vectors; what it does not use is taken from `c`.
`dlog` finds the multiple of `h`. -/
def Coins.explain (dlog : G → F) (p p2 : Prover F G) (Gs Hs : List G) (pr : R1CSProof F G) (ch : Chals F) (w : Weights F) (l r : ℕ → F) (c : Coins F) : Coins F :=
  let n1 := p.aL.length
  let n := p2.aL.length
  let mL := fun i => lMask p2 w ch (l i) i
  let mR := fun i => rMask p2 w ch (r i) i
  let tp := tPoly p2 w ch mL mR
  let G2 := (Gs.drop n1).take (n - n1)
  let H2 := (Hs.drop n1).take (n - n1)
  { iB1 := dlog (pr.A_I1 - vecCommit p.h (Gs.take n1) (Hs.take n1) p.aL p.aR 0)
    oB1 := dlog (pr.A_O1 - msm p.aO (Gs.take n1))
    sB1 := dlog (pr.S1 - vecCommit p.h (Gs.take n1) (Hs.take n1) (randomVec mL n1) (randomVec mR n1) 0)
    sL1 := fun i => if i < n1 then mL i else c.sL1 i
    sR1 := fun i => if i < n1 then mR i else c.sR1 i
    iB2 := if n1 < n then dlog (pr.A_I2 - vecCommit p.h G2 H2 (p2.aL.drop n1) (p2.aR.drop n1) 0) else c.iB2
    oB2 := if n1 < n then dlog (pr.A_O2 - msm (p2.aO.drop n1) G2) else c.oB2
    sB2 := if n1 < n then dlog (pr.S2 - vecCommit p.h G2 H2 (randomVec (fun i => mL (n1 + i)) (n - n1)) (randomVec (fun i => mR (n1 + i)) (n - n1)) 0) else c.sB2
    sL2 := fun i => if i < n - n1 then mL (n1 + i) else c.sL2 i
    sR2 := fun i => if i < n - n1 then mR (n1 + i) else c.sR2 i
    t1B := dlog (pr.T_1 - tp.t1 • p.g)
    t3B := dlog (pr.T_3 - tp.t3 • p.g)
    t4B := dlog (pr.T_4 - tp.t4 • p.g)
    t5B := dlog (pr.T_5 - tp.t5 • p.g)
    t6B := dlog (pr.T_6 - tp.t6 • p.g) }

theorem randomVec_congr {f g : ℕ → F} {n : ℕ} (h : ∀ i < n, f i = g i) : randomVec f n = randomVec g n := List.map_congr_left fun i hi => h i (List.mem_range.mp hi)

theorem vecCommit_split (h : G) (Gs Hs : List G) (a b : List F) (r : F) : vecCommit h Gs Hs a b r = vecCommit h Gs Hs a b 0 + r • h := by simp [vecCommit]

section
variable {env : Env F G} {p p2 : Prover F G} {c : Coins F} {Gs Hs : List G} {k : ℕ} {ch : Chals F} {w : Weights F} {lp rp : VecPoly3 F} {pr : R1CSProof F G} {t' : Transcript F G}

theorem Honest.sip_eq (H : Honest env p p2 c Gs Hs k ch w lp rp pr t') (hn : p.aL.length ≤ p2.aL.length) : lp.sip rp = tPoly p2 w ch (c.maskL p.aL.length) (c.maskR p.aL.length) := by
  rw [H.hlp, H.hrp, randomVec_append _ _ _ _ hn, randomVec_append _ _ _ _ hn]; rfl

/-- The coins of a prover explain its own proof. -/
theorem explain_self (H : Honest env p p2 c Gs Hs k ch w lp rp pr t') (hn : p.aL.length ≤ p2.aL.length) (hh : p2.h = p.h) (hg : p2.g = p.g) (hx : ch.x ≠ 0) (hy : ch.y ≠ 0)
    {dlog : G → F} (hd : ∀ a : F, dlog (a • p.h) = a) {l r : ℕ → F} (hl : ∀ i < p2.aL.length, l i = lEntry p2 w ch (c.maskL p.aL.length i) i) (hr : ∀ i < p2.aL.length, r i = rEntry p2 w ch (c.maskR p.aL.length i) i)
    {c0 : Coins F} (u1 : ∀ i, p.aL.length ≤ i → c0.sL1 i = c.sL1 i ∧ c0.sR1 i = c.sR1 i) (u2 : ∀ i, p2.aL.length - p.aL.length ≤ i → c0.sL2 i = c.sL2 i ∧ c0.sR2 i = c.sR2 i)
    (u3 : p2.aL.length ≤ p.aL.length → c0.iB2 = c.iB2 ∧ c0.oB2 = c.oB2 ∧ c0.sB2 = c.sB2) : Coins.explain dlog p p2 Gs Hs pr ch w l r c0 = c := by
  have mL : ∀ i < p2.aL.length, lMask p2 w ch (l i) i = c.maskL p.aL.length i := fun i hi => by rw [hl i hi, lMask_entry hx]
  have mR : ∀ i < p2.aL.length, rMask p2 w ch (r i) i = c.maskR p.aL.length i := fun i hi => by rw [hr i hi, rMask_entry hx hy]
  have mL1 : ∀ i < p.aL.length, lMask p2 w ch (l i) i = c.sL1 i := fun i hi => by rw [mL i (by omega), Coins.maskL, if_pos hi]
  have mR1 : ∀ i < p.aL.length, rMask p2 w ch (r i) i = c.sR1 i := fun i hi => by rw [mR i (by omega), Coins.maskR, if_pos hi]
  have mL2 : ∀ i < p2.aL.length - p.aL.length, lMask p2 w ch (l (p.aL.length + i)) (p.aL.length + i) = c.sL2 i := fun i hi => by
    rw [mL _ (by omega), Coins.maskL, if_neg (by omega), Nat.add_sub_cancel_left]
  have mR2 : ∀ i < p2.aL.length - p.aL.length, rMask p2 w ch (r (p.aL.length + i)) (p.aL.length + i) = c.sR2 i := fun i hi => by
    rw [mR _ (by omega), Coins.maskR, if_neg (by omega), Nat.add_sub_cancel_left]
  have ht : tPoly p2 w ch (fun i => lMask p2 w ch (l i) i) (fun i => rMask p2 w ch (r i) i) = lp.sip rp := by rw [H.sip_eq hn]; exact tPoly_congr mL mR
  rcases c with ⟨iB1, oB1, sB1, sL1, sR1, iB2, oB2, sB2, sL2, sR2, t1B, t3B, t4B, t5B, t6B⟩
  simp only [Coins.explain, Coins.mk.injEq, ht]
  simp only at mL1 mR1 mL2 mR2 u1 u2 u3
  refine ⟨?_, ?_, ?_, ?_, ?_, ?_, ?_, ?_, ?_, ?_, ?_, ?_, ?_, ?_, ?_⟩
  · rw [H.hA_I1, vecCommit_split, add_sub_cancel_left, hd]
  · rw [H.hA_O1, add_sub_cancel_left, hd]
  · rw [H.hS1, randomVec_congr mL1, randomVec_congr mR1, vecCommit_split, add_sub_cancel_left, hd]
  · funext i; split
    · exact mL1 i ‹_›
    · exact (u1 i (by omega)).1
  · funext i; split
    · exact mR1 i ‹_›
    · exact (u1 i (by omega)).2
  · split
    · rw [H.hA_I2, if_pos ‹_›, hh, vecCommit_split, add_sub_cancel_left, hd]
    · exact (u3 (by omega)).1
  · split
    · rw [H.hA_O2, if_pos ‹_›, hh, add_sub_cancel_left, hd]
    · exact (u3 (by omega)).2.1
  · split
    · rw [H.hS2, if_pos ‹_›, hh, randomVec_congr mL2, randomVec_congr mR2, vecCommit_split, add_sub_cancel_left, hd]
    · exact (u3 (by omega)).2.2
  · funext i; split
    · exact mL2 i ‹_›
    · exact (u2 i (by omega)).1
  · funext i; split
    · exact mR2 i ‹_›
    · exact (u2 i (by omega)).2
  · rw [H.hT_1, commitScalar, hg, hh, add_sub_cancel_left, hd]
  · rw [H.hT_3, commitScalar, hg, hh, add_sub_cancel_left, hd]
  · rw [H.hT_4, commitScalar, hg, hh, add_sub_cancel_left, hd]
  · rw [H.hT_5, commitScalar, hg, hh, add_sub_cancel_left, hd]
  · rw [H.hT_6, commitScalar, hg, hh, add_sub_cancel_left, hd]


theorem Weights.ext' {a b : Weights F} (h1 : a.wL = b.wL) (h2 : a.wR = b.wR) (h3 : a.wO = b.wO) (h4 : a.wV = b.wV) (h5 : a.wc = b.wc) : a = b := by
  cases a; cases b; cases h1; cases h2; cases h3; cases h4; cases h5; rfl
theorem Chals.ext' {a b : Chals F} (h1 : a.y = b.y) (h2 : a.z = b.z) (h3 : a.u = b.u) (h4 : a.x = b.x) (h5 : a.w = b.w) : a = b := by
  cases a; cases b; cases h1; cases h2; cases h3; cases h4; cases h5; rfl
theorem R1CSProof.ext' {a b : R1CSProof F G} (h1 : a.A_I1 = b.A_I1) (h2 : a.A_O1 = b.A_O1) (h3 : a.S1 = b.S1) (h4 : a.A_I2 = b.A_I2) (h5 : a.A_O2 = b.A_O2) (h6 : a.S2 = b.S2)
    (g1 : a.T_1 = b.T_1) (g3 : a.T_3 = b.T_3) (g4 : a.T_4 = b.T_4) (g5 : a.T_5 = b.T_5) (g6 : a.T_6 = b.T_6) (k1 : a.t_x = b.t_x) (k2 : a.t_x_blinding = b.t_x_blinding)
    (k3 : a.e_blinding = b.e_blinding) (k4 : a.ipp = b.ipp) : a = b := by
  cases a; cases b; cases h1; cases h2; cases h3; cases h4; cases h5; cases h6; cases g1; cases g3; cases g4; cases g5; cases g6; cases k1; cases k2; cases k3; cases k4; rfl

theorem Honest.dot_eq (H : Honest env p p2 c Gs Hs k ch w lp rp pr t') (hnN : p2.aL.length ≤ 2 ^ k) :
    dot (hlvec lp ch.x p2.aL.length (2 ^ k - p2.aL.length)) (hrvec rp ch.x ch.y p2.aL.length (2 ^ k - p2.aL.length)) = pr.t_x := by
  rw [H.ht_x]
  exact dot_hvec lp rp ch.x ch.y p2.aL.length (2 ^ k) hnN (by simp [H.hlp, Bp.hlp]) (by simp [H.hlp, Bp.hlp]) (by simp [H.hlp, Bp.hlp]) (by simp [H.hrp, Bp.hrp]) (by simp [H.hrp, Bp.hrp]) (by simp [H.hrp, Bp.hrp])
    (fun i hi => by rw [H.hlp, Bp.hlp]; simp only [getD_replicate, ite_self]) (fun i hi => by rw [H.hrp, Bp.hrp]; simp only [getD_replicate, ite_self])

theorem tPoly_y {p2 : Prover F G} {w : Weights F} {ch ch' : Chals F} (h : ch.y = ch'.y) (mL mR : ℕ → F) : tPoly p2 w ch mL mR = tPoly p2 w ch' mL mR := by
  rw [tPoly, tPoly, h]

theorem Honest.nz_split {n1 n : ℕ} (h : ¬ n1 < n) (Gs : List G) (a : List F) : msm a ((Gs.drop n1).take (n - n1)) = 0 := by
  rw [show n - n1 = 0 by omega, List.take_zero]
  simp [msm]

theorem zCombination_sat {z : F} {cs : List (LC F)} {σ : Assignment F} (h : σ.Sat cs) : zCombination z cs σ = 0 := by
  rw [zCombination]
  exact Finset.sum_eq_zero fun q _ => by rw [h _ (List.getElem_mem _), mul_zero]

theorem InStep.start {p : Prover F G} {s : Verifier F G} (hst : InStep p s) (c : Coins F) (Gs Hs : List G) (pr : R1CSProof F G)
    (h : (p.start c Gs Hs).transcript = (s.start pr).transcript) : InStep (p.start c Gs Hs) (s.start pr) :=
  ⟨hst.lenR, hst.lenO, hst.lenB, h.symm, hst.num, hst.pending, hst.V, hst.cons, hst.deferred⟩

/-- With the coins of `explain`, another satisfying witness gives the same proof. -/
theorem explain_prove (H : Honest env p p2 c Gs Hs k ch w lp rp pr t') (hw : p.WF) {s : Verifier F G} (hst : InStep p s)
    (hcrc : (p.start c Gs Hs).createRandomizedConstraints env = .ok p2) (hsat : p2.Satisfied) (hkN : nextPowerOfTwo p2.aL.length = 2 ^ k) (hG : 2 ^ k ≤ Gs.length) (hH : 2 ^ k ≤ Hs.length)
    (hx : ch.x ≠ 0) (hy : ch.y ≠ 0) {p' p2' : Prover F G} (hw' : p'.WF) (hst' : InStep p' s) (hg : p'.g = p.g) (hh : p'.h = p.h)
    (hcrc' : ({ p' with transcript := (p.start c Gs Hs).transcript } : Prover F G).createRandomizedConstraints env = .ok p2') (hsat' : p2'.Satisfied)
    (hin' : ∀ lc ∈ p2'.constraints, ∀ t ∈ lc.terms, Var.InRange p2'.aL.length p2'.v.length t.1)
    {dlog : G → F} (hd : ∀ P : G, dlog P • p.h = P) (hinj : ∀ a b : F, a • p.h = b • p.h → a = b)
    {c' : Coins F} (hc' : c' = Coins.explain dlog p' p2' Gs Hs pr ch w (fun i => lEntry p2 w ch (c.maskL p.aL.length i) i) (fun i => rEntry p2 w ch (c.maskR p.aL.length i) i) c) :
    (p'.start c' Gs Hs).createRandomizedConstraints env = .ok p2' ∧ p'.aL.length = p.aL.length ∧ p2'.aL.length = p2.aL.length ∧
      (∀ i < p2.aL.length, lEntry p2' w ch (c'.maskL p.aL.length i) i = lEntry p2 w ch (c.maskL p.aL.length i) i) ∧
      (∀ i < p2.aL.length, rEntry p2' w ch (c'.maskR p.aL.length i) i = rEntry p2 w ch (c.maskR p.aL.length i) i) ∧
      Prover.prove env p' c' Gs Hs = .ok (pr, t') ∧ ∃ lp' rp', Honest env p' p2' c' Gs Hs k ch w lp' rp' pr t' := by
  have hn1 : p'.aL.length = p.aL.length := by rw [← hst.num, hst'.num]
  have hvl : p'.v.length = p.v.length := by
    have e := hst.V.symm.trans hst'.V
    have := congrArg List.length e
    simpa [hst.lenB, hst'.lenB] using this.symm
  obtain ⟨l, hl⟩ : ∃ l : ℕ → F, l = fun i => lEntry p2 w ch (c.maskL p.aL.length i) i := ⟨_, rfl⟩
  obtain ⟨r, hr⟩ : ∃ l : ℕ → F, l = fun i => rEntry p2 w ch (c.maskR p.aL.length i) i := ⟨_, rfl⟩
  rw [← hl, ← hr] at hc'
  -- the first phase
  have hT : (p.start c Gs Hs).transcript = (s.start pr).transcript := by
    simp only [Prover.start, Verifier.start, hst.transcript, hst.V, H.hA_I1, H.hA_O1, H.hS1, List.length_zipWith, hst.lenB, Nat.min_self]
  have eI : vecCommit p'.h (Gs.take p'.aL.length) (Hs.take p'.aL.length) p'.aL p'.aR c'.iB1 = pr.A_I1 := by
    rw [vecCommit_split, hc', Coins.explain, hh, hd]; abel
  have eO : msm p'.aO (Gs.take p'.aL.length) + c'.oB1 • p'.h = pr.A_O1 := by
    rw [hc', Coins.explain, hh, hd]; abel
  have mL1 : ∀ i < p'.aL.length, c'.sL1 i = lMask p2' w ch (l i) i := fun i hi => by rw [hc', Coins.explain]; simp only [hi, if_true]
  have mR1 : ∀ i < p'.aL.length, c'.sR1 i = rMask p2' w ch (r i) i := fun i hi => by rw [hc', Coins.explain]; simp only [hi, if_true]
  have mL2 : ∀ i < p2'.aL.length - p'.aL.length, c'.sL2 i = lMask p2' w ch (l (p'.aL.length + i)) (p'.aL.length + i) := fun i hi => by
    rw [hc', Coins.explain]; simp only [hi, if_true]
  have mR2 : ∀ i < p2'.aL.length - p'.aL.length, c'.sR2 i = rMask p2' w ch (r (p'.aL.length + i)) (p'.aL.length + i) := fun i hi => by
    rw [hc', Coins.explain]; simp only [hi, if_true]
  have eS : vecCommit p'.h (Gs.take p'.aL.length) (Hs.take p'.aL.length) (randomVec c'.sL1 p'.aL.length) (randomVec c'.sR1 p'.aL.length) c'.sB1 = pr.S1 := by
    rw [randomVec_congr mL1, randomVec_congr mR1, vecCommit_split, hc', Coins.explain, hh, hd]; abel
  have hstart : p'.start c' Gs Hs = { p' with transcript := (p.start c Gs Hs).transcript } := by
    rw [Prover.start, eI, eO, eS, hT, Verifier.start, hst'.transcript, hst'.V, List.length_zipWith, hst'.lenB, Nat.min_self]
  rw [← hstart] at hcrc'
  have hT' : (p'.start c' Gs Hs).transcript = (s.start pr).transcript := by rw [hstart, hT]
  obtain ⟨s2, hc2, hst2⟩ := crc_same (env' := env) rfl (hst.start c Gs Hs pr hT) hcrc
  obtain ⟨s2', hc2', hst2'⟩ := crc_same (env' := env) rfl (hst'.start c' Gs Hs pr hT') hcrc'
  rw [hc2] at hc2'
  cases hc2'
  have hn2 : p2'.aL.length = p2.aL.length := by rw [← hst2.num, hst2'.num]
  have htr : p2'.transcript = p2.transcript := by rw [← hst2.transcript, hst2'.transcript]
  -- the second prover
  obtain ⟨pr', t'', ch', w', lp', rp', hpr', H'⟩ := prove_ok env p' p2' c' Gs Hs hw' hcrc' k (by rw [hn2]; exact hkN) hG hH hin'
  have hws : (p.start c Gs Hs).WF := by cases hw; constructor <;> assumption
  have hws' : (p'.start c' Gs Hs).WF := by cases hw'; constructor <;> assumption
  obtain ⟨vs, hsteps⟩ := Prover.createRandomizedConstraints_steps hcrc
  obtain ⟨vs', hsteps'⟩ := Prover.createRandomizedConstraints_steps hcrc'
  have hw2 : p2.WF := hsteps.ext.wf hws
  have hw2' : p2'.WF := hsteps'.ext.wf hws'
  have hsc := Prover.sameCommits_crc hcrc
  have hsc' := Prover.sameCommits_crc hcrc'
  have hh2 : p2.h = p.h := hsc.h
  have hg2 : p2.g = p.g := hsc.g
  have hh2' : p2'.h = p.h := hsc'.h.trans hh
  have hg2' : p2'.g = p.g := hsc'.g.trans hg
  have hnN : p2.aL.length ≤ 2 ^ k := hkN ▸ nextPowerOfTwo_ge _
  obtain ⟨tL, tR, tO, -⟩ := c08_phase1_untouched env _ _ hws hcrc
  obtain ⟨tL', tR', tO', -⟩ := c08_phase1_untouched env _ _ hws' hcrc'
  have hnn : p.aL.length ≤ p2.aL.length := hsteps.ext.lenL
  have hnn' : p'.aL.length ≤ p2'.aL.length := by omega
  have mL : ∀ i < p2'.aL.length, c'.maskL p'.aL.length i = lMask p2' w ch (l i) i := fun i hi => by
    rw [Coins.maskL]
    split
    · exact mL1 i ‹_›
    · rw [mL2 _ (by omega), show p'.aL.length + (i - p'.aL.length) = i by omega]
  have mR : ∀ i < p2'.aL.length, c'.maskR p'.aL.length i = rMask p2' w ch (r i) i := fun i hi => by
    rw [Coins.maskR]
    split
    · exact mR1 i ‹_›
    · rw [mR2 _ (by omega), show p'.aL.length + (i - p'.aL.length) = i by omega]
  -- second-phase points
  have e_I1 : pr'.A_I1 = pr.A_I1 := by rw [H'.hA_I1, eI]
  have e_O1 : pr'.A_O1 = pr.A_O1 := by rw [H'.hA_O1, eO]
  have e_S1 : pr'.S1 = pr.S1 := by rw [H'.hS1, eS]
  have e_I2 : pr'.A_I2 = pr.A_I2 := by
    rw [H'.hA_I2]
    by_cases h : p'.aL.length < p2'.aL.length
    · rw [if_pos h, hh2', vecCommit_split, hc', Coins.explain]
      simp only [h, if_true, hh, hd]; abel
    · rw [if_neg h, H.hA_I2, if_neg (by omega), vecCommit, vecCommit, Honest.nz_split h, Honest.nz_split h, Honest.nz_split (by omega), Honest.nz_split (by omega)]; simp
  have e_O2 : pr'.A_O2 = pr.A_O2 := by
    rw [H'.hA_O2]
    by_cases h : p'.aL.length < p2'.aL.length
    · rw [if_pos h, hh2', hc', Coins.explain]
      simp only [h, if_true, hh, hd]; abel
    · rw [if_neg h, H.hA_O2, if_neg (by omega), Honest.nz_split h, Honest.nz_split (by omega)]; simp
  have e_S2 : pr'.S2 = pr.S2 := by
    rw [H'.hS2]
    by_cases h : p'.aL.length < p2'.aL.length
    · rw [if_pos h, hh2', randomVec_congr mL2, randomVec_congr mR2, vecCommit_split, hc', Coins.explain]
      simp only [h, if_true, hh, hd]; abel
    · rw [if_neg h, H.hS2, if_neg (by omega), vecCommit, vecCommit, Honest.nz_split h, Honest.nz_split h, Honest.nz_split (by omega), Honest.nz_split (by omega)]; simp
  have lY : logY p2'.transcript pr' = logY p2.transcript pr := by rw [logY, logY, htr, e_I2, e_O2, e_S2]
  have lZ : logZ p2'.transcript pr' = logZ p2.transcript pr := by rw [logZ, logZ, lY]
  have ey : ch'.y = ch.y := by rw [H'.hch, H.hch]; simp only [drawn]; rw [lY]
  have ez : ch'.z = ch.z := by rw [H'.hch, H.hch]; simp only [drawn]; rw [lZ]
  -- weights
  obtain ⟨wt, hwt, wL, wR, wO, wV⟩ := c10_flatten_agree p2 s2 hst2 ch.z w H.hwp
  obtain ⟨wt', hwt', wL', wR', wO', wV'⟩ := c10_flatten_agree p2' s2 hst2' ch'.z w' H'.hwp
  rw [ez, hwt] at hwt'
  cases hwt'
  have ew : w' = w := by
    obtain ⟨v, -, hv⟩ := Prover.flattened_ok H.hwp
    obtain ⟨v', -, hv'⟩ := Prover.flattened_ok H'.hwp
    have c0 : w.wc = 0 := by rw [hv]
    have c0' : w'.wc = 0 := by rw [hv']
    exact Weights.ext' (wL'.symm.trans wL) (wR'.symm.trans wR) (wO'.symm.trans wO) (wV'.symm.trans wV) (c0'.trans c0.symm)
  subst ew
  -- T points
  have htp : lp'.sip rp' = tPoly p2' w' ch (fun i => lMask p2' w' ch (l i) i) (fun i => rMask p2' w' ch (r i) i) := by
    rw [H'.sip_eq hnn', tPoly_y ey]
    exact tPoly_congr mL mR
  have e_T1 : pr'.T_1 = pr.T_1 := by rw [H'.hT_1, commitScalar, htp, hh2', hg2', hc', Coins.explain]; simp only [hg, hd]; abel
  have e_T3 : pr'.T_3 = pr.T_3 := by rw [H'.hT_3, commitScalar, htp, hh2', hg2', hc', Coins.explain]; simp only [hg, hd]; abel
  have e_T4 : pr'.T_4 = pr.T_4 := by rw [H'.hT_4, commitScalar, htp, hh2', hg2', hc', Coins.explain]; simp only [hg, hd]; abel
  have e_T5 : pr'.T_5 = pr.T_5 := by rw [H'.hT_5, commitScalar, htp, hh2', hg2', hc', Coins.explain]; simp only [hg, hd]; abel
  have e_T6 : pr'.T_6 = pr.T_6 := by rw [H'.hT_6, commitScalar, htp, hh2', hg2', hc', Coins.explain]; simp only [hg, hd]; abel
  have lU : logU p2'.transcript pr' = logU p2.transcript pr := by rw [logU, logU, lZ, e_T1, e_T3, e_T4, e_T5, e_T6]
  have lX : logX p2'.transcript pr' = logX p2.transcript pr := by rw [logX, logX, lU]
  have eu : ch'.u = ch.u := by rw [H'.hch, H.hch]; simp only [drawn]; rw [lU]
  have ex : ch'.x = ch.x := by rw [H'.hch, H.hch]; simp only [drawn]; rw [lX]
  -- the vectors
  have vL : ∀ i < p2.aL.length, lEntry p2' w' ch (c'.maskL p.aL.length i) i = l i := fun i hi => by rw [← hn1, mL i (by omega), lEntry_mask hx]
  have vR : ∀ i < p2.aL.length, rEntry p2' w' ch (c'.maskR p.aL.length i) i = r i := fun i hi => by rw [← hn1, mR i (by omega), rEntry_mask hx hy]
  have elv : hlvec lp' ch.x p2'.aL.length (2 ^ k - p2'.aL.length) = hlvec lp ch.x p2.aL.length (2 ^ k - p2.aL.length) := by
    rw [H'.hlp, H.hlp, randomVec_append _ _ _ _ hnn, randomVec_append _ _ _ _ hnn', ey, hlvec_entry, hlvec_entry, hn2]
    congr 1
    refine List.map_congr_left fun i hi => ?_
    have := vL i (List.mem_range.mp hi)
    rw [Coins.maskL] at this
    rw [hn1, this, hl]; rfl
  have erv : hrvec rp' ch.x ch.y p2'.aL.length (2 ^ k - p2'.aL.length) = hrvec rp ch.x ch.y p2.aL.length (2 ^ k - p2.aL.length) := by
    rw [H'.hrp, H.hrp, randomVec_append _ _ _ _ hnn, randomVec_append _ _ _ _ hnn', ey, hrvec_entry, hrvec_entry, hn2]
    congr 1
    refine List.map_congr_left fun i hi => ?_
    have := vR i (List.mem_range.mp hi)
    rw [Coins.maskR] at this
    rw [hn1, this, hr]; rfl
  have e_t : pr'.t_x = pr.t_x := by
    rw [H'.ht_x, H.ht_x, H'.sip_eq hnn', H.sip_eq hnn, tPoly_y ey, ex, tPoly_eval, tPoly_eval, hn1, hn2, List.map_congr_left fun i hi => vL i (List.mem_range.mp hi),
      List.map_congr_left fun i hi => vR i (List.mem_range.mp hi), hl, hr]
  -- the blinding of the polynomial
  have hp1 := Honest.polyCheck_eq H hw2 s2 hst2 wt hwt wL wR wO wV hy
  have hp2 := Honest.polyCheck_eq H' hw2' s2 hst2' wt (by rw [ez]; exact hwt) wL' wR' wO' wV' (by rw [ey]; exact hy)
  rw [← zCombination_equiv _ hst2.cons, zCombination_sat hsat, mul_zero, zero_smul, neg_zero] at hp1
  rw [← zCombination_equiv _ hst2'.cons, zCombination_sat hsat', mul_zero, zero_smul, neg_zero] at hp2
  have e_b : pr'.t_x_blinding = pr.t_x_blinding := by
    refine hinj _ _ ?_
    have := hp2.trans hp1.symm
    rw [polyCheck, polyCheck, e_t, e_T1, e_T3, e_T4, e_T5, e_T6, ey, ex, hg2, hg2', hh2, hh2'] at this
    exact add_left_cancel (sub_right_inj.mp this)
  -- the blinding of the vectors
  have hi1 := Honest.ippPoint_eq H hw hw2 hnn hnN hG hH tL tR tO hh2 wt wL wR wO hy
  have hi2 := Honest.ippPoint_eq H' hw' hw2' hnn' (by omega) hG hH tL' tR' tO' hsc'.h wt wL' wR' wO' (by rw [ey]; exact hy)
  have e_e : pr'.e_blinding = pr.e_blinding := by
    refine hinj _ _ ?_
    have d1 := H.dot_eq hnN
    have d2 := H'.dot_eq (by omega)
    rw [ippCommit, d1, smul_smul, mul_comm pr.t_x, add_left_inj] at hi1
    rw [ippCommit, d2, smul_smul, mul_comm pr'.t_x, add_left_inj, ex, ey, eu, elv, erv, hn1, ← hi1, ippPoint, ippPoint, e_I1, e_O1, e_S1, e_I2, e_O2, e_S2, ex, eu, hh2, hh2', ippPoint.y, ippPoint.y, ey] at hi2
    exact sub_right_inj.mp (add_right_cancel (add_right_cancel hi2))
  have lW : logW p2'.transcript pr' = logW p2.transcript pr := by rw [logW, logW, lX, e_t, e_b, e_e]
  have eW : ch'.w = ch.w := by rw [H'.hch, H.hch]; simp only [drawn]; rw [lW]
  have ech : ch' = ch := Chals.ext' ey ez eu ex eW
  subst ech
  have hi := H'.hipp
  rw [lW, hg2', elv, erv, hn1, ← hg2, H.hipp] at hi
  have e_p : pr'.ipp = pr.ipp ∧ t'' = t' := by
    have := Except.ok.inj hi
    exact ⟨(Prod.mk.inj this).1.symm, (Prod.mk.inj this).2.symm⟩
  have epr : pr' = pr := R1CSProof.ext' e_I1 e_O1 e_S1 e_I2 e_O2 e_S2 e_T1 e_T3 e_T4 e_T5 e_T6 e_t e_b e_e e_p.1
  rw [epr, e_p.2] at hpr' H'
  refine ⟨hcrc', hn1, hn2, fun i hi => ?_, fun i hi => ?_, hpr', lp', rp', H'⟩
  · rw [vL i hi, hl]
  · rw [vR i hi, hr]

end
end Bp
