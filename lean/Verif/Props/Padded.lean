import Verif.Props.IppGame

/-! # C95: inner products of vectors whose length is not a power of two

The caller fills the vectors up with zeros (as test_ipp_non_power_of_2 does, ipp.rs:392-492), and makes the commitment from the short vectors and the first generators. -/

set_option linter.unusedSectionVars false

namespace Bp
variable {F G : Type} [Field F] [AddCommGroup G] [Module F G]

/-- `m` entries, filled up with zeros to `n`. -/
def padTo (n : ℕ) (a : List F) : List F := a ++ List.replicate (n - a.length) 0

/-- The commitment to short vectors: only the first generators and factors are used. -/
def shortCommit (Gf Hf : List F) (Q : G) (Gs Hs : List G) (a b : List F) : G :=
  msm (List.zipWith (· * ·) a (Gf.take a.length)) (Gs.take a.length) + msm (List.zipWith (· * ·) b (Hf.take b.length)) (Hs.take b.length) + dot a b • Q

theorem length_padTo {n : ℕ} {a : List F} (h : a.length ≤ n) : (padTo n a).length = n := by simp [padTo]; omega

theorem msm_replicate_zero : ∀ (j : ℕ) (gs : List G), msm (List.replicate j (0 : F)) gs = 0
  | 0, _ => by simp
  | j + 1, [] => by simp [msm]
  | j + 1, g :: gs => by simp [List.replicate_succ, msm_replicate_zero j gs]

theorem dot_replicate_zero : ∀ (j : ℕ) (b : List F), dot (List.replicate j (0 : F)) b = 0
  | 0, _ => by simp
  | j + 1, [] => by simp [dot]
  | j + 1, x :: b => by simp [List.replicate_succ, dot_replicate_zero j b]

theorem zipWith_zero : ∀ (j : ℕ) (f : List F), ∃ i, List.zipWith (· * ·) (List.replicate j (0 : F)) f = List.replicate i 0
  | 0, _ => ⟨0, by simp⟩
  | j + 1, [] => ⟨0, by simp⟩
  | j + 1, x :: f => by
    obtain ⟨i, e⟩ := zipWith_zero j f
    exact ⟨i + 1, by simp [List.replicate_succ, e]⟩

theorem msm_padTo {n : ℕ} {a Gf : List F} {Gs : List G} (h : a.length ≤ n) (h1 : Gf.length = n) (h2 : Gs.length = n) :
    msm (List.zipWith (· * ·) (padTo n a) Gf) Gs = msm (List.zipWith (· * ·) a (Gf.take a.length)) (Gs.take a.length) := by
  have e1 : List.zipWith (· * ·) (padTo n a) Gf = List.zipWith (· * ·) a (Gf.take a.length) ++ List.zipWith (· * ·) (List.replicate (n - a.length) 0) (Gf.drop a.length) := by
    conv_lhs => rw [padTo, ← List.take_append_drop a.length Gf]
    exact List.zipWith_append (by rw [List.length_take]; omega)
  obtain ⟨i, e2⟩ := zipWith_zero (n - a.length) (Gf.drop a.length)
  conv_lhs => rw [e1, e2, ← List.take_append_drop a.length Gs]
  rw [msm_append (by simp; omega), msm_replicate_zero, _root_.add_zero]

theorem dot_padTo {n : ℕ} {a b : List F} (h : a.length = b.length) : dot (padTo n a) (padTo n b) = dot a b := by
  rw [padTo, padTo, dot_append h, dot_replicate_zero, _root_.add_zero]

/-- **C95**: the proof made with the vectors filled up with zeros is accepted for the commitment made from the short vectors. -/
theorem c95_padded [DecidableEq G] (env : Env F G) (k : ℕ) (hk : k < 32) (hb : k ≠ 0 ∨ env.batchInvert [] = .ok ([], 1)) (t : Transcript F G) (Q : G) (Gf Hf : List F) (Gs Hs : List G) (a b : List F)
    (h1 : Gs.length = 2 ^ k) (h2 : Hs.length = 2 ^ k) (h5 : Gf.length = 2 ^ k) (h6 : Hf.length = 2 ^ k) (hab : a.length = b.length) (hle : a.length ≤ 2 ^ k) :
    ∃ pr t', createIpp env.oracle t Q Gf Hf Gs Hs (padTo (2 ^ k) a) (padTo (2 ^ k) b) = .ok (pr, t') ∧
      ((∀ u ∈ roundChallenges env.oracle t (2 ^ k) pr.L pr.R, u ≠ 0) → verifyIpp env (2 ^ k) t Gf Hf (shortCommit Gf Hf Q Gs Hs a b) Q Gs Hs pr.a pr.b pr.L pr.R = .ok t') := by
  have := c13_ipp_complete env k hk hb t Q Gf Hf Gs Hs (padTo (2 ^ k) a) (padTo (2 ^ k) b) h1 h2 (length_padTo hle) (length_padTo (by omega)) h5 h6
  rwa [msm_padTo hle h5 h1, msm_padTo (by omega) h6 h2, dot_padTo hab] at this

/-- **C95**: with generators without relations a commitment goes with only one pair of vectors. -/
theorem c95_binding {n : ℕ} {Gf Hf : List F} {Q : G} {Gs Hs : List G} (h1 : Gs.length = n) (h2 : Hs.length = n) (h3 : Gf.length = n) (h4 : Hf.length = n) (hind : Independent F (Gs ++ Hs ++ [Q]))
    (g0 : ∀ x ∈ Gf, x ≠ 0) (h0 : ∀ x ∈ Hf, x ≠ 0) {a b a' b' : List F} (ha : a.length = n) (hb : b.length = n) (ha' : a'.length = n) (hb' : b'.length = n) {c c' : F}
    (e : msm (List.zipWith (· * ·) a Gf) Gs + msm (List.zipWith (· * ·) b Hf) Hs + c • Q = msm (List.zipWith (· * ·) a' Gf) Gs + msm (List.zipWith (· * ·) b' Hf) Hs + c' • Q) : a = a' ∧ b = b' ∧ c = c' := by
  rw [msm_hadamard (by omega), msm_hadamard (by omega), msm_hadamard (by omega), msm_hadamard (by omega)] at e
  have lg : (scaled Gf Gs).length = n := by simp [scaled, h1, h3]
  have lh : (scaled Hf Hs).length = n := by simp [scaled, h2, h4]
  obtain ⟨r1, r2, r3⟩ := hind.no_relation h1 h2 h3 h4 g0 h0 (fun i => a.getD i 0 - a'.getD i 0, fun i => b.getD i 0 - b'.getD i 0, c - c') (by
    simp only [IppRep.value, sub_smul, Finset.sum_sub_distrib]
    rw [← msm_eq_sum ha lg, ← msm_eq_sum ha' lg, ← msm_eq_sum hb lh, ← msm_eq_sum hb' lh]
    rw [← sub_eq_zero] at e
    rw [← e]
    abel)
  exact ⟨ext_getD 0 ha ha' fun i hi => sub_eq_zero.mp (r1 i hi), ext_getD 0 hb hb' fun i hi => sub_eq_zero.mp (r2 i hi), sub_eq_zero.mp r3⟩

/-- **C95**: so if the commitment was made from short vectors and some number `c`, and was logged, and the proof is accepted, then `c` is their inner product, or a bad answer was given. -/
theorem c95_sound [DecidableEq G] (base : Transcript F G) (l : String) (k : ℕ) (Gf Hf : List F) (Q : G) (Gs Hs : List G) (h1 : Gs.length = 2 ^ k) (h2 : Hs.length = 2 ^ k) (h3 : Gf.length = 2 ^ k) (h4 : Hf.length = 2 ^ k)
    (hind : Independent F (Gs ++ Hs ++ [Q])) (g0 : ∀ x ∈ Gf, x ≠ 0) (h0 : ∀ x ∈ Hf, x ≠ 0) :
    ∃ bad : BadRule F G 7, ∀ (env : Env F G) (P : G) (x y : F) (L R : List G) (T : Transcript F G), (k ≠ 0 ∨ env.batchInvert [] = .ok ([], 1)) →
      verifyIpp env (2 ^ k) (base.commitPoint l P) Gf Hf P Q Gs Hs x y L R = .ok T → bad.Hit env.oracle T ∨ ∀ (a b : List F) (c : F), a.length = b.length → a.length ≤ 2 ^ k →
        P = msm (List.zipWith (· * ·) a (Gf.take a.length)) (Gs.take a.length) + msm (List.zipWith (· * ·) b (Hf.take b.length)) (Hs.take b.length) + c • Q → c = dot a b := by
  obtain ⟨bad, hbad⟩ := c94_sound base l k Gf Hf Q Gs Hs h1 h2 h3 h4 hind g0 h0
  refine ⟨bad, fun env P x y L R T hb hv => ?_⟩
  rcases hbad env P x y L R T hb hv with ⟨a', b', ha, hb, e⟩ | hh
  · refine .inr fun a b c hab hle e' => ?_
    rw [e, ← msm_padTo hle h3 h1, ← msm_padTo (by omega) h4 h2] at e'
    obtain ⟨rfl, rfl, e3⟩ := c95_binding h1 h2 h3 h4 hind g0 h0 ha hb (length_padTo hle) (length_padTo (by omega)) e'
    rw [← e3, dot_padTo hab]
  · exact .inl hh

/-- **C95**, what is not checked: that the vectors are short.  For every length below the power of two there are vectors whose commitment is not one to vectors of that length, and for which the proof that `create_ipp` makes is accepted. -/
theorem c95_not_short [DecidableEq G] (env : Env F G) (k : ℕ) (hk : k < 32) (hb : k ≠ 0 ∨ env.batchInvert [] = .ok ([], 1)) (t : Transcript F G) (Q : G) (Gf Hf : List F) (Gs Hs : List G)
    (h1 : Gs.length = 2 ^ k) (h2 : Hs.length = 2 ^ k) (h3 : Gf.length = 2 ^ k) (h4 : Hf.length = 2 ^ k) (hind : Independent F (Gs ++ Hs ++ [Q])) (g0 : ∀ x ∈ Gf, x ≠ 0) (h0 : ∀ x ∈ Hf, x ≠ 0) (m : ℕ) (hm : m < 2 ^ k) :
    ∃ P pr t', createIpp env.oracle t Q Gf Hf Gs Hs (List.replicate (2 ^ k) 1) (List.replicate (2 ^ k) 1) = .ok (pr, t') ∧
      ((∀ u ∈ roundChallenges env.oracle t (2 ^ k) pr.L pr.R, u ≠ 0) → verifyIpp env (2 ^ k) t Gf Hf P Q Gs Hs pr.a pr.b pr.L pr.R = .ok t') ∧
      ∀ a b : List F, a.length = m → b.length = m → P ≠ shortCommit Gf Hf Q Gs Hs a b := by
  obtain ⟨pr, t', hc, hv⟩ := c13_ipp_complete env k hk hb t Q Gf Hf Gs Hs (List.replicate (2 ^ k) 1) (List.replicate (2 ^ k) 1) h1 h2 (by simp) (by simp) h3 h4
  refine ⟨_, pr, t', hc, hv, fun a b ha hb e => ?_⟩
  rw [shortCommit, ← msm_padTo (by omega) h3 h1, ← msm_padTo (by omega) h4 h2] at e
  obtain ⟨e1, -, -⟩ := c95_binding h1 h2 h3 h4 hind g0 h0 (by simp) (by simp) (length_padTo (by omega)) (length_padTo (by omega)) e
  have := congrArg (fun l => l.getD m 0) e1
  simp [padTo, List.getD_eq_getElem?_getD, List.getElem?_append_right, ha, hm] at this

/-! ## Examples: vectors of length one, filled up to two -/

def env2 : Env Z101 (Fin 5 → Z101) := Env.std fun _ => 2

example : padTo 2 ([3] : List Z101) = [3, 0] := rfl

example : ∃ pr t', createIpp env2.oracle ([.init "test"] : Transcript Z101 (Fin 5 → Z101)) (unit5 4) [1, 2] [3, 4] [unit5 0, unit5 1] [unit5 2, unit5 3] (padTo (2 ^ 1) [3]) (padTo (2 ^ 1) [7]) = .ok (pr, t') ∧
    ((∀ u ∈ roundChallenges env2.oracle [.init "test"] (2 ^ 1) pr.L pr.R, u ≠ 0) →
      verifyIpp env2 (2 ^ 1) [.init "test"] [1, 2] [3, 4] (shortCommit [1, 2] [3, 4] (unit5 4) [unit5 0, unit5 1] [unit5 2, unit5 3] ([3] : List Z101) [7]) (unit5 4) [unit5 0, unit5 1] [unit5 2, unit5 3]
        pr.a pr.b pr.L pr.R = .ok t') :=
  c95_padded (F := Z101) env2 1 (by decide) (.inl one_ne_zero) [.init "test"] (unit5 4) [1, 2] [3, 4] [unit5 0, unit5 1] [unit5 2, unit5 3] [3] [7] rfl rfl rfl rfl rfl (by decide)

/-- This commitment is `3 G_0 + 21 H_0 + 21 Q`. -/
example : shortCommit [1, 2] [3, 4] (unit5 4) [unit5 0, unit5 1] [unit5 2, unit5 3] ([3] : List Z101) [7] = (3 : Z101) • unit5 0 + (21 : Z101) • unit5 2 + (21 : Z101) • unit5 4 := by decide +kernel

/-- `honest5` goes with (3,5), (7,11) and 76 only. -/
example {a b : List Z101} {c : Z101} (ha : a.length = 2) (hb : b.length = 2)
    (e : msm (List.zipWith (· * ·) a [1, 2]) [unit5 0, unit5 1] + msm (List.zipWith (· * ·) b [3, 4]) [unit5 2, unit5 3] + c • unit5 4 = honest5) : a = [3, 5] ∧ b = [7, 11] ∧ c = 76 := by
  have e' : honest5 = msm (List.zipWith (· * ·) ([3, 5] : List Z101) [1, 2]) [unit5 0, unit5 1] + msm (List.zipWith (· * ·) ([7, 11] : List Z101) [3, 4]) [unit5 2, unit5 3] + (76 : Z101) • unit5 4 := by decide +kernel
  exact c95_binding (F := Z101) (Gf := [1, 2]) (Hf := [3, 4]) (Gs := [unit5 0, unit5 1]) (Hs := [unit5 2, unit5 3]) (Q := unit5 4) rfl rfl rfl rfl unit5_independent (by decide) (by decide) ha hb rfl rfl (e.trans e')

example : ∃ bad : BadRule Z101 (Fin 5 → Z101) 7, ∃ T, honestCall5 = .ok T ∧ (bad.Hit (fun _ => 2) T ∨ ∀ c : Z101,
    honest5 = msm (List.zipWith (· * ·) ([3, 5] : List Z101) [1, 2]) [unit5 0, unit5 1] + msm (List.zipWith (· * ·) ([7, 11] : List Z101) [3, 4]) [unit5 2, unit5 3] + c • unit5 4 → c = 76) := by
  obtain ⟨bad, hbad⟩ := c95_sound (F := Z101) [.init "test"] "P" 1 [1, 2] [3, 4] (unit5 4) [unit5 0, unit5 1] [unit5 2, unit5 3] rfl rfl rfl rfl unit5_independent (by decide) (by decide)
  obtain ⟨T, hT⟩ := honestCall5_ok
  refine ⟨bad, T, hT, (hbad env2 _ _ _ _ _ _ (.inl one_ne_zero) hT).imp_right fun h c e => ?_⟩
  have := h [3, 5] [7, 11] c rfl (by decide) e
  rw [this]
  decide

example : ∃ P pr t', createIpp env2.oracle ([.init "test"] : Transcript Z101 (Fin 5 → Z101)) (unit5 4) [1, 2] [3, 4] [unit5 0, unit5 1] [unit5 2, unit5 3] (List.replicate (2 ^ 1) 1) (List.replicate (2 ^ 1) 1) = .ok (pr, t') ∧
    ((∀ u ∈ roundChallenges env2.oracle [.init "test"] (2 ^ 1) pr.L pr.R, u ≠ 0) →
      verifyIpp env2 (2 ^ 1) [.init "test"] [1, 2] [3, 4] P (unit5 4) [unit5 0, unit5 1] [unit5 2, unit5 3] pr.a pr.b pr.L pr.R = .ok t') ∧
    ∀ a b : List Z101, a.length = 1 → b.length = 1 → P ≠ shortCommit [1, 2] [3, 4] (unit5 4) [unit5 0, unit5 1] [unit5 2, unit5 3] a b :=
  c95_not_short (F := Z101) env2 1 (by decide) (.inl one_ne_zero) [.init "test"] (unit5 4) [1, 2] [3, 4] [unit5 0, unit5 1] [unit5 2, unit5 3] rfl rfl rfl rfl unit5_independent (by decide) (by decide) 1 (by decide)

end Bp
