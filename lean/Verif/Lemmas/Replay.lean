import Verif.Spec.Replay
import Verif.Lemmas.Chain
import Verif.Lemmas.Prove2
import Verif.Lemmas.Verify2
import Verif.Lemmas.Game
import Mathlib.Algebra.Polynomial.Roots

/-! # Lemmas for the replay of proofs -/

namespace Bp
open Finset
variable {F G : Type} [Field F] [AddCommGroup G] [Module F G]

/-! ## Points in a subspace -/

theorem msm_mem {S : Submodule F G} : ∀ (a : List F) (Gs : List G), (∀ P ∈ Gs, P ∈ S) → msm a Gs ∈ S
  | [], _, _ => by simp [msm]
  | _ :: _, [], _ => by simp [msm]
  | x :: a, P :: Gs, h => by
    have := msm_mem a Gs fun Q hQ => h Q (List.mem_cons_of_mem _ hQ)
    unfold msm at this ⊢
    simp only [List.zipWith_cons_cons, List.sum_cons]
    exact S.add_mem (S.smul_mem _ (h P List.mem_cons_self)) this

theorem multiScalarMul_mem {S : Submodule F G} {a : List F} {Gs : List G} {P : G} (h : multiScalarMul a Gs = .ok P) (hG : ∀ P ∈ Gs, P ∈ S) : P ∈ S := by
  unfold multiScalarMul at h
  split at h
  · rw [← Except.ok.inj h]; exact msm_mem _ _ hG
  · simp [Res.panic] at h

theorem zipWith_mem {α β : Type} {S : Submodule F G} {f : α → β → G} {xs : List α} {ys : List β} (h : ∀ x ∈ xs, ∀ y ∈ ys, f x y ∈ S) : ∀ P ∈ List.zipWith f xs ys, P ∈ S := by
  intro P hP
  obtain ⟨i, hi, e⟩ := List.mem_iff_getElem.mp hP
  rw [List.getElem_zipWith] at e
  rw [← e]
  exact h _ (List.getElem_mem _) _ (List.getElem_mem _)

theorem foldPoints_mem {S : Submodule F G} (x y : F) {lo hi : List G} (h1 : ∀ P ∈ lo, P ∈ S) (h2 : ∀ P ∈ hi, P ∈ S) : ∀ P ∈ foldPoints x y lo hi, P ∈ S :=
  zipWith_mem fun a ha b hb => S.add_mem (S.smul_mem _ (h1 a ha)) (S.smul_mem _ (h2 b hb))

theorem foldPointsFactors_mem {S : Submodule F G} (x y : F) (f1 f2 : List F) {lo hi : List G} (h1 : ∀ P ∈ lo, P ∈ S) (h2 : ∀ P ∈ hi, P ∈ S) : ∀ P ∈ foldPointsFactors x y f1 f2 lo hi, P ∈ S :=
  zipWith_mem fun a ha b hb => S.add_mem (S.smul_mem _ (h1 _ (List.of_mem_zip ha).2)) (S.smul_mem _ (h2 _ (List.of_mem_zip hb).2))

theorem foldAll_mem {S : Submodule F G} : ∀ (us : List F) (Gs : List G), (∀ P ∈ Gs, P ∈ S) → foldAll us Gs ∈ S
  | [], Gs, h => by
    unfold foldAll
    rw [List.getD_eq_getElem?_getD]
    cases hg : Gs[0]? with
    | none => exact S.zero_mem
    | some P => exact h P (List.mem_of_getElem? hg)
  | u :: us, Gs, h => foldAll_mem us _ (foldPoints_mem _ _ (fun P hP => h P (List.mem_of_mem_take hP)) fun P hP => h P (List.mem_of_mem_drop hP))

theorem getD_mem {S : Submodule F G} {Gs : List G} (h : ∀ P ∈ Gs, P ∈ S) (i : ℕ) : Gs.getD i 0 ∈ S := by
  rw [List.getD_eq_getElem?_getD]
  cases hg : Gs[i]? with
  | none => exact S.zero_mem
  | some P => exact h P (List.mem_of_getElem? hg)

theorem ippLoop_mem {S : Submodule F G} (O : Oracle F G) {Q : G} (hQ : Q ∈ S) (n : ℕ) : ∀ (t : Transcript F G) (Gs Hs : List G) (a b : List F) (Ls Rs : List G) (q : IppProof F G) (t' : Transcript F G),
    ippLoop O Q n t Gs Hs a b Ls Rs = .ok (q, t') → (∀ P ∈ Gs, P ∈ S) → (∀ P ∈ Hs, P ∈ S) → (∀ P ∈ Ls, P ∈ S) → (∀ P ∈ Rs, P ∈ S) → (∀ P ∈ q.L, P ∈ S) ∧ ∀ P ∈ q.R, P ∈ S := by
  induction n using Nat.strong_induction_on with
  | _ n ih =>
    intro t Gs Hs a b Ls Rs q t' h hG hH hL hR
    rw [ippLoop] at h
    split at h
    · simp only [bind, Except.bind] at h
      split at h
      · simp at h
      split at h
      · simp at h
      simp only [pure, Except.pure, Except.ok.injEq, Prod.mk.injEq] at h
      rw [← h.1]
      exact ⟨hL, hR⟩
    · rename_i hn
      simp only [bind, Except.bind] at h
      split at h
      · simp at h
      split at h
      · simp at h
      split at h
      · simp at h
      rename_i L eL
      split at h
      · simp at h
      rename_i R eR
      have hGt : ∀ P ∈ Gs.take (n / 2), P ∈ S := fun P hP => hG P (List.mem_of_mem_take hP)
      have hGd : ∀ P ∈ Gs.drop (n / 2), P ∈ S := fun P hP => hG P (List.mem_of_mem_drop hP)
      have hHt : ∀ P ∈ Hs.take (n / 2), P ∈ S := fun P hP => hH P (List.mem_of_mem_take hP)
      have hHd : ∀ P ∈ Hs.drop (n / 2), P ∈ S := fun P hP => hH P (List.mem_of_mem_drop hP)
      have mL : L ∈ S := multiScalarMul_mem eL (by
        simp only [List.mem_append, List.mem_singleton]
        rintro P ((hP | hP) | rfl)
        exacts [hGd P hP, hHt P hP, hQ])
      have mR : R ∈ S := multiScalarMul_mem eR (by
        simp only [List.mem_append, List.mem_singleton]
        rintro P ((hP | hP) | rfl)
        exacts [hGt P hP, hHd P hP, hQ])
      refine ih (n / 2) (by omega) _ _ _ _ _ _ _ _ _ h (foldPoints_mem _ _ hGt hGd) (foldPoints_mem _ _ hHt hHd) ?_ ?_
      · simp only [List.mem_append, List.mem_singleton]
        rintro P (hP | rfl)
        exacts [hL P hP, mL]
      · simp only [List.mem_append, List.mem_singleton]
        rintro P (hP | rfl)
        exacts [hR P hP, mR]

/-- The points of an honest inner-product argument are combinations of its generators. -/
theorem createIpp_mem {S : Submodule F G} {O : Oracle F G} {t t' : Transcript F G} {Q : G} {Gf Hf : List F} {Gs Hs : List G} {a b : List F} {q : IppProof F G} (h : createIpp O t Q Gf Hf Gs Hs a b = .ok (q, t'))
    (hQ : Q ∈ S) (hG : ∀ P ∈ Gs, P ∈ S) (hH : ∀ P ∈ Hs, P ∈ S) : (∀ P ∈ q.L, P ∈ S) ∧ ∀ P ∈ q.R, P ∈ S := by
  unfold createIpp at h
  simp only at h
  split at h
  · simp [Res.panic] at h
  split at h
  · simp [Res.panic] at h
  split at h
  · simp only [bind, Except.bind] at h
    split at h
    · simp at h
    split at h
    · simp at h
    split at h
    · simp at h
    split at h
    · simp at h
    split at h
    · simp at h
    rename_i L eL
    split at h
    · simp at h
    split at h
    · simp at h
    split at h
    · simp at h
    rename_i R eR
    have hGt : ∀ P ∈ Gs.take (Gs.length / 2), P ∈ S := fun P hP => hG P (List.mem_of_mem_take hP)
    have hGd : ∀ P ∈ Gs.drop (Gs.length / 2), P ∈ S := fun P hP => hG P (List.mem_of_mem_drop hP)
    have hHt : ∀ P ∈ Hs.take (Gs.length / 2), P ∈ S := fun P hP => hH P (List.mem_of_mem_take hP)
    have hHd : ∀ P ∈ Hs.drop (Gs.length / 2), P ∈ S := fun P hP => hH P (List.mem_of_mem_drop hP)
    refine ippLoop_mem O hQ _ _ _ _ _ _ _ _ _ _ h (foldPointsFactors_mem _ _ _ _ hGt hGd) (foldPointsFactors_mem _ _ _ _ hHt hHd) ?_ ?_
    · intro P hP
      obtain rfl := List.mem_singleton.mp hP
      exact multiScalarMul_mem eL (by
        simp only [List.mem_append, List.mem_singleton]
        rintro P ((hP | hP) | rfl)
        exacts [hGd P hP, hHt P hP, hQ])
    · intro P hP
      obtain rfl := List.mem_singleton.mp hP
      exact multiScalarMul_mem eR (by
        simp only [List.mem_append, List.mem_singleton]
        rintro P ((hP | hP) | rfl)
        exacts [hGt P hP, hHd P hP, hQ])
  · exact ippLoop_mem O hQ _ _ _ _ _ _ _ _ _ _ h hG hH (by simp) (by simp)

/-! ## The blindings in the equation of the verifier -/

/-- How much of the blinding generator there is in the points of a proof. -/
structure Blinds (S : Submodule F G) (h : G) (pr : R1CSProof F G) (i1 o1 s1 i2 o2 s2 : F) : Prop where
  I1 : pr.A_I1 - i1 • h ∈ S
  O1 : pr.A_O1 - o1 • h ∈ S
  S1 : pr.S1 - s1 • h ∈ S
  I2 : pr.A_I2 - i2 • h ∈ S
  O2 : pr.A_O2 - o2 • h ∈ S
  S2 : pr.S2 - s2 • h ∈ S
  L : ∀ P ∈ pr.ipp.L, P ∈ S
  R : ∀ P ∈ pr.ipp.R, P ∈ S

theorem prove_blinds {env : Env F G} {p : Prover F G} (hw : p.WF) {c : Coins F} {Gs Hs : List G} {pr : R1CSProof F G} {T : Transcript F G} (hp : p.prove env c Gs Hs = .ok (pr, T))
    {S : Submodule F G} (hg : p.g ∈ S) (hG : ∀ P ∈ Gs, P ∈ S) (hH : ∀ P ∈ Hs, P ∈ S) : ∃ i2 o2 s2, Blinds S p.h pr c.iB1 c.oB1 c.sB1 i2 o2 s2 := by
  obtain ⟨p2, k, ch, wp, lp, rp, i1, -, -, -, -, H⟩ := prove_inv hw hp
  obtain ⟨vs, hst⟩ := Prover.createRandomizedConstraints_steps i1
  have eg : p2.g = p.g := hst.ext.g
  have eh : p2.h = p.h := hst.ext.h
  have tG : ∀ n, ∀ P ∈ Gs.take n, P ∈ S := fun n P hP => hG P (List.mem_of_mem_take hP)
  have tH : ∀ n, ∀ P ∈ Hs.take n, P ∈ S := fun n P hP => hH P (List.mem_of_mem_take hP)
  have dG : ∀ n m, ∀ P ∈ (Gs.drop n).take m, P ∈ S := fun n m P hP => hG P (List.mem_of_mem_drop (List.mem_of_mem_take hP))
  have dH : ∀ n m, ∀ P ∈ (Hs.drop n).take m, P ∈ S := fun n m P hP => hH P (List.mem_of_mem_drop (List.mem_of_mem_take hP))
  obtain ⟨hL, hR⟩ := createIpp_mem H.hipp (S := S) (S.smul_mem _ (eg ▸ hg)) (tG _) (tH _)
  have hI1 := H.hA_I1
  have hO1 := H.hA_O1
  have hS1 := H.hS1
  have hI2 := H.hA_I2
  have hO2 := H.hA_O2
  have hS2 := H.hS2
  rw [eh] at hI2 hO2 hS2
  unfold vecCommit at hI1 hS1 hI2 hS2
  exact ⟨_, _, _, by rw [hI1, add_sub_cancel_right]; exact S.add_mem (msm_mem _ _ (tG _)) (msm_mem _ _ (tH _)),
    by rw [hO1, add_sub_cancel_right]; exact msm_mem _ _ (tG _),
    by rw [hS1, add_sub_cancel_right]; exact S.add_mem (msm_mem _ _ (tG _)) (msm_mem _ _ (tH _)),
    by rw [hI2, add_sub_cancel_right]; exact S.add_mem (msm_mem _ _ (dG _ _)) (msm_mem _ _ (dH _ _)),
    by rw [hO2, add_sub_cancel_right]; exact msm_mem _ _ (dG _ _),
    by rw [hS2, add_sub_cancel_right]; exact S.add_mem (msm_mem _ _ (dG _ _)) (msm_mem _ _ (dH _ _)), hL, hR⟩

/-- If the inner-product equation holds, with whatever challenges, then the blindings add up to `e_blinding`. -/
theorem blinds_equation {S : Submodule F G} {g h : G} (hg : g ∈ S) (hh : h ∉ S) {GN HN : List G} (hG : ∀ P ∈ GN, P ∈ S) (hH : ∀ P ∈ HN, P ∈ S) {pr : R1CSProof F G} {i1 o1 s1 i2 o2 s2 : F}
    (B : Blinds S h pr i1 o1 s1 i2 o2 s2) {n1 N : ℕ} {wt : Weights F} {ch : Chals F} {us : List F} (hc : ippCheck n1 N pr g h GN HN wt ch us = 0) :
    ch.x * (i1 + ch.u * i2) + ch.x ^ 2 * (o1 + ch.u * o2) + ch.x ^ 3 * (s1 + ch.u * s2) = pr.e_blinding := by
  have key : ippCheck n1 N pr g h GN HN wt ch us - (ch.x * (i1 + ch.u * i2) + ch.x ^ 2 * (o1 + ch.u * o2) + ch.x ^ 3 * (s1 + ch.u * s2) - pr.e_blinding) • h ∈ S := by
    have e : ippCheck n1 N pr g h GN HN wt ch us - (ch.x * (i1 + ch.u * i2) + ch.x ^ 2 * (o1 + ch.u * o2) + ch.x ^ 3 * (s1 + ch.u * s2) - pr.e_blinding) • h =
        (ch.x • (pr.A_I1 - i1 • h) + ch.x ^ 2 • (pr.A_O1 - o1 • h) + ch.x ^ 3 • (pr.S1 - s1 • h) + (ch.u * ch.x) • (pr.A_I2 - i2 • h) + (ch.u * ch.x ^ 2) • (pr.A_O2 - o2 • h) + (ch.u * ch.x ^ 3) • (pr.S2 - s2 • h)) +
        ((∑ i ∈ range N, (ufac n1 ch.u i * (ch.x * (vpow ch.y⁻¹ i * wt.wR.getD i 0))) • GN.getD i 0) + (∑ i ∈ range N, (ufac n1 ch.u i * (vpow ch.y⁻¹ i * (ch.x * wt.wL.getD i 0 + wt.wO.getD i 0) - 1)) • HN.getD i 0)
          + (ch.w * pr.t_x) • g + msm (us.map (fun u => u * u)) pr.ipp.L + msm (us.map (fun u => u⁻¹ * u⁻¹)) pr.ipp.R
          - (pr.ipp.a • foldAll us (ippG n1 N ch.u GN) + pr.ipp.b • foldAll (us.map (·⁻¹)) (ippH n1 N ch.u ch.y HN) + (pr.ipp.a * pr.ipp.b) • ch.w • g)) := by
      simp only [ippCheck, ippPoint, ippPoint.y]
      module
    rw [e]
    refine S.add_mem ?_ (S.sub_mem ?_ ?_)
    · exact S.add_mem (S.add_mem (S.add_mem (S.add_mem (S.add_mem (S.smul_mem _ B.I1) (S.smul_mem _ B.O1)) (S.smul_mem _ B.S1)) (S.smul_mem _ B.I2)) (S.smul_mem _ B.O2)) (S.smul_mem _ B.S2)
    · exact S.add_mem (S.add_mem (S.add_mem (S.add_mem (S.sum_mem fun i _ => S.smul_mem _ (getD_mem hG i)) (S.sum_mem fun i _ => S.smul_mem _ (getD_mem hH i))) (S.smul_mem _ hg)) (msm_mem _ _ B.L)) (msm_mem _ _ B.R)
    · refine S.add_mem (S.add_mem (S.smul_mem _ (foldAll_mem _ _ ?_)) (S.smul_mem _ (foldAll_mem _ _ ?_))) (S.smul_mem _ (S.smul_mem _ hg))
      · exact zipWith_mem fun x _ P hP => S.smul_mem _ (hG P hP)
      · exact zipWith_mem fun x _ P hP => S.smul_mem _ (hH P hP)
  rw [hc, zero_sub] at key
  by_contra hne
  have h2 := S.smul_mem (ch.x * (i1 + ch.u * i2) + ch.x ^ 2 * (o1 + ch.u * o2) + ch.x ^ 3 * (s1 + ch.u * s2) - pr.e_blinding)⁻¹ (S.neg_mem key)
  rw [neg_neg, smul_smul, inv_mul_cancel₀ (sub_ne_zero.mpr hne), one_smul] at h2
  exact hh h2

/-- A cubic equation has at most three solutions. -/
theorem cubic_few (a b c e : F) (h : a ≠ 0 ∨ b ≠ 0 ∨ c ≠ 0) : {x : F | x * a + x ^ 2 * b + x ^ 3 * c = e}.encard ≤ 3 := by
  classical
  let p : Polynomial F := .C a * .X + .C b * .X ^ 2 + .C c * .X ^ 3 - .C e
  have hp : p ≠ 0 := by
    intro h0
    have c1 : p.coeff 1 = a := by simp [p, Polynomial.coeff_X, Polynomial.coeff_C, Polynomial.coeff_X_pow]
    have c2 : p.coeff 2 = b := by simp [p, Polynomial.coeff_X, Polynomial.coeff_C, Polynomial.coeff_X_pow]
    have c3 : p.coeff 3 = c := by simp [p, Polynomial.coeff_X, Polynomial.coeff_C, Polynomial.coeff_X_pow]
    rw [h0, Polynomial.coeff_zero] at c1 c2 c3
    rcases h with h | h | h
    exacts [h c1.symm, h c2.symm, h c3.symm]
  have hd : p.natDegree ≤ 3 := by
    simp only [p]
    compute_degree
  refine le_trans (Set.encard_le_encard (t := (p.roots.toFinset : Set F)) ?_) ?_
  · intro x hx
    simp only [Set.mem_ofPred_eq] at hx
    simp only [Finset.mem_coe, Multiset.mem_toFinset, Polynomial.mem_roots hp, Polynomial.IsRoot, p, Polynomial.eval_sub, Polynomial.eval_add, Polynomial.eval_mul, Polynomial.eval_C, Polynomial.eval_X, Polynomial.eval_pow]
    rw [← hx]; ring
  · rw [Set.encard_coe_eq_coe_finsetCard]
    have := (Multiset.toFinset_card_le p.roots).trans (p.card_roots'.trans hd)
    exact_mod_cast this

/-- At most one `u` kills the blindings. -/
theorem dead_few (i1 o1 s1 i2 o2 s2 : F) (h : i1 ≠ 0 ∨ o1 ≠ 0 ∨ s1 ≠ 0) : {u : F | i1 + u * i2 = 0 ∧ o1 + u * o2 = 0 ∧ s1 + u * s2 = 0}.encard ≤ 1 := by
  rw [Set.encard_le_one_iff]
  have one : ∀ a b u v : F, a ≠ 0 → a + u * b = 0 → a + v * b = 0 → u = v := by
    intro a b u v ha h1 h2
    have hb : b ≠ 0 := by rintro rfl; simp at h1; exact ha h1
    have : (u - v) * b = 0 := by linear_combination h1 - h2
    exact sub_eq_zero.mp ((mul_eq_zero.mp this).resolve_right hb)
  rintro u v ⟨a1, a2, a3⟩ ⟨b1, b2, b3⟩
  rcases h with h | h | h
  exacts [one _ _ _ _ h a1 b1, one _ _ _ _ h a2 b2, one _ _ _ _ h a3 b3]

end Bp
