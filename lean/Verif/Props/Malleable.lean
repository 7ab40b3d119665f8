import Verif.Spec.Malleable
import Verif.Props.Replay
import Verif.Props.Chain

/-! # C79: nobody can change the scalars of an honest proof -/

namespace Bp
open Finset
variable {F G : Type} [Field F] [AddCommGroup G] [Module F G] [DecidableEq G]

theorem rounds_ne_zero {O : Oracle F G} (hO : ∀ t, O t ≠ 0) (t : Transcript F G) (pr : R1CSProof F G) (N : ℕ) : ∀ u ∈ ippRounds O t pr N, u ≠ 0 := fun u hu => by
  obtain ⟨pre, -, e⟩ := ippChallenges_at _ _ u hu
  rw [e]; exact hO _

/-- **C79**, any proofs: two accepted proofs (each for two values of the random scalar) with the same points have the same `t_x` and `t_x_blinding`. -/
theorem c79_polynomial {env : Env F G} (hb : env.batchInvert [] = .ok ([], 1)) (hO : ∀ t, env.oracle t ≠ 0) {g h : G} {Gs Hs : List G} (hi : Independent F (Gs ++ Hs ++ [g, h])) {s : Verifier F G} {pr : R1CSProof F G}
    {r₁ r₂ : F} (hr : r₁ ≠ r₂) {T₁ T₂ : Transcript F G} (a₁ : s.verify env pr g h Gs Hs r₁ = .ok T₁) (a₂ : s.verify env pr g h Gs Hs r₂ = .ok T₂) {tx tb e a b : F}
    {r₁' r₂' : F} (hr' : r₁' ≠ r₂') {T₁' T₂' : Transcript F G} (b₁ : s.verify env (pr.withScalars tx tb e a b) g h Gs Hs r₁' = .ok T₁') (b₂ : s.verify env (pr.withScalars tx tb e a b) g h Gs Hs r₂' = .ok T₂') :
    tx = pr.t_x ∧ tb = pr.t_x_blinding := by
  obtain ⟨s2, wt, i1, i2, i3, -⟩ := c20_two_scalars env s pr g h Gs Hs r₁ r₂ hr T₁ T₂ a₁ a₂ (fun s2 _ => rounds_ne_zero hO _ _ _) (.inr hb)
  obtain ⟨s2', wt', j1, j2, j3, -⟩ := c20_two_scalars env s (pr.withScalars tx tb e a b) g h Gs Hs r₁' r₂' hr' T₁' T₂' b₁ b₂ (fun s2 _ => rounds_ne_zero hO _ _ _) (.inr hb)
  have j1 : (s.start pr).createRandomizedConstraints env = .ok s2' := j1
  rw [i1] at j1
  obtain rfl := Except.ok.inj j1
  have j2 : s2.flattenedConstraints (drawn env.oracle s2.transcript pr).z = .ok wt' := j2
  rw [i2] at j2
  obtain rfl := Except.ok.inj j2
  have key : (tx - pr.t_x) • g + (tb - pr.t_x_blinding) • h = 0 := by
    refine Eq.trans ?_ (sub_eq_zero.mpr (i3.trans j3.symm))
    simp only [polyCheck]
    show _ = _ - (_ • _ + (drawn env.oracle s2.transcript pr).x • pr.T_1 + _ • pr.T_3 + _ • pr.T_4 + _ • pr.T_5 + _ • pr.T_6 + _ - (tx • g + tb • h))
    simp only [show (drawn env.oracle s2.transcript (pr.withScalars tx tb e a b)).x = (drawn env.oracle s2.transcript pr).x from rfl,
      show (drawn env.oracle s2.transcript (pr.withScalars tx tb e a b)).y = (drawn env.oracle s2.transcript pr).y from rfl]
    module
  obtain ⟨h1, h2⟩ := hi.pair _ _ key
  exact ⟨sub_eq_zero.mp h1, sub_eq_zero.mp h2⟩

/-- **C79**: take a proof made by the code's `prove`, and a verifier (of any statement, in one or two phases) that accepts it, for two values of its random scalar.  With other scalars and the same points the proof is not accepted, but
for at most one value of the random scalar. -/
theorem c79_scalars {env env' : Env F G} (hb : env'.batchInvert [] = .ok ([], 1)) (hO : ∀ t, env'.oracle t ≠ 0) {p : Prover F G} (hw : p.WF) {c : Coins F} {Gs Hs : List G} {pr : R1CSProof F G} {T : Transcript F G}
    (hp : p.prove env c Gs Hs = .ok (pr, T)) (hi : Independent F (Gs ++ Hs ++ [p.g, p.h])) {s : Verifier F G} {r₁ r₂ : F} (hr : r₁ ≠ r₂) {T₁ T₂ : Transcript F G} (a₁ : s.verify env' pr p.g p.h Gs Hs r₁ = .ok T₁)
    (a₂ : s.verify env' pr p.g p.h Gs Hs r₂ = .ok T₂) {tx tb e a b : F} {r₁' r₂' : F} (hr' : r₁' ≠ r₂') {T₁' T₂' : Transcript F G}
    (b₁ : s.verify env' (pr.withScalars tx tb e a b) p.g p.h Gs Hs r₁' = .ok T₁') (b₂ : s.verify env' (pr.withScalars tx tb e a b) p.g p.h Gs Hs r₂' = .ok T₂') : pr.withScalars tx tb e a b = pr := by
  obtain ⟨rfl, rfl⟩ := c79_polynomial hb hO hi hr a₁ a₂ hr' b₁ b₂
  have m1 : p.g ∈ Submodule.span F {P | P = p.g ∨ P ∈ Gs ∨ P ∈ Hs} := Submodule.subset_span (.inl rfl)
  have m2 : ∀ P ∈ Gs, P ∈ Submodule.span F {P | P = p.g ∨ P ∈ Gs ∨ P ∈ Hs} := fun P hP => Submodule.subset_span (.inr (.inl hP))
  have m3 : ∀ P ∈ Hs, P ∈ Submodule.span F {P | P = p.g ∨ P ∈ Gs ∨ P ∈ Hs} := fun P hP => Submodule.subset_span (.inr (.inr hP))
  obtain ⟨i2, o2, s2', B⟩ := prove_blinds hw hp m1 m2 m3
  have B' : Blinds _ p.h (pr.withScalars pr.t_x pr.t_x_blinding e a b) c.iB1 c.oB1 c.sB1 i2 o2 s2' := ⟨B.I1, B.O1, B.S1, B.I2, B.O2, B.S2, B.L, B.R⟩
  obtain ⟨s2, wt, i1, -, -, i4⟩ := c20_two_scalars env' s pr p.g p.h Gs Hs r₁ r₂ hr T₁ T₂ a₁ a₂ (fun s2 _ => rounds_ne_zero hO _ _ _) (.inr hb)
  obtain ⟨s3, wt', j1, -, -, j4⟩ := c20_two_scalars env' s (pr.withScalars pr.t_x pr.t_x_blinding e a b) p.g p.h Gs Hs r₁' r₂' hr' T₁' T₂' b₁ b₂ (fun s2 _ => rounds_ne_zero hO _ _ _) (.inr hb)
  have j1 : (s.start pr).createRandomizedConstraints env' = .ok s3 := j1
  rw [i1] at j1
  obtain rfl := Except.ok.inj j1
  have e1 := blinds_equation m1 hi.hiding (fun P hP => m2 P (List.mem_of_mem_take hP)) (fun P hP => m3 P (List.mem_of_mem_take hP)) B i4
  have e2 := blinds_equation m1 hi.hiding (fun P hP => m2 P (List.mem_of_mem_take hP)) (fun P hP => m3 P (List.mem_of_mem_take hP)) B' j4
  obtain rfl : e = pr.e_blinding := e2.symm.trans e1
  have hall : ∃ t, s.verify env' pr p.g p.h Gs Hs r₁' = .ok t := by
    by_contra hn
    exact hr (c20_at_most_one_bad_scalar env' s pr p.g p.h Gs Hs r₁' r₁ r₂ (fun t ht => hn ⟨t, ht⟩) T₁ T₂ a₁ a₂ (fun s2 _ => rounds_ne_zero hO _ _ _) (.inr hb))
  obtain ⟨T3, hall⟩ := hall
  exact c67_unique env' s s2 pr a b p.g p.h Gs Hs r₁' T3 T₁' hb hall b₁ i1 (hO _) (hO _) (rounds_ne_zero hO _ _ _) (hi.take _)

/-- **C79**, honest runs from end to end: with a proof of `gen_proof`, which `verify_proof` accepts, `verify_proof` accepts no proof that has the same points and other scalars, but for at most one value of its random scalar. -/
theorem c79_end_to_end {env env' : Env F G} {m : ℕ} {os ss : List (F × F)} {dp : Drv (Prover F G) (List G)} {dv : List G → Drv (Verifier F G) Unit} (hp : HonestPair env env' none m os dp dv ss)
    (hO : env.oracle = env'.oracle) (h0 : ∀ l, env.oracle l ≠ 0) (hsize : nextPowerOfTwo m < 2 ^ 32) (hb : env'.batchInvert [] = .ok ([], 1)) (label : String) (g h : G) (c : Coins F) (Gs Hs : List G)
    (hG : nextPowerOfTwo m ≤ Gs.length) (hH : nextPowerOfTwo m ≤ Hs.length) (hi : Independent F (Gs ++ Hs ++ [g, h])) :
    ∃ pr coms, genProof env label g h c Gs Hs dp = .ok (pr, coms) ∧ (∀ r, verifyProof env' label (dv coms) pr g h Gs Hs r = .ok ()) ∧
      ∀ tx tb e a b, AcceptedTwice env' label (dv coms) (pr.withScalars tx tb e a b) g h Gs Hs → pr.withScalars tx tb e a b = pr := by
  obtain ⟨coms, p, s, h1, h2, J, -, hl, o⟩ := hp _ _ (Joint.new env env' g h [.init label] 0 0) rfl
  have hl' : p.aL.length = m := by rw [hl]; simp [Prover.new]
  obtain ⟨hw, -⟩ := J.session.inStep hO
  have hg : p.g = g := o.g
  have hh : p.h = h := o.h
  obtain ⟨pr, T, h3, -⟩ := J.accepts hO h0 c Gs Hs 0 (by rwa [hl']) (by rwa [hl']) (by rwa [hl']) (.inr hb)
  have hacc : ∀ r, s.verify env' pr g h Gs Hs r = .ok T := fun r => by
    obtain ⟨pr', T', h3', h4'⟩ := J.accepts hO h0 c Gs Hs r (by rwa [hl']) (by rwa [hl']) (by rwa [hl']) (.inr hb)
    rw [h3] at h3'
    obtain ⟨rfl, rfl⟩ := Prod.mk.inj (Except.ok.inj h3')
    rwa [hg, hh] at h4'
  refine ⟨pr, coms, by simp only [genProof, h1, h3], fun r => by simp only [verifyProof, h2, hacc r], fun tx tb e a b ⟨r, r', hr, b₁, b₂⟩ => ?_⟩
  obtain ⟨s1, t₁, e1, b₁⟩ := verifyProof_inv b₁
  obtain ⟨s2, t₂, e2, b₂⟩ := verifyProof_inv b₂
  have h2' : dv coms (Verifier.new [.init label]) = (.ok (), s) := h2
  obtain rfl : s = s1 := by rw [h2'] at e1; exact (Prod.mk.inj e1).2
  obtain rfl : s = s2 := by rw [h2'] at e2; exact (Prod.mk.inj e2).2
  have key := c79_scalars (p := p) (s := s) (T₁ := T) (T₂ := T) (r₁ := 0) (r₂ := 1) hb (hO ▸ h0) hw h3 (by rwa [hg, hh]) (zero_ne_one) (by rw [hg, hh]; exact hacc 0) (by rw [hg, hh]; exact hacc 1)
    (tx := tx) (tb := tb) (e := e) (a := a) (b := b) hr (by rw [hg, hh]; exact b₁) (by rw [hg, hh]; exact b₂)
  exact key

/-- The honest proof that 3 and 4 hash to 68: no other scalars are accepted. -/
example (c : Coins Z101) : ∃ (pr : R1CSProof Z101 V6) (coms : List V6),
    genProof (Env.std fun _ => 2) "mimc" (unit6 4) (unit6 5) c [unit6 0, unit6 1] [unit6 2, unit6 3] (proveMimcPreimage (Env.std fun _ => 2) [3, 4] (some [8, 9]) 68 [1] 1 none) = .ok (pr, coms) ∧
    (∀ r, verifyProof (Env.std fun _ => 2) "mimc" (verifyMimcPreimage (Env.std fun _ => 2) 68 [1] 1 coms) pr (unit6 4) (unit6 5) [unit6 0, unit6 1] [unit6 2, unit6 3] r = .ok ()) ∧
    ∀ tx tb e a b, AcceptedTwice (Env.std fun _ => 2) "mimc" (verifyMimcPreimage (Env.std fun _ => 2) 68 [1] 1 coms) (pr.withScalars tx tb e a b) (unit6 4) (unit6 5) [unit6 0, unit6 1] [unit6 2, unit6 3] →
      pr.withScalars tx tb e a b = pr :=
  c79_end_to_end (c32_complete (F := Z101) (Env.std fun _ => 2) (Env.std fun _ => 2) rfl 3 4 68 [1] 1 (by decide +kernel) 8 9 _ _ (.inl rfl) none) rfl (fun _ => show (2 : Z101) ≠ 0 by decide) (by decide)
    (by simp [Env.std]) "mimc" (unit6 4) (unit6 5) c _ _ (by decide) (by decide) unit6_independent

end Bp
