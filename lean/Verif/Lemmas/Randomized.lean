import Verif.Spec.Randomized
import Verif.Props.FiatShamir
import Verif.Lemmas.Uniform

/-! # Lemmas: statements with randomized constraints -/

set_option linter.unusedSectionVars false

namespace Bp
variable {F G : Type} [Field F] [AddCommGroup G] [Module F G]
open Finset

/-! ## Reading coefficients off points -/

/-- Independent generators have dual functionals. -/
theorem Independent.dual {gens : List G} (hi : Independent F gens) : ∃ ψ : ℕ → G →ₗ[F] F, ∀ i < gens.length, ∀ j < gens.length, ψ i (gens.getD j 0) = if i = j then 1 else 0 := by
  have hinj : Function.Injective (Rep.point F gens) := by
    refine (injective_iff_map_eq_zero _).mpr fun c hc => ?_
    funext i
    have := hi (fun j => if hj : j < gens.length then c ⟨j, hj⟩ else 0) ?_ i i.isLt
    · simpa using this
    · refine Eq.trans ?_ hc
      show _ = ∑ j, c j • gens.get j
      rw [Finset.sum_range]
      exact Finset.sum_congr rfl fun j _ => by simp
  obtain ⟨ψ, hψ⟩ := LinearMap.exists_leftInverse_of_injective (Rep.point F gens) (LinearMap.ker_eq_bot.mpr hinj)
  refine ⟨fun i => if hi : i < gens.length then (LinearMap.proj ⟨i, hi⟩).comp ψ else 0, fun i hi j hj => ?_⟩
  have e : Rep.point F gens (Rep.gen F gens j) = gens.getD j 0 := by
    show ∑ k, Rep.gen F gens j k • gens.get k = _
    rw [Finset.sum_eq_single ⟨j, hj⟩]
    · simp [Rep.gen, List.getD_eq_getElem?_getD, hj]
    · intro k _ hk
      have : k.val ≠ j := fun e => hk (Fin.ext e)
      simp [Rep.gen, this]
    · simp
  show (if hi : i < gens.length then (LinearMap.proj ⟨i, hi⟩).comp ψ else 0 : G →ₗ[F] F) (gens.getD j 0) = _
  rw [dif_pos hi, ← e]
  show ψ (Rep.point F gens (Rep.gen F gens j)) ⟨i, hi⟩ = _
  have := congrFun (congrArg DFunLike.coe hψ) (Rep.gen F gens j)
  simp only [LinearMap.comp_apply, LinearMap.id_apply] at this
  rw [this]
  rfl

/-- Functionals for the generators: `L i` is 1 on `G_i`, `R i` is 1 on `H_i`, `c` is 1 on `g`, and they are 0 on the other generators. -/
structure Dual (g h : G) (Gs Hs : List G) (L R : ℕ → G →ₗ[F] F) (c : G →ₗ[F] F) : Prop where
  LG : ∀ i < Gs.length, ∀ j < Gs.length, L i (Gs.getD j 0) = if i = j then 1 else 0
  LH : ∀ i < Gs.length, ∀ j < Hs.length, L i (Hs.getD j 0) = 0
  Lg : ∀ i < Gs.length, L i g = 0
  Lh : ∀ i < Gs.length, L i h = 0
  RG : ∀ i < Hs.length, ∀ j < Gs.length, R i (Gs.getD j 0) = 0
  RH : ∀ i < Hs.length, ∀ j < Hs.length, R i (Hs.getD j 0) = if i = j then 1 else 0
  Rg : ∀ i < Hs.length, R i g = 0
  Rh : ∀ i < Hs.length, R i h = 0
  cg : c g = 1
  ch : c h = 0

theorem Independent.dualGens {g h : G} {Gs Hs : List G} (hi : Independent F (Gs ++ Hs ++ [g, h])) : ∃ (L R : ℕ → G →ₗ[F] F) (c : G →ₗ[F] F), Dual g h Gs Hs L R c := by
  obtain ⟨ψ, hψ⟩ := hi.dual
  have hl : (Gs ++ Hs ++ [g, h]).length = Gs.length + Hs.length + 2 := by simp; omega
  rw [hl] at hψ
  have eG : ∀ j < Gs.length, (Gs ++ Hs ++ [g, h]).getD j 0 = Gs.getD j 0 := fun j hj => by
    rw [List.getD_eq_getElem?_getD, List.getD_eq_getElem?_getD, List.getElem?_append_left (by simp; omega), List.getElem?_append_left hj]
  have eH : ∀ j < Hs.length, (Gs ++ Hs ++ [g, h]).getD (Gs.length + j) 0 = Hs.getD j 0 := fun j hj => by
    rw [List.getD_eq_getElem?_getD, List.getD_eq_getElem?_getD, List.getElem?_append_left (by simp; omega), List.getElem?_append_right (by omega), Nat.add_sub_cancel_left]
  have eg : (Gs ++ Hs ++ [g, h]).getD (Gs.length + Hs.length) 0 = g := by
    rw [List.getD_eq_getElem?_getD, List.getElem?_append_right (by simp)]; simp
  have eh : (Gs ++ Hs ++ [g, h]).getD (Gs.length + Hs.length + 1) 0 = h := by
    rw [List.getD_eq_getElem?_getD, List.getElem?_append_right (by simp)]; simp
  refine ⟨ψ, fun i => ψ (Gs.length + i), ψ (Gs.length + Hs.length), ?_, ?_, ?_, ?_, ?_, ?_, ?_, ?_, ?_, ?_⟩
  · intro i hi j hj; rw [← eG j hj, hψ i (by omega) j (by omega)]
  · intro i hi j hj; rw [← eH j hj, hψ i (by omega) _ (by omega), if_neg (by omega)]
  · intro i hi; rw [← eg, hψ i (by omega) _ (by omega), if_neg (by omega)]
  · intro i hi; rw [← eh, hψ i (by omega) _ (by omega), if_neg (by omega)]
  · intro i hi j hj; rw [← eG j hj, hψ _ (by omega) _ (by omega), if_neg (by omega)]
  · intro i hi j hj
    rw [← eH j hj, hψ _ (by omega) _ (by omega)]
    exact if_congr (by omega) rfl rfl
  · intro i hi
    have := hψ (Gs.length + i) (by omega) (Gs.length + Hs.length) (by omega)
    rw [eg, if_neg (by omega)] at this
    exact this
  · intro i hi
    have := hψ (Gs.length + i) (by omega) (Gs.length + Hs.length + 1) (by omega)
    rw [eh, if_neg (by omega)] at this
    exact this
  · have := hψ (Gs.length + Hs.length) (by omega) (Gs.length + Hs.length) (by omega)
    rw [eg, if_pos rfl] at this
    exact this
  · have := hψ (Gs.length + Hs.length) (by omega) (Gs.length + Hs.length + 1) (by omega)
    rw [eh, if_neg (by omega)] at this
    exact this

theorem getD_take_lt {l : List G} {n i : ℕ} (h : i < n) : (l.take n).getD i 0 = l.getD i 0 := by
  rw [List.getD_eq_getElem?_getD, List.getD_eq_getElem?_getD, List.getElem?_take_of_lt h]

variable {g h : G} {Gs Hs : List G} {L R : ℕ → G →ₗ[F] F} {c : G →ₗ[F] F}

theorem Dual.left (hd : Dual g h Gs Hs L R c) {n : ℕ} (h1 : n ≤ Gs.length) (h2 : n ≤ Hs.length) (ρ : GenRep F) {i : ℕ} (hi : i < n) : L i (ρ.value n g h (Gs.take n) (Hs.take n)) = ρ.1 i := by
  unfold GenRep.value
  rw [map_add, map_add, map_add, map_sum, map_sum, map_smul, map_smul, hd.Lg i (by omega), hd.Lh i (by omega), smul_zero, smul_zero, add_zero, add_zero,
    Finset.sum_eq_single i, Finset.sum_eq_zero, add_zero, map_smul, getD_take_lt hi, hd.LG i (by omega) i (by omega), if_pos rfl, smul_eq_mul, mul_one]
  · intro j hj
    rw [Finset.mem_range] at hj
    rw [map_smul, getD_take_lt hj, hd.LH i (by omega) j (by omega), smul_zero]
  · intro j hj hne
    rw [Finset.mem_range] at hj
    rw [map_smul, getD_take_lt hj, hd.LG i (by omega) j (by omega), if_neg (fun e => hne e.symm), smul_zero]
  · intro hn
    exact absurd (Finset.mem_range.mpr hi) hn

theorem Dual.right (hd : Dual g h Gs Hs L R c) {n : ℕ} (h1 : n ≤ Gs.length) (h2 : n ≤ Hs.length) (ρ : GenRep F) {i : ℕ} (hi : i < n) : R i (ρ.value n g h (Gs.take n) (Hs.take n)) = ρ.2.1 i := by
  unfold GenRep.value
  rw [map_add, map_add, map_add, map_sum, map_sum, map_smul, map_smul, hd.Rg i (by omega), hd.Rh i (by omega), smul_zero, smul_zero, add_zero, add_zero,
    Finset.sum_eq_zero, zero_add, Finset.sum_eq_single i, map_smul, getD_take_lt hi, hd.RH i (by omega) i (by omega), if_pos rfl, smul_eq_mul, mul_one]
  · intro j hj hne
    rw [Finset.mem_range] at hj
    rw [map_smul, getD_take_lt hj, hd.RH i (by omega) j (by omega), if_neg (fun e => hne e.symm), smul_zero]
  · intro hn
    exact absurd (Finset.mem_range.mpr hi) hn
  · intro j hj
    rw [Finset.mem_range] at hj
    rw [map_smul, getD_take_lt hj, hd.RG i (by omega) j (by omega), smul_zero]

/-- The values that the prover has fixed with its commitments `V` and the points `A_I1`, `A_O1`. -/
def firstPhase (L R : ℕ → G →ₗ[F] F) (c : G →ₗ[F] F) (V : List G) (A_I1 A_O1 : G) : Assignment F where
  left i := L i A_I1
  right i := R i A_I1
  out i := L i A_O1
  committed j := c (V.getD j 0)

/-! ## The second phase -/

theorem Verifier.runCallbacks_V {env : Env F G} : ∀ (cbs : List (Callback F)) (s s' : Verifier F G), s.runCallbacks env cbs = .ok s' → s'.V = s.V
  | [], s, s', h => by simp only [runCallbacks, Except.ok.injEq] at h; rw [h]
  | cb :: cbs, s, s', h => by
    simp only [runCallbacks] at h
    split at h
    · rename_i u q hq
      rw [runCallbacks_V cbs _ _ h]
      exact Verifier.run_V (fun e => e.elim) cb s q u hq
    · cases h

theorem Verifier.crc_V {env : Env F G} {s s2 : Verifier F G} (h : s.createRandomizedConstraints env = .ok s2) : s2.V = s.V := by
  unfold createRandomizedConstraints at h
  simp only at h
  split at h
  · simp only [Except.ok.injEq] at h
    rw [← h]
  · exact (Verifier.runCallbacks_V _ _ _ h).trans rfl

theorem Verifier.crc_numVars {env : Env F G} {s s2 : Verifier F G} (h : s.createRandomizedConstraints env = .ok s2) : s.numVars ≤ s2.numVars := by
  obtain ⟨vs, st⟩ := Verifier.createRandomizedConstraints_steps h
  exact st.ext.num

/-- Running the callbacks, seen at one of them. -/
theorem Verifier.runCallbacks_mem {env : Env F G} {cb : Callback F} : ∀ {cbs : List (Callback F)} {s s' : Verifier F G}, cb ∈ cbs → s.runCallbacks env cbs = .ok s' →
    ∃ s1 s1' : Verifier F G, s.transcript <+: s1.transcript ∧ s.constraints <+: s1.constraints ∧ s1.run2 env cb = .ok ((), s1') ∧ s1'.transcript <+: s'.transcript ∧ s1'.constraints <+: s'.constraints
  | [], _, _, hm, _ => by cases hm
  | cb' :: cbs, s, s', hm, h => by
    simp only [runCallbacks] at h
    split at h
    · rename_i u q hq
      obtain ⟨ls, e1, -, -⟩ := Verifier.run_log (fun e => e.elim) cb' s q u hq
      obtain ⟨vs, st⟩ := Verifier.run2_steps hq
      obtain ⟨ls', e1', -⟩ := Verifier.runCallbacks_log cbs q s' h
      obtain ⟨vs', st'⟩ := Verifier.runCallbacks_steps cbs h
      rcases List.mem_cons.mp hm with rfl | hm
      · exact ⟨s, q, List.prefix_rfl, List.prefix_rfl, hq, ⟨_, e1'.symm⟩, st'.ext.cons⟩
      · obtain ⟨s1, s1', a1, a2, a3, a4, a5⟩ := runCallbacks_mem hm h
        exact ⟨s1, s1', List.IsPrefix.trans ⟨_, e1.symm⟩ a1, st.ext.cons.trans a2, a3, a4, a5⟩
    · cases h

/-! ## Statements about commitments -/

namespace Shaped
variable {label : String} {m : ℕ} {dv : List G → Drv (Verifier F G) Unit}

theorem of_nat {d0 : List G → Drv (Verifier F G) Unit} (h1 : ∀ a s, dv a (Verifier.new [.init label]) = (.ok (), s) → s.transcript = [.init label, .domSep "r1cs v1"] ++ s.V.map (TEvent.point "V"))
    (h : ∀ a, DrvNat (0 : G →ₗ[F] G) (d0 (a.map (0 : G →ₗ[F] G))) (dv a)) : Shaped label m dv :=
  ⟨h1, fun a b s s' ha hb hs hs' => by
    have e := (h a).built hs
    rw [map_zero_eq (F := F) (ha.trans hb.symm), (h b).built hs'] at e
    have h := (Prod.mk.inj e).2
    have h1 := congrArg Verifier.constraints h
    have h2 := congrArg Verifier.numVars h
    have h3 := congrArg Verifier.deferred h
    have h4 := congrArg Verifier.pending h
    have h5 := congrArg Verifier.seed h
    cases s; cases s'
    simp_all [Verifier.mapG]⟩

/-- A statement without randomized constraints. -/
theorem of_uniform (hu : Uniform label m dv) : Shaped label m dv := ⟨fun a s hs => by rw [(hu.onePhase a).log hs], hu.same⟩

variable (hu : Shaped label m dv) {a b : List G} (ha : a.length = m) (hb : b.length = m) {s s' : Verifier F G}
  (hs : dv a (Verifier.new [.init label]) = (.ok (), s)) (hs' : dv b (Verifier.new [.init label]) = (.ok (), s'))
include hu ha hb hs hs'

theorem eq_of_V (hV : s.V = s'.V) : s = s' := by
  have h := hu.same a b s s' ha hb hs hs'
  have ht : s.transcript = s'.transcript := by rw [hu.log a s hs, hu.log b s' hs', hV]
  rw [h, ← hV, ← ht]

theorem eq_of_prefix {pr pr' : R1CSProof F G} {t : Transcript F G} (h : (s.start pr).transcript <+: t) (h' : (s'.start pr').transcript <+: t) : s = s' := by
  refine hu.eq_of_V ha hb hs hs' ?_
  obtain ⟨u, hu1⟩ := h
  obtain ⟨u', hu2⟩ := h'
  simp only [Verifier.start, log1, hu.log a s hs, hu.log b s' hs', List.append_assoc, List.cons_append, List.nil_append] at hu1 hu2
  rw [← hu1] at hu2
  simp only [List.cons.injEq, true_and] at hu2
  refine points_inj (t := s.V.map (TEvent.point "V") ++ TEvent.u64 "m" s.V.length :: TEvent.point "A_I1" pr.A_I1 :: TEvent.point "A_O1" pr.A_O1 :: TEvent.point "S1" pr.S1 :: u) (n := s.V.length) (n' := s'.V.length)
    ⟨TEvent.point "A_I1" pr.A_I1 :: TEvent.point "A_O1" pr.A_O1 :: TEvent.point "S1" pr.S1 :: u, by simp⟩ ⟨TEvent.point "A_I1" pr'.A_I1 :: TEvent.point "A_O1" pr'.A_O1 :: TEvent.point "S1" pr'.S1 :: u', by rw [← hu2]; simp⟩

end Shaped

/-! ## Callbacks that randomize a claim -/

variable {env : Env F G} {s : Verifier F G} {d : ℕ} {claim claim' : Assignment F → Prop}

/-- One claim after the other. -/
theorem Randomizes.and (h : Randomizes env s d claim) (h' : Randomizes env s d claim') : Randomizes env s d (fun σ => claim σ ∧ claim' σ) :=
  ⟨fun σ σ' e hc => ⟨h.early σ σ' e hc.1, h'.early σ σ' e hc.2⟩, fun σ hn => by
    by_cases hc : claim σ
    · exact h'.sound σ fun hc' => hn ⟨hc, hc'⟩
    · exact h.sound σ hc⟩

/-- One of the callbacks first draws a challenge `z`, and then builds a circuit that shows `P z`; this is for few `z` only, unless the claim is true. -/
theorem Randomizes.of_mem (label : String) (k : F → Callback F) (hm : (Prog.challenge rfl label k : Callback F) ∈ s.deferred) (P : F → Assignment F → Prop)
    (hk : ∀ O z σ, σ.Gates → VS ({ env with oracle := O } : Env F G) σ (k z) fun _ => P z σ) (he : ∀ σ σ', σ.SameUpTo s.numVars s.V.length σ' → claim σ → claim σ')
    (hf : ∀ σ, ¬ claim σ → {z | ∃ σ', σ.SameUpTo s.numVars s.V.length σ' ∧ σ'.Gates ∧ σ'.Sat s.constraints ∧ P z σ'}.encard ≤ d) : Randomizes env s d claim := by
  refine ⟨he, fun σ hn => ⟨⟨fun _ _ => _, fun _ _ => hf σ hn, fun _ _ _ _ _ => rfl⟩, fun O pr s2 h2 ⟨σ', e, hg, hsat⟩ => ?_⟩⟩
  unfold Verifier.createRandomizedConstraints at h2
  simp only at h2
  split at h2
  · rename_i h0
    rw [show (s.start pr).deferred = s.deferred from rfl, List.length_eq_zero_iff] at h0
    rw [h0] at hm
    cases hm
  · obtain ⟨s1, s1', a1, a2, a3, a4, a5⟩ := Verifier.runCallbacks_mem (show _ ∈ (s.start pr).deferred from hm) h2
    unfold Verifier.run2 at a3
    rw [Verifier.run] at a3
    have hc := Verifier.run_cons (env := { env with oracle := O }) (onSpec := fun (e : Empty) _ => e.elim) (fun e => e.elim) _ _ _ _ a3
    obtain ⟨ls, hl, -⟩ := Verifier.run_log (onSpec := fun (e : Empty) _ => e.elim) (fun e => e.elim) _ _ _ _ a3
    refine ⟨s1.transcript, label, List.IsPrefix.trans ?_ a1, List.IsPrefix.trans ⟨_, hl.symm⟩ a4, σ', e, hg, fun lc hlc => hsat lc ?_, ?_⟩
    · exact ⟨[.domSep "r1cs-2phase"], rfl⟩
    · exact a5.subset (hc.subset (a2.subset hlc))
    · exact hk O _ σ' hg _ (fun e => e.elim) _ _ _ a3 fun lc hlc => hsat lc (a5.subset hlc)

end Bp
