import Mathlib.LinearAlgebra.Basis.VectorSpace
import Verif.Spec.Knowledge
import Verif.Spec.Merkle
import Verif.Lemmas.CS2
import Verif.Props.SoundnessR1CS

set_option linter.unusedSectionVars false

namespace Bp
variable {F G : Type} [Field F] [AddCommGroup G] [Module F G]
open Finset

/-! ## Linear functionals -/

/-- `x` is not a combination of `a` and `b`: some functional is 1 on `x` and 0 on the others. -/
theorem exists_functional {a b x : G} (h : ∀ α β : F, x ≠ α • a + β • b) : ∃ φ : G →ₗ[F] F, φ x = 1 ∧ φ a = 0 ∧ φ b = 0 := by
  have hx : x ∉ Submodule.span F {a, b} := fun hm => by
    obtain ⟨α, β, e⟩ := Submodule.mem_span_pair.mp hm
    exact h α β e.symm
  obtain ⟨f, hf, hk⟩ := Submodule.exists_le_ker_of_notMem hx
  refine ⟨(f x)⁻¹ • f, by simp [hf], ?_, ?_⟩
  · have : a ∈ LinearMap.ker f := hk (Submodule.subset_span (by simp))
    simp [LinearMap.mem_ker.mp this]
  · have : b ∈ LinearMap.ker f := hk (Submodule.subset_span (by simp))
    simp [LinearMap.mem_ker.mp this]

/-- Independent `g`, `h`: some functional is 1 on `g` and 0 on `h`; on a point that is not a combination of them, it can take any value. -/
theorem exists_opening {g h : G} (hi : ∀ α β : F, α • g + β • h = 0 → α = 0 ∧ β = 0) (P : G) :
    (∃ φ : G →ₗ[F] F, φ g = 1 ∧ φ h = 0) ∧ ((∃ x, CommitsTo g h P (x : F)) ∨ ∀ c : F, ∃ φ : G →ₗ[F] F, φ g = 1 ∧ φ h = 0 ∧ φ P = c) := by
  constructor
  · obtain ⟨φ, h1, h2, -⟩ := exists_functional (F := F) (a := h) (b := h) (x := g) fun α β e => by
      have := hi 1 (-(α + β)) (by rw [e]; module)
      exact one_ne_zero this.1
    exact ⟨φ, h1, h2⟩
  · by_cases hP : ∃ x, CommitsTo g h P (x : F)
    · exact .inl hP
    · right
      have hn : ∀ α β : F, P ≠ α • g + β • h := fun α β e => hP ⟨α, β, e⟩
      obtain ⟨φ, a1, a2, a3⟩ := exists_functional hn
      obtain ⟨ψ, b1, b2, b3⟩ := exists_functional (F := F) (a := h) (b := P) (x := g) fun α β e => by
        by_cases hβ : β = 0
        · have := hi 1 (-α) (by rw [e, hβ]; module)
          exact one_ne_zero this.1
        · refine hn β⁻¹ (-(β⁻¹ * α)) ?_
          rw [e, smul_add, smul_smul, smul_smul, inv_mul_cancel₀ hβ]
          module
      intro c
      exact ⟨ψ + c • φ, by simp [b1, a2], by simp [b2, a3], by simp [b3, a1]⟩

/-- A constraint as a commitment, under a functional. -/
theorem LC.functional_commitment (φ : G →ₗ[F] F) {g : G} (hg : φ g = 1) (σ : Assignment F) (V : List G) (l : LC F) :
    φ (l.commitment σ g V) = l.value { σ with committed := fun j => φ (V.getD j 0) } := by
  unfold LC.commitment LC.value
  rw [map_list_sum, List.map_map]
  congr 1
  refine List.map_congr_left fun t _ => ?_
  rcases t with ⟨x, c⟩
  cases x <;> simp [Assignment.commit, Assignment.val, hg]

/-- A part of independent generators. -/
theorem Independent.pair {gens : List G} {g h : G} (hi : Independent F (gens ++ [g, h])) (α β : F) (h0 : α • g + β • h = 0) : α = 0 ∧ β = 0 := by
  have key := hi (fun i => if i < gens.length then 0 else if i = gens.length then α else β) (by
    rw [List.length_append, Finset.sum_range_add, Finset.sum_eq_zero (fun i hi => by rw [if_pos (Finset.mem_range.mp hi), zero_smul]), zero_add]
    refine Eq.trans ?_ h0
    simp [Finset.sum_range_succ, List.getD_eq_getElem?_getD])
  refine ⟨?_, ?_⟩
  · have := key gens.length (by simp)
    simpa using this
  · have := key (gens.length + 1) (by simp)
    simpa using this

variable [DecidableEq G]

/-- The states of a convinced verifier. -/
theorem Convincing.ext {k q : ℕ} {t : R1CSTree F G k q} {label : String} {dv : Drv (Verifier F G) Unit} {g h : G} {Gs Hs : List G} {s s2 : Verifier F G} (hc : Convincing t label dv g h Gs Hs s s2) :
    s.constraints <+: s2.constraints ∧ s.V <+: s2.V := by
  obtain ⟨L, R, us, α, β, hp⟩ := (hc.full.ipp ⟨0, Nat.two_pow_pos k⟩ 0 0 0 0).path
  obtain ⟨env, r, r', T, T', -, h1, -⟩ := hc.accepted _ _ _ _ _ _ _ _ _ _ hp
  obtain ⟨vs, st⟩ := Verifier.createRandomizedConstraints_steps h1
  exact ⟨st.ext.cons, st.ext.V⟩

/-- What a statement says about the points given to the verifier, under a functional: the core of C55. -/
theorem Convinced.functional {kk : ℕ} {statics : List F} {points : List G} {dv : List G → Drv (Verifier F G) Unit} {R : (ℕ → F) → Prop} {label : String} {coms : List G} {g h : G} {Gs Hs : List G}
    (hs : ∀ s', dv coms (Verifier.new [.init label]) = (.ok (), s') → kk ≤ coms.length ∧ coms.take kk ++ points <+: s'.V ∧
      ∀ σ : Assignment F, σ.Gates → σ.Sat s'.constraints → (∀ i x, statics[i]? = some x → σ.committed (kk + i) = x) → R σ.committed)
    (hp : ∀ (i : ℕ) x, statics[i]? = some x → ∃ P, points[i]? = some P ∧ CommitsTo g h P x) (hc : Convinced label (dv coms) g h Gs Hs) (φ : G →ₗ[F] F) (hg : φ g = 1) (hh : φ h = 0) :
    ∃ w : ℕ → F, R w ∧ ∀ i < kk, ∃ P, coms[i]? = some P ∧ w i = φ P := by
  obtain ⟨k, q, t, s, s2, hc, hi⟩ := hc
  obtain ⟨h1, h2, h3⟩ := hs s hc.built
  obtain ⟨e1, e2⟩ := hc.ext
  obtain ⟨σ, g1, g2, -⟩ := c21_independent t s s2 g h Gs Hs hc.size hc.rows hc.full hc.accepted hi
  obtain ⟨V', hV'⟩ := h2.trans e2
  refine ⟨fun j => φ (s2.V.getD j 0), h3 { σ with committed := fun j => φ (s2.V.getD j 0) } g1 (fun lc hlc => ?_) (fun i x hx => ?_), fun i hi => ?_⟩
  · obtain ⟨β, hβ⟩ := g2 lc (e1.subset hlc)
    rw [← LC.functional_commitment φ hg, hβ, map_smul, hh, smul_zero]
  · obtain ⟨P, hP, r, rfl⟩ := hp i x hx
    have hi := (List.getElem?_eq_some_iff.mp hP).1
    show φ (s2.V.getD (kk + i) 0) = x
    rw [← hV', List.getD_eq_getElem?_getD, List.getElem?_append_left (by simp; omega), List.getElem?_append_right (by simp)]
    rw [List.length_take, Nat.min_eq_left h1, Nat.add_sub_cancel_left, hP]
    simp [hg, hh]
  · refine ⟨coms[i], List.getElem?_eq_getElem (by omega), ?_⟩
    show φ (s2.V.getD i 0) = _
    rw [← hV', List.getD_eq_getElem?_getD, List.getElem?_append_left (by simp; omega), List.getElem?_append_left (by simp; omega), List.getElem?_take_of_lt hi, List.getElem?_eq_getElem (by omega)]
    rfl

end Bp
