import Verif.Spec.Opening
import Verif.Lemmas.Statements
import Mathlib.LinearAlgebra.Dual.Lemmas

/-! # Solving the constraints for the committed values -/

open Finset (range)

namespace Bp
variable {F G : Type} [Field F] [AddCommGroup G] [Module F G]

/-! ## Linear algebra -/

namespace LC

theorem committedPart_add (v w : ℕ → F) (l : LC F) : l.committedPart (v + w) = l.committedPart v + l.committedPart w := by
  unfold committedPart
  induction l.terms with
  | nil => simp
  | cons t ts ih =>
    simp only [List.map_cons, List.sum_cons, ih]
    rcases t with ⟨x, c⟩
    cases x <;> simp only [Pi.add_apply] <;> ring

theorem committedPart_smul (a : F) (v : ℕ → F) (l : LC F) : l.committedPart (a • v) = a * l.committedPart v := by
  unfold committedPart
  induction l.terms with
  | nil => simp
  | cons t ts ih =>
    simp only [List.map_cons, List.sum_cons, ih]
    rcases t with ⟨x, c⟩
    cases x <;> simp only [Pi.smul_apply, smul_eq_mul] <;> ring

/-- The committed part, for values that are zero at `Z`. -/
noncomputable def form (Z : ℕ → Prop) (l : LC F) : (ℕ → F) →ₗ[F] F := by
  classical exact
  { toFun := fun w => l.committedPart fun j => if Z j then 0 else w j
    map_add' := fun v w => by
      rw [← committedPart_add]
      congr 1
      funext j
      by_cases h : Z j <;> simp [h]
    map_smul' := fun a v => by
      rw [RingHom.id_apply, smul_eq_mul, ← committedPart_smul]
      congr 1
      funext j
      by_cases h : Z j <;> simp [h] }

theorem form_zero {Z : ℕ → Prop} {w : ℕ → F} (hw : ∀ j, Z j → w j = 0) (l : LC F) : l.form Z w = l.committedPart w := by
  classical
  show l.committedPart _ = _
  congr 1
  funext j
  by_cases h : Z j <;> simp [h, hw]

/-- A linear combination without its committed part. -/
theorem value_parts (σ : Assignment F) (l : LC F) : l.value σ = l.value { σ with committed := fun _ => 0 } + l.committedPart σ.committed := by
  unfold value committedPart
  induction l.terms with
  | nil => simp
  | cons t ts ih =>
    simp only [List.map_cons, List.sum_cons, ih]
    rcases t with ⟨x, c⟩
    cases x <;> simp only [Assignment.val] <;> ring

/-- The same for commitments. -/
theorem commitment_parts (σ : Assignment F) (g : G) (V : List G) {n : ℕ} (l : LC F) (hl : ∀ t ∈ l.terms, t.1.InRange n V.length) :
    l.commitment σ g V = l.value { σ with committed := fun _ => 0 } • g + ∑ m ∈ range V.length, l.committedPart (Pi.single m 1) • V.getD m 0 := by
  unfold value committedPart commitment
  generalize l.terms = ts at *
  induction ts with
  | nil => simp
  | cons t ts ih =>
    simp only [List.map_cons, List.sum_cons, add_smul, Finset.sum_add_distrib]
    rw [ih fun t ht => hl t (List.mem_cons_of_mem _ ht)]
    have h0 := hl t List.mem_cons_self
    rcases t with ⟨x, c⟩
    cases x with
    | committed j =>
      simp only [Var.InRange] at h0
      have : ∑ m ∈ range V.length, (c * (Pi.single m 1 : ℕ → F) j) • V.getD m 0 = c • V.getD j 0 := by
        rw [Finset.sum_eq_single j]
        · simp
        · intro m _ hm
          rw [Pi.single_apply, if_neg (Ne.symm hm), mul_zero, zero_smul]
        · intro h
          exact absurd (Finset.mem_range.mpr h0) h
      simp only [Assignment.commit, Assignment.val, this]
      module
    | _ => simp only [Assignment.commit, Assignment.val, zero_smul, Finset.sum_const_zero]; module

end LC

/-- Some solver exists. -/
theorem Solver.exists (cs : List (LC F)) (Z : ℕ → Prop) : ∃ sol : Solver F, sol.Solves cs Z := by
  classical
  -- the inverse
  have hinv : ∀ i, ∃ a : ℕ → F, Determined cs Z i → ∀ w : ℕ → F, (∀ j, Z j → w j = 0) → ∑ j : Fin cs.length, a j * (cs[j]).committedPart w = w i := by
    intro i
    by_cases hd : Determined cs Z i
    · let K : (ℕ → F) →ₗ[F] F := if Z i then 0 else LinearMap.proj i
      have hK : ∀ w : ℕ → F, K w = if Z i then 0 else w i := fun w => by
        by_cases h : Z i <;> simp [K, h]
      have h := mem_span_of_iInf_ker_le_ker (L := fun j : Fin cs.length => (cs[j]).form Z) (K := K) (by
        intro w hw
        rw [Submodule.mem_iInf] at hw
        rw [LinearMap.mem_ker, hK]
        have := hd (fun j => if Z j then 0 else w j) (fun j hj => by simp [hj]) fun lc hlc => by
          obtain ⟨j, hj, rfl⟩ := List.getElem_of_mem hlc
          exact LinearMap.mem_ker.mp (hw ⟨j, hj⟩)
        exact this)
      obtain ⟨a, ha⟩ := (Submodule.mem_span_range_iff_exists_fun F).mp h
      refine ⟨fun j => if hj : j < cs.length then a ⟨j, hj⟩ else 0, fun _ w hw => ?_⟩
      have := congrArg (fun f : (ℕ → F) →ₗ[F] F => f w) ha
      simp only [LinearMap.coe_sum, Finset.sum_apply, LinearMap.smul_apply, smul_eq_mul, hK, LC.form_zero hw] at this
      have e : (if Z i then 0 else w i) = w i := by
        by_cases h : Z i <;> simp [h, hw]
      rw [e] at this
      rw [← this]
      refine Finset.sum_congr rfl fun j _ => ?_
      simp [j.isLt]
    · exact ⟨0, fun h => absurd h hd⟩
  choose a ha using hinv
  -- the kernel
  let N : Submodule F (Fin cs.length → F) :=
    { carrier := {ν | ∀ w : ℕ → F, (∀ j, Z j → w j = 0) → ∑ j : Fin cs.length, ν j * (cs[j]).committedPart w = 0}
      add_mem' := fun {x y} hx hy w hw => by
        simp only [Pi.add_apply, add_mul, Finset.sum_add_distrib]
        rw [hx w hw, hy w hw, add_zero]
      zero_mem' := fun w _ => by simp
      smul_mem' := fun c x hx w hw => by
        simp only [Pi.smul_apply, smul_eq_mul, mul_assoc, ← Finset.mul_sum]
        rw [hx w hw, mul_zero] }
  obtain ⟨S, hS⟩ : N.FG := IsNoetherian.noetherian N
  let ext : (Fin cs.length → F) → ℕ → F := fun ν j => if hj : j < cs.length then ν ⟨j, hj⟩ else 0
  have hext : ∀ ν (j : Fin cs.length), ext ν j = ν j := fun ν j => by simp [ext, j.isLt]
  refine ⟨⟨a, S.toList.map ext⟩, fun i hi => ha i hi, fun μ hμ w hw => ?_, fun ν hν c hc => ?_⟩
  · obtain ⟨ν, hν, rfl⟩ := List.mem_map.mp hμ
    have : ν ∈ N := hS ▸ Submodule.subset_span (Finset.mem_toList.mp hν)
    simp only [hext]
    exact this w hw
  · have h1 : (fun j : Fin cs.length => ν j) ∈ N := hν
    rw [← hS] at h1
    refine Submodule.span_induction (p := fun x _ => ∑ j : Fin cs.length, x j * c j = 0) ?_ ?_ ?_ ?_ h1
    · intro x hx
      have := hc (ext x) (List.mem_map.mpr ⟨x, Finset.mem_toList.mpr hx, rfl⟩)
      simpa only [hext] using this
    · simp
    · intro x y _ _ hx hy
      simp only [Pi.add_apply, add_mul, Finset.sum_add_distrib]
      rw [hx, hy, add_zero]
    · intro b x _ hx
      simp only [Pi.smul_apply, smul_eq_mul, mul_assoc, ← Finset.mul_sum]
      rw [hx, mul_zero]

/-- A system is solvable if all combinations without committed values are zero. -/
theorem Solver.Solves.solvable {sol : Solver F} {cs : List (LC F)} {Z : ℕ → Prop} (hs : sol.Solves cs Z) (c : Fin cs.length → F) (hc : ∀ μ ∈ sol.kernel, ∑ j : Fin cs.length, μ j * c j = 0) :
    ∃ x : ℕ → F, (∀ j, Z j → x j = 0) ∧ ∀ j : Fin cs.length, c j + (cs[j]).committedPart x = 0 := by
  classical
  let L : (ℕ → F) →ₗ[F] (Fin cs.length → F) := LinearMap.pi fun j => (cs[j]).form Z
  by_cases hm : -c ∈ LinearMap.range L
  · obtain ⟨w, hw⟩ := hm
    refine ⟨fun j => if Z j then 0 else w j, fun j hj => by simp [hj], fun j => ?_⟩
    have := congrFun hw j
    have e : (cs[j]).committedPart (fun j => if Z j then 0 else w j) = - c j := this
    rw [e, add_neg_cancel]
  · exfalso
    obtain ⟨f, hf, hf'⟩ := Submodule.exists_dual_map_eq_bot_of_notMem hm inferInstance
    have key : ∀ v : Fin cs.length → F, f v = ∑ j : Fin cs.length, f (Pi.single j 1) * v j := fun v => by
      conv_lhs => rw [← Finset.univ_sum_single v]
      rw [map_sum]
      refine Finset.sum_congr rfl fun j _ => ?_
      rw [mul_comm, ← smul_eq_mul, ← map_smul]
      congr 1
      rw [← Pi.single_smul, smul_eq_mul, mul_one]
    let ν : ℕ → F := fun j => if hj : j < cs.length then f (Pi.single ⟨j, hj⟩ 1) else 0
    have hν : ∀ j : Fin cs.length, ν j = f (Pi.single j 1) := fun j => by simp [ν, j.isLt]
    have h2 := hs.span ν (fun w hw => by
      have : f (L w) ∈ (LinearMap.range L).map f := ⟨L w, ⟨w, rfl⟩, rfl⟩
      rw [hf', Submodule.mem_bot, key] at this
      refine Eq.trans (Finset.sum_congr rfl fun j _ => ?_) this
      rw [hν]
      congr 1
      exact (LC.form_zero hw _).symm) (fun j => if hj : j < cs.length then c ⟨j, hj⟩ else 0) (fun μ hμ => by
        refine Eq.trans (Finset.sum_congr rfl fun j _ => ?_) (hc μ hμ)
        simp [j.isLt])
    refine hf ?_
    rw [map_neg, key, neg_eq_zero]
    refine Eq.trans (Finset.sum_congr rfl fun j _ => ?_) h2
    simp [hν, j.isLt]

/-- A combination of constraints, as commitments. -/
theorem sum_commitments {cs : List (LC F)} {n : ℕ} (σ : Assignment F) (g : G) (V : List G) (hl : ∀ lc ∈ cs, ∀ t ∈ lc.terms, t.1.InRange n V.length) (a : ℕ → F) (e : ℕ → F)
    (ha : ∀ w : ℕ → F, (∀ j, V.getD j 0 = 0 → w j = 0) → ∑ j : Fin cs.length, a j * (cs[j]).committedPart w = ∑ m ∈ range V.length, e m * w m) :
    ∑ j : Fin cs.length, a j • (cs[j]).commitment σ g V = (∑ j : Fin cs.length, a j * (cs[j]).value { σ with committed := fun _ => 0 }) • g + ∑ m ∈ range V.length, e m • V.getD m 0 := by
  have h1 : ∀ j : Fin cs.length, a j • (cs[j]).commitment σ g V = (a j * (cs[j]).value { σ with committed := fun _ => 0 }) • g +
      ∑ m ∈ range V.length, (a j * (cs[j]).committedPart (Pi.single m 1)) • V.getD m 0 := fun j => by
    rw [LC.commitment_parts σ g V cs[j] (hl _ (List.getElem_mem _)), smul_add, smul_smul, Finset.smul_sum]
    simp only [smul_smul]
  rw [Finset.sum_congr rfl fun j _ => h1 j, Finset.sum_add_distrib, ← Finset.sum_smul, Finset.sum_comm]
  congr 1
  refine Finset.sum_congr rfl fun m hm => ?_
  rw [← Finset.sum_smul]
  by_cases hz : V.getD m 0 = 0
  · rw [hz, smul_zero, smul_zero]
  · rw [ha (Pi.single m 1) fun j hj => by
      rw [Pi.single_apply, if_neg]
      rintro rfl
      exact hz hj]
    congr 1
    rw [Finset.sum_eq_single m]
    · simp
    · intro b _ hb
      rw [Pi.single_apply, if_neg hb, mul_zero]
    · intro h
      exact absurd hm h

/-! ## Extraction -/

/-- Openings computed from the answers: for the determined commitments, and a solution of all constraints that has these values. -/
theorem extract_openings [DecidableEq G] {k q : ℕ} (t : R1CSTree F G k q) (s s2 : Verifier F G) (g h : G) (Gs Hs : List G) (hN : nextPowerOfTwo s2.numVars = 2 ^ k)
    (hq : s2.constraints.length = q) (hfull : t.Full) (hacc : t.Accepted s s2 g h Gs Hs) (sol : Solver F) (hsol : sol.Solves s2.constraints fun j => s2.V.getD j 0 = 0) :
    t.Breaks s s2 sol g h Gs Hs ∨
    ∃ x : ℕ → F, (t.assignment s.numVars s2.weights s2.numVars x).Gates ∧ (t.assignment s.numVars s2.weights s2.numVars x).Sat s2.constraints ∧ (∀ j, s2.V.getD j 0 = 0 → x j = 0) ∧
      ∀ i, Determined s2.constraints (fun j => s2.V.getD j 0 = 0) i → x i = t.openedValue s s2 sol i ∧
        (i < s2.V.length → s2.V.getD i 0 = t.openedValue s s2 sol i • g + t.openedBlinding s2 sol i • h) := by
  rw [or_iff_not_imp_left]
  intro hr
  have h1 := fun v => (c21_special_soundness t s s2 g h Gs Hs hN hq hfull hacc v).resolve_right fun ⟨ρ, a, b⟩ => hr ⟨ρ, List.mem_append_left _ a, b⟩
  have hin : ∀ lc ∈ s2.constraints, ∀ t ∈ lc.terms, t.1.InRange s2.numVars s2.V.length := by
    obtain ⟨L, R, us, α, β, hp⟩ := (hfull.ipp ⟨0, Nat.two_pow_pos k⟩ 0 0 0 0).path
    exact (Verifier.flattened_ok (hacc.eqs hN hfull hp).2.2.1).1
  obtain ⟨-, h0⟩ := h1 fun _ => 0
  have hsum : ∀ a : ℕ → F, ∑ j : Fin s2.constraints.length, a j • (s2.constraints[j]).commitment (t.assignment s.numVars s2.weights s2.numVars fun _ => 0) g s2.V =
      (∑ j : Fin s2.constraints.length, a j * t.blinding j) • h := fun a => by
    rw [Finset.sum_smul]
    refine Finset.sum_congr rfl fun j _ => ?_
    rw [← smul_smul]
    congr 1
    exact h0 j j.isLt
  have hk : ∀ μ ∈ sol.kernel, ∑ j : Fin s2.constraints.length, μ j * t.constant s s2 j = 0 := by
    intro μ hμ
    by_contra hne
    refine hr ⟨_, List.mem_append_right _ (List.mem_map.mpr ⟨μ, hμ, rfl⟩), fun ht => hne ht.2.2.1, ?_⟩
    have := sum_commitments (t.assignment s.numVars s2.weights s2.numVars fun _ => 0) g s2.V hin μ 0 (fun w hw => by
      rw [hsol.kernel μ hμ w hw]; simp)
    rw [hsum] at this
    simp only [Pi.zero_apply, zero_smul, Finset.sum_const_zero, add_zero] at this
    simp only [GenRep.value, Pi.zero_apply, zero_smul, Finset.sum_const_zero, zero_add, neg_smul]
    rw [this, ← sub_eq_add_neg, sub_eq_zero]
    rfl
  obtain ⟨x, hx0, hx⟩ := hsol.solvable (t.constant s s2) hk
  refine ⟨x, (h1 x).1, fun lc hlc => ?_, hx0, fun i hi => ?_⟩
  · obtain ⟨j, hj, rfl⟩ := List.getElem_of_mem hlc
    rw [LC.value_parts]
    exact hx ⟨j, hj⟩
  · have e : x i = t.openedValue s s2 sol i := by
      rw [← hsol.inverse i hi x hx0, R1CSTree.openedValue, ← Finset.sum_neg_distrib]
      refine Finset.sum_congr rfl fun j _ => ?_
      rw [← mul_neg]
      congr 1
      exact (neg_eq_of_add_eq_zero_right (hx j)).symm
    refine ⟨e, fun hlt => ?_⟩
    have := sum_commitments (t.assignment s.numVars s2.weights s2.numVars fun _ => 0) g s2.V hin (sol.coef i) (Pi.single i 1) (fun w hw => by
      rw [hsol.inverse i hi w hw, Finset.sum_eq_single i]
      · simp
      · intro b _ hb
        rw [Pi.single_apply, if_neg hb, zero_mul]
      · intro h
        exact absurd (Finset.mem_range.mpr hlt) h)
    rw [hsum, Finset.sum_eq_single i (fun b _ hb => by rw [Pi.single_apply, if_neg hb, zero_smul]) (fun h => absurd (Finset.mem_range.mpr hlt) h), Pi.single_eq_same, one_smul] at this
    rw [R1CSTree.openedValue, R1CSTree.openedBlinding, this, neg_smul]
    simp only [R1CSTree.constant]
    have e2 : ∀ (A B : G), B = -A + (A + B) := fun A B => by abel
    exact e2 _ _

/-! ## Statements -/

/-- Changing the committed values along a direction that the constraints do not see. -/
theorem Assignment.sat_add {σ : Assignment F} {cs : List (LC F)} (hs : σ.Sat cs) {w : ℕ → F} (hw : ∀ lc ∈ cs, lc.committedPart w = 0) : ({ σ with committed := σ.committed + w } : Assignment F).Sat cs := by
  intro lc hlc
  have := hs lc hlc
  rw [LC.value_parts] at this ⊢
  simp only [LC.committedPart_add, hw lc hlc, add_zero]
  exact this

variable [ByteRep F] {env : Env F G} {g h : G}

/-- A solution of the final system: all statements are opened. -/
theorem allOpened_of {s2 : Verifier F G} {σ : Assignment F} (hg : σ.Gates) (hsat : σ.Sat s2.constraints) (hz : ∀ j, s2.V.getD j 0 = 0 → σ.committed j = 0) {x r : ℕ → F}
    (hdet : ∀ i, Determined s2.constraints (fun j => s2.V.getD j 0 = 0) i → σ.committed i = x i ∧ (i < s2.V.length → s2.V.getD i 0 = x i • g + r i • h)) :
    ∀ {stmts : List (Stmt F)} {coms : List G} {s s' : Verifier F G}, (∀ st ∈ stmts, st.Ok) →
    totalSize stmts ≤ coms.length → verifyStmts env g h stmts coms s = (.ok (), s') → s'.constraints <+: s2.constraints → s'.V <+: s2.V → AllOpened g h x r s2.V stmts coms
  | [], _, _, _, _, _, _, _, _ => trivial
  | st :: stmts, coms, s, s', hok, hl, hd, e1, e2 => by
    obtain ⟨⟨⟩, s1, h1, hd⟩ := Drv.bind_ok.mp hd
    simp only [totalSize, List.map_cons, List.sum_cons] at hl
    have hl' : totalSize stmts ≤ (coms.drop st.size).length := by rw [List.length_drop, totalSize]; omega
    obtain ⟨b1, b2⟩ := verifyStmts_prefix (fun x hx => hok x (.tail _ hx)) hl' hd
    obtain ⟨statics, points, hst, hs, hp⟩ := st.spec' env g h (hok _ (.head _))
    have ht : (coms.take st.size).length = st.size := by rw [List.length_take]; omega
    obtain ⟨a1, a2, a3⟩ := hs _ _ _ ht h1
    obtain ⟨V', hV⟩ := (a2.trans b2).trans e2
    have hc1 : ∀ lc ∈ s1.constraints, lc ∈ s2.constraints := fun lc hlc => (b1.trans e1).subset hlc
    -- the statics are zero
    have hst0 : ∀ (i : ℕ) y, statics[i]? = some y → s2.V.getD (s.V.length + st.size + i) 0 = 0 ∧ y = 0 := by
      intro i y hy
      obtain ⟨hP, rfl⟩ := hst i y hy
      have hi := (List.getElem?_eq_some_iff.mp hP).1
      refine ⟨?_, rfl⟩
      rw [← hV, List.getD_eq_getElem?_getD, List.getElem?_append_left (by simp only [List.length_append]; omega), List.getElem?_append_right (by simp only [List.length_append]; omega)]
      rw [List.length_append, ht, Nat.add_sub_cancel_left, hP]
      rfl
    have hclaim := a3 σ hg (fun lc hlc => hsat lc (hc1 lc hlc)) fun i y hy => by
      obtain ⟨h1, rfl⟩ := hst0 i y hy
      exact hz _ h1
    refine ⟨fun hb => ⟨s.V.length, _, hclaim, fun i P hP => ?_⟩, ⟨_, hclaim⟩, allOpened_of hg hsat hz hdet (fun x hx => hok x (.tail _ hx)) hl' hd e1 e2⟩
    have hik : i < st.size := ht ▸ (List.getElem?_eq_some_iff.mp hP).1
    have hVi : s2.V[s.V.length + i]? = some P := by
      rw [← hV, List.getElem?_append_left (by simp only [List.length_append]; omega), List.getElem?_append_left (by simp only [List.length_append]; omega), List.getElem?_append_right (by omega), Nat.add_sub_cancel_left, hP]
    obtain ⟨d1, d2⟩ := hdet (s.V.length + i) (fun w hw hw' => by
      have := hp hb ⟨_, hclaim⟩ _ _ _ ht h1 σ { σ with committed := σ.committed + w } ⟨rfl, rfl, rfl⟩ hg hg (fun lc hlc => hsat lc (hc1 lc hlc))
        (Assignment.sat_add (fun lc hlc => hsat lc (hc1 lc hlc)) fun lc hlc => hw' lc (hc1 lc hlc)) (fun i y hy => by
          obtain ⟨h1, rfl⟩ := hst0 i y hy
          exact hz _ h1) (fun i y hy => by
          obtain ⟨h1, rfl⟩ := hst0 i y hy
          simp only [Pi.add_apply]
          rw [hz _ h1, hw _ h1, add_zero]) i hik
      simpa using this)
    refine ⟨hVi, d1, ?_⟩
    have := d2 (List.getElem?_eq_some_iff.mp hVi).1
    rwa [List.getD_eq_getElem?_getD, hVi] at this

end Bp
