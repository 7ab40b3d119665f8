import Verif.Lemmas.ExtractR1CS2
import Verif.Props.Soundness

/-! # C21: special soundness of the R1CS argument -/

set_option linter.unusedSectionVars false

namespace Bp
variable {F G : Type} [Field F] [AddCommGroup G] [Module F G]
open Finset

theorem IppTree.Full.path : ∀ {k : ℕ} {t : IppTree F G}, t.Full k → ∃ L R us a b, t.Path L R us a b
  | 0, .leaf a b, _ => ⟨_, _, _, _, _, .leaf a b⟩
  | k + 1, .node _ _ _ next, h => by
    obtain ⟨L, R, us, a, b, hp⟩ := IppTree.Full.path (h.2.2 0)
    exact ⟨_, _, _, _, _, .node 0 hp⟩
  | 0, .node _ _ _ _, h => h.elim
  | k + 1, .leaf _ _, h => h.elim

theorem Verifier.weights_eq {s : Verifier F G} {z : F} {wt : Weights F} (h : s.flattenedConstraints z = .ok wt) : s.weights z = wt := by
  rw [Verifier.weights, h]

section bridge
variable [DecidableEq G] {k q : ℕ} {t : R1CSTree F G k q} {s s2 : Verifier F G} {g h : G} {Gs Hs : List G}

/-- What acceptance on a branch means. -/
theorem R1CSTree.Accepted.eqs (hN : nextPowerOfTwo s2.numVars = 2 ^ k) (hf : t.Full) (hacc : t.Accepted s s2 g h Gs Hs) {a : Fin (2 ^ k)} {b : Fin (q + 1)} {c : Fin 5} {d : Fin 6} {e : Fin 2}
    {L R : List G} {us : List F} {α β : F} (hp : (((((t.ys a).zs b).us c).xs d).ipp e).Path L R us α β) :
    2 ^ k ≤ Gs.length ∧ 2 ^ k ≤ Hs.length ∧ s2.flattenedConstraints ((t.ys a).zs b).z = .ok (s2.weights ((t.ys a).zs b).z) ∧
      polyCheck s2.V (t.proof a b c d ⟨L, R, α, β⟩) g h (s2.weights ((t.ys a).zs b).z) s2.numVars (t.chals a b c d e) = 0 ∧
      ippCheck s.numVars (2 ^ k) (t.proof a b c d ⟨L, R, α, β⟩) g h (Gs.take (2 ^ k)) (Hs.take (2 ^ k)) (s2.weights ((t.ys a).zs b).z) (t.chals a b c d e) us = 0 := by
  obtain ⟨env, r, r', T, T', hr, h1, h2, h3, h4, h5, h6⟩ := hacc _ _ _ _ _ _ _ _ _ _ hp
  obtain ⟨l1, l2, l3, l4⟩ := hp.length (hf.ipp a b c d e)
  obtain ⟨s2', wt', k', i1, i2, -, i4, i5, -⟩ := verify_inv h5
  obtain rfl : s2 = s2' := by rw [h1] at i1; exact Except.ok.inj i1
  obtain ⟨s2', wt, j1, j2, j3, j4⟩ := c20_two_scalars env s _ g h Gs Hs r r' hr T T' h5 h6 (by
    intro s2' hs2'
    obtain rfl : s2 = s2' := by rw [h1] at hs2'; exact Except.ok.inj hs2'
    rw [hN, h3]; exact l4) (h4.imp (fun hk => by intro hn; exact hk (by rw [← l1]; show L.length = 0; rw [show L = [] from hn]; rfl)) id)
  obtain rfl : s2 = s2' := by rw [h1] at j1; exact Except.ok.inj j1
  rw [h2] at j2 j3 j4
  rw [hN, h3] at j4
  have hz : (t.chals a b c d e).z = ((t.ys a).zs b).z := rfl
  rw [hz] at j2
  rw [Verifier.weights_eq j2]
  refine ⟨by rw [← hN, i2]; exact i4, by rw [← hN, i2]; exact i5, j2, j3, j4⟩

theorem R1CSTree.Accepted.poly (hN : nextPowerOfTwo s2.numVars = 2 ^ k) (hf : t.Full) (hacc : t.Accepted s s2 g h Gs Hs) : t.PolyOk s2.weights s2.numVars s2.V g h := by
  intro a b c d
  obtain ⟨L, R, us, α, β, hp⟩ := (hf.ipp a b c d 0).path
  obtain ⟨-, -, -, h1, -⟩ := hacc.eqs hN hf hp
  unfold polyCheck at h1
  rw [sub_eq_zero] at h1
  refine Eq.trans h1.symm ?_
  simp only [proof, chals]
  module

theorem ippG_getD (n1 N : ℕ) (u : F) (GN : List G) (hl : GN.length = N) (i : ℕ) (hi : i < N) : (ippG n1 N u GN).getD i 0 = ufac n1 u i • GN.getD i 0 := by
  rw [ippG, scaled_getD (n := N) (by simp) hl i hi, getD_map_range, if_pos hi]
theorem ippH_getD (n1 N : ℕ) (u y : F) (HN : List G) (hl : HN.length = N) (i : ℕ) (hi : i < N) : (ippH n1 N u y HN).getD i 0 = (vpow y⁻¹ i * ufac n1 u i) • HN.getD i 0 := by
  rw [ippH, scaled_getD (n := N) (by simp) hl i hi, getD_map_range, if_pos hi]

theorem foldAll_sum {k : ℕ} (us : List F) (gs : List G) (hu : us.length = k) (hl : gs.length = 2 ^ k) : foldAll us gs = ∑ i ∈ range (2 ^ k), foldCoeff us i • gs.getD i 0 := by
  rw [← msm_sVec _ _ (by rw [hl, hu]), sVec_eq, hu, msm_map_range _ _ _ hl]

theorem R1CSTree.Accepted.ipp (hN : nextPowerOfTwo s2.numVars = 2 ^ k) (hf : t.Full) (hacc : t.Accepted s s2 g h Gs Hs) :
    t.IppOk s.numVars s2.weights g h (fun i => (Gs.take (2 ^ k)).getD i 0) (fun i => (Hs.take (2 ^ k)).getD i 0) := by
  intro a b c d e y wt u f Ls Rs us α β hp
  obtain ⟨h1, h2, -, -, h3⟩ := hacc.eqs hN hf hp
  obtain ⟨l1, l2, l3, l4⟩ := hp.length (hf.ipp a b c d e)
  have lG : (Gs.take (2 ^ k)).length = 2 ^ k := by rw [List.length_take]; omega
  have lH : (Hs.take (2 ^ k)).length = 2 ^ k := by rw [List.length_take]; omega
  unfold ippCheck at h3
  rw [sub_eq_zero, foldAll_sum (k := k) us _ l3 (by simp [ippG, scaled, lG]), foldAll_sum (k := k) _ _ (by simpa using l3) (by simp [ippH, scaled, lH])] at h3
  have eG : ∑ i ∈ range (2 ^ k), foldCoeff us i • (ippG s.numVars (2 ^ k) (t.chals a b c d e).u (Gs.take (2 ^ k))).getD i 0 = ∑ i ∈ range (2 ^ k), foldCoeff us i • ufac s.numVars u i • (Gs.take (2 ^ k)).getD i 0 :=
    Finset.sum_congr rfl fun i hi => by rw [ippG_getD _ _ _ _ lG i (Finset.mem_range.mp hi)]; rfl
  have eH : ∑ i ∈ range (2 ^ k), foldCoeff (us.map (·⁻¹)) i • (ippH s.numVars (2 ^ k) (t.chals a b c d e).u (t.chals a b c d e).y (Hs.take (2 ^ k))).getD i 0 =
      ∑ i ∈ range (2 ^ k), foldCoeff (us.map (·⁻¹)) i • (vpow y⁻¹ i * ufac s.numVars u i) • (Hs.take (2 ^ k)).getD i 0 :=
    Finset.sum_congr rfl fun i hi => by rw [ippH_getD _ _ _ _ _ lH i (Finset.mem_range.mp hi)]; rfl
  rw [eG, eH] at h3
  refine Eq.trans ?_ h3
  congr 3
  simp only [ippPoint, proof, chals, comb3, ippPoint.y]
  congr 3
  module

end bridge

/-- **C21**: special soundness.  Let a prover, rewound with enough different challenges (`2^k` values of `y`, one more `z` than there are constraints, five `u`, six `x`, two `w`, four in each round of the inner-product
argument, two `r`), make the verifier accept every time.  Then the wire values extracted from its answers satisfy every multiplication gate and every constraint, in the form of a commitment to zero; or one of finitely many
computed relations is a non-trivial linear relation between the generators. -/
theorem c21_special_soundness [DecidableEq G] {k q : ℕ} (t : R1CSTree F G k q) (s s2 : Verifier F G) (g h : G) (Gs Hs : List G) (hN : nextPowerOfTwo s2.numVars = 2 ^ k)
    (hq : s2.constraints.length = q) (hfull : t.Full) (hacc : t.Accepted s s2 g h Gs Hs) (v : ℕ → F) :
    ((t.assignment s.numVars s2.weights s2.numVars v).Gates ∧
      ∀ j (hj : j < s2.constraints.length), (s2.constraints[j]).commitment (t.assignment s.numVars s2.weights s2.numVars v) g s2.V = t.blinding j • h) ∨
    ∃ ρ ∈ t.relations s.numVars s2.weights, ¬ ρ.Trivial (2 ^ k) ∧ ρ.value (2 ^ k) g h (Gs.take (2 ^ k)) (Hs.take (2 ^ k)) = 0 := by
  by_cases hr : ∃ ρ ∈ t.relations s.numVars s2.weights, ¬ ρ.Trivial (2 ^ k) ∧ ρ.value (2 ^ k) g h (Gs.take (2 ^ k)) (Hs.take (2 ^ k)) = 0
  · exact .inr hr
  · left
    have hn : s2.numVars ≤ 2 ^ k := hN ▸ nextPowerOfTwo_ge _
    obtain ⟨h1, h2⟩ := R1CSTree.extract_all s2 hn hq hfull (fun a b => by
        obtain ⟨L, R, us, α, β, hp⟩ := (hfull.ipp a b 0 0 0).path
        exact (hacc.eqs hN hfull hp).2.2.1) (hacc.ipp hN hfull) (hacc.poly hN hfull) (fun ρ hρ h0 => by
        by_contra hn
        exact hr ⟨ρ, hρ, hn, h0⟩) v
    refine ⟨fun i => ?_, h2⟩
    simp only [R1CSTree.assignment]
    split
    · exact h1 i (by omega)
    · simp

/-! ## With openings of the commitments -/

/-- With openings of the commitments, a constraint as a commitment opens to its value. -/
theorem LC.commitment_open {σ : Assignment F} {n : ℕ} {l : LC F} {g h : G} {V : List G} (hl : ∀ t ∈ l.terms, t.1.InRange n V.length) (r : ℕ → F) (hV : ∀ j < V.length, V.getD j 0 = σ.committed j • g + r j • h) :
    l.commitment σ g V = l.value σ • g + l.committedPart r • h := by
  unfold LC.value LC.committedPart LC.commitment
  generalize l.terms = ts at *
  induction ts with
  | nil => simp
  | cons t ts ih =>
    simp only [List.map_cons, List.sum_cons, add_smul]
    rw [ih fun t ht => hl t (List.mem_cons_of_mem _ ht)]
    have h0 := hl t List.mem_cons_self
    rcases t with ⟨x, c⟩
    cases x with
    | committed j =>
      simp only [Var.InRange] at h0
      simp only [Assignment.commit, Assignment.val, hV j h0]
      module
    | _ => simp only [Assignment.commit, Assignment.val]; module

/-- **C21**, with openings `V_j = v_j g + r_j h` of the commitments: the extracted wires and the opened values satisfy every gate and every constraint, or there is a non-trivial relation
in an explicit finite list. -/
theorem c21_openings [DecidableEq G] {k q : ℕ} (t : R1CSTree F G k q) (s s2 : Verifier F G) (g h : G) (Gs Hs : List G) (hN : nextPowerOfTwo s2.numVars = 2 ^ k)
    (hq : s2.constraints.length = q) (hfull : t.Full) (hacc : t.Accepted s s2 g h Gs Hs) (v r : ℕ → F) (hV : ∀ j < s2.V.length, s2.V.getD j 0 = v j • g + r j • h) :
    ((t.assignment s.numVars s2.weights s2.numVars v).Gates ∧ (t.assignment s.numVars s2.weights s2.numVars v).Sat s2.constraints) ∨
    ∃ ρ ∈ t.relations s.numVars s2.weights ++ t.openRelations s.numVars s2.numVars s2.weights s2.constraints v r,
      ¬ ρ.Trivial (2 ^ k) ∧ ρ.value (2 ^ k) g h (Gs.take (2 ^ k)) (Hs.take (2 ^ k)) = 0 := by
  rcases c21_special_soundness t s s2 g h Gs Hs hN hq hfull hacc v with ⟨h1, h2⟩ | ⟨ρ, h1, h2⟩
  · by_cases hs : (t.assignment s.numVars s2.weights s2.numVars v).Sat s2.constraints
    · exact .inl ⟨h1, hs⟩
    · right
      simp only [Assignment.Sat, not_forall] at hs
      obtain ⟨lc, hlc, hne⟩ := hs
      obtain ⟨j, hj, rfl⟩ := List.getElem_of_mem hlc
      refine ⟨_, List.mem_append_right _ (List.mem_map.mpr ⟨⟨j, hj⟩, List.mem_finRange _, rfl⟩), fun ht => hne ht.2.2.1, ?_⟩
      have hin : ∀ t ∈ (s2.constraints[j]).terms, t.1.InRange s2.numVars s2.V.length := by
        obtain ⟨L, R, us, α, β, hp⟩ := (hfull.ipp ⟨0, Nat.two_pow_pos k⟩ 0 0 0 0).path
        exact (Verifier.flattened_ok (hacc.eqs hN hfull hp).2.2.1).1 _ (List.getElem_mem _)
      have := h2 j hj
      rw [LC.commitment_open hin r (by intro j hj; rw [hV j hj]; rfl)] at this
      simp only [GenRep.value, Pi.zero_apply, zero_smul, Finset.sum_const_zero, zero_add, sub_smul]
      rw [← add_sub_assoc, this, sub_self]
  · exact .inr ⟨ρ, List.mem_append_left _ h1, h2⟩

/-- Independent generators admit no non-trivial relation. -/
theorem Independent.no_gen_relation {n : ℕ} {g h : G} {Gs Hs : List G} (h1 : Gs.length = n) (h2 : Hs.length = n) (hi : Independent F (Gs ++ Hs ++ [g, h])) (ρ : GenRep F) (hv : ρ.value n g h Gs Hs = 0) : ρ.Trivial n := by
  have hl : (Gs ++ Hs ++ [g, h]).length = n + n + 1 + 1 := by simp [h1, h2]; omega
  have key := hi (fun i => if i < n then ρ.1 i else if i < n + n then ρ.2.1 (i - n) else if i < n + n + 1 then ρ.2.2.1 else ρ.2.2.2) (by
    refine Eq.trans ?_ hv
    rw [hl, Finset.sum_range_succ, Finset.sum_range_succ, Finset.sum_range_add, GenRep.value]
    congr 1
    · congr 1
      · congr 1
        · refine Finset.sum_congr rfl fun i hi => ?_
          have hi := Finset.mem_range.mp hi
          rw [if_pos hi, getD_append, if_pos (by simp; omega), getD_append, if_pos (by omega)]
        · refine Finset.sum_congr rfl fun i hi => ?_
          have hi := Finset.mem_range.mp hi
          rw [if_neg (by omega), if_pos (by omega), Nat.add_sub_cancel_left, getD_append, if_pos (by simp; omega), getD_append, if_neg (by omega), h1, Nat.add_sub_cancel_left]
      · rw [if_neg (by omega), if_neg (by omega), if_pos (by omega), getD_append, if_neg (by simp; omega)]
        simp [h1, h2]
    · rw [if_neg (by omega), if_neg (by omega), if_neg (by omega), getD_append, if_neg (by simp; omega)]
      simp [h1, h2])
  rw [hl] at key
  refine ⟨fun i hi => ?_, fun i hi => ?_, ?_, ?_⟩
  · have := key i (by omega)
    simpa only [if_pos hi] using this
  · have := key (n + i) (by omega)
    rwa [if_neg (by omega), if_pos (by omega), Nat.add_sub_cancel_left] at this
  · have := key (n + n) (by omega)
    simpa using this
  · have := key (n + n + 1) (by omega)
    rwa [if_neg (by omega), if_neg (by omega), if_neg (by omega)] at this

/-- **C21**, for generators without linear relations: there are wire values that, together with any opening of the commitments, satisfy every gate and every constraint. -/
theorem c21_independent [DecidableEq G] {k q : ℕ} (t : R1CSTree F G k q) (s s2 : Verifier F G) (g h : G) (Gs Hs : List G) (hN : nextPowerOfTwo s2.numVars = 2 ^ k)
    (hq : s2.constraints.length = q) (hfull : t.Full) (hacc : t.Accepted s s2 g h Gs Hs) (hind : Independent F (Gs.take (2 ^ k) ++ Hs.take (2 ^ k) ++ [g, h])) :
    ∃ σ : Assignment F, σ.Gates ∧ (∀ lc ∈ s2.constraints, ∃ β : F, lc.commitment σ g s2.V = β • h) ∧
      ∀ v r : ℕ → F, (∀ j < s2.V.length, s2.V.getD j 0 = v j • g + r j • h) → ({ σ with committed := v } : Assignment F).Sat s2.constraints := by
  have hl : 2 ^ k ≤ Gs.length ∧ 2 ^ k ≤ Hs.length := by
    obtain ⟨L, R, us, α, β, hp⟩ := (hfull.ipp ⟨0, Nat.two_pow_pos k⟩ 0 0 0 0).path
    exact ⟨(hacc.eqs hN hfull hp).1, (hacc.eqs hN hfull hp).2.1⟩
  have hno : ∀ ρ : GenRep F, ρ.value (2 ^ k) g h (Gs.take (2 ^ k)) (Hs.take (2 ^ k)) = 0 → ρ.Trivial (2 ^ k) := fun ρ hv =>
    hind.no_gen_relation (by rw [List.length_take]; omega) (by rw [List.length_take]; omega) ρ hv
  refine ⟨t.assignment s.numVars s2.weights s2.numVars fun _ => 0, ?_, ?_, fun v r hV => ?_⟩
  · rcases c21_special_soundness t s s2 g h Gs Hs hN hq hfull hacc fun _ => 0 with ⟨h1, -⟩ | ⟨ρ, -, h2, h3⟩
    · exact h1
    · exact absurd (hno ρ h3) h2
  · rcases c21_special_soundness t s s2 g h Gs Hs hN hq hfull hacc fun _ => 0 with ⟨-, h1⟩ | ⟨ρ, -, h2, h3⟩
    · intro lc hlc
      obtain ⟨j, hj, rfl⟩ := List.getElem_of_mem hlc
      exact ⟨_, h1 j hj⟩
    · exact absurd (hno ρ h3) h2
  · rcases c21_openings t s s2 g h Gs Hs hN hq hfull hacc v r hV with ⟨-, h1⟩ | ⟨ρ, -, h2, h3⟩
    · exact h1
    · exact absurd (hno ρ h3) h2

/-- **C21**: the coefficients from which the first-phase wires are read off represent `A_I1` and `A_O1`, and those of the second phase `A_I2` and `A_O2`. -/
theorem c21_wires_of_commitments [DecidableEq G] {k q : ℕ} (t : R1CSTree F G k q) (s s2 : Verifier F G) (g h : G) (Gs Hs : List G) (hN : nextPowerOfTwo s2.numVars = 2 ^ k)
    (hfull : t.Full) (hacc : t.Accepted s s2 g h Gs Hs) :
    (t.phase1 s.numVars s2.weights 0).value (2 ^ k) g h (Gs.take (2 ^ k)) (Hs.take (2 ^ k)) = t.A_I1 ∧
    (t.phase1 s.numVars s2.weights 1).value (2 ^ k) g h (Gs.take (2 ^ k)) (Hs.take (2 ^ k)) = t.A_O1 ∧
    (t.phase2 s.numVars s2.weights 0).value (2 ^ k) g h (Gs.take (2 ^ k)) (Hs.take (2 ^ k)) = t.A_I2 ∧
    (t.phase2 s.numVars s2.weights 1).value (2 ^ k) g h (Gs.take (2 ^ k)) (Hs.take (2 ^ k)) = t.A_O2 := by
  have h0 := R1CSTree.phase_val hfull (hacc.ipp hN hfull) 0 (by decide)
  have h1 := R1CSTree.phase_val hfull (hacc.ipp hN hfull) 1 (by decide)
  exact ⟨h0.1, h1.1, h0.2, h1.2⟩

/-- **C21**: the first-phase wires are fixed before the randomizing challenges: two trees with the same first-phase commitments (but possibly different second phases) give the same first-phase wires, or a
non-trivial relation. -/
theorem c21_first_phase_fixed [DecidableEq G] {k q q' : ℕ} (t : R1CSTree F G k q) (t' : R1CSTree F G k q') (s s2 s' s2' : Verifier F G) (g h : G) (Gs Hs : List G)
    (hN : nextPowerOfTwo s2.numVars = 2 ^ k) (hN' : nextPowerOfTwo s2'.numVars = 2 ^ k) (hfull : t.Full) (hfull' : t'.Full) (hacc : t.Accepted s s2 g h Gs Hs) (hacc' : t'.Accepted s' s2' g h Gs Hs)
    (hn : s'.numVars = s.numVars) (hI : t'.A_I1 = t.A_I1) (hO : t'.A_O1 = t.A_O1) :
    (∀ i < s.numVars, i < 2 ^ k → t.left s.numVars s2.weights i = t'.left s'.numVars s2'.weights i ∧ t.right s.numVars s2.weights i = t'.right s'.numVars s2'.weights i ∧
      t.out s.numVars s2.weights i = t'.out s'.numVars s2'.weights i) ∨
    ∃ ρ ∈ [t.phase1 s.numVars s2.weights 0 - t'.phase1 s'.numVars s2'.weights 0, t.phase1 s.numVars s2.weights 1 - t'.phase1 s'.numVars s2'.weights 1],
      ¬ ρ.Trivial (2 ^ k) ∧ ρ.value (2 ^ k) g h (Gs.take (2 ^ k)) (Hs.take (2 ^ k)) = 0 := by
  obtain ⟨a1, a2, -⟩ := c21_wires_of_commitments t s s2 g h Gs Hs hN hfull hacc
  obtain ⟨b1, b2, -⟩ := c21_wires_of_commitments t' s' s2' g h Gs Hs hN' hfull' hacc'
  rw [GenRep.value_eq] at a1 a2 b1 b2
  by_cases hT : (t.phase1 s.numVars s2.weights 0 - t'.phase1 s'.numVars s2'.weights 0).Trivial (2 ^ k)
  · by_cases hT' : (t.phase1 s.numVars s2.weights 1 - t'.phase1 s'.numVars s2'.weights 1).Trivial (2 ^ k)
    · refine .inl fun i hi hk => ⟨?_, ?_, ?_⟩
      · simpa only [R1CSTree.left, hn, if_pos hi] using sub_eq_zero.mp (hT.1 i hk)
      · simpa only [R1CSTree.right, hn, if_pos hi] using sub_eq_zero.mp (hT.2.1 i hk)
      · simpa only [R1CSTree.out, hn, if_pos hi] using sub_eq_zero.mp (hT'.1 i hk)
    · refine .inr ⟨_, List.mem_cons_of_mem _ List.mem_cons_self, hT', ?_⟩
      rw [GenRep.value_eq, map_sub, a2, b2, hO, sub_self]
  · refine .inr ⟨_, List.mem_cons_self, hT, ?_⟩
    rw [GenRep.value_eq, map_sub, a1, b1, hI, sub_self]

end Bp
