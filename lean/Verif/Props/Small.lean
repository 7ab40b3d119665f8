import Verif.Props.LinComb
import Verif.Props.VecPoly

/-! # C02, C12: lengths of simplified combinations, and the polynomials the prover starts with -/

namespace Bp
variable {F : Type} [Field F]

namespace LC

/-- C02: after `simplify` the length (`len`) is the number of different variables of the combination, so it never grows, and simplifying again does not change it. -/
theorem c02_len (ord ord' : List (Var × F) → List (Var × F)) (hord : ∀ l, (ord l).Perm l) (hord' : ∀ l, (ord' l).Perm l) (l : LC F) :
    (l.simplify ord).len = (l.terms.map Prod.fst).toFinset.card ∧ (l.simplify ord).len ≤ l.len ∧ ((l.simplify ord).simplify ord').len = (l.simplify ord).len := by
  have key : ∀ (o : List (Var × F) → List (Var × F)), (∀ l, (o l).Perm l) → ∀ l : LC F, (l.simplify o).len = (l.terms.map Prod.fst).toFinset.card := by
    intro o ho l
    have h1 := c02_simplify_nodup o ho l
    have h2 : ((l.simplify o).terms.map Prod.fst).toFinset = (l.terms.map Prod.fst).toFinset := by
      ext v
      simp only [List.mem_toFinset]
      exact c02_simplify_vars o ho l v
    rw [← h2, List.toFinset_card_of_nodup h1, List.length_map]
    rfl
  refine ⟨key ord hord l, ?_, ?_⟩
  · rw [key ord hord l]
    exact (List.toFinset_card_le _).trans (by rw [List.length_map]; rfl)
  · rw [key ord' hord', List.toFinset_card_of_nodup (c02_simplify_nodup ord hord l), List.length_map]
    rfl

/-- `3 x + 4 y + 5 x` has three terms, two after simplification. -/
example : ((⟨[(.committed 0, 3), (.committed 1, 4), (.committed 0, 5)]⟩ : LC ℚ).simplify id).len = 2 ∧ (⟨[(.committed 0, 3), (.committed 1, 4), (.committed 0, 5)]⟩ : LC ℚ).len = 3 :=
  ⟨((c02_len id id (fun _ => .refl _) (fun _ => .refl _) _).1).trans (by decide), rfl⟩

end LC

theorem mapM_replicate {α : Type} {n : ℕ} {f : ℕ → Res α} {c : α} (h : ∀ i < n, f i = .ok c) : (List.range n).mapM f = .ok (List.replicate n c) := by
  induction n with
  | zero => rfl
  | succ n ih =>
    rw [List.range_succ, List.mapM_append, ih fun i hi => h i (by omega)]
    simp [h n (by omega), List.replicate_succ', bind, Except.bind, pure, Except.pure]

/-- C12: the polynomials `VecPoly1::zero` and `VecPoly3::zero` are zero vectors of the given length at every point. -/
theorem c12_zero (n : ℕ) (x : F) : (VecPoly1.zero n : VecPoly1 F).eval x = .ok (List.replicate n 0) ∧ (VecPoly3.zero n : VecPoly3 F).eval x = .ok (List.replicate n 0) := by
  constructor
  · unfold VecPoly1.eval VecPoly1.zero
    simp only [List.length_replicate]
    exact mapM_replicate fun i hi => by simp [idx, hi, bind, Except.bind, pure, Except.pure]
  · unfold VecPoly3.eval VecPoly3.zero
    simp only [List.length_replicate]
    exact mapM_replicate fun i hi => by simp [idx, hi, bind, Except.bind, pure, Except.pure]

/-- C12: a polynomial that is zero wherever the prover has not written, as after `zero`, is fit for `special_inner_product`: the product of the zero polynomial with any polynomial is zero. -/
theorem c12_zero_product (n : ℕ) (r : VecPoly3 F) (k0 : r.c0.length = n) (k1 : r.c1.length = n) (k2 : r.c2 = List.replicate n 0) (k3 : r.c3.length = n) :
    ∃ t, VecPoly3.specialInnerProduct (VecPoly3.zero n) r = .ok t ∧ ∀ x, t.eval x = 0 := by
  obtain ⟨t, ht, hx⟩ := c12_special_inner_product (VecPoly3.zero n) r n rfl (by simp [VecPoly3.zero]) (by simp [VecPoly3.zero]) (by simp [VecPoly3.zero]) k0 k1 k2 k3
  refine ⟨t, ht, fun x => ?_⟩
  obtain ⟨lx, rx, h1, h2, h3⟩ := hx x
  rw [(c12_zero n x).2] at h1
  obtain rfl := Except.ok.inj h1
  have z : ∀ (j : ℕ) (b : List F), dot (List.replicate j (0 : F)) b = 0 := by
    intro j
    induction j with
    | zero => simp
    | succ j ih =>
      intro b
      cases b with
      | nil => simp [dot]
      | cons y b => simp [List.replicate_succ, ih b]
  unfold innerProduct at h3
  split at h3
  · rw [← Except.ok.inj h3, z]
  · simp [Res.panic, Res.err] at h3

example : ∃ t : Poly6 ℚ, VecPoly3.specialInnerProduct (VecPoly3.zero 2) ⟨[1, 2], [3, 4], [0, 0], [5, 6]⟩ = .ok t ∧ ∀ x, t.eval x = 0 :=
  c12_zero_product 2 ⟨[1, 2], [3, 4], [0, 0], [5, 6]⟩ rfl rfl rfl rfl

end Bp
