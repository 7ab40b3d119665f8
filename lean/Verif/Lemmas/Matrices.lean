import Verif.Model.Matrices
import Verif.Lemmas.Flatten

/-! # Lemmas: the weight matrices -/

namespace Bp
variable {F G : Type} [Field F] [AddCommGroup G] [Module F G]

open Finset

/-- The row with the sign of the flattened weights. -/
def Weights.flip (w : Weights F) : Weights F := { w with wV := w.wV.map fun x => -x }

/-- The entry of a variable. -/
def Weights.entry (w : Weights F) : Var → F
  | .left i => w.wL.getD i 0
  | .right i => w.wR.getD i 0
  | .out i => w.wO.getD i 0
  | .committed i => w.wV.getD i 0
  | .one => 0

omit [AddCommGroup G] [Module F G] in
theorem setAt_ok {xs ys : List F} {i : ℕ} {c : F} (h : setAt xs i c = .ok ys) : i < xs.length ∧ ys = xs.set i c := by
  unfold setAt at h
  by_cases hi : i < xs.length
  · simp only [List.getElem?_eq_getElem hi, Except.ok.injEq] at h
    exact ⟨hi, h.symm⟩
  · rw [List.getElem?_eq_none (by omega)] at h
    cases h

theorem setAt_of_lt {xs : List F} {i : ℕ} (c : F) (hi : i < xs.length) : setAt xs i c = .ok (xs.set i c) := by
  simp [setAt, List.getElem?_eq_getElem hi]

theorem getD_map_neg (xs : List F) (i : ℕ) : (xs.map fun x => -x).getD i 0 = -xs.getD i 0 := by
  simp only [List.getD_eq_getElem?_getD, List.getElem?_map]
  cases xs[i]? <;> simp

theorem set_map_neg (xs : List F) (i : ℕ) (c : F) : (xs.set i c).map (fun x => -x) = (xs.map fun x => -x).set i (-c) := by
  rw [List.map_set]

/-- Where the entry is 0, assigning is adding. -/
theorem rowTerm_adds {w w' : Weights F} {t : Var × F} (h0 : w.entry t.1 = 0) (h : rowTerm w t = .ok w') : Verifier.flattenTerm 1 w.flip t = .ok w'.flip ∧ ∀ v, v ≠ t.1 → w'.entry v = w.entry v := by
  obtain ⟨v, c⟩ := t
  cases v with
  | one =>
    simp only [rowTerm, Except.ok.injEq] at h
    subst h
    refine ⟨by simp [Verifier.flattenTerm, Weights.flip], fun v hv => ?_⟩
    cases v <;> rfl
  | left i =>
    simp only [rowTerm, bind, Except.bind, pure, Except.pure] at h
    cases hs : setAt w.wL i c with
    | error e => rw [hs] at h; cases h
    | ok ys =>
      rw [hs] at h
      simp only [Except.ok.injEq] at h
      subst h
      obtain ⟨hi, rfl⟩ := setAt_ok hs
      simp only [Weights.entry] at h0
      refine ⟨?_, fun v hv => ?_⟩
      · simp only [Verifier.flattenTerm, Weights.flip, addAt_of_lt _ hi, h0, one_mul, zero_add]; rfl
      · cases v with
        | left j =>
          have : i ≠ j := fun e => hv (by rw [e])
          simp [Weights.entry, List.getD_eq_getElem?_getD, List.getElem?_set_ne this]
        | _ => rfl
  | right i =>
    simp only [rowTerm, bind, Except.bind, pure, Except.pure] at h
    cases hs : setAt w.wR i c with
    | error e => rw [hs] at h; cases h
    | ok ys =>
      rw [hs] at h
      simp only [Except.ok.injEq] at h
      subst h
      obtain ⟨hi, rfl⟩ := setAt_ok hs
      simp only [Weights.entry] at h0
      refine ⟨?_, fun v hv => ?_⟩
      · simp only [Verifier.flattenTerm, Weights.flip, addAt_of_lt _ hi, h0, one_mul, zero_add]; rfl
      · cases v with
        | right j =>
          have : i ≠ j := fun e => hv (by rw [e])
          simp [Weights.entry, List.getD_eq_getElem?_getD, List.getElem?_set_ne this]
        | _ => rfl
  | out i =>
    simp only [rowTerm, bind, Except.bind, pure, Except.pure] at h
    cases hs : setAt w.wO i c with
    | error e => rw [hs] at h; cases h
    | ok ys =>
      rw [hs] at h
      simp only [Except.ok.injEq] at h
      subst h
      obtain ⟨hi, rfl⟩ := setAt_ok hs
      simp only [Weights.entry] at h0
      refine ⟨?_, fun v hv => ?_⟩
      · simp only [Verifier.flattenTerm, Weights.flip, addAt_of_lt _ hi, h0, one_mul, zero_add]; rfl
      · cases v with
        | out j =>
          have : i ≠ j := fun e => hv (by rw [e])
          simp [Weights.entry, List.getD_eq_getElem?_getD, List.getElem?_set_ne this]
        | _ => rfl
  | committed i =>
    simp only [rowTerm, bind, Except.bind, pure, Except.pure] at h
    cases hs : setAt w.wV i c with
    | error e => rw [hs] at h; cases h
    | ok ys =>
      rw [hs] at h
      simp only [Except.ok.injEq] at h
      subst h
      obtain ⟨hi, rfl⟩ := setAt_ok hs
      simp only [Weights.entry] at h0
      refine ⟨?_, fun v hv => ?_⟩
      · simp only [Verifier.flattenTerm, Weights.flip, addAt_of_lt _ (show i < (w.wV.map fun x => -x).length by simpa using hi), getD_map_neg, h0, neg_zero, one_mul, zero_add, set_map_neg]; rfl
      · cases v with
        | committed j =>
          have : i ≠ j := fun e => hv (by rw [e])
          simp [Weights.entry, List.getD_eq_getElem?_getD, List.getElem?_set_ne this]
        | _ => rfl

theorem rowTerms_add : ∀ (ts : List (Var × F)) {w w' : Weights F}, (ts.map Prod.fst).Nodup → (∀ t ∈ ts, w.entry t.1 = 0) → ts.foldlM rowTerm w = .ok w' → ts.foldlM (Verifier.flattenTerm 1) w.flip = .ok w'.flip
  | [], w, w', _, _, h => by
    simp only [List.foldlM_nil, pure, Except.pure, Except.ok.injEq] at h ⊢
    rw [h]
  | t :: ts, w, w', hn, h0, h => by
    simp only [List.map_cons, List.nodup_cons] at hn
    simp only [List.foldlM_cons, bind, Except.bind] at h ⊢
    cases hr : rowTerm w t with
    | error e => rw [hr] at h; cases h
    | ok w1 =>
      rw [hr] at h
      simp only at h
      obtain ⟨h1, h2⟩ := rowTerm_adds (h0 t List.mem_cons_self) hr
      rw [h1]
      refine rowTerms_add ts hn.2 (fun t' ht' => ?_) h
      rw [h2 _ fun e => hn.1 (e ▸ List.mem_map_of_mem ht')]
      exact h0 t' (List.mem_cons_of_mem _ ht')

theorem rowTerm_of_inRange {w : Weights F} {t : Var × F} {n m : ℕ} (hl : w.Len n m) : (∃ w', rowTerm w t = .ok w') ↔ t.1.InRange n m := by
  obtain ⟨v, c⟩ := t
  obtain ⟨hL, hR, hO, hV⟩ := hl
  have key : ∀ (xs : List F) (i : ℕ), (∃ ys, setAt xs i c = .ok ys) ↔ i < xs.length := fun xs i => ⟨fun ⟨ys, h⟩ => (setAt_ok h).1, fun h => ⟨_, setAt_of_lt c h⟩⟩
  cases v with
  | one => exact ⟨fun _ => trivial, fun _ => ⟨_, rfl⟩⟩
  | left i =>
    rw [show Var.InRange n m (Var.left i) ↔ i < w.wL.length by rw [hL]; rfl, ← key]
    simp only [rowTerm]
    cases setAt w.wL i c <;> simp [bind, Except.bind, pure, Except.pure]
  | right i =>
    rw [show Var.InRange n m (Var.right i) ↔ i < w.wR.length by rw [hR]; rfl, ← key]
    simp only [rowTerm]
    cases setAt w.wR i c <;> simp [bind, Except.bind, pure, Except.pure]
  | out i =>
    rw [show Var.InRange n m (Var.out i) ↔ i < w.wO.length by rw [hO]; rfl, ← key]
    simp only [rowTerm]
    cases setAt w.wO i c <;> simp [bind, Except.bind, pure, Except.pure]
  | committed i =>
    rw [show Var.InRange n m (Var.committed i) ↔ i < w.wV.length by rw [hV]; rfl, ← key]
    simp only [rowTerm]
    cases setAt w.wV i c <;> simp [bind, Except.bind, pure, Except.pure]

theorem rowTerm_len {w w' : Weights F} {t : Var × F} {n m : ℕ} (hl : w.Len n m) (h : rowTerm w t = .ok w') : w'.Len n m := by
  obtain ⟨v, c⟩ := t
  obtain ⟨hL, hR, hO, hV⟩ := hl
  cases v with
  | one =>
    simp only [rowTerm, Except.ok.injEq] at h
    subst h; exact ⟨hL, hR, hO, hV⟩
  | left i =>
    simp only [rowTerm, bind, Except.bind, pure, Except.pure] at h
    cases hs : setAt w.wL i c with
    | error e => rw [hs] at h; cases h
    | ok ys => rw [hs] at h; simp only [Except.ok.injEq] at h; subst h; obtain ⟨hi, rfl⟩ := setAt_ok hs; exact ⟨by simpa using hL, hR, hO, hV⟩
  | right i =>
    simp only [rowTerm, bind, Except.bind, pure, Except.pure] at h
    cases hs : setAt w.wR i c with
    | error e => rw [hs] at h; cases h
    | ok ys => rw [hs] at h; simp only [Except.ok.injEq] at h; subst h; obtain ⟨hi, rfl⟩ := setAt_ok hs; exact ⟨hL, by simpa using hR, hO, hV⟩
  | out i =>
    simp only [rowTerm, bind, Except.bind, pure, Except.pure] at h
    cases hs : setAt w.wO i c with
    | error e => rw [hs] at h; cases h
    | ok ys => rw [hs] at h; simp only [Except.ok.injEq] at h; subst h; obtain ⟨hi, rfl⟩ := setAt_ok hs; exact ⟨hL, hR, by simpa using hO, hV⟩
  | committed i =>
    simp only [rowTerm, bind, Except.bind, pure, Except.pure] at h
    cases hs : setAt w.wV i c with
    | error e => rw [hs] at h; cases h
    | ok ys => rw [hs] at h; simp only [Except.ok.injEq] at h; subst h; obtain ⟨hi, rfl⟩ := setAt_ok hs; exact ⟨hL, hR, hO, by simpa using hV⟩

theorem rowTerms_total {n m : ℕ} : ∀ (ts : List (Var × F)) {w : Weights F}, w.Len n m → ((∃ w', ts.foldlM rowTerm w = .ok w') ↔ ∀ t ∈ ts, t.1.InRange n m)
  | [], w, _ => by simp [pure, Except.pure]
  | t :: ts, w, hl => by
    simp only [List.foldlM_cons, bind, Except.bind, List.forall_mem_cons]
    rw [← rowTerm_of_inRange hl]
    cases hr : rowTerm w t with
    | error e => simp
    | ok w1 => simp only [Except.ok.injEq, exists_eq', true_and]; exact rowTerms_total ts (rowTerm_len hl hr)

theorem rowTerms_len {n m : ℕ} : ∀ (ts : List (Var × F)) {w w' : Weights F}, w.Len n m → ts.foldlM rowTerm w = .ok w' → w'.Len n m
  | [], w, w', hl, h => by
    simp only [List.foldlM_nil, pure, Except.pure, Except.ok.injEq] at h
    exact h ▸ hl
  | t :: ts, w, w', hl, h => by
    simp only [List.foldlM_cons, bind, Except.bind] at h
    cases hr : rowTerm w t with
    | error e => rw [hr] at h; cases h
    | ok w1 => rw [hr] at h; exact rowTerms_len ts (rowTerm_len hl hr) h

theorem Weights.Len.flip {w : Weights F} {n m : ℕ} (h : w.Len n m) : w.flip.Len n m := ⟨h.L, h.R, h.O, by simpa [Weights.flip] using h.V⟩

/-- The constant of a row: no condition on the variables. -/
theorem rowTerms_wc : ∀ (ts : List (Var × F)) {w w' : Weights F}, ts.foldlM rowTerm w = .ok w' → w'.wc = w.wc - (ts.map fun t => if t.1 = .one then t.2 else 0).sum
  | [], w, w', h => by
    simp only [List.foldlM_nil, pure, Except.pure, Except.ok.injEq] at h
    simp [h]
  | t :: ts, w, w', h => by
    simp only [List.foldlM_cons, bind, Except.bind] at h
    cases hr : rowTerm w t with
    | error e => rw [hr] at h; cases h
    | ok w1 =>
      rw [hr] at h
      rw [rowTerms_wc ts h]
      have : w1.wc = w.wc - if t.1 = .one then t.2 else 0 := by
        obtain ⟨v, c⟩ := t
        cases v with
        | one =>
          simp only [rowTerm, Except.ok.injEq] at hr
          rw [← hr]; simp
        | left i =>
          simp only [rowTerm, bind, Except.bind, pure, Except.pure] at hr
          cases hs : setAt w.wL i c with
          | error e => rw [hs] at hr; cases hr
          | ok ys => rw [hs] at hr; simp only [Except.ok.injEq] at hr; rw [← hr]; simp
        | right i =>
          simp only [rowTerm, bind, Except.bind, pure, Except.pure] at hr
          cases hs : setAt w.wR i c with
          | error e => rw [hs] at hr; cases hr
          | ok ys => rw [hs] at hr; simp only [Except.ok.injEq] at hr; rw [← hr]; simp
        | out i =>
          simp only [rowTerm, bind, Except.bind, pure, Except.pure] at hr
          cases hs : setAt w.wO i c with
          | error e => rw [hs] at hr; cases hr
          | ok ys => rw [hs] at hr; simp only [Except.ok.injEq] at hr; rw [← hr]; simp
        | committed i =>
          simp only [rowTerm, bind, Except.bind, pure, Except.pure] at hr
          cases hs : setAt w.wV i c with
          | error e => rw [hs] at hr; cases hr
          | ok ys => rw [hs] at hr; simp only [Except.ok.injEq] at hr; rw [← hr]; simp
      rw [this, List.map_cons, List.sum_cons]
      ring

theorem weightRow_len {n m : ℕ} {lc : LC F} {w : Weights F} (h : weightRow n m lc = .ok w) : w.Len n m := rowTerms_len _ (Verifier.len0 n m) h

/-- A row without repeated variables has the value of its constraint. -/
theorem weightRow_value {n m : ℕ} {lc : LC F} (hn : (lc.terms.map Prod.fst).Nodup) {w : Weights F} (h : weightRow n m lc = .ok w) (σ : Assignment F) : w.flip.residual n m σ = lc.value σ := by
  have h0 : ∀ v, (⟨List.replicate n 0, List.replicate n 0, List.replicate n 0, List.replicate m 0, 0⟩ : Weights F).entry v = 0 := by
    intro v
    cases v <;> simp only [Weights.entry, getD_replicate, ite_self]
  have := rowTerms_add lc.terms hn (fun t _ => h0 t.1) h
  rw [show Weights.flip (⟨List.replicate n 0, List.replicate n 0, List.replicate n 0, List.replicate m 0, 0⟩ : Weights F) = ⟨List.replicate n 0, List.replicate n 0, List.replicate n 0, List.replicate m 0, 0⟩ by simp [Weights.flip]] at this
  rw [(Verifier.flattenTerms_ok lc.terms (Verifier.len0 n m) this).2.2 σ, Verifier.residual0, zero_add, one_mul]
  rfl

theorem weightRows_forall {n m : ℕ} : ∀ {cs : List (LC F)} {ws : List (Weights F)}, weightRows n m cs = .ok ws → List.Forall₂ (fun lc w => weightRow n m lc = .ok w) cs ws
  | [], ws, h => by
    simp only [weightRows, Except.ok.injEq] at h
    rw [← h]; exact .nil
  | lc :: cs, ws, h => by
    simp only [weightRows, bind, Except.bind, pure, Except.pure] at h
    cases hr : weightRow n m lc with
    | error e => rw [hr] at h; cases h
    | ok w =>
      cases hq : weightRows n m cs with
      | error e => rw [hr, hq] at h; cases h
      | ok ws' =>
        rw [hr, hq] at h
        simp only [Except.ok.injEq] at h
        rw [← h]
        exact .cons hr (weightRows_forall hq)

theorem weightRows_total {n m : ℕ} : ∀ (cs : List (LC F)), (∃ ws, weightRows n m cs = .ok ws) ↔ ∀ lc ∈ cs, ∀ t ∈ lc.terms, t.1.InRange n m
  | [] => by simp [weightRows]
  | lc :: cs => by
    rw [List.forall_mem_cons, ← weightRows_total cs, ← rowTerms_total lc.terms (Verifier.len0 n m)]
    change _ ↔ (∃ w', weightRow n m lc = .ok w') ∧ _
    simp only [weightRows, bind, Except.bind, pure, Except.pure]
    cases hr : weightRow n m lc with
    | error e => simp
    | ok w =>
      cases hq : weightRows n m cs with
      | error e => simp
      | ok ws => simp

theorem sum_dot {α : Type} (f : α → ℕ → F) (g : ℕ → F) (n : ℕ) : ∀ (ks : List F) (ws : List α), ∑ i ∈ range n, dot ks (ws.map fun w => f w i) * g i = dot ks (ws.map fun w => ∑ i ∈ range n, f w i * g i)
  | [], ws => by simp
  | k :: ks, [] => by simp
  | k :: ks, w :: ws => by
    simp only [List.map_cons, dot_cons, add_mul, sum_add_distrib, sum_dot f g n ks ws, mul_sum, mul_assoc]

theorem dot_add {α : Type} (f g : α → F) : ∀ (ks : List F) (ws : List α), dot ks (ws.map fun w => f w + g w) = dot ks (ws.map f) + dot ks (ws.map g)
  | [], ws => by simp
  | k :: ks, [] => by simp
  | k :: ks, w :: ws => by
    simp only [List.map_cons, dot_cons, dot_add f g ks ws]
    ring

theorem dot_sub {α : Type} (f g : α → F) : ∀ (ks : List F) (ws : List α), dot ks (ws.map fun w => f w - g w) = dot ks (ws.map f) - dot ks (ws.map g)
  | [], ws => by simp
  | k :: ks, [] => by simp
  | k :: ks, w :: ws => by
    simp only [List.map_cons, dot_cons, dot_sub f g ks ws]
    ring

theorem dot_neg_neg {α : Type} (f : α → F) : ∀ (ks : List F) (ws : List α), dot (ks.map fun k => -k) (ws.map f) = dot ks (ws.map fun w => -f w)
  | [], ws => by simp
  | k :: ks, [] => by simp
  | k :: ks, w :: ws => by
    simp only [List.map_cons, dot_cons, dot_neg_neg f ks ws]
    ring

/-- The rows, combined. -/
def combined (ks : List F) (ws : List (Weights F)) (n m : ℕ) : Weights F :=
  ⟨(List.range n).map fun i => dot ks ((ws.map Weights.wL).map fun r => r.getD i 0), (List.range n).map fun i => dot ks ((ws.map Weights.wR).map fun r => r.getD i 0), (List.range n).map fun i => dot ks ((ws.map Weights.wO).map fun r => r.getD i 0),
    (List.range m).map fun i => dot (ks.map fun k => -k) ((ws.map Weights.wV).map fun r => r.getD i 0), dot ks (ws.map Weights.wc)⟩

theorem combined_len (ks : List F) (ws : List (Weights F)) (n m : ℕ) : (combined ks ws n m).Len n m := ⟨by simp [combined], by simp [combined], by simp [combined], by simp [combined]⟩

theorem combined_residual (ks : List F) (ws : List (Weights F)) (n m : ℕ) (σ : Assignment F) : (combined ks ws n m).residual n m σ = dot ks (ws.map fun w => w.flip.residual n m σ) := by
  unfold Weights.residual
  have e : ∀ (k : ℕ) (h : List F) (f : Weights F → ℕ → F) (g : ℕ → F), ∑ i ∈ range k, ((List.range k).map fun i => dot h (ws.map fun w => f w i)).getD i 0 * g i = dot h (ws.map fun w => ∑ i ∈ range k, f w i * g i) := by
    intro k h f g
    rw [← sum_dot]
    refine sum_congr rfl fun i hi => ?_
    simp [List.getD_eq_getElem?_getD, mem_range.mp hi]
  simp only [combined, List.map_map, Function.comp_def]
  rw [e n ks (fun w i => w.wL.getD i 0) σ.left, e n ks (fun w i => w.wR.getD i 0) σ.right, e n ks (fun w i => w.wO.getD i 0) σ.out, e m _ (fun w i => w.wV.getD i 0) σ.committed, dot_neg_neg]
  rw [dot_sub (fun w : Weights F => _) (fun w => _), dot_sub (fun w : Weights F => _) (fun w => _), dot_add (fun w : Weights F => _) (fun w => _), dot_add (fun w : Weights F => _) (fun w => _)]
  simp only [Weights.flip, getD_map_neg, neg_mul, sum_neg_distrib]

theorem dot_comb (z : F) (σ : Assignment F) {n m : ℕ} {cs : List (LC F)} {ws : List (Weights F)} (h : List.Forall₂ (fun lc w => w.flip.residual n m σ = lc.value σ) cs ws) :
    ∀ e : F, dot ((List.range cs.length).map fun i => e * z ^ i) (ws.map fun w => w.flip.residual n m σ) = Verifier.comb z e cs σ := by
  induction h with
  | nil => intro e; simp [Verifier.comb]
  | @cons lc w cs ws hw _ ih =>
    intro e
    rw [List.length_cons, List.range_succ_eq_map, List.map_cons, List.map_map, List.map_cons, dot_cons, Verifier.comb, hw, pow_zero, mul_one, ← ih (e * z)]
    congr 2
    refine List.map_congr_left fun i _ => ?_
    simp only [Function.comp, Nat.succ_eq_add_one, pow_succ]
    ring

theorem vandermonde_drop (z : F) (q : ℕ) : (vandermonde z (q + 1)).drop 1 = (List.range q).map fun i => z * z ^ i := by
  unfold vandermonde
  rw [List.range_succ_eq_map, List.map_cons, List.drop_one, List.tail_cons, List.map_map]
  refine List.map_congr_left fun i _ => ?_
  show vpow z (i + 1) = _
  by_cases hz : z = 0
  · rw [hz, vpow, zero_mul, zero_mul, zero_mul]
  · rw [vpow_ne hz, pow_succ, mul_comm]

theorem rowTimesMatrix_ok {v : List F} {ws : List (Weights F)} (f : Weights F → List F) {n : ℕ} (hf : ∀ w ∈ ws, (f w).length = n) (hv : v.length = ws.length) (h0 : ws ≠ []) :
    rowTimesMatrix v (ws.map f) = .ok ((List.range n).map fun i => dot v ((ws.map f).map fun r => r.getD i 0)) := by
  unfold rowTimesMatrix
  rw [if_neg (by simp [hv])]
  cases ws with
  | nil => exact absurd rfl h0
  | cons w ws =>
    simp only [List.map_cons]
    rw [hf w List.mem_cons_self]

end Bp
