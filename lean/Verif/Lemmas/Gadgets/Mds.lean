import Verif.Lemmas.Gadgets.PoseidonInj
import Verif.Lemmas.Curves
import Verif.Model.Gadgets.Curves
import Verif.Spec.Mds
import Mathlib.Tactic.LinearCombination

set_option linter.unusedSectionVars false

/-! # Matrices of which all square submatrices are invertible -/

namespace Bp

/-- The row `b :: rb`, times `a`, minus `b` times the row `a :: ra`, without its first entry. -/
def elimRow (n a : ℕ) (ra : List ℕ) : List ℕ → List ℕ
  | [] => []
  | b :: rb => List.zipWith (fun x y => (a * y + (n - b % n) * x) % n) ra rb

/-! A check that all square submatrices are invertible modulo `n`: eliminate with each entry, in the rows below and the columns to the right of it.  (Written with recursors and continuations, so that the kernel evaluates each
entry once.) -/

/-- `f e`, but `e` is evaluated first. -/
noncomputable def strict (e : ℕ) (f : ℕ → Bool) : Bool := Nat.rec (f 0) (fun k _ => f (Nat.succ k)) e

noncomputable def elimS (n a b : ℕ) (xs : List ℕ) : List ℕ → (List ℕ → Bool) → Bool :=
  List.rec (fun _ f => f []) (fun x _ ih ys f => List.rec (f []) (fun y ys _ => strict (Nat.mod (Nat.add (Nat.mul a y) (Nat.mul b x)) n) fun z => ih ys fun zs => f (z :: zs)) ys) xs

noncomputable def elimAllS (n a : ℕ) (ra : List ℕ) (rows : List (List ℕ)) : (List (List ℕ) → Bool) → Bool :=
  List.rec (fun f => f []) (fun row _ ih f => List.rec (f []) (fun b rb _ => strict (Nat.sub n (Nat.mod b n)) fun b' => elimS n a b' ra rb fun r => ih fun rs => f (r :: rs)) row) rows

noncomputable def tailsS (rows : List (List ℕ)) : (List (List ℕ) → Bool) → Bool :=
  List.rec (fun f => f []) (fun row _ ih f => List.rec (f []) (fun _ rb _ => ih fun rs => f (rb :: rs)) row) rows

/-- Eliminate with all entries of the first row. -/
noncomputable def firstS (n : ℕ) (next : List (List ℕ) → Bool) (row : List ℕ) : List (List ℕ) → Bool :=
  List.rec (fun _ => true) (fun a ra ih rest => Bool.rec (Bool.rec false (tailsS rest fun rest' => ih rest') (elimAllS n a ra rest next)) false (Nat.beq (Nat.mod a n) 0)) row

/-- Eliminate with all entries of all rows. -/
noncomputable def rowsS (n : ℕ) (next : List (List ℕ) → Bool) (A : List (List ℕ)) : Bool :=
  List.rec true (fun row rest ih => Bool.rec false ih (firstS n next row rest)) A

/-- The check, for matrices with at most `k` columns. -/
noncomputable def minorsOk (n : ℕ) (k : ℕ) : List (List ℕ) → Bool := Nat.rec (fun _ => true) (fun _ ih => rowsS n ih) k

theorem strict_eq (e : ℕ) (f : ℕ → Bool) : strict e f = f e := by cases e <;> rfl

theorem elimS_eq (n a b : ℕ) : ∀ (xs ys : List ℕ) (f : List ℕ → Bool), elimS n a b xs ys f = f (List.zipWith (fun x y => (a * y + b * x) % n) xs ys)
  | [], ys, f => rfl
  | x :: xs, [], f => rfl
  | x :: xs, y :: ys, f => by
    show strict ((a * y + b * x) % n) (fun z => elimS n a b xs ys fun zs => f (z :: zs)) = _
    rw [strict_eq, elimS_eq n a b xs ys]
    rfl

theorem elimAllS_eq (n a : ℕ) (ra : List ℕ) : ∀ (rows : List (List ℕ)) (f : List (List ℕ) → Bool), (∀ r ∈ rows, r ≠ []) → elimAllS n a ra rows f = f (rows.map (elimRow n a ra))
  | [], f, _ => rfl
  | [] :: rows, f, h => absurd rfl (h [] (by simp))
  | (b :: rb) :: rows, f, h => by
    show strict (n - b % n) (fun b' => elimS n a b' ra rb fun r => elimAllS n a ra rows fun rs => f (r :: rs)) = _
    rw [strict_eq, elimS_eq, elimAllS_eq n a ra rows _ fun r hr => h r (by simp [hr])]
    rfl

theorem tailsS_eq : ∀ (rows : List (List ℕ)) (f : List (List ℕ) → Bool), (∀ r ∈ rows, r ≠ []) → tailsS rows f = f (rows.map List.tail)
  | [], f, _ => rfl
  | [] :: rows, f, h => absurd rfl (h [] (by simp))
  | (b :: rb) :: rows, f, h => by
    show tailsS rows (fun rs => f (rb :: rs)) = _
    rw [tailsS_eq rows _ fun r hr => h r (by simp [hr])]
    rfl

/-- With every entry of the first row, the rest is fine. -/
def FirstOk (n k : ℕ) : List ℕ → List (List ℕ) → Prop
  | [], _ => True
  | a :: ra, rest => a % n ≠ 0 ∧ minorsOk n k (rest.map (elimRow n a ra)) = true ∧ FirstOk n k ra (rest.map List.tail)

/-- With every entry, the rest is fine. -/
def Pivots (n k : ℕ) : List (List ℕ) → Prop
  | [] => True
  | row :: rest => FirstOk n k row rest ∧ Pivots n k rest

theorem firstS_ok {n k : ℕ} : ∀ (row : List ℕ) (rest : List (List ℕ)), (∀ r ∈ rest, r.length = row.length) → firstS n (minorsOk n k) row rest = true → FirstOk n k row rest
  | [], _, _, _ => trivial
  | a :: ra, rest, hl, h => by
    have hne : ∀ r ∈ rest, r ≠ [] := fun r hr e => by have := hl r hr; rw [e] at this; simp at this
    have h : (Bool.rec (Bool.rec false (tailsS rest fun rest' => firstS n (minorsOk n k) ra rest') (elimAllS n a ra rest (minorsOk n k))) false (Nat.beq (a % n) 0) : Bool) = true := h
    rw [tailsS_eq rest _ hne, elimAllS_eq n a ra rest _ hne] at h
    cases e1 : Nat.beq (a % n) 0 with
    | true => rw [e1] at h; cases h
    | false =>
      rw [e1] at h
      cases e2 : minorsOk n k (rest.map (elimRow n a ra)) with
      | false => rw [e2] at h; cases h
      | true =>
        rw [e2] at h
        refine ⟨fun h0 => ?_, e2, firstS_ok ra _ (fun r hr => ?_) h⟩
        · rw [h0] at e1; cases e1
        · obtain ⟨r', hr', rfl⟩ := List.mem_map.mp hr
          rw [List.length_tail, hl r' hr']; rfl

theorem minorsOk_pivots {n k w : ℕ} : ∀ (A : List (List ℕ)), (∀ r ∈ A, r.length = w) → minorsOk n (k + 1) A = true → Pivots n k A
  | [], _, _ => trivial
  | row :: rest, hA, h => by
    have h : (Bool.rec false (minorsOk n (k + 1) rest) (firstS n (minorsOk n k) row rest) : Bool) = true := h
    cases e : firstS n (minorsOk n k) row rest with
    | false => rw [e] at h; cases h
    | true =>
      rw [e] at h
      exact ⟨firstS_ok row rest (fun r hr => (hA r (by simp [hr])).trans (hA row (by simp)).symm) e, minorsOk_pivots rest (fun r hr => hA r (by simp [hr])) h⟩

theorem Pivots.tail {n k : ℕ} : ∀ {A : List (List ℕ)}, Pivots n k A → Pivots n k (A.map List.tail)
  | [], _ => trivial
  | [] :: rest, h => ⟨trivial, Pivots.tail h.2⟩
  | (_ :: _) :: _, h => ⟨h.1.2.2, Pivots.tail h.2⟩

variable {n : ℕ} [Fact n.Prime]

/-- A row times a vector. -/
def dotN (r : List ℕ) (x : List (ZMod n)) : ZMod n := (List.zipWith (fun (a : ℕ) b => (a : ZMod n) * b) r x).sum

theorem dotN_cons (a : ℕ) (r : List ℕ) (b : ZMod n) (x : List (ZMod n)) : dotN (a :: r) (b :: x) = a * b + dotN r x := by simp [dotN]

theorem dotN_elim (a : ℕ) : ∀ (ra rb : List ℕ) (b : ℕ) (x : List (ZMod n)), ra.length = x.length → rb.length = x.length → dotN (elimRow n a ra (b :: rb)) x = a * dotN rb x - b * dotN ra x
  | [], [], b, [], _, _ => by simp [elimRow, dotN]
  | y :: ra, z :: rb, b, x0 :: x, h1, h2 => by
    have ih := dotN_elim a ra rb b x (by simpa using h1) (by simpa using h2)
    have hb : (((n - b % n : ℕ) : ZMod n)) = - b := by
      rw [Nat.cast_sub (Nat.mod_lt _ (Fact.out (p := n.Prime)).pos).le]
      simp
    rw [elimRow] at ih ⊢
    rw [List.zipWith_cons_cons, dotN_cons, ih, dotN_cons, dotN_cons, ZMod.natCast_mod]
    push_cast
    rw [hb]
    ring
  | _ :: _, _, _, [], h1, _ => by simp at h1
  | _, _ :: _, _, [], _, h2 => by simp at h2
  | [], _, _, _ :: _, h1, _ => by simp at h1
  | _ :: _, [], _, _ :: _, _, h2 => by simp at h2

theorem elim_length {a : ℕ} {ra rb : List ℕ} {w : ℕ} (h1 : ra.length = w) (h2 : rb.length = w + 1) : (elimRow n a ra rb).length = w := by
  cases rb with
  | nil => simp at h2
  | cons b rb => simp [elimRow] at h2 ⊢; omega

/-- Zeros of the image and non-zeros of the vector. -/
theorem zeros_lt : ∀ (k : ℕ) (x : List (ZMod n)) (A : List (List ℕ)), x.length ≤ k → (∀ r ∈ A, r.length = x.length) → minorsOk n k A = true → (∃ y ∈ x, y ≠ 0) →
    (A.map (dotN · x)).countP (· = 0) < x.countP (· ≠ 0)
  | 0, x, A, hk, _, _, hx => by
    obtain ⟨y, hy, -⟩ := hx
    rw [List.length_eq_zero_iff.mp (Nat.le_zero.mp hk)] at hy
    cases hy
  | k + 1, x, A, hk, hA, hm, hx => by
    have hp := minorsOk_pivots A hA hm
    clear hm
    induction x generalizing A with
    | nil =>
      obtain ⟨y, hy, -⟩ := hx
      cases hy
    | cons x0 x ihx =>
      by_cases h0 : x0 = 0
      · subst h0
        have hx' : ∃ y ∈ x, y ≠ 0 := by
          obtain ⟨y, hy, hne⟩ := hx
          rcases List.mem_cons.mp hy with rfl | hy
          · exact absurd rfl hne
          · exact ⟨y, hy, hne⟩
        have ih := ihx (A.map List.tail) (by simp at hk; omega) (by
          intro r hr
          obtain ⟨r', hr', rfl⟩ := List.mem_map.mp hr
          rw [List.length_tail, hA r' hr']; rfl) hx' hp.tail
        rw [List.map_map] at ih
        have e : A.map (dotN · (0 :: x)) = A.map ((dotN · x) ∘ List.tail) := by
          refine List.map_congr_left fun r hr => ?_
          cases r with
          | nil => simpa using hA _ hr
          | cons a r => simp [dotN_cons]
        rw [e]
        simpa using ih
      · induction A with
        | nil =>
          rw [List.map_nil, List.countP_nil]
          exact List.countP_pos_iff.mpr ⟨x0, by simp, by simpa using h0⟩
        | cons r A ihA =>
          have ih := ihA (fun r hr => hA r (by simp [hr])) hp.2
          by_cases hr0 : dotN r (x0 :: x) = 0
          · cases r with
            | nil => simpa using hA [] (by simp)
            | cons a ra =>
              have hra : ra.length = x.length := by simpa using hA (a :: ra) (by simp)
              obtain ⟨ha, hm', -⟩ := hp.1
              have ha' : (a : ZMod n) ≠ 0 := fun h => ha (Nat.mod_eq_zero_of_dvd ((ZMod.natCast_eq_zero_iff a n).mp h))
              rw [dotN_cons] at hr0
              have hx' : ∃ y ∈ x, y ≠ 0 := by
                by_contra hn
                push Not at hn
                have hd : dotN ra x = 0 := by
                  rw [dotN]
                  refine List.sum_eq_zero fun y hy => ?_
                  obtain ⟨i, hi, rfl⟩ := List.mem_iff_getElem.mp hy
                  rw [List.getElem_zipWith, hn _ (List.getElem_mem _), mul_zero]
                rw [hd, add_zero] at hr0
                exact (mul_ne_zero ha' h0) hr0
              have hs := zeros_lt k x (A.map (elimRow n a ra)) (by simp at hk; omega) (by
                intro r hr
                obtain ⟨r', hr', rfl⟩ := List.mem_map.mp hr
                exact elim_length hra (hA r' (by simp [hr']))) hm' hx'
              have e : (A.map (dotN · (x0 :: x))).countP (· = 0) = ((A.map (elimRow n a ra)).map (dotN · x)).countP (· = 0) := by
                rw [List.map_map, List.countP_map, List.countP_map]
                refine List.countP_congr fun r hr => ?_
                cases r with
                | nil => simpa using hA [] (by simp [hr])
                | cons b rb =>
                  have hrb : rb.length = x.length := by simpa using hA (b :: rb) (by simp [hr])
                  simp only [Function.comp_apply, decide_eq_true_eq]
                  rw [dotN_elim a ra rb b x hra hrb, dotN_cons]
                  have key : (a : ZMod n) * dotN rb x - b * dotN ra x = a * (b * x0 + dotN rb x) := by linear_combination (-(b : ZMod n)) * hr0
                  rw [key]
                  simp [ha']
              rw [List.map_cons, List.countP_cons_of_pos (by simpa [dotN_cons] using hr0), e, List.countP_cons_of_pos (by simpa using h0)]
              omega
          · rw [List.map_cons, List.countP_cons_of_neg (by simpa using hr0)]
            exact ih

/-! ## The linear layer -/

/-- The columns of a square matrix. -/
def columnsN (w : ℕ) (M : List (List ℕ)) : List (List ℕ) := (List.range w).map fun i => (List.range w).map fun j => (M.getD j []).getD i 0

/-- The entries as scalars. -/
abbrev castM (n : ℕ) (M : List (List ℕ)) : List (List (ZMod n)) := M.map fun row => row.map fun (m : ℕ) => (m : ZMod n)

theorem mdsEntry_castM {M : List (List ℕ)} {w : ℕ} (h1 : M.length = w) (h2 : ∀ row ∈ M, row.length = w) {i j : ℕ} (hi : i < w) (hj : j < w) : mdsEntry (castM n M) j i = (((M.getD j []).getD i 0 : ℕ) : ZMod n) := by
  have hj' : j < M.length := by omega
  have hi' : i < M[j].length := by rw [h2 _ (List.getElem_mem _)]; exact hi
  simp [mdsEntry, hj', hi']

theorem dotN_eq {w : ℕ} (f : ℕ → ℕ) (xs : List (ZMod n)) (hx : xs.length = w) : dotN ((List.range w).map f) xs = ((List.range w).map fun j => xs.getD j 0 * (f j : ZMod n)).sum := by
  rw [dotN]
  congr 1
  apply List.ext_getElem
  · simp [hx]
  · intro i h1 h2
    have hi : i < xs.length := by simp at h1; exact h1.2
    simp [hi, mul_comm]

theorem linearVals_dot {M : List (List ℕ)} {w : ℕ} (h1 : M.length = w) (h2 : ∀ row ∈ M, row.length = w) {xs : List (ZMod n)} (hx : xs.length = w) : linearVals (castM n M) xs = (columnsN w M).map (dotN · xs) := by
  rw [linearVals, columnsN, List.map_map, hx]
  refine List.map_congr_left fun i hi => ?_
  rw [Function.comp_apply, dotN_eq _ xs hx]
  congr 1
  refine List.map_congr_left fun j hj => ?_
  rw [mdsEntry_castM h1 h2 (List.mem_range.mp hi) (List.mem_range.mp hj)]

theorem dotN_sub : ∀ (r : List ℕ) (xs ys : List (ZMod n)), xs.length = ys.length → dotN r (List.zipWith (· - ·) xs ys) = dotN r xs - dotN r ys
  | [], xs, ys, _ => by simp [dotN]
  | a :: r, [], [], _ => by simp [dotN]
  | a :: r, x :: xs, y :: ys, h => by
    rw [List.zipWith_cons_cons, dotN_cons, dotN_cons, dotN_cons, dotN_sub r xs ys (by simpa using h)]
    ring
  | _ :: _, [], _ :: _, h => by simp at h
  | _ :: _, _ :: _, [], h => by simp at h

theorem differences_sub (xs ys : List (ZMod n)) : differences xs ys = (List.zipWith (· - ·) xs ys).countP (· ≠ 0) := by
  rw [differences, List.zip, ← List.map_zipWith (f := fun p : ZMod n × ZMod n => p.1 - p.2) (g := Prod.mk) (l := xs) (l' := ys), List.countP_map]
  refine List.countP_congr fun p _ => ?_
  simp [sub_eq_zero]

theorem branch_number {M : List (List ℕ)} {w : ℕ} (h1 : M.length = w) (h2 : ∀ row ∈ M, row.length = w) (hm : minorsOk n w (columnsN w M) = true) {xs ys : List (ZMod n)} (hx : xs.length = w) (hy : ys.length = w)
    (hne : xs ≠ ys) : w + 1 ≤ differences xs ys + differences (linearVals (castM n M) xs) (linearVals (castM n M) ys) := by
  have hd : (List.zipWith (· - ·) xs ys).length = w := by simp [hx, hy]
  have hz := zeros_lt w (List.zipWith (· - ·) xs ys) (columnsN w M) hd.le (by
    intro r hr
    obtain ⟨i, -, rfl⟩ := List.mem_map.mp hr
    simp [hx, hy]) hm (by
    by_contra hn
    push Not at hn
    refine hne (List.ext_getElem (by omega) fun i h1 h2 => ?_)
    have := hn ((List.zipWith (· - ·) xs ys)[i]'(by omega)) (List.getElem_mem _)
    rw [List.getElem_zipWith] at this
    exact sub_eq_zero.mp this)
  have e : List.zipWith (· - ·) (linearVals (castM n M) xs) (linearVals (castM n M) ys) = (columnsN w M).map (dotN · (List.zipWith (· - ·) xs ys)) := by
    rw [linearVals_dot h1 h2 hx, linearVals_dot h1 h2 hy, List.zipWith_map, List.zipWith_self]
    exact List.map_congr_left fun r _ => (dotN_sub r xs ys (by omega)).symm
  rw [differences_sub, differences_sub, e]
  have hc := List.length_eq_countP_add_countP (fun z : ZMod n => decide (z = 0)) (l := (columnsN w M).map (dotN · (List.zipWith (· - ·) xs ys)))
  have hl : ((columnsN w M).map (dotN · (List.zipWith (· - ·) xs ys))).length = w := by simp [columnsN]
  have he : (((columnsN w M).map (dotN · (List.zipWith (· - ·) xs ys))).countP fun z => decide ¬ (decide (z = 0) = true)) = ((columnsN w M).map (dotN · (List.zipWith (· - ·) xs ys))).countP fun z => decide (z ≠ 0) :=
    List.countP_congr fun z _ => by simp
  rw [he] at hc
  omega

/-! ## S-boxes -/

theorem quint_inj_of {e k : ℕ} (he : 5 * e = (n - 1) * k + 1) : Function.Injective (SboxType.quint.apply : ZMod n → ZMod n) := by
  have key : ∀ x : ZMod n, (SboxType.quint.apply x) ^ e = x := by
    intro x
    by_cases hx : x = 0
    · subst hx
      have h0 : e ≠ 0 := by rintro rfl; omega
      rw [show SboxType.quint.apply (0 : ZMod n) = 0 by simp [SboxType.apply], zero_pow h0]
    · have h := ZMod.pow_card_sub_one_eq_one hx
      have h5 : SboxType.quint.apply x = x ^ 5 := by simp only [SboxType.apply]; ring
      rw [h5, ← pow_mul, he, pow_succ, pow_mul, h, one_pow, one_mul]
  intro x y h
  rw [← key x, h, key y]

theorem cube_collision {F : Type} [Field F] {ω : F} (hω : ω ^ 3 = 1) {p : PoseidonParams F} (hv : p.Valid) (hfb : p.fullRoundsBeginning ≠ 0) (xs : List F) (hx : xs.length = p.width) (i : ℕ) :
    poseidonPermutation p .cube (xs.set i (ω * (xs.getD i 0 + p.roundKeys.getD i 0) - p.roundKeys.getD i 0)) = poseidonPermutation p .cube xs := by
  have hset : ∀ (ks xs : List F) (i : ℕ), sboxVals SboxType.cube.apply ks (xs.set i (ω * (xs.getD i 0 + ks.getD i 0) - ks.getD i 0)) = sboxVals SboxType.cube.apply ks xs := by
    intro ks
    induction ks with
    | nil => intro xs i; simp [sboxVals]
    | cons k ks ih =>
      intro xs i
      cases xs with
      | nil => simp
      | cons x xs =>
        cases i with
        | zero =>
          have : SboxType.cube.apply (ω * (x + k)) = SboxType.cube.apply (x + k) := by
            simp only [SboxType.apply]
            linear_combination ((x + k) ^ 3) * hω
          simp [sboxVals, this]
        | succ i =>
          have := ih xs i
          simp only [sboxVals] at this ⊢
          simp only [List.set_cons_succ, List.getD_cons_succ, List.zipWith_cons_cons, this]
  unfold poseidonPermutation
  rw [(permWith_eq _ hv (by simpa using hx)).1, (permWith_eq _ hv hx).1]
  obtain ⟨m, hm⟩ := Nat.exists_eq_succ_of_ne_zero hfb
  have hm' : p.fullRoundsBeginning = m + 1 := hm
  congr 1
  simp only [permVals, hm', roundsVals, hset]

end Bp
