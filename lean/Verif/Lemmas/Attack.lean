import Verif.Spec.FiatShamir
import Mathlib.Logic.Equiv.Prod
import Mathlib.Algebra.BigOperators.Ring.Finset
import Mathlib.Algebra.Order.BigOperators.Ring.Finset
import Mathlib.SetTheory.Cardinal.Finite
import Mathlib.Tactic.Ring

set_option linter.unusedSectionVars false

/-! # Counting the answers with which an attack wins -/

namespace Bp
variable {F G : Type} [Field F] [AddCommGroup G] [SMul F G]

theorem drawsFrom_append : ∀ (a b acc : Transcript F G), drawsFrom acc (a ++ b) = drawsFrom acc a ++ drawsFrom (acc ++ a) b
  | [], b, acc => by simp [drawsFrom]
  | e :: a, b, acc => by
    simp only [List.cons_append, drawsFrom]
    split
    · rw [drawsFrom_append a b]; simp
    · rw [drawsFrom_append a b]; simp

theorem draws_split (pre rest : Transcript F G) (l : String) : ∃ more, draws (pre ++ [.challenge l] ++ rest) = draws pre ++ (pre ++ [.challenge l]) :: more := by
  refine ⟨drawsFrom (pre ++ [.challenge l]) rest, ?_⟩
  simp [draws, drawsFrom_append, drawsFrom, TEvent.isChallenge]

theorem mem_draws {pre t : Transcript F G} {l : String} (h : pre ++ [.challenge l] <+: t) : pre ++ [.challenge l] ∈ draws t := by
  obtain ⟨rest, rfl⟩ := h
  obtain ⟨more, e⟩ := draws_split pre rest l
  rw [e]; simp

theorem mem_askedBy {ask : List F → Transcript F G} {cs : List F} {d : Transcript F G} (h : d ∈ askedBy ask cs) : ∃ j < cs.length, ask (cs.take j) = d := by
  obtain ⟨j, hj, e⟩ := List.mem_map.mp h
  exact ⟨j, List.mem_range.mp hj, e⟩

theorem askedBy_mem {ask : List F → Transcript F G} {cs : List F} {j : ℕ} (hj : j < cs.length) : ask (cs.take j) ∈ askedBy ask cs := List.mem_map.mpr ⟨j, List.mem_range.mpr hj, rfl⟩

/-- Where a question is asked for the first time. -/
theorem askedBy_first {ask : List F → Transcript F G} {cs : List F} {d : Transcript F G} (h : d ∈ askedBy ask cs) : ∃ j < cs.length, ask (cs.take j) = d ∧ ∀ i < j, ask (cs.take i) ≠ d := by
  classical
  have hex := mem_askedBy h
  refine ⟨Nat.find hex, (Nat.find_spec hex).1, (Nat.find_spec hex).2, fun i hi e => Nat.find_min hex hi ⟨hi.trans (Nat.find_spec hex).1, e⟩⟩

theorem notMem_askedBy_take {ask : List F → Transcript F G} {cs : List F} {j : ℕ} {d : Transcript F G} (h : ∀ i < j, ask (cs.take i) ≠ d) : d ∉ askedBy ask (cs.take j) := by
  intro hm
  obtain ⟨i, hi, e⟩ := mem_askedBy hm
  have hi' : i < j := lt_of_lt_of_le hi (List.length_take_le _ _)
  rw [List.take_take, Nat.min_eq_left (le_of_lt hi')] at e
  exact h i hi' e

theorem Answers.first {ask : List F → Transcript F G} {O : Oracle F G} {cs : List F} (h : Answers ask O cs) {j : ℕ} {d : Transcript F G} {c : F} (hc : cs[j]? = some c) (e : ask (cs.take j) = d) (hf : ∀ i < j, ask (cs.take i) ≠ d) :
    O d = c := by
  subst e
  exact h j c hc (notMem_askedBy_take hf)

theorem Answers.take {ask : List F → Transcript F G} {O : Oracle F G} {cs : List F} (h : Answers ask O cs) (n : ℕ) : Answers ask O (cs.take n) := by
  intro i c hc
  rw [List.getElem?_take] at hc
  split at hc
  · rw [List.take_take, Nat.min_eq_left (by omega)]
    exact h i c hc
  · cases hc

theorem Answers.agree {ask : List F → Transcript F G} {O O' : Oracle F G} {cs : List F} (h : Answers ask O cs) (h' : Answers ask O' cs) {t : Transcript F G} (ht : t ∈ askedBy ask cs) : O t = O' t := by
  obtain ⟨j, hj, e, hf⟩ := askedBy_first ht
  rw [h.first (List.getElem?_eq_getElem hj) e hf, h'.first (List.getElem?_eq_getElem hj) e hf]

theorem length_of_mem_drawsFrom : ∀ (t acc d : Transcript F G), d ∈ drawsFrom acc t → d.length ≤ acc.length + t.length
  | [], _, _, h => by simp [drawsFrom] at h
  | e :: t, acc, d, h => by
    rw [drawsFrom] at h
    split at h
    · rcases List.mem_cons.mp h with rfl | h
      · simp
      · have := length_of_mem_drawsFrom t _ d h
        simp at this ⊢; omega
    · have := length_of_mem_drawsFrom t _ d h
      simp at this ⊢; omega

theorem length_of_mem_draws {t d : Transcript F G} (h : d ∈ draws t) : d.length ≤ t.length := by
  simpa using length_of_mem_drawsFrom t [] d h

/-! ## Counting sequences of answers -/

section Count
variable [Fintype F]

/-- How many sequences of `n` answers have the property. -/
noncomputable def count (n : ℕ) (p : List F → Prop) : ℕ := Nat.card {cs : Fin n → F // p (List.ofFn cs)}

theorem count_mono {n : ℕ} {p q : List F → Prop} (h : ∀ cs, cs.length = n → p cs → q cs) : count n p ≤ count n q :=
  Nat.card_le_card_of_injective (fun x => ⟨x.1, h _ (by simp) x.2⟩) fun x y e => Subtype.ext (Subtype.mk.inj e)

theorem count_le {n : ℕ} (p : List F → Prop) : count n p ≤ Fintype.card F ^ n := by
  refine (Nat.card_le_card_of_injective (fun x : {cs : Fin n → F // p (List.ofFn cs)} => x.1) Subtype.val_injective).trans (le_of_eq ?_)
  simp

theorem count_none {n : ℕ} {p : List F → Prop} (h : ∀ cs, cs.length = n → ¬ p cs) : count n p = 0 := by
  have : IsEmpty {cs : Fin n → F // p (List.ofFn cs)} := ⟨fun x => h _ (by simp) x.2⟩
  exact Nat.card_of_isEmpty

theorem count_succ (n : ℕ) (p : List F → Prop) : count (n + 1) p = ∑ c : F, count n fun cs => p (c :: cs) := by
  unfold count
  rw [← Nat.card_sigma]
  refine Nat.card_congr ⟨fun x => ⟨x.1 0, fun i => x.1 i.succ, by have := x.2; rwa [List.ofFn_succ] at this⟩, fun y => ⟨Fin.cons y.1 y.2.1, by rw [List.ofFn_succ]; simpa using y.2.2⟩, fun x => ?_, fun y => ?_⟩
  · exact Subtype.ext (Fin.cons_self_tail x.1)
  · rfl

theorem count_exists {n : ℕ} {ι : Type} [Fintype ι] (p : ι → List F → Prop) : count n (fun cs => ∃ i, p i cs) ≤ ∑ i, count n (p i) := by
  classical
  unfold count
  rw [← Nat.card_sigma]
  exact Nat.card_le_card_of_injective (fun x : {cs : Fin n → F // ∃ i, p i (List.ofFn cs)} => (⟨x.2.choose, x.1, x.2.choose_spec⟩ : Σ i, {cs : Fin n → F // p i (List.ofFn cs)})) fun x y e => by
    refine Subtype.ext ?_
    have : ∀ a b : Σ i, {cs : Fin n → F // p i (List.ofFn cs)}, a = b → a.2.1 = b.2.1 := by rintro a _ rfl; rfl
    exact this _ _ e

theorem count_append {n K : ℕ} : ∀ (i : ℕ) {p : List F → Prop}, (∀ u, u.length = i → count n (fun cs => p (u ++ cs)) ≤ K) → count (i + n) p ≤ Fintype.card F ^ i * K
  | 0, p, h => by simpa using h [] rfl
  | i + 1, p, h => by
    rw [show i + 1 + n = i + n + 1 by omega, count_succ]
    refine (Finset.sum_le_card_nsmul _ _ (Fintype.card F ^ i * K) fun c _ => count_append i fun u hu => ?_).trans (le_of_eq ?_)
    · exact h (c :: u) (by simp [hu])
    · simp [pow_succ]; ring

/-- Answers in which all questions of `P` are asked (after `u`), and answered with `val` when they are asked for the first time. -/
theorem count_asked {α : Type} [DecidableEq α] (ask : List F → α) (val : α → F) : ∀ (n : ℕ) (u : List F) (P : Finset α),
    count n (fun w => (∀ d ∈ P, ∃ j < w.length, ask (u ++ w.take j) = d) ∧ ∀ (j : ℕ) c, w[j]? = some c → ask (u ++ w.take j) ∈ P → (∀ i < j, ask (u ++ w.take i) ≠ ask (u ++ w.take j)) → c = val (ask (u ++ w.take j))) *
      Fintype.card F ^ P.card ≤ Fintype.card F ^ n
  | 0, u, P => by
    by_cases hP : P = ∅
    · subst hP
      simpa using count_le (F := F) (n := 0) _
    · rw [count_none]
      · simp
      · rintro cs hcs ⟨h, -⟩
        obtain ⟨d, hd⟩ := Finset.nonempty_iff_ne_empty.mpr hP
        obtain ⟨j, hj, -⟩ := h d hd
        omega
  | n + 1, u, P => by
    classical
    have shift : ∀ c (w : List F) (j : ℕ), u ++ (c :: w).take (j + 1) = u ++ [c] ++ w.take j := by simp
    rw [count_succ, pow_succ]
    by_cases hd : ask u ∈ P
    · have h1 : ∀ c, count n (fun cs => (∀ d ∈ P, ∃ j < (c :: cs).length, ask (u ++ (c :: cs).take j) = d) ∧ ∀ (j : ℕ) c', (c :: cs)[j]? = some c' → ask (u ++ (c :: cs).take j) ∈ P →
          (∀ i < j, ask (u ++ (c :: cs).take i) ≠ ask (u ++ (c :: cs).take j)) → c' = val (ask (u ++ (c :: cs).take j))) *
          Fintype.card F ^ P.card ≤ if c = val (ask u) then Fintype.card F ^ n * Fintype.card F else 0 := by
        intro c
        split
        · have ih := count_asked ask val n (u ++ [c]) (P.erase (ask u))
          have hc : P.card = (P.erase (ask u)).card + 1 := (Finset.card_erase_add_one hd).symm
          rw [hc, pow_succ, ← mul_assoc]
          refine Nat.mul_le_mul_right _ (le_trans (Nat.mul_le_mul_right _ (count_mono ?_)) ih)
          rintro w - ⟨h1, h2⟩
          refine ⟨fun d hd => ?_, fun j c' hj hm hf => ?_⟩
          · obtain ⟨hne, hP⟩ := Finset.mem_erase.mp hd
            obtain ⟨j, hj, e⟩ := h1 d hP
            cases j with
            | zero => simp at e; exact absurd e.symm hne
            | succ j => exact ⟨j, by simpa using hj, by rw [← shift]; exact e⟩
          · have := h2 (j + 1) c' (by simpa using hj)
            rw [shift] at this
            refine this (Finset.mem_of_mem_erase hm) fun i hi => ?_
            cases i with
            | zero => simpa using (Finset.ne_of_mem_erase hm).symm
            | succ i => rw [shift]; exact hf i (by omega)
        · rename_i hne
          rw [count_none, Nat.zero_mul]
          rintro w - ⟨-, h2⟩
          exact hne (by simpa [hd] using h2 0 c rfl)
      rw [Finset.sum_mul]
      refine (Finset.sum_le_sum fun c _ => h1 c).trans ?_
      simp
    · rw [Finset.sum_mul]
      refine (Finset.sum_le_card_nsmul _ _ (Fintype.card F ^ n) fun c _ => ?_).trans (by simp [mul_comm])
      refine le_trans (Nat.mul_le_mul_right _ (count_mono ?_)) (count_asked ask val n (u ++ [c]) P)
      rintro w - ⟨h1, h2⟩
      refine ⟨fun d hd' => ?_, fun j c' hj hm hf => ?_⟩
      · obtain ⟨j, hj, e⟩ := h1 d hd'
        cases j with
        | zero => simp at e; exact absurd (e ▸ hd') hd
        | succ j => exact ⟨j, by simpa using hj, by rw [← shift]; exact e⟩
      · have := h2 (j + 1) c' (by simpa using hj)
        rw [shift] at this
        refine this hm fun i hi => ?_
        cases i with
        | zero => intro e; rw [← e] at hm; exact hd (by simpa using hm)
        | succ i => rw [shift]; exact hf i (by omega)

/-- At question number `i`, a new question, a bad answer is given (all draws before it along its log are asked, before or after). -/
def BadAt {B : ℕ} (bad : BadRule F G B) (ask : List F → Transcript F G) (i : ℕ) (cs : List F) : Prop :=
  ∃ O pre l c, Answers ask O cs ∧ ask (cs.take i) = pre ++ [.challenge l] ∧ (∀ d ∈ draws pre, d ∈ askedBy ask cs) ∧ cs[i]? = some c ∧ c ∈ bad.bad O (pre ++ [.challenge l])

theorem count_badAt {B : ℕ} (bad : BadRule F G B) (ask : List F → Transcript F G) (i k : ℕ) : count (i + (k + 1)) (BadAt bad ask i) ≤ Fintype.card F ^ i * (B * Fintype.card F ^ k) := by
  classical
  refine count_append i fun u hu => ?_
  by_cases hex : ∃ pre l, ask u = pre ++ [.challenge l]
  swap
  · rw [count_none]
    · exact Nat.zero_le _
    · rintro w - ⟨O, pre, l, c, -, h, -⟩
      rw [List.take_left' hu] at h
      exact hex ⟨pre, l, h⟩
  obtain ⟨pre, l, ht⟩ := hex
  let D : Finset (Transcript F G) := (draws pre).toFinset.filter fun d => d ∉ askedBy ask u
  let S : ({d // d ∈ D} → F) → Set F := fun v => if h : ∃ O, Answers ask O u ∧ ∀ d : {d // d ∈ D}, O d.1 = v d then bad.bad h.choose (pre ++ [.challenge l]) else ∅
  have hS : ∀ v, (S v).encard ≤ B := fun v => by
    dsimp only [S]
    split
    · exact bad.few _ _
    · simp
  let val : ({d // d ∈ D} → F) → Transcript F G → F := fun v d => if h : d ∈ D then v ⟨d, h⟩ else 0
  let cond : F → ({d // d ∈ D} → F) → List F → Prop := fun c v w => (∀ d ∈ D, ∃ j < w.length, ask (u ++ [c] ++ w.take j) = d) ∧
    ∀ (j : ℕ) c', w[j]? = some c' → ask (u ++ [c] ++ w.take j) ∈ D → (∀ i < j, ask (u ++ [c] ++ w.take i) ≠ ask (u ++ [c] ++ w.take j)) → c' = val v (ask (u ++ [c] ++ w.take j))
  have hcond : ∀ c v, count k (cond c v) * Fintype.card F ^ D.card ≤ Fintype.card F ^ k := fun c v => count_asked ask (val v) k (u ++ [c]) D
  have key : ∀ c, count k (fun w => BadAt bad ask i (u ++ c :: w)) ≤ ∑ v, if c ∈ S v then count k (cond c v) else 0 := by
    intro c
    have : ∀ v, (if c ∈ S v then count k (cond c v) else 0) = count k (fun w => c ∈ S v ∧ cond c v w) := by
      intro v
      split
      · rename_i h; simp only [h, true_and]
      · rename_i h; rw [count_none]; simp [h]
    simp only [this]
    refine le_trans (count_mono ?_) (count_exists _)
    rintro w - ⟨O, pre', l', c', hO, h1, h2, h3, h4⟩
    rw [List.take_left' hu, ht] at h1
    obtain ⟨rfl, h1⟩ := List.append_inj' h1 rfl
    obtain rfl : l = l' := by simpa using h1
    obtain rfl : c = c' := by simpa [List.getElem?_append_right, hu] using h3
    have hOu : Answers ask O u := by simpa [List.take_left' hu] using hO.take i
    have hex : ∃ O', Answers ask O' u ∧ ∀ d : {d // d ∈ D}, O' d.1 = O d.1 := ⟨O, hOu, fun _ => rfl⟩
    refine ⟨fun d => O d.1, ?_, fun d hd => ?_, fun j c' hj hm hf => ?_⟩
    · show c ∈ S fun d => O d.1
      dsimp only [S]
      rw [dif_pos hex, bad.before hex.choose O pre l]
      · exact h4
      · intro p l' hp
        by_cases hm : p ++ [.challenge l'] ∈ askedBy ask u
        · exact hex.choose_spec.1.agree hOu hm
        · exact hex.choose_spec.2 ⟨_, Finset.mem_filter.mpr ⟨List.mem_toFinset.mpr (mem_draws hp), hm⟩⟩
    · obtain ⟨hd, hnu⟩ := Finset.mem_filter.mp hd
      have hd := List.mem_toFinset.mp hd
      obtain ⟨j, hj, e⟩ := mem_askedBy (h2 d hd)
      have hji : i < j := by
        by_contra hle
        rcases Nat.lt_or_ge j i with hlt | hge
        · refine hnu (List.mem_map.mpr ⟨j, List.mem_range.mpr (by omega), ?_⟩)
          rw [List.take_append_of_le_length (by omega)] at e
          exact e
        · obtain rfl : j = i := by omega
          rw [List.take_left' hu, ht] at e
          have := length_of_mem_draws hd
          rw [← e] at this
          simp at this
      refine ⟨j - (i + 1), ?_, ?_⟩
      · simp at hj; omega
      · rw [← e]
        congr 1
        rw [show u ++ c :: w = (u ++ [c]) ++ w by simp, show j = (u ++ [c]).length + (j - (i + 1)) by simp; omega, List.take_length_add_append]
        simp [hu]
    · have e : ∀ j, u ++ [c] ++ w.take j = (u ++ c :: w).take (i + 1 + j) := fun j => by
        rw [show u ++ c :: w = (u ++ [c]) ++ w by simp, show i + 1 + j = (u ++ [c]).length + j by simp [hu], List.take_length_add_append]
      simp only [e] at hm hf ⊢
      simp only [val, dif_pos hm]
      refine (hO.first (j := i + 1 + j) ?_ rfl fun i' hi' => ?_).symm
      · rw [show u ++ c :: w = (u ++ [c]) ++ w by simp, List.getElem?_append_right (by simp [hu])]
        simpa [hu] using hj
      · obtain ⟨hd, hnu⟩ := Finset.mem_filter.mp hm
        rcases Nat.lt_trichotomy i' i with hlt | rfl | hgt
        · intro e'
          refine hnu (List.mem_map.mpr ⟨i', List.mem_range.mpr (by omega), ?_⟩)
          rw [List.take_append_of_le_length (by omega)] at e'
          exact e'
        · intro e'
          rw [List.take_left' hu, ht] at e'
          have := length_of_mem_draws (List.mem_toFinset.mp hd)
          rw [← e'] at this
          simp at this
        · have := hf (i' - (i + 1)) (by omega)
          rwa [show i + 1 + (i' - (i + 1)) = i' by omega] at this
  have hpos : 0 < Fintype.card F ^ D.card := Nat.pow_pos Fintype.card_pos
  refine Nat.le_of_mul_le_mul_right ?_ hpos
  calc count (k + 1) (fun w => BadAt bad ask i (u ++ w)) * Fintype.card F ^ D.card
      ≤ (∑ c, ∑ v, if c ∈ S v then count k (cond c v) else 0) * Fintype.card F ^ D.card := Nat.mul_le_mul_right _ (by rw [count_succ]; exact Finset.sum_le_sum fun c _ => key c)
    _ = ∑ v, ∑ c, (if c ∈ S v then count k (cond c v) else 0) * Fintype.card F ^ D.card := by rw [Finset.sum_comm]; simp only [Finset.sum_mul]
    _ ≤ ∑ v : {d // d ∈ D} → F, B * Fintype.card F ^ k := by
        refine Finset.sum_le_sum fun v _ => ?_
        have hfin := Set.toFinite (S v)
        have hcard : hfin.toFinset.card ≤ B := by
          have := hS v
          rw [hfin.encard_eq_coe_toFinset_card] at this
          exact_mod_cast this
        calc ∑ c, (if c ∈ S v then count k (cond c v) else 0) * Fintype.card F ^ D.card
            ≤ ∑ c, if c ∈ S v then Fintype.card F ^ k else 0 := Finset.sum_le_sum fun c _ => by
              split
              · exact hcond c v
              · simp
          _ = hfin.toFinset.card * Fintype.card F ^ k := by
              rw [← Finset.sum_filter, Finset.sum_const, smul_eq_mul]
              congr 2
              ext c; simp
          _ ≤ B * Fintype.card F ^ k := Nat.mul_le_mul_right _ hcard
    _ = B * Fintype.card F ^ k * Fintype.card F ^ D.card := by
        rw [Finset.sum_const, smul_eq_mul, Finset.card_univ, Fintype.card_fun, Fintype.card_coe, mul_comm]

/-- Some answer on the log of a proof, all of whose draws have been asked, is bad. -/
theorem count_hit {B : ℕ} (bad : BadRule F G B) (ask : List F → Transcript F G) (Q : ℕ) :
    count Q (fun cs => ∃ O T, Answers ask O cs ∧ (∀ d ∈ draws T, d ∈ askedBy ask cs) ∧ bad.Hit O T) ≤ Q * B * Fintype.card F ^ (Q - 1) := by
  refine le_trans (count_mono (q := fun cs => ∃ i : Fin Q, BadAt bad ask i cs) ?_) ((count_exists _).trans ?_)
  · rintro cs hlen ⟨O, T, hO, hT, pre, l, ⟨rest, rfl⟩, hb⟩
    obtain ⟨more, e⟩ := draws_split pre rest l
    rw [e] at hT
    obtain ⟨j, hj, ej, hf⟩ := askedBy_first (hT (pre ++ [.challenge l]) (by simp))
    refine ⟨⟨j, by omega⟩, O, pre, l, cs[j], hO, ej, fun d hd => hT d (by simp [hd]), List.getElem?_eq_getElem hj, ?_⟩
    rw [← hO.first (List.getElem?_eq_getElem hj) ej hf]
    exact hb
  · refine (Finset.sum_le_card_nsmul _ _ (B * Fintype.card F ^ (Q - 1)) fun i _ => ?_).trans (by simp [mul_assoc])
    have := count_badAt bad ask i (Q - 1 - i)
    rw [show (i : ℕ) + (Q - 1 - i + 1) = Q by omega] at this
    refine this.trans (le_of_eq ?_)
    rw [mul_left_comm, ← pow_add]
    congr 2
    omega

/-- Pairs of answers and a last scalar: if, unless the answers are bad, at most one scalar wins. -/
theorem count_wins {Q B : ℕ} (P : List F → Prop) (hP : count Q P ≤ Q * B * Fintype.card F ^ (Q - 1)) (W : (Fin Q → F) → F → Prop)
    (hW : ∀ cs r r', r ≠ r' → W cs r → W cs r' → P (List.ofFn cs)) :
    Nat.card {p : (Fin Q → F) × F // W p.1 p.2} ≤ (Q * B + 1) * Fintype.card F ^ Q := by
  classical
  have hbad := hP
  unfold count at hbad
  rw [Nat.card_eq_fintype_card, Fintype.card_subtype] at hbad ⊢
  have hsub : (Finset.univ.filter fun p : (Fin Q → F) × F => W p.1 p.2) ⊆ (Finset.univ.filter fun cs : Fin Q → F => P (List.ofFn cs)) ×ˢ Finset.univ ∪
      Finset.univ.filter fun p : (Fin Q → F) × F => W p.1 p.2 ∧ ¬ P (List.ofFn p.1) := by
    intro p hp
    simp only [Finset.mem_filter, Finset.mem_univ, true_and] at hp
    by_cases h : P (List.ofFn p.1)
    · exact Finset.mem_union_left _ (by simpa using h)
    · exact Finset.mem_union_right _ (by simpa using ⟨hp, h⟩)
  refine (Finset.card_le_card hsub).trans ((Finset.card_union_le _ _).trans ?_)
  rw [Nat.add_mul, one_mul]
  refine Nat.add_le_add ?_ ?_
  · rw [Finset.card_product, Finset.card_univ]
    refine (Nat.mul_le_mul_right _ hbad).trans ?_
    rcases Q with _ | Q
    · simp
    · rw [Nat.add_sub_cancel, mul_assoc, ← pow_succ]
  · have : (Finset.univ : Finset (Fin Q → F)).card = Fintype.card F ^ Q := by simp
    rw [← this]
    refine Finset.card_le_card_of_injOn Prod.fst (fun _ _ => Finset.mem_coe.mpr (Finset.mem_univ _)) ?_
    rintro ⟨cs, r⟩ h1 ⟨cs', r'⟩ h2 (rfl : cs = cs')
    simp only [Finset.coe_filter, Finset.mem_univ, true_and, Set.mem_ofPred_eq] at h1 h2
    by_contra hn
    exact h1.2 (hW cs r r' (fun h => hn (by rw [h])) h1.1 h2.1)

end Count

end Bp
