import Verif.Spec.Hades
import Verif.Lemmas.Gadgets.PoseidonFun

/-! # The permutation of lists is the permutation of vectors -/

namespace Bp
variable {F : Type} [Field F]

theorem SboxType.apply_eq_power (sbox : SboxType) (x : F) : sbox.apply x = sbox.power x := by
  cases sbox
  · show x ^ 2 * x = x ^ 3; ring
  · rfl
  · show (x ^ 2) ^ 2 * x = x ^ 5; ring

theorem linearVals_ofFn {w : ℕ} (mds : List (List F)) (t : Fin w → F) :
    linearVals mds (List.ofFn t) = List.ofFn (Matrix.vecMul t (Matrix.of fun i j : Fin w => (mds.getD i []).getD j 0)) := by
  apply List.ext_getElem
  · simp [linearVals]
  · intro i h1 h2
    have hi : i < w := by simpa [linearVals] using h1
    simp only [linearVals, List.length_ofFn, List.getElem_map, List.getElem_range, List.getElem_ofFn]
    show _ = ∑ j : Fin w, t j * (Matrix.of fun i j : Fin w => (mds.getD i []).getD j 0) j ⟨i, hi⟩
    have e : ((List.range w).map fun j => (List.ofFn t).getD j 0 * mdsEntry mds j i).sum = ∑ j ∈ Finset.range w, (List.ofFn t).getD j 0 * mdsEntry mds j i := rfl
    rw [e, Finset.sum_range]
    refine Finset.sum_congr rfl fun j _ => ?_
    have : (List.ofFn t).getD j.val 0 = t j := by simp [List.getD_eq_getElem?_getD]
    rw [this]
    rfl

theorem sboxVals_ofFn {w : ℕ} (f : F → F) (ks : List F) (hk : w ≤ ks.length) (s : Fin w → F) : sboxVals f ks (List.ofFn s) = List.ofFn fun i => f (s i + ks.getD i 0) := by
  apply List.ext_getElem
  · simp [sboxVals, hk]
  · intro i h1 h2
    have hi : i < w := by simpa using h2
    simp [sboxVals, List.getD_eq_getElem?_getD, List.getElem?_eq_getElem (show i < ks.length by omega)]

theorem partialVals_get (f : F → F) : ∀ (xs ks : List F) (i : ℕ) (hi : i < xs.length), xs.length ≤ ks.length →
    (partialVals f xs ks)[i]? = some (if i + 1 = xs.length then f (xs[i] + ks.getD i 0) else xs[i] + ks.getD i 0)
  | [], _, _, hi, _ => absurd hi (by simp)
  | [x], [], _, _, h => absurd h (by simp)
  | [x], k :: ks, i, hi, _ => by
    have : i = 0 := by simpa using hi
    subst this
    simp [partialVals]
  | x :: x' :: xs, [], _, _, h => absurd h (by simp)
  | x :: x' :: xs, k :: ks, 0, _, _ => by simp [partialVals]
  | x :: x' :: xs, k :: ks, i + 1, hi, h => by
    have := partialVals_get f (x' :: xs) ks i (by simpa using hi) (by simpa using h)
    simp only [partialVals, List.getElem?_cons_succ, List.getD_cons_succ, List.getElem_cons_succ, List.length_cons] at this ⊢
    rw [this]
    congr 1
    by_cases e : i + 1 = xs.length + 1
    · rw [if_pos e, if_pos (by omega)]
    · rw [if_neg e, if_neg (by omega)]

theorem partialVals_ofFn {w : ℕ} (hw : w ≠ 0) (f : F → F) (ks : List F) (hk : w ≤ ks.length) (s : Fin w → F) :
    partialVals f (List.ofFn s) ks = List.ofFn fun i => if i.val + 1 = w then f (s i + ks.getD i 0) else s i + ks.getD i 0 := by
  apply List.ext_getElem?
  intro i
  by_cases hi : i < w
  · rw [partialVals_get f (List.ofFn s) ks i (by simpa using hi) (by simpa using hk), List.getElem?_eq_getElem (by simpa using hi)]
    simp
  · rw [List.getElem?_eq_none, List.getElem?_eq_none]
    · simp; omega
    · rw [partialVals_length f _ _ (by simpa using hk) (by intro e; apply hw; simpa using congrArg List.length e)]
      simp; omega

/-- Some rounds in a row. -/
theorem roundsVals_ofFn {w : ℕ} {p : PoseidonParams F} (f : F → F) (layer : List F → List F → List F) :
    ∀ (n r0 : ℕ) (s : Fin w → F), (r0 + n) * w ≤ p.roundKeys.length →
      (∀ r, r0 ≤ r → r < r0 + n → ∀ s : Fin w → F, linearVals p.mds (layer (p.roundKeys.drop (r * w)) (List.ofFn s)) = List.ofFn ((p.hades w).round f r s)) →
      roundsVals layer p.mds w n (p.roundKeys.drop (r0 * w)) (List.ofFn s) = List.ofFn ((List.range' r0 n).foldl (fun s r => (p.hades w).round f r s) s)
  | 0, _, _, _, _ => rfl
  | n + 1, r0, s, hk, hl => by
    rw [roundsVals, hl r0 (by omega) (by omega), List.drop_drop, show r0 * w + w = (r0 + 1) * w by ring,
      roundsVals_ofFn f layer n (r0 + 1) _ (by rwa [show r0 + 1 + n = r0 + (n + 1) by omega]) fun r h1 h2 => hl r (by omega) (by omega)]
    rfl

theorem permVals_ofFn (f : F → F) {p : PoseidonParams F} (hv : p.Valid) (s : Fin p.width → F) : permVals f p (List.ofFn s) = List.ofFn ((p.hades p.width).permute f s) := by
  have hk := hv.keys
  have hkey : ∀ r (i : Fin p.width), (p.roundKeys.drop (r * p.width)).getD i 0 = (p.hades p.width).key r i := by
    intro r i
    show _ = p.roundKeys.getD (r * p.width + i) 0
    rw [List.getD_eq_getElem?_getD, List.getD_eq_getElem?_getD, List.getElem?_drop]
  have hlen : ∀ r, r < p.fullRoundsBeginning + p.partialRounds + p.fullRoundsEnd → p.width ≤ (p.roundKeys.drop (r * p.width)).length := by
    intro r hr
    rw [List.length_drop, hk, ← Nat.sub_mul]
    exact Nat.le_mul_of_pos_left _ (by omega)
  have full : ∀ r, r < p.fullRoundsBeginning + p.partialRounds + p.fullRoundsEnd → (r < p.fullRoundsBeginning ∨ p.fullRoundsBeginning + p.partialRounds ≤ r) → ∀ s : Fin p.width → F,
      linearVals p.mds (sboxVals f (p.roundKeys.drop (r * p.width)) (List.ofFn s)) = List.ofFn ((p.hades p.width).round f r s) := by
    intro r hr h s
    rw [sboxVals_ofFn f _ (hlen r hr), linearVals_ofFn]
    congr 1
    unfold Hades.round
    congr 1
    funext i
    rw [if_pos (by rcases h with h | h; exacts [.inl h, .inr (.inl h)]), hkey]
  have part : ∀ r, p.fullRoundsBeginning ≤ r → r < p.fullRoundsBeginning + p.partialRounds → ∀ s : Fin p.width → F,
      linearVals p.mds ((fun ks xs => partialVals f xs ks) (p.roundKeys.drop (r * p.width)) (List.ofFn s)) = List.ofFn ((p.hades p.width).round f r s) := by
    intro r h1 h2 s
    show linearVals p.mds (partialVals f (List.ofFn s) _) = _
    rw [partialVals_ofFn hv.pos f _ (hlen r (by omega)), linearVals_ofFn]
    congr 1
    unfold Hades.round
    congr 1
    funext i
    have e : (r < (p.hades p.width).fullFirst ∨ (p.hades p.width).fullFirst + (p.hades p.width).partials ≤ r ∨ i.val + 1 = p.width) ↔ i.val + 1 = p.width := by
      constructor
      · rintro (h | h | h)
        · exact absurd h (by show ¬ r < p.fullRoundsBeginning; omega)
        · exact absurd h (by show ¬ p.fullRoundsBeginning + p.partialRounds ≤ r; omega)
        · exact h
      · exact fun h => .inr (.inr h)
    simp only [e, hkey]
  have hle : ∀ n, n ≤ p.fullRoundsBeginning + p.partialRounds + p.fullRoundsEnd → n * p.width ≤ p.roundKeys.length := fun n h => by rw [hk]; exact Nat.mul_le_mul_right _ h
  unfold permVals
  simp only [List.drop_drop]
  have r1 := roundsVals_ofFn (p := p) f (sboxVals f) p.fullRoundsBeginning 0 s (hle _ (by omega)) fun r _ h => full r (by omega) (.inl (by omega))
  rw [Nat.zero_mul, List.drop_zero] at r1
  rw [r1, roundsVals_ofFn (p := p) f _ p.partialRounds p.fullRoundsBeginning _ (hle _ (by omega)) fun r h1 h2 => part r h1 h2, ← Nat.add_mul,
    roundsVals_ofFn (p := p) f (sboxVals f) p.fullRoundsEnd (p.fullRoundsBeginning + p.partialRounds) _ (hle _ (by omega)) fun r h1 h2 => full r (by omega) (.inr h1)]
  congr 1
  unfold Hades.permute
  show _ = (List.range (p.fullRoundsBeginning + p.partialRounds + p.fullRoundsEnd)).foldl _ s
  have e : List.range (p.fullRoundsBeginning + p.partialRounds + p.fullRoundsEnd) =
      List.range' 0 p.fullRoundsBeginning ++ List.range' p.fullRoundsBeginning p.partialRounds ++ List.range' (p.fullRoundsBeginning + p.partialRounds) p.fullRoundsEnd := by
    rw [List.range_eq_range']
    have a := @List.range'_append_1 0 p.fullRoundsBeginning p.partialRounds
    have b := @List.range'_append_1 0 (p.fullRoundsBeginning + p.partialRounds) p.fullRoundsEnd
    rw [Nat.zero_add] at a b
    rw [a, b]
  rw [e, List.foldl_append, List.foldl_append]

end Bp
