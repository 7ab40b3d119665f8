import Verif.Lemmas.Gadgets.PoseidonFun
import Verif.Model.Gadgets.PoseidonTables
import Mathlib.FieldTheory.Finite.Basic

set_option linter.unusedSectionVars false
set_option linter.unusedSimpArgs false

/-! # Poseidon: injectivity -/

namespace Bp
variable {F : Type} [Field F]

theorem sboxVals_inj {f : F → F} (hf : Function.Injective f) : ∀ (ks xs ys : List F), xs.length ≤ ks.length → xs.length = ys.length → sboxVals f ks xs = sboxVals f ks ys → xs = ys
  | _, [], [], _, _, _ => rfl
  | k :: ks, x :: xs, y :: ys, hl, h, e => by
    simp only [sboxVals, List.zipWith_cons_cons, List.cons.injEq] at e
    rw [add_right_cancel (hf e.1), sboxVals_inj hf ks xs ys (by simpa using hl) (by simpa using h) e.2]
  | _, [], _ :: _, _, h, _ => by simp at h
  | _, _ :: _, [], _, h, _ => by simp at h
  | [], _ :: _, _ :: _, hl, _, _ => by simp at hl

theorem partialVals_inj {f : F → F} (hf : Function.Injective f) : ∀ (xs ys ks : List F), xs.length ≤ ks.length → xs.length = ys.length → partialVals f xs ks = partialVals f ys ks → xs = ys
  | [], [], _, _, _, _ => rfl
  | [x], [y], k :: ks, _, _, e => by
    simp only [partialVals, List.cons.injEq, and_true] at e
    rw [add_right_cancel (hf e)]
  | x :: x' :: xs, y :: y' :: ys, k :: ks, hl, h, e => by
    simp only [partialVals, List.cons.injEq] at e
    rw [add_right_cancel e.1, partialVals_inj hf (x' :: xs) (y' :: ys) ks (by simpa using hl) (by simpa using h) e.2]
  | [], _ :: _, _, _, h, _ => by simp at h
  | _ :: _, [], _, _, h, _ => by simp at h
  | [_], _ :: _ :: _, _, _, h, _ => by simp at h
  | _ :: _ :: _, [_], _, _, h, _ => by simp at h
  | [_], [_], [], hl, _, _ => by simp at hl
  | _ :: _ :: _, _ :: _ :: _, [], hl, _, _ => by simp at hl

theorem list_sum_range (w : ℕ) (g : ℕ → F) : ((List.range w).map g).sum = ∑ i ∈ Finset.range w, g i := by
  induction w with
  | zero => simp
  | succ w ih => rw [List.range_succ, List.map_append, List.sum_append, ih, Finset.sum_range_succ]; simp

/-- A right inverse of the matrix makes the linear layer injective. -/
theorem linearVals_inj {mds : List (List F)} {w : ℕ} (inv : ℕ → ℕ → F)
    (hi : ∀ j < w, ∀ k < w, ((List.range w).map fun i => mdsEntry mds j i * inv i k).sum = if j = k then 1 else 0) (xs ys : List F) (hx : xs.length = w) (hy : ys.length = w)
    (h : linearVals mds xs = linearVals mds ys) : xs = ys := by
  have key : ∀ zs : List F, zs.length = w → ∀ k < w, zs.getD k 0 = ((List.range w).map fun i => (linearVals mds zs).getD i 0 * inv i k).sum := by
    intro zs hz k hk
    have e : ∀ i < w, (linearVals mds zs).getD i 0 = ∑ j ∈ Finset.range w, zs.getD j 0 * mdsEntry mds j i := by
      intro i hi
      rw [linearVals, List.getD_eq_getElem?_getD, List.getElem?_map, hz, List.getElem?_range hi, ← list_sum_range]
      rfl
    rw [list_sum_range, Finset.sum_congr rfl fun i hi => by rw [e i (Finset.mem_range.mp hi), Finset.sum_mul], Finset.sum_comm,
      Finset.sum_congr rfl (g := fun j => if j = k then zs.getD j 0 else 0) fun j hj => by
        have := hi j (Finset.mem_range.mp hj) k hk
        rw [list_sum_range] at this
        rw [Finset.sum_congr rfl fun i _ => mul_assoc _ _ _, ← Finset.mul_sum, this]
        split <;> simp]
    rw [Finset.sum_ite_eq' (Finset.range w) k, if_pos (Finset.mem_range.mpr hk)]
  apply List.ext_getElem (by rw [hx, hy])
  intro k h1 h2
  have a := key xs hx k (by omega)
  have b := key ys hy k (by omega)
  rw [h, ← b, List.getD_eq_getElem?_getD, List.getD_eq_getElem?_getD, List.getElem?_eq_getElem h1, List.getElem?_eq_getElem h2] at a
  exact a

theorem roundsVals_inj {lv : List F → List F → List F} {mds : List (List F)} {w : ℕ} (hl : ∀ ks xs ys : List F, w ≤ ks.length → xs.length = w → ys.length = w → lv ks xs = lv ks ys → xs = ys)
    (hll : ∀ ks xs : List F, xs.length = w → w ≤ ks.length → (lv ks xs).length = w)
    (hm : ∀ xs ys : List F, xs.length = w → ys.length = w → linearVals mds xs = linearVals mds ys → xs = ys) :
    ∀ (n : ℕ) (ks xs ys : List F), n * w ≤ ks.length → xs.length = w → ys.length = w → roundsVals lv mds w n ks xs = roundsVals lv mds w n ks ys → xs = ys
  | 0, _, _, _, _, _, _, h => h
  | n + 1, ks, xs, ys, hk, hx, hy, h => by
    have e : (n + 1) * w = n * w + w := by ring
    have h1 := hll ks xs hx (by omega)
    have h2 := hll ks ys hy (by omega)
    have := roundsVals_inj hl hll hm n (ks.drop w) _ _ (by rw [List.length_drop]; omega) (by rw [linearVals_length, h1]) (by rw [linearVals_length, h2]) h
    exact hl ks xs ys (by omega) hx hy (hm _ _ h1 h2 this)

theorem roundsVals_length {lv : List F → List F → List F} {mds : List (List F)} {w : ℕ} (hll : ∀ ks xs : List F, xs.length = w → w ≤ ks.length → (lv ks xs).length = w) :
    ∀ (n : ℕ) (ks xs : List F), n * w ≤ ks.length → xs.length = w → (roundsVals lv mds w n ks xs).length = w
  | 0, _, _, _, hx => hx
  | n + 1, ks, xs, hk, hx => by
    have e : (n + 1) * w = n * w + w := by ring
    exact roundsVals_length hll n _ _ (by rw [List.length_drop]; omega) (by rw [linearVals_length, hll ks xs hx (by omega)])

/-- The permutation is injective for an injective S-box and an invertible matrix. -/
theorem perm_inj {f : F → F} (hf : Function.Injective f) {p : PoseidonParams F} (hv : p.Valid) (hm : ∀ xs ys : List F, xs.length = p.width → ys.length = p.width → linearVals p.mds xs = linearVals p.mds ys → xs = ys)
    {xs ys zs : List F} (h1 : permWith (fun x => .ok (f x)) p xs = .ok zs) (h2 : permWith (fun x => .ok (f x)) p ys = .ok zs) : xs = ys := by
  have hx := permWith_length h1
  have hy := permWith_length h2
  rw [(permWith_eq f hv hx).1] at h1
  rw [(permWith_eq f hv hy).1, ← h1] at h2
  simp only [Except.ok.injEq] at h2
  have hk := hv.keys
  have hk' : (p.fullRoundsBeginning + p.partialRounds + p.fullRoundsEnd) * p.width = p.fullRoundsBeginning * p.width + p.partialRounds * p.width + p.fullRoundsEnd * p.width := by ring
  rw [hk'] at hk
  have hne : ∀ xs : List F, xs.length = p.width → xs ≠ [] := by rintro xs h rfl; exact hv.pos (by simpa using h.symm)
  have hs := fun (ks xs ys : List F) (a : p.width ≤ ks.length) (b : xs.length = p.width) (c : ys.length = p.width) => sboxVals_inj hf ks xs ys (by omega) (by omega)
  have hs' := fun (ks xs : List F) (b : xs.length = p.width) (a : p.width ≤ ks.length) => (sboxVals_length f ks xs (by omega)).trans b
  have ht := fun (ks xs ys : List F) (a : p.width ≤ ks.length) (b : xs.length = p.width) (c : ys.length = p.width) => partialVals_inj hf xs ys ks (by omega) (by omega)
  have ht' := fun (ks xs : List F) (b : xs.length = p.width) (a : p.width ≤ ks.length) => (partialVals_length f xs ks (by omega) (hne xs b)).trans b
  unfold permVals at h2
  have a1 := fun xs hx => roundsVals_length (mds := p.mds) hs' p.fullRoundsBeginning p.roundKeys xs (by omega) hx
  have a2 := fun xs hx => roundsVals_length (mds := p.mds) ht' p.partialRounds (p.roundKeys.drop (p.fullRoundsBeginning * p.width)) xs (by rw [List.length_drop]; omega) hx
  have b3 := roundsVals_inj hs hs' hm _ _ _ _ (by simp only [List.length_drop]; omega) (a2 _ (a1 _ hy)) (a2 _ (a1 _ hx)) h2
  have b2 := roundsVals_inj ht ht' hm _ _ _ _ (by simp only [List.length_drop]; omega) (a1 _ hy) (a1 _ hx) b3
  exact (roundsVals_inj hs hs' hm _ _ _ _ (by omega) hy hx b2).symm

/-! ## The default curve -/

/-- Inverse of the Cauchy matrix of width 3. -/
def invW3 : List (List Fr) := [[300, -900, 630], [-900, 2880, -2100], [630, -2100, 1575]]
/-- Inverse of the Cauchy matrix of width 5. -/
def invW5 : List (List Fr) := [[79380, -529200, 1247400, -1247400, 450450], [-529200, 3628800, -8731800, 8870400, -3243240], [1247400, -8731800, 21344400, -21954240, 8108100], [-1247400, 8870400, -21954240, 22809600, -8494200], [450450, -3243240, 8108100, -8494200, 3185325]]
/-- Inverse of the Cauchy matrix of width 9. -/
def invW9 : List (List Fr) := [[5318784900, -76590502560, 463024401840, -1543414672800, 3116510397000, -3917898784800, 3003722401680, -1287309600720, 236637794250], [-76590502560, 1114043673600, -6791024560320, 22795047475200, -46302440184000, 58507288519680, -45055836025200, 19385368104960, -3575860002000], [463024401840, -6791024560320, 41686443070272, -140759418159360, 287383812075360, -364756376864880, 281996526651840, -121750881348096, 22527918012600], [-1543414672800, 22795047475200, -140759418159360, 477728934359040, -979717541166000, 1248364070553600, -968472919814400, 419428873543680, -77823716770800], [3116510397000, -46302440184000, 287383812075360, -979717541166000, 2017065525930000, -2579085492984000, 2007032695668000, -871625627832960, 162132743272500], [-3917898784800, 58507288519680, -364756376864880, 1248364070553600, -2579085492984000, 3307912081689600, -2581352820889920, 1123854289367040, -209525391306000], [3003722401680, -45055836025200, 281996526651840, -968472919814400, 2007032695668000, -2581352820889920, 2019425676206400, -881203931435520, 164627093169000], [-1287309600720, 19385368104960, -121750881348096, 419428873543680, -871625627832960, 1123854289367040, -881203931435520, 385321470640128, -72122345578800], [236637794250, -3575860002000, 22527918012600, -77823716770800, 162132743272500, -209525391306000, 164627093169000, -72122345578800, 13522939796025]]

theorem mds_inv3 : ∀ j < 3, ∀ k < 3, ((List.range 3).map fun i => mdsEntry (mdsEntriesBls 3) j i * mdsEntry invW3 i k).sum = if j = k then 1 else 0 := by decide +kernel
theorem mds_inv5 : ∀ j < 5, ∀ k < 5, ((List.range 5).map fun i => mdsEntry (mdsEntriesBls 5) j i * mdsEntry invW5 i k).sum = if j = k then 1 else 0 := by decide +kernel
theorem mds_inv9 : ∀ j < 9, ∀ k < 9, ((List.range 9).map fun i => mdsEntry (mdsEntriesBls 9) j i * mdsEntry invW9 i k).sum = if j = k then 1 else 0 := by decide +kernel

/-- Fifth powers are injective: 5 is prime to the order of the multiplicative group. -/
theorem quint_injective : Function.Injective (SboxType.quint.apply : Fr → Fr) := by
  have e : ∀ x : Fr, (SboxType.quint.apply x) ^ 20974350070050476191779096203274386335076221000211055129041463479975432473805 = x := by
    intro x
    by_cases hx : x = 0
    · subst hx
      rw [show SboxType.quint.apply (0 : Fr) = 0 by simp [SboxType.apply], zero_pow (by norm_num)]
    · have h := ZMod.pow_card_sub_one_eq_one hx
      have h5 : SboxType.quint.apply x = x ^ 5 := by simp only [SboxType.apply]; ring
      rw [h5, ← pow_mul]
      have : 5 * 20974350070050476191779096203274386335076221000211055129041463479975432473805 = (blsOrder - 1) * 2 + 1 := by norm_num
      rw [this, pow_succ, pow_mul, h, one_pow, one_mul]
  intro x y h
  rw [← e x, h, e y]

theorem inverse_injective : Function.Injective (SboxType.inverse.apply : F → F) := fun x y h => inv_injective h

end Bp
