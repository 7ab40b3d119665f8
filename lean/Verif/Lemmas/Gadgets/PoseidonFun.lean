import Verif.Lemmas.Gadgets.PoseidonHash
import Mathlib.Algebra.BigOperators.Group.Finset.Basic

set_option linter.unusedSectionVars false
set_option linter.unusedSimpArgs false

/-! # Poseidon: the permutation on values, in closed form for well-formed parameters -/

namespace Bp
variable {F : Type} [Field F]

/-- What `PoseidonParams::new` guarantees: square matrix, one key per state element and round. -/
structure PoseidonParams.Valid (p : PoseidonParams F) : Prop where
  keys : p.roundKeys.length = (p.fullRoundsBeginning + p.partialRounds + p.fullRoundsEnd) * p.width
  rows : p.mds.length = p.width
  cols : ∀ row ∈ p.mds, row.length = p.width
  pos : p.width ≠ 0

theorem poseidonParams_new_valid {consts : ℕ → List F} {entries : ℕ → List (List F)} {w fb fe pr : ℕ} {p : PoseidonParams F} (h : PoseidonParams.new consts entries w fb fe pr = .ok p) :
    p.Valid ∧ p.width = w ∧ p.fullRoundsBeginning = fb ∧ p.fullRoundsEnd = fe ∧ p.partialRounds = pr ∧ (w = 3 ∨ w = 5 ∨ w = 9) ∧ p.mds = entries w ∧
      p.roundKeys = (consts w).take ((fb + pr + fe) * w) := by
  unfold PoseidonParams.new at h
  split at h
  · simp [Res.panic] at h
  rename_i hw
  simp only [res_bind_ok, res_pure_ok] at h
  obtain ⟨keys, h1, m, h2, rfl⟩ := h
  unfold genRoundKeys at h1
  unfold genMds at h2
  split at h1
  · simp [Res.panic] at h1
  split at h2
  · simp [Res.panic] at h2
  rename_i h3 h4
  simp only [Except.ok.injEq] at h1 h2
  subst h1 h2
  push Not at h4
  refine ⟨⟨?_, h4.1, h4.2, ?_⟩, rfl, rfl, rfl, rfl, by omega, rfl, rfl⟩
  · simp only [List.length_take]; omega
  · simp only; omega

/-- The S-box layer on values. -/
def sboxVals (f : F → F) (keys : List F) (xs : List F) : List F := List.zipWith (fun x k => f (x + k)) xs keys

/-- The S-box layer of a partial round on values. -/
def partialVals (f : F → F) : List F → List F → List F
  | [x], k :: _ => [f (x + k)]
  | x :: x' :: xs, k :: ks => (x + k) :: partialVals f (x' :: xs) ks
  | _, _ => []

theorem sboxLayer_eq (f : F → F) (keys : List F) : ∀ (xs : List F) (off : ℕ), off + xs.length ≤ keys.length →
    sboxLayer (fun x => .ok (f x)) keys xs off = .ok (sboxVals f (keys.drop off) xs)
  | [], off, _ => by simp [sboxLayer, sboxVals]
  | x :: xs, off, h => by
    simp only [List.length_cons] at h
    have hlt : off < keys.length := by omega
    rw [List.drop_eq_getElem_cons hlt]
    simp only [sboxLayer, sboxVals, List.zipWith_cons_cons]
    rw [idx_get.mpr (List.getElem?_eq_getElem hlt)]
    simp only [Bind.bind, Except.bind]
    rw [sboxLayer_eq f keys xs (off + 1) (by omega)]
    rfl

theorem partialLayer_eq (f : F → F) (keys : List F) : ∀ (xs : List F) (off : ℕ), off + xs.length ≤ keys.length → xs ≠ [] →
    partialLayer (fun x => .ok (f x)) keys xs off = .ok (partialVals f xs (keys.drop off))
  | [], off, _, h => absurd rfl h
  | [x], off, h, _ => by
    simp only [List.length_cons, List.length_nil] at h
    have hlt : off < keys.length := by omega
    rw [List.drop_eq_getElem_cons hlt]
    simp only [partialLayer, partialVals]
    rw [idx_get.mpr (List.getElem?_eq_getElem hlt)]
    rfl
  | x :: x' :: xs, off, h, _ => by
    simp only [List.length_cons] at h
    have hlt : off < keys.length := by omega
    rw [List.drop_eq_getElem_cons hlt]
    simp only [partialLayer, partialVals]
    rw [idx_get.mpr (List.getElem?_eq_getElem hlt)]
    simp only [Bind.bind, Except.bind]
    rw [partialLayer_eq f keys (x' :: xs) (off + 1) (by simp; omega) (by simp)]
    rfl

/-- Entry of the matrix. -/
def mdsEntry (mds : List (List F)) (j i : ℕ) : F := (mds.getD j []).getD i 0

theorem mdsColumn_eq {mds : List (List F)} {w : ℕ} (h2 : ∀ row ∈ mds, row.length = w) {i : ℕ} (hi : i < w) : ∀ (xs : List F) (j : ℕ) (acc : F), j + xs.length ≤ mds.length →
    mdsColumn mds i j xs acc = .ok (acc + ((List.range xs.length).map fun t => xs.getD t 0 * mdsEntry mds (j + t) i).sum)
  | [], j, acc, _ => by simp [mdsColumn]
  | x :: xs, j, acc, h => by
    simp only [List.length_cons] at h
    have hlt : j < mds.length := by omega
    have hrow : (mds[j]).length = w := h2 _ (List.getElem_mem hlt)
    simp only [mdsColumn]
    rw [idx_get.mpr (List.getElem?_eq_getElem hlt)]
    simp only [Bind.bind, Except.bind]
    rw [idx_get.mpr (List.getElem?_eq_getElem (by omega : i < (mds[j]).length))]
    simp only
    rw [mdsColumn_eq h2 hi xs (j + 1) _ (by omega), List.length_cons, List.range_succ_eq_map, List.map_cons, List.sum_cons, List.map_map]
    congr 1
    rw [add_assoc]
    congr 2
    · simp [mdsEntry, hlt, hrow, hi]
    · congr 1
      apply List.map_congr_left
      intro t _
      simp only [Function.comp_apply, List.getD_cons_succ]
      rw [show j + 1 + t = j + (t + 1) by omega]

/-- The linear layer on values: row vector times matrix. -/
def linearVals (mds : List (List F)) (xs : List F) : List F :=
  (List.range xs.length).map fun i => ((List.range xs.length).map fun j => xs.getD j 0 * mdsEntry mds j i).sum

theorem linearColumns_eq {mds : List (List F)} {w : ℕ} (h1 : mds.length = w) (h2 : ∀ row ∈ mds, row.length = w) {xs : List F} (hx : xs.length = w) : ∀ (n i : ℕ), i + n ≤ w →
    linearColumns mds xs i n = .ok ((List.range n).map fun t => ((List.range xs.length).map fun j => xs.getD j 0 * mdsEntry mds j (i + t)).sum)
  | 0, i, _ => rfl
  | n + 1, i, h => by
    simp only [linearColumns]
    rw [mdsColumn_eq h2 (by omega) xs 0 0 (by omega)]
    simp only [Bind.bind, Except.bind]
    rw [linearColumns_eq h1 h2 hx n (i + 1) (by omega), List.range_succ_eq_map, List.map_cons, List.map_map]
    simp only [Nat.zero_add, zero_add, Nat.add_zero, Function.comp_def]
    congr 2
    apply List.map_congr_left
    intro t _
    rw [show i + 1 + t = i + t.succ by omega]

theorem linearLayer_eq {mds : List (List F)} {w : ℕ} (h1 : mds.length = w) (h2 : ∀ row ∈ mds, row.length = w) {xs : List F} (hx : xs.length = w) :
    linearLayer mds xs = .ok (linearVals mds xs) := by
  rw [linearLayer, linearColumns_eq h1 h2 hx _ _ (by omega)]
  simp [linearVals]

theorem linearVals_length (mds : List (List F)) (xs : List F) : (linearVals mds xs).length = xs.length := by simp [linearVals]

theorem partialVals_length (f : F → F) : ∀ (xs ks : List F), xs.length ≤ ks.length → xs ≠ [] → (partialVals f xs ks).length = xs.length
  | [], _, _, h => absurd rfl h
  | [x], k :: ks, _, _ => rfl
  | [x], [], h, _ => by simp at h
  | x :: x' :: xs, [], h, _ => by simp at h
  | x :: x' :: xs, k :: ks, h, _ => by
    rw [partialVals, List.length_cons, partialVals_length f (x' :: xs) ks (by simpa using h) (by simp)]
    rfl

theorem sboxVals_length (f : F → F) (ks xs : List F) (h : xs.length ≤ ks.length) : (sboxVals f ks xs).length = xs.length := by simp [sboxVals]; omega

/-- `n` rounds on values. -/
def roundsVals (layer : List F → List F → List F) (mds : List (List F)) (w : ℕ) : ℕ → List F → List F → List F
  | 0, _, xs => xs
  | n + 1, keys, xs => roundsVals layer mds w n (keys.drop w) (linearVals mds (layer keys xs))

theorem permRounds_eq {mds : List (List F)} {w : ℕ} (h1 : mds.length = w) (h2 : ∀ row ∈ mds, row.length = w) {keys : List F} {layer : List F → ℕ → Res (List F)} {lv : List F → List F → List F}
    (hl : ∀ xs off, xs.length = w → off + w ≤ keys.length → layer xs off = .ok (lv (keys.drop off) xs)) (hll : ∀ xs ks, xs.length = w → w ≤ ks.length → (lv ks xs).length = w) :
    ∀ (n off : ℕ) (xs : List F), xs.length = w → off + n * w ≤ keys.length →
      permRounds layer mds w n xs off = .ok (roundsVals lv mds w n (keys.drop off) xs, off + n * w) ∧ (roundsVals lv mds w n (keys.drop off) xs).length = w
  | 0, off, xs, hx, _ => ⟨by simp [permRounds, roundsVals], hx⟩
  | n + 1, off, xs, hx, h => by
    have hw : (n + 1) * w = n * w + w := by ring
    have e := hll xs (keys.drop off) hx (by rw [List.length_drop]; omega)
    have ih := permRounds_eq h1 h2 hl hll n (off + w) (linearVals mds (lv (keys.drop off) xs)) (by rw [linearVals_length, e]) (by omega)
    rw [← List.drop_drop] at ih
    constructor
    · simp only [permRounds]
      rw [hl xs off hx (by omega)]
      simp only [Bind.bind, Except.bind]
      rw [linearLayer_eq h1 h2 e]
      simp only
      rw [ih.1, roundsVals, hw]
      congr 2
      omega
    · exact ih.2

/-- The permutation on values. -/
def permVals (f : F → F) (p : PoseidonParams F) (xs : List F) : List F :=
  let k1 := p.roundKeys
  let k2 := k1.drop (p.fullRoundsBeginning * p.width)
  let k3 := k2.drop (p.partialRounds * p.width)
  roundsVals (sboxVals f) p.mds p.width p.fullRoundsEnd k3 (roundsVals (fun ks xs => partialVals f xs ks) p.mds p.width p.partialRounds k2
    (roundsVals (sboxVals f) p.mds p.width p.fullRoundsBeginning k1 xs))

theorem permWith_eq (f : F → F) {p : PoseidonParams F} (hv : p.Valid) {xs : List F} (hx : xs.length = p.width) :
    permWith (fun x => .ok (f x)) p xs = .ok (permVals f p xs) ∧ (permVals f p xs).length = p.width := by
  have hk := hv.keys
  have hk' : (p.fullRoundsBeginning + p.partialRounds + p.fullRoundsEnd) * p.width = p.fullRoundsBeginning * p.width + p.partialRounds * p.width + p.fullRoundsEnd * p.width := by ring
  rw [hk'] at hk
  have hs : ∀ xs off, xs.length = p.width → off + p.width ≤ p.roundKeys.length → sboxLayer (fun x => .ok (f x)) p.roundKeys xs off = .ok (sboxVals f (p.roundKeys.drop off) xs) :=
    fun xs off h1 h2 => sboxLayer_eq f _ xs off (by omega)
  have hs' : ∀ xs ks : List F, xs.length = p.width → p.width ≤ ks.length → (sboxVals f ks xs).length = p.width := fun xs ks h1 h2 => by rw [sboxVals_length f ks xs (by omega), h1]
  have hne : ∀ xs : List F, xs.length = p.width → xs ≠ [] := by rintro xs h rfl; exact hv.pos (by simpa using h.symm)
  have ht : ∀ xs off, xs.length = p.width → off + p.width ≤ p.roundKeys.length →
      partialLayer (fun x => .ok (f x)) p.roundKeys xs off = .ok ((fun ks xs => partialVals f xs ks) (p.roundKeys.drop off) xs) :=
    fun xs off h1 h2 => partialLayer_eq f _ xs off (by omega) (hne xs h1)
  have ht' : ∀ xs ks : List F, xs.length = p.width → p.width ≤ ks.length → ((fun ks xs => partialVals f xs ks) ks xs).length = p.width := fun xs ks h1 h2 => by
    rw [partialVals_length f xs ks (by omega) (hne xs h1), h1]
  have r1 := permRounds_eq hv.rows hv.cols hs hs' p.fullRoundsBeginning 0 xs hx (by omega)
  have r2 := permRounds_eq hv.rows hv.cols ht ht' p.partialRounds (0 + p.fullRoundsBeginning * p.width) _ r1.2 (by omega)
  have r3 := permRounds_eq hv.rows hv.cols hs hs' p.fullRoundsEnd (0 + p.fullRoundsBeginning * p.width + p.partialRounds * p.width) _ r2.2 (by omega)
  simp only [List.drop_zero, Nat.zero_add] at r1 r2 r3
  constructor
  · rw [permWith, if_neg (by simpa using hx), r1.1]
    simp only [Bind.bind, Except.bind]
    rw [r2.1]
    simp only
    rw [r3.1]
    simp only [permVals, List.drop_drop, Pure.pure, Except.pure]
  · simpa only [permVals, List.drop_drop] using r3.2

/-- With well-formed parameters of width at least 2 and an input of the right length the hash is defined. -/
theorem hashOf_defined (sbox : SboxType) {p : PoseidonParams F} (hv : p.Valid) (hw : 2 ≤ p.width) {xs : List F} (hx : xs.length = p.width) : ∃ y, hashOf p sbox xs = .ok y := by
  obtain ⟨h1, h2⟩ := permWith_eq sbox.apply hv hx
  refine ⟨(permVals sbox.apply p xs)[1]'(by omega), ?_⟩
  rw [hashOf, hashWith, res_bind_ok]
  exact ⟨_, h1, idx_get.mpr (List.getElem?_eq_getElem _)⟩

end Bp

namespace Bp
variable {F : Type} [Field F]

theorem roundsVals_succ (lv : List F → List F → List F) (mds : List (List F)) (w : ℕ) : ∀ (n : ℕ) (keys xs : List F),
    roundsVals lv mds w (n + 1) keys xs = linearVals mds (lv (keys.drop (n * w)) (roundsVals lv mds w n keys xs))
  | 0, keys, xs => by simp [roundsVals]
  | n + 1, keys, xs => by
    rw [roundsVals, roundsVals_succ lv mds w n, List.drop_drop, roundsVals]
    congr 3
    ring_nf

/-- Sum of the entries of a column. -/
def colSum (p : PoseidonParams F) (i : ℕ) : F := ((List.range p.width).map fun j => mdsEntry p.mds j i).sum

/-- If the S-box were constant, so would be the hash. -/
theorem hashWith_const (w : F) {p : PoseidonParams F} (hv : p.Valid) (hw : 2 ≤ p.width) (he : p.fullRoundsEnd ≠ 0) {xs : List F} (hx : xs.length = p.width) :
    hashWith (fun _ => .ok w) p xs = .ok (w * colSum p 1) := by
  obtain ⟨h1, h2⟩ := permWith_eq (fun _ => w) hv hx
  rw [hashWith, res_bind_ok]
  refine ⟨_, h1, idx_get.mpr ?_⟩
  obtain ⟨n, hn⟩ := Nat.exists_eq_succ_of_ne_zero he
  have hn' : p.fullRoundsEnd = n + 1 := hn
  unfold permVals at h2 ⊢
  rw [hn', roundsVals_succ] at h2 ⊢
  set inner := roundsVals (sboxVals fun _ => w) p.mds p.width n _ _ with hin
  set ks := List.drop (n * p.width) _ with hks
  have hrep : sboxVals (fun _ => w) ks inner = List.replicate p.width w := by
    rw [linearVals_length] at h2
    refine List.eq_replicate_iff.mpr ⟨h2, fun b hb => ?_⟩
    unfold sboxVals at hb
    obtain ⟨i, hi, rfl⟩ := List.getElem_of_mem hb
    simp
  rw [hrep, linearVals, List.length_replicate, List.getElem?_map, List.getElem?_range (by omega), Option.map_some, colSum]
  congr 1
  rw [← List.sum_map_mul_left]
  congr 1
  apply List.map_congr_left
  intro j hj
  simp [List.mem_range.mp hj, List.getD_eq_getElem?_getD]

end Bp
