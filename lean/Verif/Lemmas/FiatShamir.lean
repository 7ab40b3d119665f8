import Verif.Spec.Log
import Verif.Lemmas.Log
import Mathlib.Data.Set.Card

/-! # The Fiat-Shamir game

A proof is a list of messages, each ended by the draw of a challenge.  A partial proof is *alive* if its messages can be continued such that, at every draw, more than a given number of challenges keep it alive and lead
to acceptance.  If the empty proof is dead, then every accepted proof must, at some draw, have hit one of the few challenges that turn a dead partial proof into a living one. -/

namespace Bp
variable {F G : Type}

/-! ## Messages -/

def TEvent.isDraw : TEvent F G → Bool
  | .challenge _ => true
  | _ => false

/-- Events that are no draws, then a draw. -/
def IsMsg (m : Transcript F G) : Prop := ∃ pre l, m = pre ++ [.challenge l] ∧ ∀ e ∈ pre, e.isDraw = false

theorem takeWhile_msg {pre rest : Transcript F G} {l : String} (h : ∀ e ∈ pre, e.isDraw = false) : (pre ++ [TEvent.challenge l] ++ rest).takeWhile (fun e => !e.isDraw) = pre := by
  induction pre with
  | nil => simp [TEvent.isDraw]
  | cons e pre ih =>
    have := ih fun x hx => h x (List.mem_cons_of_mem _ hx)
    simp only [List.cons_append, List.takeWhile_cons, h e List.mem_cons_self, Bool.not_false, if_true]
    rw [this]

theorem IsMsg.append_inj {m m' r r' : Transcript F G} (hm : IsMsg m) (hm' : IsMsg m') (h : m ++ r = m' ++ r') : m = m' ∧ r = r' := by
  obtain ⟨p, l, rfl, hp⟩ := hm
  obtain ⟨p', l', rfl, hp'⟩ := hm'
  have e : p = p' := by rw [← takeWhile_msg (rest := r) (l := l) hp, h, takeWhile_msg hp']
  subst e
  have := List.append_cancel_left (as := p) (by simpa using h : p ++ (.challenge l :: r) = p ++ (.challenge l' :: r'))
  simp only [List.cons.injEq, TEvent.challenge.injEq] at this
  exact ⟨by rw [this.1], this.2⟩

theorem flatten_msgs_inj : ∀ {ms ms' : List (Transcript F G)}, (∀ m ∈ ms, IsMsg m) → (∀ m ∈ ms', IsMsg m) → ms.flatten = ms'.flatten → ms = ms'
  | [], [], _, _, _ => rfl
  | [], m :: ms, _, h', h => by
    obtain ⟨p, l, rfl, -⟩ := h' m List.mem_cons_self
    simp at h
  | m :: ms, [], h', _, h => by
    obtain ⟨p, l, rfl, -⟩ := h' m List.mem_cons_self
    simp at h
  | m :: ms, m' :: ms', h1, h2, h => by
    obtain ⟨e1, e2⟩ := (h1 m List.mem_cons_self).append_inj (h2 m' List.mem_cons_self) (by simpa using h)
    rw [e1, flatten_msgs_inj (fun x hx => h1 x (List.mem_cons_of_mem _ hx)) (fun x hx => h2 x (List.mem_cons_of_mem _ hx)) e2]

/-- The challenges drawn with the messages. -/
def chalsOf (O : Oracle F G) : Transcript F G → List (Transcript F G) → List F
  | _, [] => []
  | t, m :: ms => O (t ++ m) :: chalsOf O (t ++ m) ms

theorem chalsOf_length (O : Oracle F G) : ∀ (t : Transcript F G) ms, (chalsOf O t ms).length = ms.length
  | _, [] => rfl
  | t, m :: ms => by simp [chalsOf, chalsOf_length O (t ++ m) ms]

theorem chalsOf_append (O : Oracle F G) : ∀ (t : Transcript F G) ms ms', chalsOf O t (ms ++ ms') = chalsOf O t ms ++ chalsOf O (t ++ ms.flatten) ms'
  | _, [], _ => by simp [chalsOf]
  | t, m :: ms, ms' => by simp [chalsOf, chalsOf_append O (t ++ m) ms ms']

theorem chalsOf_agree {O O' : Oracle F G} : ∀ (t : Transcript F G) ms, (∀ m ∈ ms, IsMsg m) → AgreeOn O O' (t ++ ms.flatten) → chalsOf O t ms = chalsOf O' t ms
  | _, [], _, _ => rfl
  | t, m :: ms, hm, h => by
    rw [chalsOf, chalsOf, chalsOf_agree (t ++ m) ms (fun x hx => hm x (List.mem_cons_of_mem _ hx)) (by simpa using h)]
    obtain ⟨p, l, rfl, -⟩ := hm m List.mem_cons_self
    rw [← List.append_assoc, h (t ++ p) l ⟨ms.flatten, by simp⟩]

/-! ## Dead and alive -/

/-- Alive: `thr` are the numbers of challenges that must be exceeded at the remaining draws. -/
def Live (Acc : List (Transcript F G) → List F → Prop) : List ℕ → List (Transcript F G) → List F → Prop
  | [], ms, cs => Acc ms cs
  | m :: thr, ms, cs => ∃ msg, (m : ℕ∞) < {c | Live Acc thr (ms ++ [msg]) (cs ++ [c])}.encard

/-- The challenges that bring the partial proof `ms`, `msg` to life. -/
def reviving (Acc : List (Transcript F G) → List F → Prop) (thr : List ℕ) (O : Oracle F G) (t0 : Transcript F G) (ms : List (Transcript F G)) (msg : Transcript F G) : Set F :=
  {c | Live Acc (thr.drop (ms.length + 1)) (ms ++ [msg]) (chalsOf O t0 ms ++ [c])}

/-- The bad challenges for a log. -/
def badFor (Acc : List (Transcript F G) → List F → Prop) (thr : List ℕ) (t0 : Transcript F G) (O : Oracle F G) (t : Transcript F G) : Set F :=
  {c | ∃ ms msg, (∀ m ∈ ms ++ [msg], IsMsg m) ∧ t = t0 ++ (ms ++ [msg]).flatten ∧ ms.length < thr.length ∧ (reviving Acc thr O t0 ms msg).encard ≤ (thr.getD ms.length 0 : ℕ) ∧ c ∈ reviving Acc thr O t0 ms msg}

theorem badFor_card {Acc : List (Transcript F G) → List F → Prop} {thr : List ℕ} {B : ℕ} (hB : ∀ m ∈ thr, m ≤ B) (t0 : Transcript F G) (O : Oracle F G) (t : Transcript F G) : (badFor Acc thr t0 O t).encard ≤ B := by
  by_cases hd : ∃ ms msg, (∀ m ∈ ms ++ [msg], IsMsg m) ∧ t = t0 ++ (ms ++ [msg]).flatten ∧ ms.length < thr.length ∧ (reviving Acc thr O t0 ms msg).encard ≤ (thr.getD ms.length 0 : ℕ)
  · obtain ⟨ms, msg, h1, h2, h3, h4⟩ := hd
    refine le_trans (Set.encard_le_encard (t := reviving Acc thr O t0 ms msg) ?_) (h4.trans ?_)
    · rintro c ⟨ms', msg', h1', h2', -, -, hc⟩
      have := flatten_msgs_inj h1 h1' (List.append_cancel_left (h2.symm.trans h2'))
      obtain ⟨rfl, e⟩ := List.append_inj' this rfl
      obtain rfl : msg = msg' := by simpa using e
      exact hc
    · have : thr.getD ms.length 0 ≤ B := by
        rw [List.getD_eq_getElem?_getD, List.getElem?_eq_getElem h3, Option.getD_some]
        exact hB _ (List.getElem_mem _)
      exact_mod_cast this
  · rw [Set.eq_empty_of_forall_notMem (s := badFor Acc thr t0 O t) (by
      rintro c ⟨ms, msg, h1, h2, h3, h4, -⟩
      exact hd ⟨ms, msg, h1, h2, h3, h4⟩)]
    simp

theorem badFor_local {Acc : List (Transcript F G) → List F → Prop} {thr : List ℕ} {t0 : Transcript F G} {O O' : Oracle F G} {pre : Transcript F G} {l : String} (h : AgreeOn O O' pre) :
    badFor Acc thr t0 O (pre ++ [.challenge l]) ⊆ badFor Acc thr t0 O' (pre ++ [.challenge l]) := by
  rintro c ⟨ms, msg, h1, h2, h3, h4, h5⟩
  have e : chalsOf O t0 ms = chalsOf O' t0 ms := by
    refine chalsOf_agree t0 ms (fun m hm => h1 m (List.mem_append_left _ hm)) (fun q i hq => h q i (hq.trans ?_))
    obtain ⟨p, l', rfl, -⟩ := h1 msg (by simp)
    have : pre ++ [.challenge l] = (t0 ++ ms.flatten ++ p) ++ [.challenge l'] := by rw [h2]; simp
    obtain ⟨rfl, -⟩ := List.append_inj' this rfl
    exact ⟨p, rfl⟩
  have e' : reviving Acc thr O' t0 ms msg = reviving Acc thr O t0 ms msg := by rw [reviving, reviving, e]
  exact ⟨ms, msg, h1, h2, h3, by rw [e']; exact h4, by rw [e']; exact h5⟩

theorem badFor_prefix {Acc : List (Transcript F G) → List F → Prop} {thr : List ℕ} {t0 : Transcript F G} {O : Oracle F G} {t : Transcript F G} {c : F} (h : c ∈ badFor Acc thr t0 O t) :
    ∃ pre l, t = pre ++ [.challenge l] ∧ t0 <+: pre := by
  obtain ⟨ms, msg, h1, h2, -⟩ := h
  obtain ⟨p, l, rfl, -⟩ := h1 msg (by simp)
  exact ⟨t0 ++ ms.flatten ++ p, l, by rw [h2]; simp, ⟨ms.flatten ++ p, by simp⟩⟩

theorem dead_hit {Acc : List (Transcript F G) → List F → Prop} {O : Oracle F G} : ∀ (thr : List ℕ) (t : Transcript F G) (done msgs : List (Transcript F G)) (cs : List F), ¬ Live Acc thr done cs → msgs.length = thr.length →
    Acc (done ++ msgs) (cs ++ chalsOf O t msgs) → ∃ ms msg rest, msgs = ms ++ msg :: rest ∧
      {c | Live Acc (thr.drop (ms.length + 1)) (done ++ ms ++ [msg]) (cs ++ chalsOf O t ms ++ [c])}.encard ≤ (thr.getD ms.length 0 : ℕ) ∧
      O (t ++ ms.flatten ++ msg) ∈ {c | Live Acc (thr.drop (ms.length + 1)) (done ++ ms ++ [msg]) (cs ++ chalsOf O t ms ++ [c])}
  | [], t, done, [], cs, hd, _, ha => absurd (by simpa [chalsOf, Live] using ha) hd
  | [], t, done, _ :: _, cs, hd, hl, ha => by simp at hl
  | _ :: _, t, done, [], cs, hd, hl, ha => by simp at hl
  | m :: thr, t, done, msg :: msgs, cs, hd, hl, ha => by
    have hle : {c | Live Acc thr (done ++ [msg]) (cs ++ [c])}.encard ≤ m := not_lt.mp fun h => hd ⟨msg, h⟩
    by_cases hc : Live Acc thr (done ++ [msg]) (cs ++ [O (t ++ msg)])
    · exact ⟨[], msg, msgs, rfl, by simpa [chalsOf] using hle, by simpa [chalsOf] using hc⟩
    · obtain ⟨ms, msg', rest, h1, h2, h3⟩ := dead_hit thr (t ++ msg) (done ++ [msg]) msgs (cs ++ [O (t ++ msg)]) hc (by simpa using hl) (by simpa [chalsOf] using ha)
      exact ⟨msg :: ms, msg', rest, by rw [h1]; rfl, by simpa [chalsOf] using h2, by simpa [chalsOf] using h3⟩

/-- If the empty proof is dead, an accepted proof has hit a bad challenge. -/
theorem hit_bad {Acc : List (Transcript F G) → List F → Prop} {O : Oracle F G} {thr : List ℕ} {t0 : Transcript F G} {msgs : List (Transcript F G)} (hd : ¬ Live Acc thr [] []) (hl : msgs.length = thr.length)
    (hm : ∀ m ∈ msgs, IsMsg m) (ha : Acc msgs (chalsOf O t0 msgs)) : ∃ pre l, pre ++ [.challenge l] <+: t0 ++ msgs.flatten ∧ O (pre ++ [.challenge l]) ∈ badFor Acc thr t0 O (pre ++ [.challenge l]) := by
  obtain ⟨ms, msg, rest, h1, h2, h3⟩ := dead_hit thr t0 [] msgs [] hd hl (by simpa using ha)
  obtain ⟨p, l, e, -⟩ := hm msg (by rw [h1]; simp)
  have e' : t0 ++ ms.flatten ++ msg = (t0 ++ ms.flatten ++ p) ++ [.challenge l] := by rw [e]; simp
  refine ⟨t0 ++ ms.flatten ++ p, l, ⟨rest.flatten, by rw [← e', h1]; simp⟩, ms, msg, fun m hm' => hm m (by rw [h1]; simp at hm' ⊢; tauto), by rw [← e']; simp, ?_, ?_, ?_⟩
  · rw [← hl, h1]; simp
  · simpa [reviving] using h2
  · rw [← e']; simpa [reviving] using h3

/-! ## Picking challenges -/

theorem exists_notMem_of_card {S : Set F} {m : ℕ} (h : (m : ℕ∞) < S.encard) (s : Finset F) (hs : s.card ≤ m) : ∃ c ∈ S, c ∉ s := by
  by_contra hn
  push Not at hn
  have : S.encard ≤ (s : Set F).encard := Set.encard_le_encard fun c hc => hn c hc
  rw [Set.encard_coe_eq_coe_finsetCard] at this
  exact absurd (lt_of_lt_of_le h this) (not_lt.mpr (by exact_mod_cast hs))

theorem pick_avoiding (m : ℕ) (s : Finset F) {S : Set F} (h : ((m + s.card : ℕ) : ℕ∞) < S.encard) : ∃ f : Fin (m + 1) → F, Function.Injective f ∧ (∀ i, f i ∈ S) ∧ ∀ i, f i ∉ s := by
  classical
  induction m with
  | zero =>
    obtain ⟨c, hc, hn⟩ := exists_notMem_of_card h s (by omega)
    exact ⟨fun _ => c, fun i j _ => by omega, fun _ => hc, fun _ => hn⟩
  | succ m ih =>
    obtain ⟨f, h1, h2, h3⟩ := ih (lt_of_le_of_lt (by exact_mod_cast (by omega)) h)
    obtain ⟨c, hc, hn⟩ := exists_notMem_of_card h (s ∪ Finset.univ.image f) ((Finset.card_union_le _ _).trans (by
      have := Finset.card_image_le (s := Finset.univ) (f := f)
      simp at this; omega))
    simp only [Finset.mem_union, Finset.mem_image, Finset.mem_univ, true_and, not_or, not_exists] at hn
    refine ⟨Fin.cons c f, ?_, ?_, ?_⟩
    · exact Fin.cons_injective_iff.mpr ⟨fun ⟨i, hi⟩ => hn.2 i hi, h1⟩
    · intro i; refine Fin.cases ?_ (fun i => ?_) i
      · simpa using hc
      · simpa using h2 i
    · intro i; refine Fin.cases ?_ (fun i => ?_) i
      · simpa using hn.1
      · simpa using h3 i

theorem pick_distinct {m : ℕ} {S : Set F} (h : (m : ℕ∞) < S.encard) : ∃ f : Fin (m + 1) → F, Function.Injective f ∧ ∀ i, f i ∈ S := by
  obtain ⟨f, h1, h2, -⟩ := pick_avoiding m ∅ (by simpa using h)
  exact ⟨f, h1, h2⟩

theorem pick_nonzero [Field F] {m : ℕ} (hm : 0 < m) {S : Set F} (h : (m : ℕ∞) < S.encard) : ∃ f : Fin m → F, Function.Injective f ∧ (∀ i, f i ∈ S) ∧ ∀ i, f i ≠ 0 := by
  obtain ⟨m, rfl⟩ : ∃ m', m = m' + 1 := ⟨m - 1, by omega⟩
  obtain ⟨f, h1, h2, h3⟩ := pick_avoiding m ({0} : Finset F) (S := S) (by simpa using h)
  exact ⟨f, h1, h2, fun i => by simpa using h3 i⟩

theorem pick_squares [Field F] {S : Set F} (h : ((7 : ℕ) : ℕ∞) < S.encard) : ∃ f : Fin 4 → F, (∀ i, f i ≠ 0) ∧ (∀ i j, i ≠ j → f i ^ 2 ≠ f j ^ 2) ∧ ∀ i, f i ∈ S := by
  classical
  obtain ⟨a, ha, na⟩ := exists_notMem_of_card h {0} (by simp)
  obtain ⟨b, hb, nb⟩ := exists_notMem_of_card h {0, a, -a} (Finset.card_le_three.trans (by decide))
  obtain ⟨c, hc, nc⟩ := exists_notMem_of_card h {0, a, -a, b, -b} (Finset.card_le_five.trans (by decide))
  obtain ⟨d, hd, nd⟩ := exists_notMem_of_card h (insert b {0, a, -a, -b, c, -c}) ((Finset.card_insert_le _ _).trans (by
    have := Finset.card_le_six (a := (0 : F)) (b := a) (c := -a) (d := -b) (e := c) (f := -c)
    omega))
  simp only [Finset.mem_insert, Finset.mem_singleton, not_or] at na nb nc nd
  have sq : ∀ x y : F, x ≠ y → x ≠ -y → x ^ 2 ≠ y ^ 2 := fun x y h1 h2 h => by
    rcases sq_eq_sq_iff_eq_or_eq_neg.mp h with h | h
    · exact h1 h
    · exact h2 h
  have hba := sq b a nb.2.1 nb.2.2
  have hca := sq c a nc.2.1 nc.2.2.1
  have hcb := sq c b nc.2.2.2.1 nc.2.2.2.2
  have hda := sq d a nd.2.2.1 nd.2.2.2.1
  have hdb := sq d b nd.1 nd.2.2.2.2.1
  have hdc := sq d c nd.2.2.2.2.2.1 nd.2.2.2.2.2.2
  refine ⟨![a, b, c, d], ?_, ?_, ?_⟩
  · intro i; fin_cases i
    · exact na
    · exact nb.1
    · exact nc.1
    · exact nd.2.1
  · intro i j hij
    fin_cases i <;> fin_cases j <;> first | exact absurd rfl hij | assumption | (apply Ne.symm; assumption)
  · intro i; fin_cases i <;> assumption

end Bp
