import Verif.Spec.Merlin
import Mathlib.Data.Countable.Basic
import Mathlib.Logic.Equiv.List

set_option linter.unusedSectionVars false

/-! # The operations determine the log -/

namespace Bp
variable {F G M : Type}

theorem utf8_inj : Function.Injective utf8 := by
  intro s t h
  have h1 : s.toByteArray.data = t.toByteArray.data := Array.toList_inj.mp h
  exact String.toByteArray_inj.mp (ByteArray.ext h1)

theorem length_leBytes : ∀ k n, (leBytes k n).length = k
  | 0, _ => rfl
  | k + 1, n => by rw [leBytes, List.length_cons, length_leBytes]

theorem leBytes_inj : ∀ (k : ℕ) {n m : ℕ}, n < 256 ^ k → m < 256 ^ k → leBytes k n = leBytes k m → n = m
  | 0, n, m, hn, hm, _ => by simp at hn hm; omega
  | k + 1, n, m, hn, hm, h => by
    rw [leBytes, leBytes] at h
    obtain ⟨h1, h2⟩ := List.cons.inj h
    have h3 := leBytes_inj k (by rw [Nat.pow_succ] at hn; omega) (by rw [Nat.pow_succ] at hm; omega) h2
    have h4 := congrArg UInt8.toNat h1
    rw [UInt8.toNat_ofNat', UInt8.toNat_ofNat'] at h4
    omega

theorem framed_inj {a b : List UInt8} {n m : ℕ} (h : a ++ leBytes 4 n = b ++ leBytes 4 m) : a = b :=
  (List.append_inj' h (by rw [length_leBytes, length_leBytes])).1

theorem appendMessage_inj {l l' d d' : List UInt8} (h : appendMessage l d = appendMessage l' d') : l = l' ∧ d = d' := by
  simp only [appendMessage, List.cons.injEq, StrobeOp.metaAd.injEq, StrobeOp.ad.injEq, and_true] at h
  exact ⟨framed_inj h.1, h.2⟩

theorem appendMessage_ne {l l' d : List UInt8} {n : ℕ} (h : appendMessage l d = challengeBytes l' n) : False := by
  simp [appendMessage, challengeBytes] at h

theorem challengeBytes_inj {l l' : List UInt8} {n : ℕ} (h : challengeBytes l n = challengeBytes l' n) : l = l' := by
  simp only [challengeBytes, List.cons.injEq, StrobeOp.metaAd.injEq, and_true] at h
  exact framed_inj h

theorem TEvent.length_ops (W : Wire F G) (e : TEvent F G) : (e.ops W).length = 2 := by cases e <;> rfl

theorem TEvent.ops_inj {W : Wire F G} {a b : ℕ} (hW : W.Faithful a b) {e e' : TEvent F G} (h : e.Regular) (h' : e'.Regular) (ho : e.ops W = e'.ops W) : e = e' := by
  have msg : ∀ {l l' : String} {d d' : List UInt8}, appendMessage (utf8 l) d = appendMessage (utf8 l') d' → l = l' ∧ d = d' := fun h => ⟨utf8_inj (appendMessage_inj h).1, (appendMessage_inj h).2⟩
  cases e with
  | init l => exact absurd h id
  | domSep s =>
    cases e' with
    | init l => exact absurd h' id
    | domSep s' => rw [utf8_inj (msg ho).2]
    | u64 l n => exact absurd (msg ho).1.symm h'.1
    | point l p => exact absurd (msg ho).1.symm h'
    | scalar l x => exact absurd (msg ho).1.symm h'
    | challenge l => exact absurd ho fun ho => appendMessage_ne ho
  | u64 l n =>
    cases e' with
    | init l => exact absurd h' id
    | domSep s' => exact absurd (msg ho).1 h.1
    | u64 l' n' =>
      obtain ⟨rfl, h2⟩ := msg ho
      rw [leBytes_inj 8 (lt_of_lt_of_eq h.2 (by norm_num)) (lt_of_lt_of_eq h'.2 (by norm_num)) h2]
    | point l' p =>
      have := congrArg List.length (msg ho).2
      rw [length_leBytes, hW.point_length] at this
      exact absurd this.symm hW.point_ne_u64
    | scalar l' x =>
      have := congrArg List.length (msg ho).2
      rw [length_leBytes, hW.scalar_length] at this
      exact absurd this.symm hW.scalar_ne_u64
    | challenge l => exact absurd ho fun ho => appendMessage_ne ho
  | point l p =>
    cases e' with
    | init l => exact absurd h' id
    | domSep s' => exact absurd (msg ho).1 h
    | u64 l' n' =>
      have := congrArg List.length (msg ho).2
      rw [length_leBytes, hW.point_length] at this
      exact absurd this hW.point_ne_u64
    | point l' p' =>
      obtain ⟨rfl, h2⟩ := msg ho
      rw [hW.point_inj h2]
    | scalar l' x =>
      have := congrArg List.length (msg ho).2
      rw [hW.point_length, hW.scalar_length] at this
      exact absurd this.symm hW.scalar_ne_point
    | challenge l => exact absurd ho fun ho => appendMessage_ne ho
  | scalar l x =>
    cases e' with
    | init l => exact absurd h' id
    | domSep s' => exact absurd (msg ho).1 h
    | u64 l' n' =>
      have := congrArg List.length (msg ho).2
      rw [length_leBytes, hW.scalar_length] at this
      exact absurd this hW.scalar_ne_u64
    | point l' p' =>
      have := congrArg List.length (msg ho).2
      rw [hW.point_length, hW.scalar_length] at this
      exact absurd this hW.scalar_ne_point
    | scalar l' x' =>
      obtain ⟨rfl, h2⟩ := msg ho
      rw [hW.scalar_inj h2]
    | challenge l => exact absurd ho fun ho => appendMessage_ne ho
  | challenge l =>
    cases e' with
    | init l => exact absurd h' id
    | domSep s' => exact absurd ho.symm fun ho => appendMessage_ne ho
    | u64 l' n' => exact absurd ho.symm fun ho => appendMessage_ne ho
    | point l' p' => exact absurd ho.symm fun ho => appendMessage_ne ho
    | scalar l' x' => exact absurd ho.symm fun ho => appendMessage_ne ho
    | challenge l' => rw [utf8_inj (challengeBytes_inj ho)]

theorem Transcript.ops_cons (W : Wire F G) (e : TEvent F G) (t : Transcript F G) : Transcript.ops W (e :: t) = e.ops W ++ Transcript.ops W t := rfl

theorem events_inj {W : Wire F G} {a b : ℕ} (hW : W.Faithful a b) : ∀ {t t' : Transcript F G}, (∀ e ∈ t, e.Regular) → (∀ e ∈ t', e.Regular) → t.ops W = t'.ops W → t = t'
  | [], [], _, _, _ => rfl
  | [], e :: t', _, _, h => by
    have := congrArg List.length h
    rw [Transcript.ops_cons, List.length_append, TEvent.length_ops] at this
    simp [Transcript.ops] at this
    omega
  | e :: t, [], _, _, h => by
    have := congrArg List.length h
    rw [Transcript.ops_cons, List.length_append, TEvent.length_ops] at this
    simp [Transcript.ops] at this
  | e :: t, e' :: t', h1, h2, h => by
    rw [Transcript.ops_cons, Transcript.ops_cons] at h
    obtain ⟨h3, h4⟩ := List.append_inj h (by rw [TEvent.length_ops, TEvent.length_ops])
    rw [TEvent.ops_inj hW (h1 e (by simp)) (h2 e' (by simp)) h3, events_inj hW (fun e he => h1 e (by simp [he])) (fun e he => h2 e (by simp [he])) h4]

theorem Transcript.Regular.cases {t : Transcript F G} (h : t.Regular) : ∃ l t', t = .init l :: t' ∧ ∀ e ∈ t', e.Regular := by
  match t, h with
  | .init l :: t', h => exact ⟨l, t', rfl, h⟩

theorem log_inj {W : Wire F G} {a b : ℕ} (hW : W.Faithful a b) {t t' : Transcript F G} (h : t.Regular) (h' : t'.Regular) (ho : t.ops W = t'.ops W) : t = t' := by
  obtain ⟨l, u, rfl, hu⟩ := h.cases
  obtain ⟨l', u', rfl, hu'⟩ := h'.cases
  rw [Transcript.ops_cons, Transcript.ops_cons] at ho
  obtain ⟨h3, h4⟩ := List.append_inj ho (by rw [TEvent.length_ops, TEvent.length_ops])
  rw [utf8_inj (appendMessage_inj h3).2, events_inj hW hu hu' h4]

/-! ## Longer logs -/

theorem Transcript.Regular.append {t u : Transcript F G} (h : t.Regular) (hu : ∀ e ∈ u, e.Regular) : Transcript.Regular (t ++ u) := by
  obtain ⟨l, t', rfl, ht⟩ := h.cases
  intro e he
  rcases List.mem_append.mp he with he | he
  · exact ht e he
  · exact hu e he

theorem Transcript.Regular.ne_nil {t : Transcript F G} (h : t.Regular) : t ≠ [] := by
  obtain ⟨l, t', rfl, -⟩ := h.cases
  simp

theorem Transcript.Regular.pre {t u : Transcript F G} (h : Transcript.Regular u) (hp : t <+: u) (hn : t ≠ []) : t.Regular := by
  obtain ⟨l, u', rfl, hu⟩ := h.cases
  cases t with
  | nil => exact absurd rfl hn
  | cons e t =>
    obtain ⟨v, hv⟩ := hp
    obtain ⟨rfl, hv'⟩ := List.cons.inj hv
    intro e he
    exact hu e (hv' ▸ List.mem_append_left _ he)

theorem Transcript.Regular.mapG {f : M → G} {t : Transcript F M} : (t.mapG f).Regular ↔ t.Regular := by
  have ev : ∀ e : TEvent F M, (e.mapG f).Regular ↔ e.Regular := fun e => by cases e <;> exact Iff.rfl
  match t with
  | [] => exact Iff.rfl
  | .init l :: t =>
    constructor
    · intro h e he
      exact (ev e).mp (h _ (List.mem_map_of_mem he))
    · intro h e he
      obtain ⟨e', he', rfl⟩ := List.mem_map.mp he
      exact (ev e').mpr (h e' he')
  | .domSep _ :: _ => exact Iff.rfl
  | .u64 _ _ :: _ => exact Iff.rfl
  | .point _ _ :: _ => exact Iff.rfl
  | .scalar _ _ :: _ => exact Iff.rfl
  | .challenge _ :: _ => exact Iff.rfl

/-! ## Reading operations as a log -/

instance : Countable UInt8 := Function.Injective.countable (f := UInt8.toNat) fun _ _ h => UInt8.toNat_inj.mp h

instance : Countable StrobeOp := by
  refine Function.Injective.countable (β := List UInt8 ⊕ List UInt8 ⊕ ℕ) (f := fun o => match o with
    | .metaAd d => .inl d
    | .ad d => .inr (.inl d)
    | .prf n => .inr (.inr n)) ?_
  intro x y h
  cases x <;> cases y <;> simp_all

/-- Some label for every sequence of operations. -/
noncomputable def opsLabel (q : List StrobeOp) : String := String.ofList (List.replicate (Classical.choose (exists_injective_nat (List StrobeOp)) q) 'x')

theorem opsLabel_inj : Function.Injective opsLabel := by
  intro q q' h
  have h1 := congrArg List.length (String.ofList_injective h)
  rw [List.length_replicate, List.length_replicate] at h1
  exact Classical.choose_spec (exists_injective_nat (List StrobeOp)) h1

/-- A log, not regular, for operations that are not those of a regular log. -/
noncomputable def strayLog (q : List StrobeOp) : Transcript F G := [.init "", .init (opsLabel q)]

theorem strayLog_inj : Function.Injective (strayLog : List StrobeOp → Transcript F G) := by
  intro q q' h
  simp only [strayLog, List.cons.injEq, TEvent.init.injEq, true_and, and_true] at h
  exact opsLabel_inj h

theorem strayLog_stray (q : List StrobeOp) : ¬ (strayLog q : Transcript F G).Regular := fun h => h (.init (opsLabel q)) (by simp)

open Classical in
/-- The log for a sequence of operations. -/
noncomputable def readOps (W : Wire F G) (q : List StrobeOp) : Transcript F G := if h : ∃ t : Transcript F G, t.Regular ∧ t.ops W = q then h.choose else strayLog q

theorem readOps_ops {W : Wire F G} {a b : ℕ} (hW : W.Faithful a b) {t : Transcript F G} (h : t.Regular) : readOps W (t.ops W) = t := by
  have hx : ∃ u : Transcript F G, u.Regular ∧ u.ops W = t.ops W := ⟨t, h, rfl⟩
  rw [readOps, dif_pos hx]
  exact log_inj hW hx.choose_spec.1 h hx.choose_spec.2

theorem readOps_stray {W : Wire F G} {q : List StrobeOp} (h : ∀ t : Transcript F G, t.Regular → q ≠ t.ops W) : readOps W q = strayLog q := by
  rw [readOps, dif_neg]
  rintro ⟨t, h1, h2⟩
  exact h t h1 h2.symm

theorem readOps_inj {W : Wire F G} {a b : ℕ} (hW : W.Faithful a b) : Function.Injective (readOps W) := by
  intro q q' h
  by_cases h1 : ∃ t : Transcript F G, t.Regular ∧ t.ops W = q
  · obtain ⟨t, ht, rfl⟩ := h1
    rw [readOps_ops hW ht] at h
    by_cases h2 : ∃ t : Transcript F G, t.Regular ∧ t.ops W = q'
    · obtain ⟨t', ht', rfl⟩ := h2
      rw [readOps_ops hW ht'] at h
      rw [h]
    · rw [readOps_stray fun t h3 h4 => h2 ⟨t, h3, h4.symm⟩] at h
      rw [h] at ht
      exact absurd ht (strayLog_stray _)
  · rw [readOps_stray fun t h3 h4 => h1 ⟨t, h3, h4.symm⟩] at h
    by_cases h2 : ∃ t : Transcript F G, t.Regular ∧ t.ops W = q'
    · obtain ⟨t', ht', rfl⟩ := h2
      rw [readOps_ops hW ht'] at h
      rw [← h] at ht'
      exact absurd ht' (strayLog_stray _)
    · rw [readOps_stray fun t h3 h4 => h2 ⟨t, h3, h4.symm⟩] at h
      exact strayLog_inj h

end Bp
