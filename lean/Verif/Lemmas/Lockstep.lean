import Verif.Spec.Lockstep
import Verif.Lemmas.CS2
import Mathlib.Data.List.Perm.Basic
import Mathlib.Data.List.Perm.Lattice

set_option linter.unusedSectionVars false
set_option linter.unusedSimpArgs false

namespace Bp
variable {F G : Type} [Field F] [AddCommGroup G] [SMul F G]

namespace LC

theorem Equiv.refl (a : LC F) : a.Equiv a := List.Perm.refl _

theorem Equiv.value {a b : LC F} (h : a.Equiv b) (σ : Assignment F) : a.value σ = b.value σ := termsVal_perm h

theorem Equiv.add {a b c d : LC F} (h : a.Equiv b) (h' : c.Equiv d) : (a.add c).Equiv (b.add d) := List.Perm.append h h'
theorem Equiv.sub {a b c d : LC F} (h : a.Equiv b) (h' : c.Equiv d) : (a.sub c).Equiv (b.sub d) :=
  List.Perm.append h (List.Perm.map _ h')
theorem Equiv.neg {a b : LC F} (h : a.Equiv b) : a.neg.Equiv b.neg := List.Perm.map _ h
theorem Equiv.smul {a b : LC F} (s : F) (h : a.Equiv b) : (LC.smul s a).Equiv (LC.smul s b) := List.Perm.map _ h

/-- Sum of the coefficients of a variable. -/
def coef (v : Var) (ts : List (Var × F)) : F := ((ts.filter (fun t => t.1 = v)).map Prod.snd).sum

theorem coef_cons (v : Var) (t : Var × F) (ts : List (Var × F)) : coef v (t :: ts) = (if t.1 = v then t.2 else 0) + coef v ts := by
  by_cases h : t.1 = v <;> simp [coef, List.filter_cons, h]

theorem coef_nil (v : Var) : coef v ([] : List (Var × F)) = 0 := rfl

theorem coef_upsert (v : Var) (m : List (Var × F)) (w : Var) (x : F) :
    coef v (upsert m w x) = coef v m + if w = v then x else 0 := by
  induction m with
  | nil => by_cases hw : w = v <;> simp [upsert, coef_cons, coef_nil, hw]
  | cons t m ih =>
    obtain ⟨k, y⟩ := t
    by_cases hk : k = w
    · subst hk
      by_cases hv : k = v <;> simp [upsert, hv, coef_cons] <;> ring
    · simp only [upsert, if_neg hk, coef_cons, ih]; ring

theorem coef_foldl (v : Var) (ts m : List (Var × F)) :
    coef v (ts.foldl (fun m t => upsert m t.1 t.2) m) = coef v m + coef v ts := by
  induction ts generalizing m with
  | nil => simp [coef_nil]
  | cons t ts ih => simp only [List.foldl_cons, ih, coef_upsert, coef_cons]; ring

theorem coef_collect (v : Var) (ts : List (Var × F)) : coef v (collect ts) = coef v ts := by
  simp [collect, coef_foldl, coef_nil]

theorem coef_perm (v : Var) {a b : List (Var × F)} (h : a.Perm b) : coef v a = coef v b :=
  ((h.filter _).map _).sum_eq

theorem coef_of_nodup {m : List (Var × F)} (hm : (m.map Prod.fst).Nodup) {v : Var} {c : F} (h : (v, c) ∈ m) : coef v m = c := by
  induction m with
  | nil => simp at h
  | cons t m ih =>
    simp only [List.map_cons, List.nodup_cons] at hm
    rcases List.mem_cons.mp h with rfl | h
    · have : m.filter (fun t => t.1 = v) = [] := by
        rw [List.filter_eq_nil_iff]
        intro a ha hav
        simp only [decide_eq_true_eq] at hav
        exact hm.1 (List.mem_map.mpr ⟨a, ha, hav⟩)
      simp [coef, List.filter_cons, this]
    · have hne : t.1 ≠ v := fun e => hm.1 (List.mem_map.mpr ⟨(v, c), h, e.symm⟩)
      rw [coef_cons, if_neg hne, zero_add, ih hm.2 h]

theorem mem_collect (ts : List (Var × F)) (v : Var) (c : F) :
    (v, c) ∈ collect ts ↔ v ∈ ts.map Prod.fst ∧ c = coef v ts := by
  constructor
  · intro h
    refine ⟨(collect_keys ts v).mp (List.mem_map.mpr ⟨_, h, rfl⟩), ?_⟩
    rw [← coef_collect, coef_of_nodup (collect_nodup ts) h]
  · rintro ⟨h, rfl⟩
    obtain ⟨⟨w, d⟩, hm, rfl⟩ := List.mem_map.mp ((collect_keys ts v).mpr h)
    have := coef_of_nodup (collect_nodup ts) hm
    rw [coef_collect] at this
    rw [this]; exact hm

theorem collect_perm {a b : List (Var × F)} (h : a.Perm b) : (collect a).Perm (collect b) := by
  apply (List.perm_ext_iff_of_nodup (List.Nodup.of_map _ (collect_nodup a)) (List.Nodup.of_map _ (collect_nodup b))).mpr
  rintro ⟨v, c⟩
  rw [mem_collect, mem_collect, (h.map Prod.fst).mem_iff, coef_perm v h]

theorem Equiv.simplify {a b : LC F} (h : a.Equiv b) {o o' : List (Var × F) → List (Var × F)}
    (ho : ∀ l, (o l).Perm l) (ho' : ∀ l, (o' l).Perm l) : (a.simplify o).Equiv (b.simplify o') :=
  (ho _).trans ((collect_perm h).trans (ho' _).symm)

end LC

theorem forall2_append {α β} {R : α → β → Prop} {a c : List α} {b d : List β} (h : List.Forall₂ R a b) (h' : List.Forall₂ R c d) :
    List.Forall₂ R (a ++ c) (b ++ d) := by
  induction h with
  | nil => exact h'
  | cons h _ ih => exact .cons h ih

theorem InStep.allocate {p p' : Prover F G} {s : Verifier F G} {x : F} {y : Option F} {r}
    (h : InStep p s) (ha : p.allocate (some x) = .ok (r, p')) :
    (∃ v, r = .ok v) ∧ (s.allocate y).1 = r ∧ InStep p' (s.allocate y).2 := by
  rcases Prover.allocate_eq ha with ⟨hx, -⟩ | ⟨z, -, hp, rfl, rfl⟩ | ⟨z, i, -, hp, hiR, hiO, rfl, hiL, rfl⟩
  · cases hx
  · have hs : s.pending = none := h.pending.trans hp
    refine ⟨⟨_, rfl⟩, by simp [Verifier.allocate, hs, h.num], ?_⟩
    simp only [Verifier.allocate, hs]
    exact ⟨by simp [h.lenR], by simp [h.lenO], h.lenB, h.transcript, by simp [h.num], by simp [h.num], h.V, h.cons, h.deferred⟩
  · have hs : s.pending = some i := h.pending.trans hp
    refine ⟨⟨_, rfl⟩, by simp [Verifier.allocate, hs, h.num], ?_⟩
    simp only [Verifier.allocate, hs]
    exact ⟨by simp [h.lenR], by simp [h.lenO], h.lenB, h.transcript, h.num, rfl, h.V, h.cons, h.deferred⟩

theorem InStep.allocateSingle {p p' : Prover F G} {s : Verifier F G} {x : F} {y : Option F} {r}
    (h : InStep p s) (ha : p.allocateSingle (some x) = .ok (r, p')) :
    (∃ v, r = .ok v) ∧ (s.allocateSingle y).1 = r ∧ InStep p' (s.allocateSingle y).2 := by
  obtain ⟨r0, h0, hr⟩ := Prover.allocateSingle_eq ha
  obtain ⟨⟨v, rfl⟩, hv, hi⟩ := h.allocate (y := none) h0
  obtain ⟨h2, hr2⟩ := Verifier.allocateSingle_eq s y
  rw [h2]
  rcases hr with ⟨e, h1, -⟩ | ⟨i, h1, rfl⟩ | ⟨i, h1, rfl⟩
  · cases h1
  · refine ⟨⟨_, rfl⟩, ?_, hi⟩
    rcases hr2 with ⟨j, h3, h4⟩ | ⟨j, h3, h4⟩ <;> rw [hv, h1] at h3 <;> cases h3
    exact h4
  · refine ⟨⟨_, rfl⟩, ?_, hi⟩
    rcases hr2 with ⟨j, h3, h4⟩ | ⟨j, h3, h4⟩ <;> rw [hv, h1] at h3 <;> cases h3
    exact h4

theorem InStep.multiply {p p' : Prover F G} {s : Verifier F G} {l r l' r' : LC F} {vs}
    (h : InStep p s) (hl : l.Equiv l') (hr : r.Equiv r') (hm : p.multiply l r = .ok (vs, p')) :
    (s.multiply l' r').1 = vs ∧ InStep p' (s.multiply l' r').2 := by
  obtain ⟨x, y, -, -, rfl, rfl⟩ := Prover.multiply_eq hm
  refine ⟨by simp [Verifier.multiply, Verifier.allocateVars, h.num, h.lenR, h.lenO], ?_⟩
  refine ⟨by simp [Prover.constrain, Prover.allocateVars, h.lenR], by simp [Prover.constrain, Prover.allocateVars, h.lenO], h.lenB,
    h.transcript, by simp [Verifier.multiply, Verifier.constrain, Verifier.allocateVars, Prover.constrain, Prover.allocateVars, h.num],
    h.pending, h.V, ?_, h.deferred⟩
  simp only [Verifier.multiply, Verifier.constrain, Verifier.allocateVars, Prover.constrain, Prover.allocateVars]
  refine forall2_append (forall2_append h.cons (.cons ?_ .nil)) (.cons ?_ .nil)
  · simp only [LC.Equiv, h.num]; exact List.Perm.append_right _ hl
  · simp only [LC.Equiv, h.num, h.lenR]; exact List.Perm.append_right _ hr

theorem InStep.allocateMultiplier {p : Prover F G} {s : Verifier F G} (h : InStep p s) (x : F × F) (y) :
    (p.allocateMultiplier (some x)).1 = (s.allocateMultiplier y).1 ∧ (∃ vs, (s.allocateMultiplier y).1 = .ok vs) ∧
    InStep (p.allocateMultiplier (some x)).2 (s.allocateMultiplier y).2 := by
  refine ⟨by simp [Prover.allocateMultiplier, Verifier.allocateMultiplier, Prover.allocateVars, Verifier.allocateVars, h.num, h.lenR, h.lenO],
    ⟨_, rfl⟩, ?_⟩
  exact ⟨by simp [Prover.allocateMultiplier, Prover.allocateVars, h.lenR], by simp [Prover.allocateMultiplier, Prover.allocateVars, h.lenO], h.lenB,
    h.transcript, by simp [Prover.allocateMultiplier, Verifier.allocateMultiplier, Prover.allocateVars, Verifier.allocateVars, h.num],
    h.pending, h.V, h.cons, h.deferred⟩

theorem InStep.constrain {p : Prover F G} {s : Verifier F G} (h : InStep p s) {lc lc' : LC F} (hl : lc.Equiv lc') :
    InStep (p.constrain lc) (s.constrain lc') :=
  ⟨h.lenR, h.lenO, h.lenB, h.transcript, h.num, h.pending, h.V, forall2_append h.cons (.cons hl .nil), h.deferred⟩

/-- Simulation: same code keeps prover and verifier in step. -/
theorem run_same {env env' : Env F G} (hO : env.oracle = env'.oracle) {C C' : Type} {rnd : Bool} {α β : Type}
    {RC : C → C' → Prop} {RA : α → β → Prop} {onP : C → Prover F G → Prover F G} {onV : C' → Verifier F G → Verifier F G}
    (hon : ∀ cb cb', RC cb cb' → ∀ p s, InStep p s → InStep (onP cb p) (onV cb' s))
    {c : Prog F C rnd α} {c' : Prog F C' rnd β} (hc : Prog.Same RC RA c c') :
    ∀ {p p' : Prover F G} {s : Verifier F G} {a : α}, InStep p s → Prover.run env onP c p = .ok (a, p') →
      ∃ b s', Verifier.run env' onV c' s = .ok (b, s') ∧ RA a b ∧ InStep p' s' := by
  induction hc with
  | ret hab =>
    intro p p' s a h hr
    simp only [Prover.run, Except.ok.injEq, Prod.mk.injEq] at hr
    obtain ⟨rfl, rfl⟩ := hr
    exact ⟨_, _, rfl, hab, h⟩
  | err => intro p p' s a h hr; cases hr
  | panic => intro p p' s a h hr; cases hr
  | multiply hl hr' _ ih =>
    intro p p' s a h hr
    simp only [Prover.run] at hr
    split at hr
    · rename_i vs q hq
      obtain ⟨e, hi⟩ := h.multiply hl hr' hq
      simp only [Verifier.run, e]
      exact ih _ hi hr
    · cases hr
  | allocate _ ih =>
    rename_i x y k k' _
    intro p p' s a h hr
    simp only [Prover.run] at hr
    split at hr
    · rename_i r q hq
      obtain ⟨⟨v, rfl⟩, e, hi⟩ := h.allocate (y := y) hq
      simp only [Verifier.run, e]
      exact ih _ hi hr
    · cases hr
  | allocateMultiplier _ ih =>
    rename_i x y k k' _
    intro p p' s a h hr
    simp only [Prover.run] at hr
    obtain ⟨e, ⟨vs, e2⟩, hi⟩ := h.allocateMultiplier x y
    rw [e, e2] at hr
    simp only [Verifier.run, e2]
    exact ih _ hi hr
  | constrain hl _ ih =>
    intro p p' s a h hr
    simp only [Prover.run] at hr
    simp only [Verifier.run]
    exact ih (h.constrain hl) hr
  | specify hcb _ ih =>
    intro p p' s a h hr
    simp only [Prover.run] at hr
    simp only [Verifier.run]
    exact ih (hon _ _ hcb _ _ h) hr
  | evaluateLc _ ih =>
    intro p p' s a h hr
    simp only [Prover.run] at hr
    simp only [Verifier.run]
    split at hr
    · exact ih _ h hr
    · cases hr
  | allocateSingle _ ih =>
    rename_i x y k k' _
    intro p p' s a h hr
    simp only [Prover.run] at hr
    split at hr
    · rename_i r q hq
      obtain ⟨⟨v, rfl⟩, e, hi⟩ := h.allocateSingle (y := y) hq
      simp only [Verifier.run, e]
      exact ih _ hi hr
    · cases hr
  | challenge _ ih =>
    intro p p' s a h hr
    simp only [Prover.run, Transcript.challengeScalar] at hr
    simp only [Verifier.run, Transcript.challengeScalar]
    rw [h.transcript, ← hO]
    refine ih _ ?_ hr
    exact ⟨h.lenR, h.lenO, h.lenB, rfl, h.num, h.pending, h.V, h.cons, h.deferred⟩
  | simplify hl _ ih =>
    intro p p' s a h hr
    simp only [Prover.run] at hr
    simp only [Verifier.run]
    refine ih _ _ (hl.simplify (env.hashOrd_perm _) (env'.hashOrd_perm _)) ?_ hr
    exact ⟨h.lenR, h.lenO, h.lenB, h.transcript, h.num, h.pending, h.V, h.cons, h.deferred⟩

theorem run1_same {env env' : Env F G} (hO : env.oracle = env'.oracle) {α β : Type} {RA : α → β → Prop} {c : Prog1 F α}
    {c' : Prog1 F β} (hc : Prog1.Same RA c c') {p p' : Prover F G} {s : Verifier F G} {a : α} (h : InStep p s)
    (hr : p.run1 env c = .ok (a, p')) : ∃ b s', s.run1 env' c' = .ok (b, s') ∧ RA a b ∧ InStep p' s' :=
  run_same hO (onP := fun cb p => p.specify cb) (onV := fun cb s => s.specify cb)
    (fun _ _ hcb _ _ h => ⟨h.lenR, h.lenO, h.lenB, h.transcript, h.num, h.pending, h.V, h.cons,
      forall2_append h.deferred (.cons hcb .nil)⟩) hc h hr

theorem run2_same {env env' : Env F G} (hO : env.oracle = env'.oracle) {c c' : Callback F} (hc : Callback.Same c c')
    {p p' : Prover F G} {s : Verifier F G} {a : Unit} (h : InStep p s)
    (hr : p.run2 env c = .ok (a, p')) : ∃ s', s.run2 env' c' = .ok ((), s') ∧ InStep p' s' := by
  obtain ⟨b, s', h1, -, h2⟩ := run_same hO (onP := fun (e : Empty) _ => e.elim) (onV := fun (e : Empty) _ => e.elim)
    (fun cb => cb.elim) hc h hr
  exact ⟨s', h1, h2⟩

theorem runCallbacks_same {env env' : Env F G} (hO : env.oracle = env'.oracle) {cs cs' : List (Callback F)}
    (hc : List.Forall₂ Callback.Same cs cs') : ∀ {p p' : Prover F G} {s : Verifier F G}, InStep p s →
    p.runCallbacks env cs = .ok p' → ∃ s', s.runCallbacks env' cs' = .ok s' ∧ InStep p' s' := by
  induction hc with
  | nil => intro p p' s h hr; cases hr; exact ⟨s, rfl, h⟩
  | cons hcb _ ih =>
    intro p p' s h hr
    simp only [Prover.runCallbacks] at hr
    split at hr
    · rename_i u q hq
      obtain ⟨s1, h1, h2⟩ := run2_same hO hcb h hq
      simp only [Verifier.runCallbacks, h1]
      exact ih h2 hr
    · cases hr

theorem crc_same {env env' : Env F G} (hO : env.oracle = env'.oracle) {p p' : Prover F G} {s : Verifier F G} (h : InStep p s)
    (hr : p.createRandomizedConstraints env = .ok p') :
    ∃ s', s.createRandomizedConstraints env' = .ok s' ∧ InStep p' s' := by
  unfold Prover.createRandomizedConstraints at hr
  unfold Verifier.createRandomizedConstraints
  have hd := h.deferred.length_eq
  simp only at hr ⊢
  split at hr
  · rename_i h0
    cases hr
    rw [if_pos (hd ▸ h0)]
    exact ⟨_, rfl, h.lenR, h.lenO, h.lenB, by rw [h.transcript], h.num, rfl, h.V, h.cons, h.deferred⟩
  · rename_i h0
    rw [if_neg (hd ▸ h0)]
    refine runCallbacks_same hO h.deferred ?_ hr
    exact ⟨h.lenR, h.lenO, h.lenB, by simp [h.transcript], h.num, rfl, h.V, h.cons, .nil⟩

end Bp
