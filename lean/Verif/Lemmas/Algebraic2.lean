import Verif.Lemmas.Algebraic
import Verif.Model.Driver
import Verif.Lemmas.Attack

/-! # Algebraic attacks: from points to combinations -/

set_option linter.unusedSectionVars false

namespace Bp
variable {F G M : Type} [Field F]

section
variable [AddCommGroup G] [SMul F G] [AddCommGroup M] [SMul F M]

theorem event_eq {Φ : Type} [FunLike Φ M G] [AddMonoidHomClass Φ M G] [MulActionHomClass Φ F M G] {φ : Φ} {a b : TEvent F M} (h : a.mapG φ = b.mapG φ) (hn : ∀ l l' p p', a = .point l p → b = .point l' p' → φ (p - p') = 0 → p - p' = 0) : a = b := by
  cases a <;> cases b <;> simp only [TEvent.mapG, TEvent.init.injEq, TEvent.domSep.injEq, TEvent.u64.injEq, TEvent.point.injEq, TEvent.scalar.injEq, TEvent.challenge.injEq, reduceCtorEq] at h ⊢
  case point.point => exact ⟨h.1, sub_eq_zero.mp (hn _ _ _ _ rfl rfl (by rw [map_sub, h.2, sub_self]))⟩
  all_goals exact h

theorem mapG_eq {Φ : Type} [FunLike Φ M G] [AddMonoidHomClass Φ M G] [MulActionHomClass Φ F M G] {φ : Φ} : ∀ {q t : Transcript F M}, Transcript.mapG φ q = Transcript.mapG φ t → (∀ p ∈ q.points, ∀ p' ∈ t.points, φ (p - p') = 0 → p - p' = 0) → q = t
  | [], [], _, _ => rfl
  | [], _ :: _, h, _ => by simp [Transcript.mapG] at h
  | _ :: _, [], h, _ => by simp [Transcript.mapG] at h
  | a :: q, b :: t, h, hn => by
    simp only [Transcript.mapG, List.map_cons, List.cons.injEq] at h
    have sub : ∀ (e : TEvent F M) (l : Transcript F M), ∀ p ∈ l.points, p ∈ Transcript.points (e :: l) := by
      intro e l p hp
      unfold Transcript.points at hp ⊢
      cases e <;> simp_all
    have hq := mapG_eq h.2 fun p hp p' hp' => hn p (sub _ _ _ hp) p' (sub _ _ _ hp')
    rw [hq]
    rw [event_eq h.1 fun l l' p p' ha hb h0 => hn p (by simp [Transcript.points, ha]) p' (by simp [Transcript.points, hb]) h0]

end

section
variable [AddCommGroup G] [SMul F G] [AddCommGroup M] [SMul F M]

theorem mapG_drawsFrom (f : M → G) : ∀ (t acc : Transcript F M), drawsFrom (acc.mapG f) (t.mapG f) = (drawsFrom acc t).map (Transcript.mapG f)
  | [], acc => rfl
  | e :: t, acc => by
    have h1 : Transcript.mapG f (e :: t) = e.mapG f :: Transcript.mapG f t := rfl
    have h2 : Transcript.mapG f acc ++ [e.mapG f] = Transcript.mapG f (acc ++ [e]) := by simp [Transcript.mapG]
    have h3 : (e.mapG f).isChallenge = e.isChallenge := by cases e <;> rfl
    rw [h1, drawsFrom, drawsFrom, h2, h3]
    split
    · rw [List.map_cons, mapG_drawsFrom f t]
    · rw [mapG_drawsFrom f t]

theorem mapG_draws (f : M → G) (t : Transcript F M) : draws (t.mapG f) = (draws t).map (Transcript.mapG f) := mapG_drawsFrom f t []

theorem drawsFrom_prefix : ∀ (t acc d : Transcript F M), d ∈ drawsFrom acc t → d <+: acc ++ t
  | [], acc, d, h => by simp [drawsFrom] at h
  | e :: t, acc, d, h => by
    rw [drawsFrom] at h
    have e1 : acc ++ e :: t = (acc ++ [e]) ++ t := by simp
    split at h
    · rcases List.mem_cons.mp h with rfl | h
      · exact ⟨t, e1.symm⟩
      · rw [e1]; exact drawsFrom_prefix t _ _ h
    · rw [e1]; exact drawsFrom_prefix t _ _ h

theorem draws_points {t d : Transcript F M} (h : d ∈ draws t) : ∀ p ∈ d.points, p ∈ t.points := by
  obtain ⟨rest, e⟩ := drawsFrom_prefix t [] d h
  rw [List.nil_append] at e
  intro p hp
  rw [← e]
  unfold Transcript.points at hp ⊢
  rw [List.filterMap_append]
  exact List.mem_append_left _ hp

end

section
variable [AddCommGroup G] [SMul F G] [AddCommGroup M] [SMul F M]

/-- What the verifier accepts when it sees the points, it accepts when it sees the combinations, unless its final calculation gives a relation. -/
theorem verify_lift [DecidableEq G] [DecidableEq M] {Φ : Type} [FunLike Φ M G] [AddMonoidHomClass Φ M G] [MulActionHomClass Φ F M G] {φ : Φ} {env : Env F G} {s : Verifier F M} {pr : R1CSProof F M} {g h : M} {Gs Hs : List M} {r : F} {O : Oracle F G} {T : Transcript F G}
    (ha : (s.mapG φ).verify { env with oracle := O } (pr.mapG φ) (φ g) (φ h) (Gs.map φ) (Hs.map φ) r = .ok T) {qs : List (Transcript F M)} (hn : ∀ ρ, ¬ Relation φ env s pr g h Gs Hs r O qs ρ) :
    ∃ T', s.residual (Env.pull φ { env with oracle := O }) pr g h Gs Hs r = .ok (0, T') ∧ s.verify { env.pull φ with oracle := fun t => O (t.mapG φ) } pr g h Gs Hs r = .ok T' ∧ T = T'.mapG φ ∧
      ∀ p ∈ (T' :: qs).flatMap Transcript.points, ∀ p' ∈ (T' :: qs).flatMap Transcript.points, φ (p - p') = 0 → p - p' = 0 := by
  rw [verify_residual, mapG_residual] at ha
  cases hr : s.residual (Env.pull φ { env with oracle := O }) pr g h Gs Hs r with
  | error e => rw [hr] at ha; simp [Except.map] at ha
  | ok p =>
    obtain ⟨ρ, T'⟩ := p
    rw [hr] at ha
    simp only [Except.map] at ha
    split at ha
    · rename_i h0
      obtain rfl : ρ = 0 := by
        by_contra hne
        exact hn ρ ⟨hne, h0, ρ, T', hr, .inl rfl⟩
      obtain rfl : T = T'.mapG φ := by simpa using ha.symm
      refine ⟨T', rfl, ?_, rfl, fun p hp p' hp' h0 => ?_⟩
      · rw [verify_residual]
        have e : ({ env.pull φ with oracle := fun t => O (t.mapG φ) } : Env F M) = Env.pull φ { env with oracle := O } := rfl
        rw [e, hr]
        simp
      · by_contra hne
        exact hn _ ⟨hne, h0, 0, T', hr, .inr ⟨p, p', hp, hp', rfl⟩⟩
    · simp [Res.err] at ha

theorem Answers.lift {Φ : Type} [FunLike Φ M G] [AddMonoidHomClass Φ M G] [MulActionHomClass Φ F M G] {φ : Φ} {ask : List F → Transcript F M} {O : Oracle F G} {cs : List F} (h : Answers (fun cs => (ask cs).mapG φ) O cs)
    (hn : ∀ i < cs.length, ∀ j < cs.length, ∀ p ∈ (ask (cs.take i)).points, ∀ p' ∈ (ask (cs.take j)).points, φ (p - p') = 0 → p - p' = 0) : Answers ask (fun t => O (t.mapG φ)) cs := by
  intro i c hc hnew
  have hi : i < cs.length := (List.getElem?_eq_some_iff.mp hc).1
  refine h i c hc fun hm => hnew ?_
  obtain ⟨j, hj, e⟩ := mem_askedBy hm
  have hj' : j < i := lt_of_lt_of_le hj (List.length_take_le _ _)
  rw [List.take_take, Nat.min_eq_left (le_of_lt hj')] at e
  rw [← mapG_eq e (hn j (hj'.trans hi) i hi)]
  have := askedBy_mem (ask := ask) hj
  rwa [List.take_take, Nat.min_eq_left (le_of_lt hj')] at this

/-- What an attack with combinations achieves against points, it achieves against combinations, unless it gives a relation. -/
theorem Attack.AcceptedVia.lift [DecidableEq G] [DecidableEq M] {Φ : Type} [FunLike Φ M G] [AddMonoidHomClass Φ M G] [MulActionHomClass Φ F M G] {φ : Φ} {A : Attack F M} {env : Env F G} {s : Verifier F M} {g h : M} {Gs Hs : List M} {cs : List F} {r : F} {O : Oracle F G}
    {T : Transcript F G} (ha : A.AcceptedVia φ env s g h Gs Hs cs r O T) (hn : ∀ ρ, ¬ Relation φ env s (A.out cs) g h Gs Hs r O (askedBy A.ask cs) ρ) :
    ∃ T', A.AcceptedWith (env.pull φ) s g h Gs Hs cs r (fun t => O (t.mapG φ)) T' ∧ T = T'.mapG φ := by
  obtain ⟨T', -, h1, rfl, h2⟩ := verify_lift ha.accepts hn
  have hq : ∀ q ∈ askedBy A.ask cs, ∀ p ∈ q.points, p ∈ (T' :: askedBy A.ask cs).flatMap Transcript.points := fun q hq p hp => List.mem_flatMap.mpr ⟨q, List.mem_cons_of_mem _ hq, hp⟩
  refine ⟨T', ⟨ha.answers.lift fun i hi j hj p hp p' hp' => h2 p (hq _ (askedBy_mem hi) p hp) p' (hq _ (askedBy_mem hj) p' hp'), h1, fun d hd => ?_⟩, rfl⟩
  obtain ⟨q, hq', e⟩ := ha.asked (d.mapG φ) (by rw [mapG_draws]; exact List.mem_map_of_mem hd)
  obtain rfl : q = d := mapG_eq (φ := φ) e fun p hp p' hp' => h2 p (hq _ hq' p hp) p' (List.mem_flatMap.mpr ⟨T', by simp, draws_points hd p' hp'⟩)
  exact hq'

end

section
variable [AddCommGroup G] [SMul F G] [AddCommGroup M] [SMul F M]

/-! ## Statements -/

theorem mapG_leave (f : M → G) (env : Env F G) {C : Type} {rnd : Bool} {α : Type} (onSpec : C → Verifier F G → Verifier F G) (onSpec' : C → Verifier F M → Verifier F M)
    (hs : ∀ c s, onSpec c (s.mapG f) = (onSpec' c s).mapG f) (c : Prog F C rnd α) (s : Verifier F M) :
    (s.mapG f).leave env onSpec c = (s.leave (env.pull f) onSpec' c).mapG f := by
  induction c generalizing s with
  | ret a => rfl
  | err e => rfl
  | panic w => rfl
  | multiply l r k ih => rw [Verifier.leave, Verifier.leave]; exact ih (s.multiply l r).1 (s.multiply l r).2
  | allocate x k ih => rw [Verifier.leave, Verifier.leave, mapG_allocate]; exact ih _ _
  | allocateMultiplier x k ih => rw [Verifier.leave, Verifier.leave]; exact ih (s.allocateMultiplier x).1 (s.allocateMultiplier x).2
  | constrain lc k ih => rw [Verifier.leave, Verifier.leave]; exact ih (s.constrain lc)
  | specify cb k ih => rw [Verifier.leave, Verifier.leave, hs]; exact ih _
  | evaluateLc lc k ih => rw [Verifier.leave, Verifier.leave]; exact ih _ _
  | allocateSingle x k ih => rw [Verifier.leave, Verifier.leave, mapG_allocateSingle]; exact ih _ _
  | challenge h l k ih =>
    rw [Verifier.leave, Verifier.leave]
    have e : Transcript.challengeScalar env.oracle (s.mapG f).transcript l = _ := mapG_challengeScalar f env s.transcript l
    rw [e]
    exact ih _ { s with transcript := _ }
  | simplify lc k ih => rw [Verifier.leave, Verifier.leave]; exact ih _ { s with seed := s.seed + 1 }

/-- The driver `d` does to points what `d'` does to combinations. -/
def DrvNat (f : M → G) {α : Type} (d : Drv (Verifier F G) α) (d' : Drv (Verifier F M) α) : Prop := ∀ s, d (s.mapG f) = ((d' s).1, (d' s).2.mapG f)

theorem DrvNat.bind {f : M → G} {α β : Type} {d : Drv (Verifier F G) α} {d' : Drv (Verifier F M) α} {k : α → Drv (Verifier F G) β} {k' : α → Drv (Verifier F M) β} (h : DrvNat f d d') (hk : ∀ a, DrvNat f (k a) (k' a)) :
    DrvNat f (d >>= k) (d' >>= k') := by
  intro s
  show Drv.bind d k (s.mapG f) = ((Drv.bind d' k' s).1, (Drv.bind d' k' s).2.mapG f)
  unfold Drv.bind
  rw [h s]
  rcases d' s with ⟨r, s'⟩
  cases r with
  | error e => rfl
  | ok a => exact hk a s'

theorem DrvNat.pure {f : M → G} {α : Type} (a : α) : DrvNat (F := F) f (Pure.pure a : Drv (Verifier F G) α) (Pure.pure a : Drv (Verifier F M) α) := fun _ => rfl

theorem DrvNat.lift {f : M → G} {α : Type} (r : Res α) : DrvNat (F := F) f (Drv.lift r : Drv (Verifier F G) α) (Drv.lift r : Drv (Verifier F M) α) := fun _ => rfl

theorem DrvNat.gadget (f : M → G) (env : Env F G) {α : Type} (c : Prog1 F α) : DrvNat f (Verifier.gadget env c) (Verifier.gadget (env.pull f) c) := by
  intro s
  unfold Verifier.gadget
  rw [mapG_run1]
  cases s.run1 (env.pull f) c with
  | error e => simp only [Except.map]; rw [mapG_leave f env _ (fun cb s => s.specify cb) (fun _ _ => rfl)]
  | ok p => rfl

theorem DrvNat.commits (f : M → G) (Vs : List M) : DrvNat (F := F) f (Verifier.commits (Vs.map f)) (Verifier.commits Vs) := by
  have h : ∀ (Vs : List M) (s : Verifier F M), Verifier.commitAll (Vs.map f) (s.mapG f) = ((s.commitAll Vs).1, (s.commitAll Vs).2.mapG f) := by
    intro Vs
    induction Vs with
    | nil => intro s; rfl
    | cons V Vs ih =>
      intro s
      rw [List.map_cons, Verifier.commitAll, Verifier.commitAll]
      have e : (s.mapG f).commit (f V) = ((s.commit V).1, (s.commit V).2.mapG f) := by
        simp [Verifier.commit, Verifier.mapG, Transcript.commitPoint, Transcript.mapG, TEvent.mapG]
      simp only [e, ih]
  intro s
  unfold Verifier.commits
  rw [h]

theorem DrvNat.take {f : M → G} {β : Type} {k : List G → Drv (Verifier F G) β} {k' : List M → Drv (Verifier F M) β} (coms : List M) (n : ℕ) (hk : ∀ l, DrvNat f (k (l.map f)) (k' l)) :
    DrvNat f (Drv.lift (takeComms (coms.map f) n) >>= k) (Drv.lift (takeComms coms n) >>= k') := by
  intro s
  show Drv.bind _ k (s.mapG f) = ((Drv.bind _ k' s).1, (Drv.bind _ k' s).2.mapG f)
  unfold Drv.bind Drv.lift takeComms
  rw [List.length_map]
  by_cases h : n ≤ coms.length
  · simp only [if_pos h, ← List.map_take]
    exact hk _ s
  · simp only [if_neg h]; rfl

theorem mapG_new (f : M → G) (l : String) : (Verifier.new [.init l] : Verifier F M).mapG f = Verifier.new [.init l] := rfl

theorem DrvNat.built {f : M → G} {d : Drv (Verifier F G) Unit} {d' : Drv (Verifier F M) Unit} (h : DrvNat f d d') {l : String} {s : Verifier F M} (hs : d' (Verifier.new [.init l]) = (.ok (), s)) :
    d (Verifier.new [.init l]) = (.ok (), s.mapG f) := by
  rw [← mapG_new f l, h, hs]


end

end Bp
