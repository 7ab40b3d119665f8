import Verif.Lemmas.Refuted
import Verif.Spec.Request

/-! # The proving functions do not look at the transcript -/

set_option linter.unusedSectionVars false

namespace Bp
variable {F G : Type} [Field F] [AddCommGroup G] [Module F G] {α β : Type}

/-- The same prover with another transcript. -/
def Prover.over (p : Prover F G) (t : Transcript F G) : Prover F G := { p with transcript := t }

theorem Prover.multiply_over (p : Prover F G) (t : Transcript F G) (l r : LC F) : (p.over t).multiply l r = (p.multiply l r).map fun q => (q.1, q.2.over t) := by
  unfold multiply
  rw [show (p.over t).eval l = p.eval l from rfl, show (p.over t).eval r = p.eval r from rfl]
  cases p.eval l with
  | error e => rfl
  | ok x =>
    cases p.eval r with
    | error e => rfl
    | ok y => rfl

theorem Prover.allocate_over (p : Prover F G) (t : Transcript F G) (x : Option F) : (p.over t).allocate x = (p.allocate x).map fun q => (q.1, q.2.over t) := by
  unfold allocate over
  cases x with
  | none => rfl
  | some x =>
    dsimp only
    split
    · rfl
    · split
      · rename_i i _ _
        cases idx p.aL i <;> rfl
      · rfl

theorem Prover.allocateSingle_over (p : Prover F G) (t : Transcript F G) (x : Option F) : (p.over t).allocateSingle x = (p.allocateSingle x).map fun q => (q.1, q.2.over t) := by
  unfold allocateSingle
  rw [allocate_over]
  cases p.allocate x with
  | error e => rfl
  | ok q =>
    obtain ⟨r, q⟩ := q
    rcases r with e | v
    · rfl
    · cases v <;> rfl

theorem Prover.allocateMultiplier_over (p : Prover F G) (t : Transcript F G) (x : Option (F × F)) : (p.over t).allocateMultiplier x = ((p.allocateMultiplier x).1, (p.allocateMultiplier x).2.over t) := by
  cases x <;> rfl

theorem Prover.run_over (env : Env F G) {C : Type} {onSpec : C → Prover F G → Prover F G} (hs : ∀ c p t, onSpec c (p.over t) = (onSpec c p).over t) : ∀ (c : Prog F C false α) (p : Prover F G) (t : Transcript F G),
    (p.over t).run env onSpec c = (p.run env onSpec c).map fun q => (q.1, q.2.over t) := by
  intro c
  generalize hr : false = rnd at c
  induction c with
  | ret a => intro p t; rfl
  | err e => intro p t; rfl
  | panic w => intro p t; rfl
  | multiply l r k ih =>
    intro p t
    simp only [run, multiply_over]
    cases p.multiply l r with
    | error e => rfl
    | ok q => exact ih _ _ _
  | allocate x k ih =>
    intro p t
    simp only [run, allocate_over]
    cases p.allocate x with
    | error e => rfl
    | ok q => exact ih _ _ _
  | allocateMultiplier x k ih =>
    intro p t
    simp only [run, allocateMultiplier_over]
    exact ih _ _ _
  | constrain lc k ih => intro p t; exact ih (p.constrain lc) t
  | specify cb k ih => intro p t; simp only [run, hs]; exact ih _ _
  | evaluateLc lc k ih =>
    intro p t
    simp only [run]
    show (match p.eval lc with | .ok x => _ | .error e => _) = _
    cases p.eval lc with
    | error e => rfl
    | ok x => exact ih _ _ _
  | allocateSingle x k ih =>
    intro p t
    simp only [run, allocateSingle_over]
    cases p.allocateSingle x with
    | error e => rfl
    | ok q => exact ih _ _ _
  | challenge h label k ih => subst hr; cases h
  | simplify lc k ih => intro p t; exact ih _ { p with seed := p.seed + 1 } t

theorem Prover.leave_over (env : Env F G) {C : Type} {onSpec : C → Prover F G → Prover F G} (hs : ∀ c p t, onSpec c (p.over t) = (onSpec c p).over t) : ∀ (c : Prog F C false α) (p : Prover F G) (t : Transcript F G),
    (p.over t).leave env onSpec c = (p.leave env onSpec c).over t := by
  intro c
  generalize hr : false = rnd at c
  induction c with
  | ret a => intro p t; rfl
  | err e => intro p t; rfl
  | panic w => intro p t; rfl
  | multiply l r k ih =>
    intro p t
    simp only [leave, multiply_over]
    cases p.multiply l r with
    | error e => rfl
    | ok q => exact ih _ _ _
  | allocate x k ih =>
    intro p t
    simp only [leave, allocate_over]
    cases p.allocate x with
    | error e => rfl
    | ok q => exact ih _ _ _
  | allocateMultiplier x k ih =>
    intro p t
    simp only [leave, allocateMultiplier_over]
    exact ih _ _ _
  | constrain lc k ih => intro p t; exact ih (p.constrain lc) t
  | specify cb k ih => intro p t; simp only [leave, hs]; exact ih _ _
  | evaluateLc lc k ih =>
    intro p t
    simp only [leave]
    show (match p.eval lc with | .ok x => _ | .error e => _) = _
    cases p.eval lc with
    | error e => rfl
    | ok x => exact ih _ _ _
  | allocateSingle x k ih =>
    intro p t
    simp only [leave, allocateSingle_over]
    cases p.allocateSingle x with
    | error e => rfl
    | ok q => exact ih _ _ _
  | challenge h label k ih => subst hr; cases h
  | simplify lc k ih => intro p t; exact ih _ { p with seed := p.seed + 1 } t

/-- `d` does not look at the transcript: on another one it returns the same and does the same. -/
def Drv.Blind (d : Drv (Prover F G) α) : Prop := ∀ p t, ∃ t', d (p.over t) = ((d p).1, (d p).2.over t')

namespace Drv.Blind

theorem bind_left {d : Drv (Prover F G) α} {f : α → Drv (Prover F G) β} {p q : Prover F G} {e : Fault} (h : d p = (.error e, q)) : (d >>= f) p = (.error e, q) := by
  show Drv.bind d f p = _
  unfold Drv.bind
  rw [h]

theorem bind_right {d : Drv (Prover F G) α} {f : α → Drv (Prover F G) β} {p q : Prover F G} {x : α} (h : d p = (.ok x, q)) : (d >>= f) p = f x q := by
  show Drv.bind d f p = _
  unfold Drv.bind
  rw [h]

theorem bind {d : Drv (Prover F G) α} {f : α → Drv (Prover F G) β} (h1 : Drv.Blind d) (h2 : ∀ x, Drv.Blind (f x)) : Drv.Blind (d >>= f) := by
  intro p t
  obtain ⟨t1, e1⟩ := h1 p t
  rcases hd : d p with ⟨e | x, q⟩
  · rw [hd] at e1
    exact ⟨t1, by rw [bind_left e1, bind_left hd]⟩
  · rw [hd] at e1
    obtain ⟨t2, e2⟩ := h2 x q t1
    exact ⟨t2, by rw [bind_right e1, bind_right hd]; exact e2⟩

theorem pure (x : α) : Drv.Blind (Pure.pure x : Drv (Prover F G) α) := fun _ t => ⟨t, rfl⟩

theorem lift (r : Res α) : Drv.Blind (Drv.lift r : Drv (Prover F G) α) := fun _ t => ⟨t, rfl⟩

theorem commits (vs : List (F × F)) : Drv.Blind (Prover.commits vs : Drv (Prover F G) _) := by
  have key : ∀ (vs : List (F × F)) (p : Prover F G) t, ∃ t', (p.over t).commitAll vs = ((p.commitAll vs).1, (p.commitAll vs).2.over t') := by
    intro vs
    induction vs with
    | nil => intro p t; exact ⟨t, rfl⟩
    | cons v vs ih =>
      intro p t
      obtain ⟨t', e⟩ := ih (p.commit v.1 v.2).2 (t.commitPoint "V" (commitScalar p.g p.h v.1 v.2))
      have e1 : ((p.over t).commit v.1 v.2).2 = ((p.commit v.1 v.2).2).over (t.commitPoint "V" (commitScalar p.g p.h v.1 v.2)) := rfl
      have e2 : ((p.over t).commit v.1 v.2).1 = (p.commit v.1 v.2).1 := rfl
      refine ⟨t', ?_⟩
      simp only [Prover.commitAll, e1, e2, e]
  intro p t
  obtain ⟨t', e⟩ := key vs p t
  exact ⟨t', by simp only [Prover.commits, e]⟩

theorem gadget (env : Env F G) (c : Prog1 F α) : Drv.Blind (Prover.gadget env c : Drv (Prover F G) α) := by
  intro p t
  refine ⟨t, ?_⟩
  unfold Prover.gadget Prover.run1
  rw [Prover.run_over env (fun _ _ _ => rfl), Prover.leave_over env (fun _ _ _ => rfl)]
  cases Prover.run env (fun cb p => p.specify cb) c p <;> rfl

theorem bits (env : Env F G) : ∀ bs : List (F × F), Drv.Blind (proveBits env bs : Drv (Prover F G) _)
  | [] => pure _
  | (b, r) :: bs => by
    unfold proveBits
    refine bind (commits _) fun cs => ?_
    split
    · exact bind (gadget _ _) fun _ => bind (bits env bs) fun _ => pure _
    · exact lift _

end Drv.Blind

theorem Request.blind [ByteRep F] {st : Stmt F} {dp : Env F G → Drv (Prover F G) (List G)} (hq : Request st dp) (env : Env F G) : Drv.Blind (dp env) := by
  cases hq <;> dsimp only <;> (try unfold proveBoundedNum) <;> (try unfold proveNonZeroVal) <;> (try unfold proveSetMembership) <;> (try unfold proveSetMembershipAlt) <;> (try unfold proveSetNonMembership) <;> (try unfold proveHammingDistance) <;>
    (try unfold proveMimcPreimage) <;> (try unfold provePoseidon2) <;> (try unfold provePoseidon4) <;> (try unfold provePoseidon8) <;> (try unfold provePreimage) <;> (try unfold proveInclusion4) <;> (try unfold proveInclusion8) <;>
    (try unfold proveInclusion) <;> (try unfold proveFactors) <;>
    repeat' (first | exact Drv.Blind.lift _ | exact Drv.Blind.pure _ | exact Drv.Blind.commits _ | exact Drv.Blind.gadget _ _ | exact Drv.Blind.bits _ _ | refine Drv.Blind.bind ?_ fun _ => ?_ | split)

theorem Requests.blind [ByteRep F] {stmts : List (Stmt F)} {dp : Env F G → Drv (Prover F G) (List G)} (hq : Requests stmts dp) (env : Env F G) : Drv.Blind (dp env) := by
  induction hq with
  | nil => exact .pure _
  | cons h _ ih => exact .bind (h.blind env) fun _ => .bind ih fun _ => .pure _

end Bp
