import Verif.Lemmas.Algebraic3

/-! # What the verifier builds depends on the commitments only through their number

Apart from the commitments themselves and their log. -/

set_option linter.unusedSectionVars false

namespace Bp
variable {F G : Type} [Field F] [AddCommGroup G]

section
variable [Module F G]

theorem map_zero_eq {a b : List G} (h : a.length = b.length) : a.map (0 : G →ₗ[F] G) = b.map (0 : G →ₗ[F] G) := by
  refine List.ext_getElem (by simpa using h) fun i h1 h2 => by simp

namespace Uniform
variable {label : String} {m : ℕ} {dv : List G → Drv (Verifier F G) Unit}

theorem of_nat {d0 : List G → Drv (Verifier F G) Unit} (h1 : ∀ a, OnePhase (dv a)) (h : ∀ a, DrvNat (0 : G →ₗ[F] G) (d0 (a.map (0 : G →ₗ[F] G))) (dv a)) : Uniform label m dv :=
  ⟨h1, fun a b s s' ha hb hs hs' => by
    have e := (h a).built hs
    rw [map_zero_eq (F := F) (ha.trans hb.symm), (h b).built hs'] at e
    have h := (Prod.mk.inj e).2
    have h1 := congrArg Verifier.constraints h
    have h2 := congrArg Verifier.numVars h
    have h3 := congrArg Verifier.deferred h
    have h4 := congrArg Verifier.pending h
    have h5 := congrArg Verifier.seed h
    cases s; cases s'
    simp_all [Verifier.mapG]⟩

end Uniform
end

section
variable [SMul F G]

namespace Uniform
variable {label : String} {m : ℕ} {dv : List G → Drv (Verifier F G) Unit}
variable (hu : Uniform label m dv) {a b : List G} (ha : a.length = m) (hb : b.length = m) {s s' : Verifier F G}
  (hs : dv a (Verifier.new [.init label]) = (.ok (), s)) (hs' : dv b (Verifier.new [.init label]) = (.ok (), s'))
include hu ha hb hs hs'

theorem numVars : s.numVars = s'.numVars := by
  have := congrArg Verifier.numVars (hu.same a b s s' ha hb hs hs')
  exact this.symm
theorem constraints : s.constraints = s'.constraints := by
  have := congrArg Verifier.constraints (hu.same a b s s' ha hb hs hs')
  exact this.symm
theorem badBound : s.badBound = s'.badBound := by
  unfold Verifier.badBound
  rw [hu.numVars ha hb hs hs', hu.constraints ha hb hs hs']
theorem numDraws : s.numDraws = s'.numDraws := by
  unfold Verifier.numDraws
  rw [hu.numVars ha hb hs hs']

theorem eq_of_V (hV : s.V = s'.V) : s = s' := by
  have h := hu.same a b s s' ha hb hs hs'
  have ht : s.transcript = s'.transcript := by rw [(hu.onePhase a).log hs, (hu.onePhase b).log hs', hV]
  rw [h, ← hV, ← ht]

end Uniform

/-! ## The drivers -/

theorem run_order {env env' : Env F G} (ho : env'.hashOrd = env.hashOrd) {C : Type} {α : Type} (onSpec : C → Verifier F G → Verifier F G) (c : Prog F C false α) : ∀ s, Verifier.run env' onSpec c s = Verifier.run env onSpec c s := by
  generalize hr : false = rnd at c
  induction c with
  | ret a => intro s; rfl
  | err e => intro s; rfl
  | panic w => intro s; rfl
  | multiply l r k ih => intro s; rw [Verifier.run, Verifier.run]; exact ih _ _
  | allocate x k ih => intro s; rw [Verifier.run, Verifier.run]; exact ih _ _
  | allocateMultiplier x k ih => intro s; rw [Verifier.run, Verifier.run]; exact ih _ _
  | constrain lc k ih => intro s; rw [Verifier.run, Verifier.run]; exact ih _
  | specify cb k ih => intro s; rw [Verifier.run, Verifier.run]; exact ih _
  | evaluateLc lc k ih => intro s; rw [Verifier.run, Verifier.run]; exact ih _ _
  | allocateSingle x k ih => intro s; rw [Verifier.run, Verifier.run]; exact ih _ _
  | challenge e l k ih => exact absurd (hr.trans e) (by decide)
  | simplify lc k ih => intro s; rw [Verifier.run, Verifier.run, ho]; exact ih _ _

theorem leave_order {env env' : Env F G} (ho : env'.hashOrd = env.hashOrd) {C : Type} {α : Type} (onSpec : C → Verifier F G → Verifier F G) (c : Prog F C false α) : ∀ s, Verifier.leave env' onSpec c s = Verifier.leave env onSpec c s := by
  generalize hr : false = rnd at c
  induction c with
  | ret a => intro s; rfl
  | err e => intro s; rfl
  | panic w => intro s; rfl
  | multiply l r k ih => intro s; rw [Verifier.leave, Verifier.leave]; exact ih _ _
  | allocate x k ih => intro s; rw [Verifier.leave, Verifier.leave]; exact ih _ _
  | allocateMultiplier x k ih => intro s; rw [Verifier.leave, Verifier.leave]; exact ih _ _
  | constrain lc k ih => intro s; rw [Verifier.leave, Verifier.leave]; exact ih _
  | specify cb k ih => intro s; rw [Verifier.leave, Verifier.leave]; exact ih _
  | evaluateLc lc k ih => intro s; rw [Verifier.leave, Verifier.leave]; exact ih _ _
  | allocateSingle x k ih => intro s; rw [Verifier.leave, Verifier.leave]; exact ih _ _
  | challenge e l k ih => exact absurd (hr.trans e) (by decide)
  | simplify lc k ih => intro s; rw [Verifier.leave, Verifier.leave, ho]; exact ih _ _

/-- Without randomized constraints the oracle is not asked. -/
theorem gadget_order {env env' : Env F G} (ho : env'.hashOrd = env.hashOrd) {α : Type} (c : Prog1 F α) : Verifier.gadget env' c = Verifier.gadget env c := by
  funext s
  unfold Verifier.gadget Verifier.run1
  rw [run_order ho, leave_order ho]

theorem gadget_pull (f : G → G) (env : Env F G) {α : Type} (c : Prog1 F α) : Verifier.gadget (env.pull f) c = Verifier.gadget env c := gadget_order (env := env) (env' := env.pull f) rfl c

end

variable [Module F G]

namespace Uniform
variable {label : String} {m : ℕ}

theorem boundedNum [IntRep F] (env : Env F G) (debug : Bool) (lower upper n : ℕ) : Uniform label m fun coms : List G => verifyBoundedNum (F := F) env debug lower upper n coms :=
  of_nat (fun _ => OnePhase.boundedNum _ _ _ _ _ _) (d0 := fun coms => verifyBoundedNum env debug lower upper n coms) fun a => by
    have := DrvNat.boundedNum (0 : G →ₗ[F] G) env debug lower upper n a
    unfold verifyBoundedNum at this ⊢
    simpa only [gadget_pull] using this

theorem nonZeroVal (env : Env F G) : Uniform label m (verifyNonZeroVal env) :=
  of_nat (fun _ => OnePhase.nonZeroVal _ _) (d0 := verifyNonZeroVal env) fun a => by
    have := DrvNat.nonZeroVal (0 : G →ₗ[F] G) env a
    unfold verifyNonZeroVal at this ⊢
    simpa only [gadget_pull] using this

theorem setMembership (env : Env F G) (set : List F) : Uniform label m (verifySetMembership env set) :=
  of_nat (fun _ => OnePhase.setMembership _ _ _) (d0 := verifySetMembership env set) fun a => by
    have := DrvNat.setMembership (0 : G →ₗ[F] G) env set a
    unfold verifySetMembership at this ⊢
    simpa only [gadget_pull] using this

theorem setNonMembership (env : Env F G) (set : List F) : Uniform label m (verifySetNonMembership env set) :=
  of_nat (fun _ => OnePhase.setNonMembership _ _ _) (d0 := verifySetNonMembership env set) fun a => by
    have := DrvNat.setNonMembership (0 : G →ₗ[F] G) env set a
    unfold verifySetNonMembership at this ⊢
    simpa only [gadget_pull] using this

theorem mimcPreimage (env : Env F G) (image : F) (constants : List F) (rounds : ℕ) : Uniform label m (verifyMimcPreimage env image constants rounds) :=
  of_nat (fun _ => OnePhase.mimcPreimage _ _ _ _ _) (d0 := verifyMimcPreimage env image constants rounds) fun a => by
    have := DrvNat.mimcPreimage (0 : G →ₗ[F] G) env image constants rounds a
    unfold verifyMimcPreimage at this ⊢
    simpa only [gadget_pull] using this

theorem preimage (env : Env F G) (k : ℕ) (g h : G) (c : List Var → List Var → Prog1 F Unit) (h1 : ∀ coms, OnePhase (verifyPreimage env k g h c coms)) : Uniform label m (verifyPreimage env k g h c) :=
  of_nat h1 (d0 := verifyPreimage env k 0 0 c) fun a => by
    have := DrvNat.preimage (0 : G →ₗ[F] G) env k g h c a
    unfold verifyPreimage at this ⊢
    simpa only [gadget_pull, LinearMap.zero_apply] using this

theorem inclusion (env : Env F G) (g h : G) (c : Var → Alloc F → List Var → List Var → Prog1 F Unit) (h1 : ∀ coms, OnePhase (verifyInclusion env g h c coms)) : Uniform label m (verifyInclusion env g h c) :=
  of_nat h1 (d0 := verifyInclusion env 0 0 c) fun a => by
    have := DrvNat.inclusion (0 : G →ₗ[F] G) env g h c a
    unfold verifyInclusion at this ⊢
    simpa only [gadget_pull, LinearMap.zero_apply] using this

theorem randomizer [ByteRep F] (env : Env F G) (t : SparseTree F) (db : HashDb (List F)) (indices : List F) (depth : ℕ) (p : PoseidonParams F) (sbox : SboxType) (g h : G) :
    Uniform label m (verifyRandomizer env t db indices depth p sbox g h) :=
  of_nat (fun _ => OnePhase.randomizer _ _ _ _ _ _ _ _ _ _) (d0 := verifyRandomizer env t db indices depth p sbox 0 0) fun a => by
    have := DrvNat.randomizer (0 : G →ₗ[F] G) env t db indices depth p sbox g h a
    unfold verifyRandomizer at this ⊢
    simpa only [gadget_pull, LinearMap.zero_apply] using this

end Uniform
end Bp
