import Verif.Lemmas.Lockstep

/-! # C04: prover and verifier build the same circuit -/

set_option linter.unusedSectionVars false

namespace Bp
variable {F G : Type} [Field F] [AddCommGroup G] [SMul F G]

/-- C04: a new prover and a new verifier over the same transcript are in step. -/
theorem c04_new (g h : G) (t : Transcript F G) (k k' : ℕ) : InStep (Prover.new g h t k) (Verifier.new t k') :=
  ⟨rfl, rfl, rfl, rfl, rfl, rfl, rfl, .nil, .nil⟩

/-- C04: committing on the prover and committing the returned point on the verifier keeps them in step and returns the same variable. -/
theorem c04_commit (p : Prover F G) (s : Verifier F G) (h : InStep p s) (v b : F) :
    (s.commit (p.commit v b).1.1).1 = (p.commit v b).1.2 ∧ InStep (p.commit v b).2 (s.commit (p.commit v b).1.1).2 := by
  have hV : s.V.length = p.v.length := by rw [h.V]; simp [h.lenB]
  refine ⟨by simp [Verifier.commit, Prover.commit, hV], ?_⟩
  refine ⟨h.lenR, h.lenO, by simp [Prover.commit, h.lenB], by simp [Verifier.commit, Prover.commit, h.transcript], h.num, h.pending, ?_,
    h.cons, h.deferred⟩
  simp only [Verifier.commit, Prover.commit, h.V]
  rw [List.zipWith_append h.lenB.symm]; rfl

/-- C04: the same first-phase gadget code, run with assignments on the prover and without on the verifier, from states in step:
if it succeeds on the prover, it succeeds on the verifier with a related result (in particular the same variables) and the
states are in step again.  HashMap orders may differ between the two sides (`env` and `env'` share only the oracle). -/
theorem c04_gadget (env env' : Env F G) (hO : env.oracle = env'.oracle) {α β : Type} (RA : α → β → Prop)
    (c : Prog1 F α) (c' : Prog1 F β) (hc : Prog1.Same RA c c') (p p' : Prover F G) (s : Verifier F G) (a : α)
    (h : InStep p s) (hr : p.run1 env c = .ok (a, p')) :
    ∃ b s', s.run1 env' c' = .ok (b, s') ∧ RA a b ∧ InStep p' s' := run1_same hO hc h hr

/-- C04: the second phase keeps them in step too. -/
theorem c04_second_phase (env env' : Env F G) (hO : env.oracle = env'.oracle) (p p' : Prover F G) (s : Verifier F G) (h : InStep p s)
    (hr : p.createRandomizedConstraints env = .ok p') :
    ∃ s', s.createRandomizedConstraints env' = .ok s' ∧ InStep p' s' := crc_same hO h hr

/-- C04, what being in step gives the user: equal counts, and an assignment satisfies one side's constraints exactly when it satisfies
the other's. -/
theorem c04_same_circuit (p : Prover F G) (s : Verifier F G) (h : InStep p s) :
    s.numVars = p.numMultipliers ∧ s.constraints.length = p.numConstraints ∧ s.pending = p.pending ∧
    ∀ σ : Assignment F, σ.Sat p.constraints ↔ σ.Sat s.constraints := by
  refine ⟨h.num.trans h.lenO.symm, h.cons.length_eq.symm, h.pending, ?_⟩
  intro σ
  have hc := h.cons
  clear h
  unfold Assignment.Sat
  generalize p.constraints = cs at hc ⊢
  generalize s.constraints = cs' at hc ⊢
  induction hc with
  | nil => simp
  | cons h _ ih => simp only [List.mem_cons, forall_eq_or_imp, ih, h.value σ]

/-- A gadget with every kind of call, including an evaluation that feeds an allocation and a randomized callback. -/
def demoGadget (x : Option ℚ) : Prog1 ℚ Var := do
  let a ← Prog.alloc x
  let b ← Prog.allocMul (x.map (fun y => (y, y + 1)))
  let (_, _, o) ← Prog.mul (LC.ofVar a) (LC.ofVar b.2.1)
  let v ← Prog.eval (LC.ofVar o)
  let w ← Prog.allocSingle v
  let l ← Prog.simp ((LC.ofVar o).sub (LC.ofVar w.1))
  Prog.con l
  Prog.spec (.challenge rfl "c" fun c => .constrain (LC.smul c l) (.ret ()))
  return o

/-- The hypotheses of `c04_gadget` are met by it. -/
example : Prog1.Same Eq (demoGadget (some 3)) (demoGadget none) := by
  refine .allocate fun v => .allocateMultiplier fun vs => .multiply (.refl _) (.refl _) fun ws => .evaluateLc fun x =>
    .allocateSingle fun r => .simplify (.refl _) fun m m' hm => .constrain hm (.specify ?_ (.ret rfl))
  exact .challenge fun c => .constrain (hm.smul c) (.ret trivial)

example : ∃ a p', (Prover.new (1:ℚ) (1:ℚ) [] 0 : Prover ℚ ℚ).run1 (Env.std (fun _ => 1)) (demoGadget (some 3)) = .ok (a, p') ∧
    p'.constraints.length = 3 := ⟨_, _, rfl, rfl⟩

end Bp
