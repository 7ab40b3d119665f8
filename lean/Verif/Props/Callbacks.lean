import Verif.Spec.Callbacks
import Verif.Props.R1CS
import Verif.Props.Errors

/-! # C08: all callbacks are run -/

set_option linter.unusedSectionVars false

namespace Bp
variable {F G : Type} [Field F] [AddCommGroup G] [SMul F G]

theorem Prover.ranAll (env : Env F G) : ∀ (cbs : List (Callback F)) (p : Prover F G), Prover.RanAll env cbs p (p.runCallbacks env cbs)
  | [], p => .done p
  | cb :: cbs, p => by
    unfold Prover.runCallbacks
    cases hr : p.run2 env cb with
    | ok x => exact .next hr (Prover.ranAll env cbs x.2)
    | error e => exact .fails hr

theorem Verifier.ranAll (env : Env F G) : ∀ (cbs : List (Callback F)) (s : Verifier F G), Verifier.RanAll env cbs s (s.runCallbacks env cbs)
  | [], s => .done s
  | cb :: cbs, s => by
    unfold Verifier.runCallbacks
    cases hr : s.run2 env cb with
    | ok x => exact .next hr (Verifier.ranAll env cbs x.2)
    | error e => exact .fails hr

/-- **C08**, the prover: all callbacks that were registered are run, each once and in the order of registration, after the second phase was announced in the transcript; none is registered any more afterwards.
(That this happens after the wires of the first phase were committed is in `p.start`, the state in which `prove` calls it, see `c08_when`.) -/
theorem c08_all_run (env : Env F G) (p : Prover F G) :
    (p.deferred = [] → p.createRandomizedConstraints env = .ok { p with pending := none, transcript := p.transcript ++ [.domSep "r1cs-1phase"] }) ∧
    (p.deferred ≠ [] → Prover.RanAll env p.deferred { p with pending := none, transcript := p.transcript ++ [.domSep "r1cs-2phase"], deferred := [] } (p.createRandomizedConstraints env)) := by
  constructor
  · intro h
    unfold Prover.createRandomizedConstraints
    simp only [h, List.length_nil, if_true]
    rfl
  · intro h
    unfold Prover.createRandomizedConstraints
    simp only [List.length_eq_zero_iff, h, if_false]
    exact Prover.ranAll env _ _

/-- **C08**, the verifier. -/
theorem c08_all_run_verifier (env : Env F G) (s : Verifier F G) :
    (s.deferred = [] → s.createRandomizedConstraints env = .ok { s with pending := none, transcript := s.transcript ++ [.domSep "r1cs-1phase"] }) ∧
    (s.deferred ≠ [] → Verifier.RanAll env s.deferred { s with pending := none, transcript := s.transcript ++ [.domSep "r1cs-2phase"], deferred := [] } (s.createRandomizedConstraints env)) := by
  constructor
  · intro h
    unfold Verifier.createRandomizedConstraints
    simp only [h, List.length_nil, if_true]
    rfl
  · intro h
    unfold Verifier.createRandomizedConstraints
    simp only [List.length_eq_zero_iff, h, if_false]
    exact Verifier.ranAll env _ _

/-- The outcome of running callbacks is determined. -/
theorem Prover.RanAll.unique {env : Env F G} {cbs : List (Callback F)} {p : Prover F G} {r r' : Res (Prover F G)} (h : Prover.RanAll env cbs p r) (h' : Prover.RanAll env cbs p r') : r = r' := by
  induction h with
  | done p => cases h'; rfl
  | next h1 h2 ih =>
    cases h' with
    | next h3 h4 => rw [h1] at h3; cases h3; exact ih h4
    | fails h3 => rw [h1] at h3; cases h3
  | fails h1 =>
    cases h' with
    | next h3 h4 => rw [h1] at h3; cases h3
    | fails h3 => rw [h1] at h3; cases h3; rfl

theorem Verifier.RanAll.unique {env : Env F G} {cbs : List (Callback F)} {s : Verifier F G} {r r' : Res (Verifier F G)} (h : Verifier.RanAll env cbs s r) (h' : Verifier.RanAll env cbs s r') : r = r' := by
  induction h with
  | done p => cases h'; rfl
  | next h1 h2 ih =>
    cases h' with
    | next h3 h4 => rw [h1] at h3; cases h3; exact ih h4
    | fails h3 => rw [h1] at h3; cases h3
  | fails h1 =>
    cases h' with
    | next h3 h4 => rw [h1] at h3; cases h3
    | fails h3 => rw [h1] at h3; cases h3; rfl

section
variable {G' : Type} [AddCommGroup G'] [Module F G']

/-- **C08**, when they are run: in `prove`, after the numbers of commitments and the three commitments to the wires of the first phase were logged.  If a callback fails, `prove` fails in the same way. -/
theorem c08_when (env : Env F G') (p : Prover F G') (hw : p.WF) (c : Coins F) (Gs Hs : List G') (hG : p.numMultipliers ≤ Gs.length) (hH : p.numMultipliers ≤ Hs.length) (hd : p.deferred ≠ []) :
    ∃ A B C : G', ∃ r : Res (Prover F G'), Prover.RanAll env p.deferred { p with pending := none, transcript := p.transcript ++ [.u64 "m" p.v.length, .point "A_I1" A, .point "A_O1" B, .point "S1" C, .domSep "r1cs-2phase"], deferred := [] } r ∧
      ∀ e : Fault, r = .error e → p.prove env c Gs Hs = .error e := by
  have hm : p.numMultipliers = p.aL.length := hw.lenO
  have h1 := (c08_all_run env (p.start c Gs Hs)).2 hd
  have ht : (p.start c Gs Hs).transcript ++ [.domSep "r1cs-2phase"] = p.transcript ++ [.u64 "m" p.v.length, .point "A_I1" (vecCommit p.h (Gs.take p.aL.length) (Hs.take p.aL.length) p.aL p.aR c.iB1),
      .point "A_O1" (msm p.aO (Gs.take p.aL.length) + c.oB1 • p.h), .point "S1" (vecCommit p.h (Gs.take p.aL.length) (Hs.take p.aL.length)
        (randomVec c.sL1 p.aL.length) (randomVec c.sR1 p.aL.length) c.sB1), .domSep "r1cs-2phase"] := by
    show (p.transcript ++ [_, _, _, _]) ++ [_] = _
    rw [List.append_assoc]
    rfl
  rw [ht] at h1
  exact ⟨_, _, _, _, h1, fun e he => prove_crc_error env p c Gs Hs hw (by omega) (by omega) e he⟩

end

/-! ## Cases -/

/-- Two callbacks, each adding a gate: both gates are there, in order. -/
example : ∃ p' : Prover Z101 Z101, (((Prover.new (F := Z101) (G := Z101) 1 5 [.init "x"]).specify (.allocateMultiplier (some (2, 3)) fun _ => .ret ())).specify (.allocateMultiplier (some (4, 5)) fun _ => .ret ())).createRandomizedConstraints (Env.std fun _ => 2) = .ok p' ∧ p'.aL = [2, 4] ∧ p'.aR = [3, 5] ∧ p'.deferred = [] :=
  ⟨_, Prover.RanAll.unique ((c08_all_run (Env.std fun _ => 2) _).2 (by simp [Prover.specify])) (.next rfl (.next rfl (.done _))), rfl, rfl, rfl⟩

example : ∃ s' : Verifier Z101 Z101, (((Verifier.new (F := Z101) (G := Z101) [.init "x"]).specify (.allocateMultiplier none fun _ => .ret ())).specify (.allocateMultiplier none fun _ => .ret ())).createRandomizedConstraints (Env.std fun _ => 2) = .ok s' ∧ s'.numVars = 2 ∧ s'.deferred = [] :=
  ⟨_, Verifier.RanAll.unique ((c08_all_run_verifier (Env.std fun _ => 2) _).2 (by simp [Verifier.specify])) (.next rfl (.next rfl (.done _))), rfl, rfl⟩

/-- The second callback fails, and so does `prove`. -/
example (c : Coins Z101) (Gs Hs : List Z101) :
    (((Prover.new (F := Z101) (G := Z101) 1 5 [.init "x"]).specify (.allocateMultiplier (some (2, 3)) fun _ => .ret ())).specify (.err .missingAssignment)).prove (Env.std fun _ => 2) c Gs Hs = Res.err .missingAssignment := by
  obtain ⟨A, B, C, r, h1, h2⟩ := c08_when (Env.std fun _ => 2) (((Prover.new (F := Z101) (G := Z101) 1 5 [.init "x"]).specify (.allocateMultiplier (some (2, 3)) fun _ => .ret ())).specify (.err .missingAssignment))
    (by constructor <;> simp [Prover.specify, Prover.new]) c Gs Hs (Nat.zero_le _) (Nat.zero_le _) (by simp [Prover.specify])
  exact h2 _ (h1.unique (.next rfl (.fails rfl)))

end Bp
