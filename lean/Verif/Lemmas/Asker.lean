import Verif.Spec.Asker
import Verif.Lemmas.DiscreteLog
import Verif.Lemmas.Challenge
import Verif.Lemmas.Statements
import Verif.Lemmas.RandomOracle2

/-! # Provers that ask one question after the other -/

namespace Bp
variable {F G M α : Type} [Field F] [AddCommGroup G] [Module F G]

/-! ## The first phase does not look at the hash -/

theorem run_oracle (O : Oracle F G) (env : Env F G) {C : Type} {α : Type} (onSpec : C → Verifier F G → Verifier F G) (c : Prog F C false α) : ∀ s, Verifier.run (env.withOracle O) onSpec c s = Verifier.run env onSpec c s := by
  generalize hr : false = rnd at c
  induction c with
  | ret a => intro s; rfl
  | err e => intro s; rfl
  | panic w => intro s; rfl
  | multiply l r k ih => intro s; rw [Verifier.run, Verifier.run]; exact ih _ _
  | allocate x k ih => intro s; rw [Verifier.run, Verifier.run]; exact ih _ _
  | allocateMultiplier x k ih => intro s; rw [Verifier.run, Verifier.run]; exact ih _ _
  | constrain lc k ih => intro s; rw [Verifier.run, Verifier.run]; exact ih _
  | specify cb k ih => intro s; rw [Verifier.run, Verifier.run]; exact ih _
  | evaluateLc lc k ih => intro s; rw [Verifier.run, Verifier.run]; exact ih _ _
  | allocateSingle x k ih => intro s; rw [Verifier.run, Verifier.run]; exact ih _ _
  | challenge e l k ih => exact absurd (hr.trans e) (by decide)
  | simplify lc k ih => intro s; rw [Verifier.run, Verifier.run]; exact ih _ _

theorem leave_oracle (O : Oracle F G) (env : Env F G) {C : Type} {α : Type} (onSpec : C → Verifier F G → Verifier F G) (c : Prog F C false α) : ∀ s, Verifier.leave (env.withOracle O) onSpec c s = Verifier.leave env onSpec c s := by
  generalize hr : false = rnd at c
  induction c with
  | ret a => intro s; rfl
  | err e => intro s; rfl
  | panic w => intro s; rfl
  | multiply l r k ih => intro s; rw [Verifier.leave, Verifier.leave]; exact ih _ _
  | allocate x k ih => intro s; rw [Verifier.leave, Verifier.leave]; exact ih _ _
  | allocateMultiplier x k ih => intro s; rw [Verifier.leave, Verifier.leave]; exact ih _ _
  | constrain lc k ih => intro s; rw [Verifier.leave, Verifier.leave]; exact ih _
  | specify cb k ih => intro s; rw [Verifier.leave, Verifier.leave]; exact ih _
  | evaluateLc lc k ih => intro s; rw [Verifier.leave, Verifier.leave]; exact ih _ _
  | allocateSingle x k ih => intro s; rw [Verifier.leave, Verifier.leave]; exact ih _ _
  | challenge e l k ih => exact absurd (hr.trans e) (by decide)
  | simplify lc k ih => intro s; rw [Verifier.leave, Verifier.leave]; exact ih _ _

theorem gadget_oracle (O : Oracle F G) (env : Env F G) {α : Type} (c : Prog1 F α) : Verifier.gadget (env.withOracle O) c = Verifier.gadget env c := by
  funext s
  unfold Verifier.gadget Verifier.run1
  rw [run_oracle, leave_oracle]

variable [ByteRep F]

omit [ByteRep F] in
theorem verifyBits_oracle (O : Oracle F G) (env : Env F G) : ∀ Vs : List G, verifyBits (env.withOracle O) Vs = verifyBits env Vs
  | [] => rfl
  | V :: Vs => by
    unfold verifyBits
    rw [verifyBits_oracle O env Vs]
    simp only [gadget_oracle]

theorem Stmt.verify_oracle (O : Oracle F G) (env : Env F G) (g h : G) (st : Stmt F) (coms : List G) : st.verify (env.withOracle O) g h coms = st.verify env g h coms := by
  cases st with
  | boundedNum debug lower upper n => simp only [Stmt.verify, verifyBoundedNum, gadget_oracle]
  | nonZero => simp only [Stmt.verify, verifyNonZeroVal, gadget_oracle]
  | setMembership set => simp only [Stmt.verify, verifySetMembership, gadget_oracle]
  | setMembershipAlt set => simp only [Stmt.verify, verifySetMembershipAlt, gadget_oracle, verifyBits_oracle]
  | setNonMembership set => simp only [Stmt.verify, verifySetNonMembership, gadget_oracle]
  | hamming new count => simp only [Stmt.verify, verifyHammingDistance, gadget_oracle]
  | mimc image constants rounds => simp only [Stmt.verify, verifyMimcPreimage, gadget_oracle]
  | poseidon2 output p sbox => simp only [Stmt.verify, verifyPoseidon2, verifyPreimage, gadget_oracle]
  | poseidon4 output p sbox => simp only [Stmt.verify, verifyPoseidon4, verifyPreimage, gadget_oracle]
  | poseidon8 output p sbox => simp only [Stmt.verify, verifyPoseidon8, verifyPreimage, gadget_oracle]
  | inclusion4 root depth p sbox => simp only [Stmt.verify, verifyInclusion4, verifyInclusion, gadget_oracle]
  | inclusion8 root depth p sbox => simp only [Stmt.verify, verifyInclusion8, verifyInclusion, gadget_oracle]
  | randomizer t db indices depth p => simp only [Stmt.verify, verifyRandomizer, gadget_oracle]
  | factors k r => simp only [Stmt.verify, verifyFactors, gadget_oracle]

theorem verifyStmts_oracle (O : Oracle F G) (env : Env F G) (g h : G) : ∀ (l : List (Stmt F)) (coms : List G), verifyStmts (env.withOracle O) g h l coms = verifyStmts env g h l coms
  | [], _ => rfl
  | st :: l, coms => by
    unfold verifyStmts
    rw [Stmt.verify_oracle]
    simp only [verifyStmts_oracle O env g h l]


/-! ## Walking -/

namespace Asker
omit [ByteRep F]
variable {f : M → G}

theorem Within.mono : ∀ {A : Asker F M α} {Q Q' : ℕ}, A.Within Q → Q ≤ Q' → A.Within Q'
  | done _, _, _, _, _ => trivial
  | ask q next, Q, Q', ⟨Q1, e, h⟩, hle => ⟨Q' - 1, by omega, fun a => (h a).mono (by omega)⟩

theorem walk_some {q : Transcript F M} {next : F → Asker F M α} {K : Answered F G} {a : F} (hK : K (q.mapG f) = some a) (cs : List F) : (ask q next).walk f K cs = (next a).walk f K cs := by
  cases cs <;> simp only [walk, hK]

theorem walk_append (A : Asker F M α) : ∀ (K : Answered F G) (cs cs' : List F), A.walk f K (cs ++ cs') = (A.walk f K cs).1.walk f (A.walk f K cs).2 cs' := by
  induction A with
  | done a => intro K cs cs'; rfl
  | ask q next ih =>
    intro K cs cs'
    cases hK : K (q.mapG f) with
    | some a => rw [walk_some hK, walk_some hK]; exact ih a K cs cs'
    | none =>
      cases cs with
      | nil => simp only [List.nil_append, walk, hK]
      | cons a cs => simp only [List.cons_append, walk, hK]; exact ih a _ cs cs'

theorem walk_nil (A : Asker F M α) : ∀ K : Answered F G, (A.walk f K []).2 = K := by
  induction A with
  | done a => intro K; rfl
  | ask q next ih =>
    intro K
    cases hK : K (q.mapG f) with
    | some a => rw [walk_some hK]; exact ih a K
    | none => simp only [walk, hK]

/-- Who has answers left has ended, or is at a new question. -/
theorem walk_stuck (A : Asker F M α) : ∀ (K : Answered F G) (cs : List F) (q : Transcript F M) (next : F → Asker F M α), (A.walk f K cs).1 = ask q next → (A.walk f K cs).2 (q.mapG f) = none := by
  induction A with
  | done a => intro K cs q next h; cases h
  | ask q' next' ih =>
    intro K cs q next h
    cases hK : K (q'.mapG f) with
    | some a => rw [walk_some hK] at h ⊢; exact ih a K cs q next h
    | none =>
      cases cs with
      | nil =>
        simp only [walk, hK] at h ⊢
        cases h
        exact hK
      | cons a cs => simp only [walk, hK] at h ⊢; exact ih a _ cs q next h

theorem add_self (K : Answered F G) (q : Transcript F G) (a : F) : K.add q a q = some a := by simp [Answered.add]

theorem add_of_some {K : Answered F G} {q t : Transcript F G} {a b : F} (hq : K q = none) (ht : K t = some b) : K.add q a t = some b := by
  unfold Answered.add
  rw [if_neg, ht]
  rintro rfl
  rw [hq] at ht
  cases ht

theorem walk_keep (A : Asker F M α) : ∀ (K : Answered F G) (cs : List F) {t : Transcript F G} {b : F}, K t = some b → (A.walk f K cs).2 t = some b := by
  induction A with
  | done a => intro K cs t b h; exact h
  | ask q next ih =>
    intro K cs t b h
    cases hK : K (q.mapG f) with
    | some a => rw [walk_some hK]; exact ih a K cs h
    | none =>
      cases cs with
      | nil => simp only [walk, hK]; exact h
      | cons a cs => simp only [walk, hK]; exact ih a _ cs (add_of_some hK h)

/-- The answers are recorded. -/
theorem walk_answer (A : Asker F M α) (K : Answered F G) {cs : List F} {i : ℕ} {c : F} (hc : cs[i]? = some c) {q : Transcript F M} {next : F → Asker F M α} (h : (A.walk f K (cs.take i)).1 = ask q next) :
    (A.walk f K cs).2 (q.mapG f) = some c := by
  obtain ⟨hi, rfl⟩ := List.getElem?_eq_some_iff.mp hc
  have e : cs = cs.take i ++ cs[i] :: cs.drop (i + 1) := by rw [List.cons_getElem_drop_succ, List.take_append_drop]
  have hs := walk_stuck A K _ q next h
  conv_lhs => rw [e, walk_append, h]
  generalize (A.walk f K (cs.take i)).2 = K' at hs
  simp only [walk, hs]
  exact walk_keep _ _ _ (add_self _ _ _)

/-- Nothing else is. -/
theorem walk_asked (A : Asker F M α) (K : Answered F G) (cs : List F) {t : Transcript F G} (h : (A.walk f K cs).2 t ≠ none) :
    K t ≠ none ∨ t ∈ askedBy (fun l => ((A.walk f K l).1.question).mapG f) cs := by
  induction cs using List.reverseRecOn with
  | nil => rw [walk_nil] at h; exact .inl h
  | append_singleton cs c ih =>
    rw [walk_append] at h
    have key : (A.walk f K cs).2 t ≠ none ∨ t = ((A.walk f K cs).1.question).mapG f := by
      cases hA : (A.walk f K cs).1 with
      | done a => rw [hA] at h; exact .inl h
      | ask q next =>
        have hs := walk_stuck A K _ q next hA
        rw [hA] at h
        generalize (A.walk f K cs).2 = K' at hs h
        simp only [walk, hs, walk_nil] at h
        by_cases e : t = q.mapG f
        · exact .inr e
        · rw [Answered.add, if_neg e] at h
          exact .inl h
    have up : ∀ u, u ∈ askedBy (fun l => ((A.walk f K l).1.question).mapG f) cs → u ∈ askedBy (fun l => ((A.walk f K l).1.question).mapG f) (cs ++ [c]) := by
      intro u hu
      obtain ⟨j, hj, e⟩ := mem_askedBy hu
      refine List.mem_map.mpr ⟨j, List.mem_range.mpr (by simp; omega), ?_⟩
      rw [List.take_append_of_le_length hj.le]
      exact e
    rcases key with h1 | h1
    · exact (ih h1).imp id (up t)
    · refine .inr (List.mem_map.mpr ⟨cs.length, List.mem_range.mpr (by simp), ?_⟩)
      rw [List.take_left']
      · exact h1.symm
      · rfl

/-- Who asks at most `Q` questions has ended after `Q` answers. -/
theorem walk_done (A : Asker F M α) : ∀ (Q : ℕ) (K : Answered F G) (cs : List F), A.Within Q → Q ≤ cs.length → ∃ a, (A.walk f K cs).1 = done a := by
  induction A with
  | done a => intro Q K cs _ _; exact ⟨a, rfl⟩
  | ask q next ih =>
    rintro _ K cs ⟨Q, rfl, hw⟩ hl
    cases hK : K (q.mapG f) with
    | some a => rw [walk_some hK]; exact ih a Q K cs (hw a) (by omega)
    | none =>
      cases cs with
      | nil => simp at hl
      | cons a cs => simp only [walk, hK]; exact ih a Q _ cs (hw a) (by simpa using hl)

/-- Drawing the answers beforehand makes no difference. -/
theorem chance_eq [Finite F] (f : M → G) (verdict : Answered F G → α → ℚ) (dflt : α) (A : Asker F M α) : ∀ (Q : ℕ) (K : Answered F G), A.Within Q →
    A.chance f verdict K = avg fun x : Fin Q → F => verdict (A.walk f K (List.ofFn x)).2 ((A.walk f K (List.ofFn x)).1.result dflt) := by
  induction A with
  | done a => intro Q K _; exact (avg_const _).symm
  | ask q next ih =>
    rintro _ K ⟨Q, rfl, hw⟩
    cases hK : K (q.mapG f) with
    | some a =>
      simp only [chance, hK, walk_some hK]
      exact ih a (Q + 1) K ((hw a).mono (by omega))
    | none =>
      simp only [chance, hK]
      rw [avg_succ]
      congr 1
      funext a
      rw [ih a Q _ (hw a)]
      congr 1
      funext x
      rw [List.ofFn_succ]
      simp only [walk, hK, Fin.cons_zero, Fin.cons_succ]

end Asker
end Bp
