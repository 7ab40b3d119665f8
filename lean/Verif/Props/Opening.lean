import Verif.Lemmas.Opening
import Verif.Props.Interactive

/-! # C63: openings of the commitments are computed from a prover's answers -/

namespace Bp
variable {F G : Type} [Field F] [AddCommGroup G] [Module F G] [DecidableEq G]

/-- **C63**: there is a solver for every list of constraints (and every set of commitments known to be zero). -/
theorem c63_solver (cs : List (LC F)) (Z : ℕ → Prop) : ∃ sol : Solver F, sol.Solves cs Z := Solver.exists cs Z

/-- **C63**, for any circuit (also with randomized constraints), without any assumption about the generators.  Let `t` be the answers of a prover that was rewound and always accepted, and `sol` a solver for the verifier's constraints.  Then a
non-trivial relation between the generators is computed from the answers, or the gates extracted from the answers and some values `x` satisfy all gates and constraints; and each commitment that the constraints determine at all is opened
by the computed value, which is `x i`, and the computed blinding. -/
theorem c63_circuit {k q : ℕ} (t : R1CSTree F G k q) (s s2 : Verifier F G) (g h : G) (Gs Hs : List G) (hN : nextPowerOfTwo s2.numVars = 2 ^ k) (hq : s2.constraints.length = q) (hfull : t.Full)
    (hacc : t.Accepted s s2 g h Gs Hs) (sol : Solver F) (hsol : sol.Solves s2.constraints fun j => s2.V.getD j 0 = 0) :
    t.Breaks s s2 sol g h Gs Hs ∨
    ∃ x : ℕ → F, (t.assignment s.numVars s2.weights s2.numVars x).Gates ∧ (t.assignment s.numVars s2.weights s2.numVars x).Sat s2.constraints ∧ (∀ j, s2.V.getD j 0 = 0 → x j = 0) ∧
      ∀ i, Determined s2.constraints (fun j => s2.V.getD j 0 = 0) i → x i = t.openedValue s s2 sol i ∧
        (i < s2.V.length → s2.V.getD i 0 = t.openedValue s s2 sol i • g + t.openedBlinding s2 sol i • h) :=
  extract_openings t s s2 g h Gs Hs hN hq hfull hacc sol hsol

/-- **C63**, for any list of the crate's statements: from the answers of a prover that convinces the verifier one computes a non-trivial relation between the generators, or openings of all commitments (but those of the Hamming distance)
of whose values the statements are true. -/
theorem c63_statements [ByteRep F] (env : Env F G) {label : String} {stmts : List (Stmt F)} (hok : ∀ st ∈ stmts, st.Ok) {coms : List G} (hl : totalSize stmts ≤ coms.length) {g h : G} {Gs Hs : List G}
    {k q : ℕ} {t : R1CSTree F G k q} {s s2 : Verifier F G} (hc : Convincing t label (verifyStmts env g h stmts coms) g h Gs Hs s s2) (sol : Solver F)
    (hsol : sol.Solves s2.constraints fun j => s2.V.getD j 0 = 0) :
    t.Breaks s s2 sol g h Gs Hs ∨ AllOpened g h (t.openedValue s s2 sol) (t.openedBlinding s2 sol) s2.V stmts coms := by
  refine (extract_openings t s s2 g h Gs Hs hc.size hc.rows hc.full hc.accepted sol hsol).imp id ?_
  rintro ⟨x, h1, h2, h3, h4⟩
  obtain ⟨e1, e2⟩ := hc.ext
  exact allOpened_of h1 h2 h3 h4 hok hl hc.built e1 e2

/-- **C63**, for an interactive prover: if it is accepted with more than the knowledge error, its own answers give the openings, or a relation. -/
theorem c63_interactive [ByteRep F] [Fintype F] (env : Env F G) (hb : env.batchInvert [] = .ok ([], 1)) (P : Interactive F G) {label : String} {stmts : List (Stmt F)} (hok : ∀ st ∈ stmts, st.Ok) {coms : List G}
    (hl : totalSize stmts ≤ coms.length) {g h : G} {Gs Hs : List G} {s : Verifier F G} (hs : verifyStmts env g h stmts coms (Verifier.new [.init label]) = (.ok (), s))
    (hc : knowledgeError (Nat.clog 2 s.numVars) s.constraints.length * Fintype.card F ^ (5 + Nat.clog 2 s.numVars) <
      Nat.card {p : (Fin (5 + Nat.clog 2 s.numVars) → F) × F // P.Convinces env s g h Gs Hs 0 (Nat.clog 2 s.numVars) (List.ofFn p.1) p.2}) :
    ∃ (t : R1CSTree F G (Nat.clog 2 s.numVars) s.constraints.length) (s2 : Verifier F G), t.AnswersOf P [] ∧ Convincing t label (verifyStmts env g h stmts coms) g h Gs Hs s s2 ∧
      ∀ sol : Solver F, sol.Solves s2.constraints (fun j => s2.V.getD j 0 = 0) →
        t.Breaks s s2 sol g h Gs Hs ∨ AllOpened g h (t.openedValue s s2 sol) (t.openedBlinding s2 sol) s2.V stmts coms := by
  obtain ⟨t, s2, h1, h2⟩ := c62_statement hb P (OnePhase.stmts env g h stmts coms) hs hc
  exact ⟨t, s2, h2, h1, c63_statements env hok hl h1⟩

/-- **C63**, for generators without a relation: the computed openings are right. -/
theorem c63_independent [ByteRep F] (env : Env F G) {label : String} {stmts : List (Stmt F)} (hok : ∀ st ∈ stmts, st.Ok) {coms : List G} (hl : totalSize stmts ≤ coms.length) {g h : G} {Gs Hs : List G}
    {k q : ℕ} {t : R1CSTree F G k q} {s s2 : Verifier F G} (hc : Convincing t label (verifyStmts env g h stmts coms) g h Gs Hs s s2) (hG : 2 ^ k ≤ Gs.length) (hH : 2 ^ k ≤ Hs.length)
    (hi : Independent F (Gs.take (2 ^ k) ++ Hs.take (2 ^ k) ++ [g, h])) (sol : Solver F) (hsol : sol.Solves s2.constraints fun j => s2.V.getD j 0 = 0) :
    AllOpened g h (t.openedValue s s2 sol) (t.openedBlinding s2 sol) s2.V stmts coms :=
  (c63_statements env hok hl hc sol hsol).resolve_left fun ⟨ρ, _, h1, h2⟩ =>
    h1 (hi.no_gen_relation (by rw [List.length_take]; omega) (by rw [List.length_take]; omega) ρ h2)

/-! ## The hypotheses are met

The code's prover for `3 * 16 = 48`, in a group in which the generators are related (as they are in every group of prime order). -/

theorem demoFactors_convincing (c : Coins Z101) : ∃ (P : Interactive Z101 Z101) (t : R1CSTree Z101 Z101 0 3) (s2 : Verifier Z101 Z101),
    Convincing t "f" (verifyStmts (Env.std fun _ => 2) 1 5 [.factors 0 (48 : Z101)] [3 • 1 + 7 • 5, 16 • 1 + 8 • 5]) 1 5 [2] [3] demoFactorsV s2 ∧ t.AnswersOf P [] := by
  obtain ⟨coms, p, s, -, e2, e3, e4, e5⟩ := c62_gadget (c60_complete (Env.std fun _ => (2 : Z101)) (Env.std fun _ => 2) rfl (3, 7) (16, 8) [] 48 (by decide) none) rfl (OnePhase.factors _ 0 48) (by decide +kernel)
    (.inr (by simp [Env.std])) "f" (1 : Z101) 5 c [2] [3] (by decide +kernel) (by decide +kernel)
  have e4 : coms = [(3 : Z101) • 1 + (7 : Z101) • 5, (16 : Z101) • 1 + (8 : Z101) • 5] := e4
  have es : s = demoFactorsV := by
    rw [e4] at e2
    exact (congrArg Prod.snd e2).symm
  subst es
  subst e4
  obtain ⟨t, s2, h1, h2⟩ := c62_statement (by simp [Env.std]) (p.interactive (Env.std fun _ => 2) c [2] [3] 0) (OnePhase.stmts (Env.std fun _ => 2) 1 5 [.factors 0 (48 : Z101)] [3 • 1 + 7 • 5, 16 • 1 + 8 • 5])
    (label := "f") (s := demoFactorsV) rfl (lt_of_lt_of_le (b := (Fintype.card Z101 - 1) ^ (1 + 0) * Fintype.card Z101 ^ 5) (by
    show knowledgeError 0 3 * Fintype.card Z101 ^ (5 + 0) < _
    rw [ZMod.card]
    norm_num [knowledgeError]) e5)
  exact ⟨_, t, s2, h1, h2⟩

example (c : Coins Z101) : ∃ (t : R1CSTree Z101 Z101 0 3) (s2 : Verifier Z101 Z101) (sol : Solver Z101), t.Breaks demoFactorsV s2 sol 1 5 [2] [3] ∨
    AllOpened 1 5 (t.openedValue demoFactorsV s2 sol) (t.openedBlinding s2 sol) s2.V [.factors 0 (48 : Z101)] [3 • 1 + 7 • 5, 16 • 1 + 8 • 5] := by
  obtain ⟨P, t, s2, h1, -⟩ := demoFactors_convincing c
  obtain ⟨sol, hs⟩ := c63_solver s2.constraints fun j => s2.V.getD j 0 = 0
  exact ⟨t, s2, sol, c63_statements _ (by simp [Stmt.Ok]) (by decide) h1 sol hs⟩

/-- With the tree of C61, over independent generators: the computed openings are those of 9 in the set `{9}`. -/
example (sol : Solver Z101) (hs : sol.Solves setV2.constraints fun j => setV2.V.getD j 0 = 0) :
    AllOpened (unit4 0) (unit4 1) (setTree.openedValue setV setV2 sol) (setTree.openedBlinding setV2 sol) setV2.V [.setMembership [(9 : Z101)]] setComs :=
  c63_independent (Env.std fun _ => 2) (label := "set") (by simp [Stmt.Ok]) (by decide) ⟨rfl, by decide +kernel, rfl, setTree_full, setTree_accepted⟩ (by decide) (by decide) unit4_independent sol hs

end Bp
