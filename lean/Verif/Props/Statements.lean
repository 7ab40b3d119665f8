import Verif.Lemmas.Statements
import Verif.Props.AlgebraicExample

/-! # C61: an accepted proof of several statements of the crate -/

namespace Bp
variable {F G : Type} [Field F] [AddCommGroup G] [Module F G] [DecidableEq G] [ByteRep F]

/-- **C61**: any list of the crate's statements, verified in one proof.  A prover that convinces the verifier (when rewound) can open every commitment of every statement, to values of which the claim of that statement is true. -/
theorem c61_knowledge (env : Env F G) {label : String} {stmts : List (Stmt F)} (hok : ∀ st ∈ stmts, st.Ok) {coms : List G} (hl : totalSize stmts ≤ coms.length) {g h : G} {Gs Hs : List G}
    (hc : Convinced label (verifyStmts env g h stmts coms) g h Gs Hs) : AllHold g h stmts coms := Convinced.allHold hok hl hc

/-- **C61**, the values are determined: unless `g` and `h` are related, there is only one way to open a commitment. -/
theorem c61_unique {g h : G} (hi : ∀ α β : F, α • g + β • h = 0 → α = 0 ∧ β = 0) {P : G} {x y : F} (hx : CommitsTo g h P x) (hy : CommitsTo g h P y) : x = y := by
  obtain ⟨r, rfl⟩ := hx
  obtain ⟨r', e⟩ := hy
  have := (hi (x - y) (r - r') (by
    have : x • g + r • h - (y • g + r' • h) = 0 := by rw [e, sub_self]
    rw [← this]
    module)).1
  exact sub_eq_zero.mp this

/-- **C61**, without interaction, for generators without a relation: a prover asks the oracle `Q` questions and then chooses the commitments and the proof.  With all but `(Q + D) B + 1` in `|F|` of the answers, the verifier rejects or all
statements hold. -/
theorem c61_game [Fintype F] (env : Env F G) (hb : env.batchInvert [] = .ok ([], 1)) (label : String) {stmts : List (Stmt F)} (hok : ∀ st ∈ stmts, st.Ok) (g h : G) (Gs Hs : List G)
    (hind : Independent F (Gs ++ Hs ++ [g, h])) (coms0 : List G) (hl : totalSize stmts ≤ coms0.length) (s0 : Verifier F G) (hs0 : verifyStmts env g h stmts coms0 (Verifier.new [.init label]) = (.ok (), s0))
    (A : Forger F G) (Q : ℕ) :
    A.forging env label (verifyStmts env g h stmts) coms0.length (AllHold g h stmts) g h Gs Hs Q s0.numDraws ≤ ((Q + s0.numDraws) * s0.badBound + 1) * Fintype.card F ^ (Q + s0.numDraws) :=
  c58_game env hb label _ _ (Uniform.stmts env g h stmts) coms0 rfl s0 hs0 g h Gs Hs hind _ (fun _ he hc => Convinced.allHold hok (he ▸ hl) hc) A Q

/-- **C61**, with the generators of the code (whatever these are): a prover asks the oracle `Q` questions and then chooses the commitments and the proof; it makes all its points as combinations of the generators.  With all but
`(Q + D) B + 1` in `|F|` of the answers, the verifier rejects, or the combinations for the commitments are openings (`x g + r h`) for which all statements hold, or a non-trivial relation between the generators is found. -/
theorem c61_algebraic [Fintype F] [DecidableEq F] (env : Env F G) (hb : env.batchInvert [] = .ok ([], 1)) (label : String) {stmts : List (Stmt F)} (hok : ∀ st ∈ stmts, st.Ok) (g h : G) (Gs Hs : List G)
    (coms0 : List (Rep F (Gs ++ Hs ++ [g, h]))) (hl : totalSize stmts ≤ coms0.length) (s0 : Verifier F (Rep F (Gs ++ Hs ++ [g, h])))
    (hs0 : verifyStmts (env.pull (Rep.point F _)) (Rep.g F g h Gs Hs) (Rep.h F g h Gs Hs) stmts coms0 (Verifier.new [.init label]) = (.ok (), s0)) (A : Forger F (Rep F (Gs ++ Hs ++ [g, h]))) (Q : ℕ) :
    A.fooling env label (verifyStmts env g h stmts) g h Gs Hs (verifyStmts (env.pull (Rep.point F _)) (Rep.g F g h Gs Hs) (Rep.h F g h Gs Hs) stmts) coms0.length
      (AllHold (Rep.g F g h Gs Hs) (Rep.h F g h Gs Hs) stmts) Q s0.numDraws ≤ ((Q + s0.numDraws) * s0.badBound + 1) * Fintype.card F ^ (Q + s0.numDraws) :=
  c59_statement env hb label _ _ (fun a => by
    have := DrvNat.stmts (Rep.point F (Gs ++ Hs ++ [g, h])) env (Rep.g F g h Gs Hs) (Rep.h F g h Gs Hs) stmts a
    rwa [Rep.point_g, Rep.point_h] at this) coms0 (Uniform.stmts _ _ _ _) s0 hs0 _ (fun _ he hc => Convinced.allHold hok (he ▸ hl) hc) A Q

/-! ## The hypotheses are met -/

/-- Numbers below 101 as bytes. -/
instance z101Bytes : ByteRep Z101 where
  order := 101
  rep := ZMod.val
  rep_lt := fun x => ZMod.val_lt x
  cast_rep := fun x => ZMod.natCast_zmod_val x
  rep_cast := fun n hn => ZMod.val_cast_of_lt hn
  modBytes := 1
  order_le := by decide

/-- A convincing prover (the tree of `set_convinced`). -/
theorem set_stmts_convinced : Convinced (F := Z101) "set" (verifyStmts (Env.std fun _ => 2) (unit4 0) (unit4 1) [.setMembership [(9 : Z101)]] setComs) (unit4 0) (unit4 1) [unit4 2] [unit4 3] :=
  ⟨0, 4, setTree, setV, setV2, ⟨rfl, by decide +kernel, rfl, setTree_full, setTree_accepted⟩, unit4_independent⟩

example : AllHold (unit4 0) (unit4 1) [.setMembership [(9 : Z101)]] setComs := c61_knowledge _ (by simp [Stmt.Ok]) (by decide) set_stmts_convinced

example : ∃ v : ℕ → Z101, (∀ (i : ℕ) P, setComs[i]? = some P → CommitsTo (unit4 0) (unit4 1) P (v i)) ∧ v 0 = 9 := by
  obtain ⟨v, h1, h2⟩ := (c61_knowledge (Env.std fun _ => 2) (by simp [Stmt.Ok]) (by decide) set_stmts_convinced).1.1 trivial
  exact ⟨v, h1, by simpa [Stmt.Claim] using h2⟩

/-- Three bound checks in one proof (tests/multiple_constraint_systems.rs:13-97). -/
def threeBounds : List (Stmt Fr) := [.boundedNum false 1 3 2, .boundedNum false 0 2 2, .boundedNum false 5 8 3]

/-- A bound check, a set membership and a non-membership in one proof (tests/multiple_constraint_systems.rs:99-173). -/
def boundAndSets : List (Stmt Fr) := [.boundedNum false 1 3 2, .setMembership [2, 5], .setNonMembership [2, 5]]

/-- One statement of each kind. -/
def allKinds : List (Stmt Fr) := [.boundedNum true 1 3 2, .nonZero, .setMembership [2, 5], .setMembershipAlt [2, 5], .setNonMembership [2, 5], .hamming [1, 2] 1, .mimc 7 [3, 4] 2, .poseidon2 11 demoParams .quint,
  .poseidon4 11 demoParams5 .cube, .poseidon8 11 demoParams9 .quint, .inclusion4 11 1 demoParams5 .quint, .inclusion8 11 1 demoParams9 .quint, .randomizer rndTree.1 rndTree.2 [14, 1] 2 demoParams5, .factors 1 48]

theorem allKinds_ok : ∀ st ∈ allKinds, st.Ok := by
  intro st hst
  simp only [allKinds, List.mem_cons, List.not_mem_nil, or_false] at hst
  rcases hst with rfl | rfl | rfl | rfl | rfl | rfl | rfl | rfl | rfl | rfl | rfl | rfl | rfl | rfl
  · exact ⟨by decide, by decide, by decide +kernel, by decide +kernel⟩
  · trivial
  · trivial
  · trivial
  · simp [Stmt.Ok]
  · trivial
  · exact ⟨rfl, by decide⟩
  · exact ⟨by decide, by decide⟩
  · exact ⟨by decide, by decide⟩
  · exact ⟨by decide, by decide⟩
  · exact fun h => by cases h
  · exact fun h => by cases h
  · exact ⟨demoParams5_valid, rfl, by decide, by decide, by decide⟩
  · trivial

def stmtsV (label : String) (l : List (Stmt Fr)) : Verifier Fr RepB := (verifyStmts (Env.std fun _ => 2) repG repH l ((List.range (totalSize l)).map fun i : ℕ => repB (i : Fr) 1) (Verifier.new [.init label])).2

example (A : Forger Fr RepB) (Q : ℕ) : A.fooling (Env.std fun _ => 2) "three" (verifyStmts (Env.std fun _ => 2) 23 29 threeBounds) (23 : Fr) 29 [2, 3, 5, 7] [11, 13, 17, 19]
      (verifyStmts (Env.std fun _ => 2) repG repH threeBounds) 9 (AllHold repG repH threeBounds) Q (stmtsV "three" threeBounds).numDraws ≤
      ((Q + (stmtsV "three" threeBounds).numDraws) * (stmtsV "three" threeBounds).badBound + 1) * Fintype.card Fr ^ (Q + (stmtsV "three" threeBounds).numDraws) :=
  c61_algebraic (Env.std fun _ => (2 : Fr)) (by simp [Env.std]) "three" (by
    intro st hst
    simp only [threeBounds, List.mem_cons, List.not_mem_nil, or_false] at hst
    rcases hst with rfl | rfl | rfl <;> exact ⟨by decide, by decide, by decide +kernel, by decide +kernel⟩) 23 29 [2, 3, 5, 7] [11, 13, 17, 19] ((List.range 9).map fun i : ℕ => repB (i : Fr) 1) (by decide) _
    (by unfold stmtsV; exact built_of_ok _ (by decide +kernel)) A Q

example (A : Forger Fr RepB) (Q : ℕ) : A.fooling (Env.std fun _ => 2) "all" (verifyStmts (Env.std fun _ => 2) 23 29 allKinds) (23 : Fr) 29 [2, 3, 5, 7] [11, 13, 17, 19]
      (verifyStmts (Env.std fun _ => 2) repG repH allKinds) (totalSize allKinds) (AllHold repG repH allKinds) Q (stmtsV "all" allKinds).numDraws ≤
      ((Q + (stmtsV "all" allKinds).numDraws) * (stmtsV "all" allKinds).badBound + 1) * Fintype.card Fr ^ (Q + (stmtsV "all" allKinds).numDraws) := by
  have := c61_algebraic (Env.std fun _ => (2 : Fr)) (by simp [Env.std]) "all" allKinds_ok 23 29 [2, 3, 5, 7] [11, 13, 17, 19] ((List.range (totalSize allKinds)).map fun i : ℕ => repB (i : Fr) 1) (by simp) (stmtsV "all" allKinds)
    (by unfold stmtsV; exact built_of_ok _ (by decide +kernel)) A Q
  rw [List.length_map, List.length_range] at this
  exact this

example (A : Forger Fr RepB) (Q : ℕ) : A.fooling (Env.std fun _ => 2) "sets" (verifyStmts (Env.std fun _ => 2) 23 29 boundAndSets) (23 : Fr) 29 [2, 3, 5, 7] [11, 13, 17, 19]
      (verifyStmts (Env.std fun _ => 2) repG repH boundAndSets) (totalSize boundAndSets) (AllHold repG repH boundAndSets) Q (stmtsV "sets" boundAndSets).numDraws ≤
      ((Q + (stmtsV "sets" boundAndSets).numDraws) * (stmtsV "sets" boundAndSets).badBound + 1) * Fintype.card Fr ^ (Q + (stmtsV "sets" boundAndSets).numDraws) := by
  have := c61_algebraic (Env.std fun _ => (2 : Fr)) (by simp [Env.std]) "sets" (stmts := boundAndSets) (by
    intro st hst
    simp only [boundAndSets, List.mem_cons, List.not_mem_nil, or_false] at hst
    rcases hst with rfl | rfl | rfl
    · exact ⟨by decide, by decide, by decide +kernel, by decide +kernel⟩
    · trivial
    · simp [Stmt.Ok]) 23 29 [2, 3, 5, 7] [11, 13, 17, 19] ((List.range (totalSize boundAndSets)).map fun i : ℕ => repB (i : Fr) 1) (by simp) (stmtsV "sets" boundAndSets)
    (by unfold stmtsV; exact built_of_ok _ (by decide +kernel)) A Q
  rw [List.length_map, List.length_range] at this
  exact this

/-- A statement list for the generators `unit4`. -/
def smallStmts : List (Stmt Z101) := [.setMembership [9, 4], .nonZero, .factors 1 48]

def smallComs : List (Fin 4 → Z101) := (List.range (totalSize smallStmts)).map fun i : ℕ => (i : Z101) • unit4 0 + (2 : Z101) • unit4 1

def smallV : Verifier Z101 (Fin 4 → Z101) := (verifyStmts (Env.std fun _ => 2) (unit4 0) (unit4 1) smallStmts smallComs (Verifier.new [.init "small"])).2

example (A : Forger Z101 (Fin 4 → Z101)) (Q : ℕ) : A.forging (Env.std fun _ => 2) "small" (verifyStmts (Env.std fun _ => 2) (unit4 0) (unit4 1) smallStmts) smallComs.length (AllHold (unit4 0) (unit4 1) smallStmts)
      (unit4 0) (unit4 1) [unit4 2] [unit4 3] Q smallV.numDraws ≤ ((Q + smallV.numDraws) * smallV.badBound + 1) * Fintype.card Z101 ^ (Q + smallV.numDraws) :=
  c61_game (Env.std fun _ => 2) (by simp [Env.std]) "small" (by simp [smallStmts, Stmt.Ok]) _ _ _ _ unit4_independent smallComs (by simp [smallComs]) smallV (by unfold smallV; exact built_of_ok _ (by decide +kernel)) A Q

example : ∀ α β : Z101, α • unit4 0 + β • unit4 1 = 0 → α = 0 ∧ β = 0 := by
  intro α β h
  have h0 := congrFun h 0
  have h1 := congrFun h 1
  simp [unit4] at h0 h1
  exact ⟨h0, h1⟩

end Bp
