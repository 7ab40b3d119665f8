import Verif.Model.Unwrap
import Verif.Props.Gadgets.Sets
import Verif.Props.Gadgets.Hamming
import Verif.Props.Gadgets.Randomizer

/-! # C78: what the proof generating functions do with too few generators -/

namespace Bp
variable {F G : Type} [Field F] [AddCommGroup G] [Module F G]

/-- **C78**: the functions that `unwrap` return a proof in exactly the same cases, and the same proof, as those that do not: all end-to-end theorems are about them as well. -/
theorem c78_same_proofs (env : Env F G) (label : String) (g h : G) (c : Coins F) (Gs Hs : List G) {α : Type} (d : Drv (Prover F G) α) (x : R1CSProof F G × α) :
    genProofUnwrap env label g h c Gs Hs d = .ok x ↔ genProof env label g h c Gs Hs d = .ok x := by
  unfold genProofUnwrap genProof
  rcases d (Prover.new g h [.init label]) with ⟨e | a, p⟩
  · exact Iff.rfl
  · simp only
    rcases p.prove env c Gs Hs with (e | w) | ⟨pr, t⟩ <;> simp [Res.panic]

/-- The proof of an honest prover with too few generators is refused by `prove`. -/
theorem honest_short {env env' : Env F G} {m : ℕ} {dp : Drv (Prover F G) (List G)} {dv : List G → Drv (Verifier F G) Unit} {os ss : List (F × F)} (hp : HonestPair env env' none m os dp dv ss)
    (hO : env.oracle = env'.oracle) (label : String) (g h : G) (c : Coins F) (Gs Hs : List G) (hs : Gs.length < nextPowerOfTwo m) (hH : Gs.length ≤ Hs.length) :
    ∃ coms p, dp (Prover.new g h [.init label]) = (.ok coms, p) ∧ p.prove env c Gs Hs = Res.err .invalidGeneratorsLength := by
  obtain ⟨coms, p, s, h1, -, J, -, hl, -⟩ := hp _ _ (Joint.new env env' g h [.init label] 0 0) rfl
  have hl' : p.aL.length = m := by rw [hl]; simp [Prover.new]
  obtain ⟨hw, -⟩ := J.session.inStep hO
  refine ⟨coms, p, h1, ?_⟩
  have hm : p.numMultipliers = m := hw.lenO.trans hl'
  by_cases hG : Gs.length < p.numMultipliers
  · exact c19_prove_short_first_phase env p c Gs Hs hG hw
  · have hd : (p.start c Gs Hs).deferred = [] := J.deferred
    have hcrc : (p.start c Gs Hs).createRandomizedConstraints env = .ok { p.start c Gs Hs with pending := none, transcript := (p.start c Gs Hs).transcript.r1cs1PhaseDomainSep } := by
      unfold Prover.createRandomizedConstraints
      simp only [hd, List.length_nil, if_true]
    refine c19_prove_short_total env p _ c Gs Hs hw (by omega) (by omega) hcrc ?_
    show _ < nextPowerOfTwo p.aL.length
    rw [hl']; exact hs

/-- **C78**, the ten functions that pass on the result of `prove`: an honest prover with fewer generators than the number of gates, rounded up to a power of two, gets the error
`InvalidGeneratorsLength`. -/
theorem c78_reported {env env' : Env F G} {m : ℕ} {dp : Drv (Prover F G) (List G)} {dv : List G → Drv (Verifier F G) Unit} {os ss : List (F × F)} (hp : HonestPair env env' none m os dp dv ss)
    (hO : env.oracle = env'.oracle) (label : String) (g h : G) (c : Coins F) (Gs Hs : List G) (hs : Gs.length < nextPowerOfTwo m) (hH : Gs.length ≤ Hs.length) :
    genProof env label g h c Gs Hs dp = Res.err .invalidGeneratorsLength := by
  obtain ⟨coms, p, h1, h2⟩ := honest_short hp hO label g h c Gs Hs hs hH
  simp only [genProof, h1, h2, Res.err]

/-- **C78**: with enough generators the honest prover gets a proof, from both kinds of functions: the bound is exact. -/
theorem c78_enough [DecidableEq G] {env env' : Env F G} {m : ℕ} {dp : Drv (Prover F G) (List G)} {dv : List G → Drv (Verifier F G) Unit} {os ss : List (F × F)} (hp : HonestPair env env' none m os dp dv ss)
    (hO : env.oracle = env'.oracle) (label : String) (g h : G) (c : Coins F) (Gs Hs : List G) (hG : nextPowerOfTwo m ≤ Gs.length) (hH : nextPowerOfTwo m ≤ Hs.length) :
    ∃ x, genProof env label g h c Gs Hs dp = .ok x ∧ genProofUnwrap env label g h c Gs Hs dp = .ok x := by
  obtain ⟨coms, p, s, h1, -, J, -, hl, -⟩ := hp _ _ (Joint.new env env' g h [.init label] 0 0) rfl
  have hl' : p.aL.length = m := by rw [hl]; simp [Prover.new]
  obtain ⟨hw, -⟩ := J.session.inStep hO
  have hd : (p.start c Gs Hs).deferred = [] := J.deferred
  have hcrc : (p.start c Gs Hs).createRandomizedConstraints env = .ok { p.start c Gs Hs with pending := none, transcript := (p.start c Gs Hs).transcript.r1cs1PhaseDomainSep } := by
    unfold Prover.createRandomizedConstraints
    simp only [hd, List.length_nil, if_true]
  obtain ⟨pr, t, h3⟩ := (c19_prove_enough env p _ c Gs Hs hw hcrc (by show nextPowerOfTwo p.aL.length ≤ _; rwa [hl']) (by show nextPowerOfTwo p.aL.length ≤ _; rwa [hl'])).1.mpr
    (fun lc hlc t ht => ((J.good.sat lc hlc).1 t ht).inRange)
  have e : genProof env label g h c Gs Hs dp = .ok (pr, coms) := by simp only [genProof, h1, h3]
  exact ⟨_, e, (c78_same_proofs env label g h c Gs Hs dp _).mpr e⟩

/-- **C78** is false for the functions that `unwrap`: in the same situation they panic. -/
theorem c78_unwrap_panics {env env' : Env F G} {m : ℕ} {dp : Drv (Prover F G) (List G)} {dv : List G → Drv (Verifier F G) Unit} {os ss : List (F × F)} (hp : HonestPair env env' none m os dp dv ss)
    (hO : env.oracle = env'.oracle) (label : String) (g h : G) (c : Coins F) (Gs Hs : List G) (hs : Gs.length < nextPowerOfTwo m) (hH : Gs.length ≤ Hs.length) :
    Panics (genProofUnwrap env label g h c Gs Hs dp) := by
  obtain ⟨coms, p, h1, h2⟩ := honest_short hp hO label g h c Gs Hs hs hH
  exact ⟨"called `Result::unwrap()` on an `Err` value", by simp only [genProofUnwrap, h1, h2, Res.err]⟩

/-- **C78** is false for `gen_proof_for_hamming_distance`: for all vectors of equal length and their true distance, fewer than `2 n` generators (rounded up) make it panic. -/
theorem c78_hamming_panics [DecidableEq F] (env : Env F G) (original new : List F) (hlen : original.length = new.length) (sys : ℕ → F) (label : String) (g h : G) (c : Coins F) (Gs Hs : List G)
    (hs : Gs.length < nextPowerOfTwo (2 * new.length)) (hH : Gs.length ≤ Hs.length) :
    Panics (genProofUnwrap env label g h c Gs Hs (proveHammingDistance env original new (diffCount original new) sys)) :=
  c78_unwrap_panics (c31_complete env env rfl original new _ hlen rfl sys) rfl label g h c Gs Hs hs hH

/-- The demo vectors need 8 generators; with 7 the function panics. -/
example (c : Coins Fr) : Panics (genProofUnwrap demoEnv "hamming" 3 5 c (List.replicate 7 (1 : Fr)) (List.replicate 7 (2 : Fr)) (proveHammingDistance demoEnv [1, 2, 3] [1, 7, 8] 2 (fun i => (i : Fr)))) :=
  c78_hamming_panics demoEnv [1, 2, 3] [1, 7, 8] rfl _ "hamming" 3 5 c _ _ (by decide +kernel) (by simp)
example (c : Coins Fr) : ∃ x, genProofUnwrap demoEnv "hamming" 3 5 c (List.replicate 8 (1 : Fr)) (List.replicate 8 (2 : Fr)) (proveHammingDistance demoEnv [1, 2, 3] [1, 7, 8] 2 (fun i => (i : Fr))) = .ok x :=
  let ⟨x, _, h⟩ := c78_enough (c31_complete demoEnv demoEnv rfl [1, 2, 3] [1, 7, 8] 2 rfl (by decide +kernel) _) rfl "hamming" 3 5 c _ _ (by decide +kernel) (by decide +kernel)
  ⟨x, h⟩
/-- Set membership, one of the ten others, reports it: 2 gates for the set, so 1 generator is too few. -/
example (c : Coins Fr) : genProof demoEnv "set" 3 5 c [(1 : Fr)] [2] (proveSetMembership demoEnv 7 (some 4) [9, 7] none (fun i => (i : Fr))) = Res.err .invalidGeneratorsLength :=
  c78_reported (c28_complete demoEnv demoEnv rfl 7 [9, 7] (by simp) (some 4) none _ (by simp) none) rfl "set" 3 5 c _ _ (by decide +kernel) (by simp)

section trees
variable [ByteRep F]

/-- **C78** is false for `gen_proof_of_leaf_inclusion_4_ary_merkle_tree`: for every leaf with a correct Merkle proof it panics if there are too few generators. -/
theorem c78_inclusion4_panics (env : Env F G) (leaf leafIndex root : F) (merkleProof : List (List F)) (depth : ℕ) (hd : depth ≤ 4 * ByteRep.modBytes F)
    (hl : merkleProof.length = depth) (hn : ∀ s ∈ merkleProof, s.length = 3) (p : PoseidonParams F) (hp : p.Valid) (hw : p.width = 5) (sbox : SboxType) (hsb : sbox ≠ .inverse)
    (hi : IntRep.rep leafIndex < 4 ^ depth) (hr : merkleRoot (hasher4 p sbox).digest ((digitsOf 4 depth (IntRep.rep leafIndex)).zip merkleProof) leaf = root) (r0 r1 : F) (coins : ℕ → F)
    (label : String) (g h : G) (c : Coins F) (Gs Hs : List G) (hs : Gs.length < nextPowerOfTwo (depth * gates4 p sbox)) (hH : Gs.length ≤ Hs.length) :
    Panics (genProofUnwrap env label g h c Gs Hs (proveInclusion4 env leaf leafIndex (some [r0, r1]) merkleProof root depth p sbox none coins)) :=
  c78_unwrap_panics (c41_complete (env := env) (env' := env) rfl leaf leafIndex root merkleProof depth hd hl hn p hp hw sbox hsb hi hr g h r0 r1 coins (some [r0, r1]) none (.inl rfl) none)
    rfl label g h c Gs Hs hs hH

/-- **C78** is false for `gen_proof_for_randomizer`: for two trees of the crate whose contents agree outside the listed indices it panics if there are too few generators. -/
theorem c78_randomizer_panics [DecidableEq F] (env : Env F G) (p : PoseidonParams F) (hp : p.Valid) (hw : p.width = 5) (depth : ℕ) (h0 : depth ≠ 0) (hd : depth ≤ 4 * ByteRep.modBytes F)
    (db0 db0' : HashDb (List F)) (hist hist' : History F) (hc : (tree4 p).CollisionFree depth hist) (hc' : (tree4 p).CollisionFree depth hist') (t t' : SparseTree F) (db db' : HashDb (List F))
    (hrun : runHistory (tree4 p) depth db0 hist = .ok (t, db)) (hrun' : runHistory (tree4 p) depth db0' hist' = .ok (t', db')) (indices : List F)
    (hsame : ∀ i < 4 ^ depth, (∀ x ∈ indices, IntRep.rep x % 4 ^ depth ≠ i) → written (4 ^ depth) hist' i = written (4 ^ depth) hist i) (coins : ℕ → F) (label : String) (g h : G) (c : Coins F)
    (Gs Hs : List G) (hs : Gs.length < nextPowerOfTwo (2 * (indices.length * (depth * permGates SboxType.quint.gates p)))) (hH : Gs.length ≤ Hs.length) :
    Panics (genProofUnwrap env label g h c Gs Hs
      (proveRandomizer env t db t' db' indices (indices.map fun x => written (4 ^ depth) hist (IntRep.rep x % 4 ^ depth)) depth p .quint coins)) := by
  obtain ⟨data, -, h2, h3⟩ := c46_complete (env := env) (env' := env) rfl p hp hw depth h0 hd db0 db0' hist hist' hc hc' t t' db db' hrun hrun' indices hsame g h coins none
  rw [← h2]
  exact c78_unwrap_panics h3 rfl label g h c Gs Hs hs hH

end trees

/-- The two demo trees: one generator is too few. -/
example (c : Coins Fr) : ∃ t t' db db', runHistory (tree4 demoParams5) 2 HashDb.new demoHistory = .ok (t, db) ∧ runHistory (tree4 demoParams5) 2 HashDb.new demoHistory' = .ok (t', db') ∧
    Panics (genProofUnwrap demoEnv "randomizer" 5 6 c [(1 : Fr)] [2]
      (proveRandomizer demoEnv t db t' db' [14, 1] (([14, 1] : List Fr).map fun x => written (4 ^ 2) demoHistory (IntRep.rep x % 4 ^ 2)) 2 demoParams5 .quint fun j => (j : Fr))) := by
  have hT : (tree4 demoParams5).IsTree demoParams5 2 := .inl ⟨rfl, rfl, by decide⟩
  obtain ⟨db, e, -⟩ := run_ok demoParams5_valid hT HashDb.new demoHistory demo_collisionFree
  obtain ⟨db', e', -⟩ := run_ok demoParams5_valid hT HashDb.new demoHistory' demo_collisionFree'
  exact ⟨_, _, db, db', e, e', c78_randomizer_panics demoEnv demoParams5 demoParams5_valid rfl 2 (by decide) (by decide) HashDb.new HashDb.new demoHistory demoHistory' demo_collisionFree
    demo_collisionFree' _ _ db db' e e' [14, 1] demo_same _ "randomizer" 5 6 c _ _ (by decide +kernel) (by simp)⟩

/-- A tree of depth 0: the leaf is the root, no gates, but one generator is needed. -/
example (c : Coins Fr) : Panics (genProofUnwrap demoEnv "leaf" 5 6 c ([] : List Fr) [] (proveInclusion4 demoEnv 7 0 (some [1, 2]) [] 7 0 demoParams5 .quint none fun i => (i : Fr))) :=
  c78_inclusion4_panics demoEnv 7 0 7 [] 0 (by decide) rfl (by simp) demoParams5 demoParams5_valid rfl .quint (by simp) (by decide) rfl 1 2 _ "leaf" 5 6 c [] [] (by decide +kernel) (by simp)

end Bp
