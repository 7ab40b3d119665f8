import Verif.Spec.Prefix
import Verif.Props.Api
import Verif.Props.Utils
import Verif.Props.Sizes
import Verif.Props.Total

/-! # C98: only the first generators matter -/

namespace Bp
variable {F G : Type} [Field F] [AddCommGroup G] [SMul F G]

namespace Res.SameUnlessShort
variable {α β : Type}

theorem rfl {a : Res α} : Res.SameUnlessShort a a := .inl _root_.rfl

theorem bind {a b : Res α} {f k : α → Res β} (h1 : Res.SameUnlessShort a b) (h2 : ∀ x, Res.SameUnlessShort (f x) (k x)) : Res.SameUnlessShort (a >>= f) (b >>= k) := by
  rcases h1 with rfl | rfl | ⟨w, rfl⟩
  · cases a with
    | error e => exact .inl _root_.rfl
    | ok x => exact h2 x
  · exact .inr (.inl _root_.rfl)
  · exact .inr (.inr ⟨w, _root_.rfl⟩)

theorem ite {c c' : Prop} [Decidable c] [Decidable c'] {a b : Res α} (hc : c' → c) (hab : Res.SameUnlessShort a b) : Res.SameUnlessShort (if c then Res.err .invalidGeneratorsLength else a) (if c' then Res.err .invalidGeneratorsLength else b) := by
  by_cases h : c
  · rw [if_pos h]; exact .inr (.inl _root_.rfl)
  · rw [if_neg h, if_neg (fun h' => h (hc h'))]; exact hab

/-- A success is passed on. -/
theorem ok {a b : Res α} (hab : Res.SameUnlessShort a b) {x : α} (hx : a = .ok x) : b = .ok x := by
  rcases hab with rfl | h | ⟨w, h⟩
  · exact hx
  · rw [h] at hx; cases hx
  · rw [h] at hx; cases hx

end Res.SameUnlessShort

theorem slice_le {α : Type} {xs ys : List α} {a b : ℕ} (hp : xs <+: ys) : Res.SameUnlessShort (slice xs a b) (slice ys a b) := by
  obtain ⟨t, rfl⟩ := hp
  unfold slice
  by_cases h : a ≤ b ∧ b ≤ xs.length
  · rw [if_pos h, if_pos ⟨h.1, by rw [List.length_append]; omega⟩, List.drop_append_of_le_length (by omega), List.take_append_of_le_length (by rw [List.length_drop]; omega)]
    exact .rfl
  · rw [if_neg h]; exact .inr (.inr ⟨_, rfl⟩)

theorem prove_le {Gs Gs' Hs Hs' : List G} (hG : Gs <+: Gs') (hH : Hs <+: Hs') (env : Env F G) (p : Prover F G) (c : Coins F) : Res.SameUnlessShort (p.prove env c Gs Hs) (p.prove env c Gs' Hs') := by
  have hl := hG.length_le
  unfold Prover.prove
  refine Res.SameUnlessShort.ite (fun h => lt_of_le_of_lt hl h) ?_
  refine (slice_le hG).bind fun Gn1 => (slice_le hH).bind fun Hn1 => Res.SameUnlessShort.rfl.bind ?_
  rintro ⟨A_I1, A_O1, S1⟩
  refine Res.SameUnlessShort.rfl.bind fun p2 => Res.SameUnlessShort.ite (fun h => lt_of_le_of_lt hl h) ?_
  refine Res.SameUnlessShort.bind ?_ ?_
  · unfold Prover.commitPhase2
    dsimp only
    split_ifs
    · exact (slice_le hG).bind fun _ => (slice_le hH).bind fun _ => Res.SameUnlessShort.rfl
    · exact Res.SameUnlessShort.rfl
  rintro ⟨A_I2, A_O2, S2⟩
  refine Res.SameUnlessShort.rfl.bind fun w => Res.SameUnlessShort.rfl.bind ?_
  rintro ⟨lp, rp⟩
  refine Res.SameUnlessShort.rfl.bind fun tp => Res.SameUnlessShort.rfl.bind fun t2B => Res.SameUnlessShort.rfl.bind fun lv => Res.SameUnlessShort.rfl.bind fun rv => ?_
  exact (slice_le hG).bind fun _ => (slice_le hH).bind fun _ => Res.SameUnlessShort.rfl

theorem verify_le [DecidableEq G] {Gs Gs' Hs Hs' : List G} (hG : Gs <+: Gs') (hH : Hs <+: Hs') (env : Env F G) (s : Verifier F G) (pr : R1CSProof F G) (g h : G) (r : F) :
    Res.SameUnlessShort (s.verify env pr g h Gs Hs r) (s.verify env pr g h Gs' Hs' r) := by
  have hl := hG.length_le
  unfold Verifier.verify
  refine Res.SameUnlessShort.rfl.bind fun s2 => Res.SameUnlessShort.ite (fun h => lt_of_le_of_lt hl h) ?_
  refine Res.SameUnlessShort.rfl.bind fun wt => Res.SameUnlessShort.rfl.bind ?_
  rintro ⟨yInvs, yInvWR, delta⟩
  dsimp only
  split
  · refine Res.SameUnlessShort.rfl.bind ?_
    rintro ⟨⟨uSq, uInvSq, sv⟩, t⟩
    exact (slice_le hG).bind fun _ => (slice_le hH).bind fun _ => Res.SameUnlessShort.rfl
  · exact .rfl
  · exact .rfl

theorem genProof_le {Gs Gs' Hs Hs' : List G} (hG : Gs <+: Gs') (hH : Hs <+: Hs') (env : Env F G) (label : String) (g h : G) (c : Coins F) {α : Type} (d : Drv (Prover F G) α) :
    Res.SameUnlessShort (genProof env label g h c Gs Hs d) (genProof env label g h c Gs' Hs' d) := by
  unfold genProof
  split
  · exact .rfl
  · next a p _ =>
    rcases prove_le hG hH env p c with e | e | ⟨w, e⟩ <;> rw [e]
    · exact .rfl
    · exact .inr (.inl rfl)
    · exact .inr (.inr ⟨w, rfl⟩)

theorem genProofUnwrap_le {Gs Gs' Hs Hs' : List G} (hG : Gs <+: Gs') (hH : Hs <+: Hs') (env : Env F G) (label : String) (g h : G) (c : Coins F) {α : Type} (d : Drv (Prover F G) α) :
    Res.SameUnlessShort (genProofUnwrap env label g h c Gs Hs d) (genProofUnwrap env label g h c Gs' Hs' d) := by
  unfold genProofUnwrap
  split
  · exact .rfl
  · next a p _ =>
    rcases prove_le hG hH env p c with e | e | ⟨w, e⟩ <;> rw [e]
    · exact .rfl
    · exact .inr (.inr ⟨_, rfl⟩)
    · exact .inr (.inr ⟨w, rfl⟩)

theorem verifyProof_le [DecidableEq G] {Gs Gs' Hs Hs' : List G} (hG : Gs <+: Gs') (hH : Hs <+: Hs') (env : Env F G) (label : String) (d : Drv (Verifier F G) Unit) (pr : R1CSProof F G) (g h : G) (r : F) :
    Res.SameUnlessShort (verifyProof env label d pr g h Gs Hs r) (verifyProof env label d pr g h Gs' Hs' r) := by
  unfold verifyProof
  split
  · exact .rfl
  · next a s _ =>
    rcases verify_le hG hH env s pr g h r with e | e | ⟨w, e⟩ <;> rw [e]
    · exact .rfl
    · exact .inr (.inl rfl)
    · exact .inr (.inr ⟨w, rfl⟩)

/-! ## The property -/

/-- **C98**, proving: every circuit.  With longer vectors of generators, `prove` returns what it returns with the shorter ones, unless these were too short. -/
theorem c98_prove {Gs Gs' Hs Hs' : List G} (hG : Gs <+: Gs') (hH : Hs <+: Hs') (env : Env F G) (p : Prover F G) (c : Coins F) :
    Res.SameUnlessShort (p.prove env c Gs Hs) (p.prove env c Gs' Hs') := prove_le hG hH env p c

/-- **C98**, verifying: every circuit.  With longer vectors of generators, `verify` returns what it returns with the shorter ones, unless these were too short. -/
theorem c98_verify [DecidableEq G] {Gs Gs' Hs Hs' : List G} (hG : Gs <+: Gs') (hH : Hs <+: Hs') (env : Env F G) (s : Verifier F G) (pr : R1CSProof F G) (g h : G) (r : F) :
    Res.SameUnlessShort (s.verify env pr g h Gs Hs r) (s.verify env pr g h Gs' Hs' r) := verify_le hG hH env s pr g h r

/-- **C98**, what too short means: with at least as many generators of each kind as there are gates at the end, rounded up to a power of two, `verify` returns exactly what it returns with more of them, be it acceptance, rejection or a panic. -/
theorem c98_enough [DecidableEq G] {Gs Gs' Hs Hs' : List G} (hG : Gs <+: Gs') (hH : Hs <+: Hs') (env : Env F G) (s s2 : Verifier F G) (pr : R1CSProof F G) (g h : G) (r : F) (hcrc : (s.start pr).createRandomizedConstraints env = .ok s2)
    (h1 : nextPowerOfTwo s2.numVars ≤ Gs.length) (h2 : nextPowerOfTwo s2.numVars ≤ Hs.length) : s.verify env pr g h Gs Hs r = s.verify env pr g h Gs' Hs' r := by
  have hl := hG.length_le
  rw [verify_norm, verify_norm, hcrc]
  simp only
  rw [if_neg (by omega), if_neg (by omega)]
  have l2 : ¬ Hs'.length < nextPowerOfTwo s2.numVars := by have := hH.length_le; omega
  have e1 : Gs'.take (nextPowerOfTwo s2.numVars) = Gs.take (nextPowerOfTwo s2.numVars) := by obtain ⟨t, rfl⟩ := hG; exact List.take_append_of_le_length h1
  have e2 : Hs'.take (nextPowerOfTwo s2.numVars) = Hs.take (nextPowerOfTwo s2.numVars) := by obtain ⟨t, rfl⟩ := hH; exact List.take_append_of_le_length h2
  simp only [verifyTail, e1, e2, if_neg (not_lt.mpr h2), if_neg l2]

end Bp

namespace Bp
variable {F G : Type} [Field F] [AddCommGroup G] [Module F G] [ByteRep F]

/-- **C98**, the generating functions of the crate. -/
theorem c98_gen {st : Stmt F} {gen : Env F G → String → G → G → Coins F → List G → List G → Res (R1CSProof F G × List G)} {P : Prop} (hc : Called st gen P) (env : Env F G) : FirstMatter (gen env) := by
  intro label g h c Gs Gs' Hs Hs' hG hH
  cases hc <;> first | exact genProof_le hG hH .. | exact genProofUnwrap_le hG hH ..

/-- **C98**, the generating function for the Hamming distance. -/
theorem c98_hamming (env : Env F G) (original new : List F) (count : ℕ) (sys : ℕ → F) : FirstMatter (genProofHammingDistance env original new count sys) :=
  fun _ _ _ _ _ _ _ _ hG hH => genProofUnwrap_le hG hH ..

/-- **C98**, the generating function for the randomizer. -/
theorem c98_randomizer [DecidableEq F] (env : Env F G) (t : SparseTree F) (db : HashDb (List F)) (t' : SparseTree F) (db' : HashDb (List F)) (indices vals : List F) (depth : ℕ) (p : PoseidonParams F) (sbox : SboxType) (sys : ℕ → F) :
    FirstMatter (genProofRandomizer env t db t' db' indices vals depth p sbox sys) :=
  fun _ _ _ _ _ _ _ _ hG hH => genProofUnwrap_le hG hH ..

variable [DecidableEq G]

/-- **C98**, the verifying functions of the crate. -/
theorem c98_check (st : Stmt F) {Gs Gs' Hs Hs' : List G} (hG : Gs <+: Gs') (hH : Hs <+: Hs') (env : Env F G) (pr : R1CSProof F G) (coms : List G) (label : String) (g h : G) (r : F) :
    Res.SameUnlessShort (st.check env pr coms label g h Gs Hs r) (st.check env pr coms label g h Gs' Hs' r) := by
  rw [st.check_eq, st.check_eq]; exact verifyProof_le hG hH ..

/-- **C98**, what too short means for several statements in one proof. -/
theorem c98_enough_statements {Gs Gs' Hs Hs' : List G} (hG : Gs <+: Gs') (hH : Hs <+: Hs') (env : Env F G) (label : String) (stmts : List (Stmt F)) (coms : List G) (hl : totalSize stmts ≤ coms.length) (pr : R1CSProof F G) (g h : G) (r : F)
    (h1 : nextPowerOfTwo (totalGates stmts) ≤ Gs.length) (h2 : nextPowerOfTwo (totalGates stmts) ≤ Hs.length) :
    verifyProof env label (verifyStmts env g h stmts coms) pr g h Gs Hs r = verifyProof env label (verifyStmts env g h stmts coms) pr g h Gs' Hs' r := by
  unfold verifyProof
  split
  · rfl
  · next s hr =>
    have hn := (c65_list env g h label stmts coms hl hr).1
    have hdef : (s.start pr).deferred = [] := (OnePhase.stmts env g h stmts coms _ _ _ hr).1
    have hcrc : (s.start pr).createRandomizedConstraints env = .ok { s.start pr with pending := none, transcript := (s.start pr).transcript.r1cs1PhaseDomainSep } := by
      unfold Verifier.createRandomizedConstraints
      simp only [hdef, List.length_nil, if_true]
    rw [c98_enough hG hH env s _ pr g h r hcrc (by show nextPowerOfTwo s.numVars ≤ _; rw [hn]; exact h1) (by show nextPowerOfTwo s.numVars ≤ _; rw [hn]; exact h2)]

/-- **C98**, what too short means for the verifying functions. -/
theorem c98_enough_check (st : Stmt F) {Gs Gs' Hs Hs' : List G} (hG : Gs <+: Gs') (hH : Hs <+: Hs') (env : Env F G) (pr : R1CSProof F G) (coms : List G) (hl : coms.length = st.size) (label : String) (g h : G) (r : F)
    (h1 : nextPowerOfTwo st.gates ≤ Gs.length) (h2 : nextPowerOfTwo st.gates ≤ Hs.length) :
    st.check env pr coms label g h Gs Hs r = st.check env pr coms label g h Gs' Hs' r := by
  have e : totalGates [st] = st.gates := by simp [totalGates]
  rw [c89_check st env pr hl, c89_check st env pr hl]
  exact c98_enough_statements hG hH env label [st] coms (by simp [totalSize, hl]) pr g h r (by rw [e]; exact h1) (by rw [e]; exact h2)

omit [ByteRep F] [Module F G] [DecidableEq G] in
theorem take_prefix_of {α : Type} {xs ys : List α} {n : ℕ} (e : xs.take n = ys.take n) : xs.take n <+: ys := e ▸ List.take_prefix n ys

/-- **C98**, proofs travel: when a generating function and the verifying function fit together (C89), then so they do when the prover and the verifier hold different numbers of generators, as long as each has enough of them and the first
ones are the same.  The proof does not depend on the others: it is the one made with just the first ones. -/
theorem c98_travel {st : Stmt F} {env' : Env F G} {gates : ℕ} {openings : List (F × F)} {gen : String → G → G → Coins F → List G → List G → Res (R1CSProof F G × List G)} (hgen : FirstMatter gen) (hrt : RoundTrip gates openings gen (st.check env'))
    (label : String) (g h : G) (c : Coins F) {Gs Gs' Hs Hs' : List G} (r : F) (h1 : nextPowerOfTwo gates ≤ Gs.length) (h2 : nextPowerOfTwo gates ≤ Hs.length)
    (eG : Gs.take (nextPowerOfTwo gates) = Gs'.take (nextPowerOfTwo gates)) (eH : Hs.take (nextPowerOfTwo gates) = Hs'.take (nextPowerOfTwo gates)) :
    ∃ pr coms, gen label g h c (Gs.take (nextPowerOfTwo gates)) (Hs.take (nextPowerOfTwo gates)) = .ok (pr, coms) ∧ gen label g h c Gs Hs = .ok (pr, coms) ∧ st.check env' pr coms label g h Gs' Hs' r = .ok () := by
  obtain ⟨pr, coms, e, ok, -⟩ := hrt label g h c (Gs.take (nextPowerOfTwo gates)) (Hs.take (nextPowerOfTwo gates)) r (by rw [List.length_take]; omega) (by rw [List.length_take]; omega)
  exact ⟨pr, coms, e, (hgen label g h c _ _ _ _ (List.take_prefix _ _) (List.take_prefix _ _)).ok e, (c98_check st (take_prefix_of eG) (take_prefix_of eH) env' pr coms label g h r).ok ok⟩

/-- **C98**, the generators of the crate: the prover makes `n` of each kind with `get_generators`, the verifier `m`; both numbers are large enough. -/
theorem c98_get_generators {st : Stmt F} {env' : Env F G} {gates : ℕ} {openings : List (F × F)} {gen : String → G → G → Coins F → List G → List G → Res (R1CSProof F G × List G)} (hgen : FirstMatter gen) (hrt : RoundTrip gates openings gen (st.check env'))
    (label : String) (g h : G) (c : Coins F) (hash : String → G) (pG pH : String) {n m : ℕ} (hn : nextPowerOfTwo gates ≤ n) (hm : nextPowerOfTwo gates ≤ m) (r : F) :
    ∃ pr coms, gen label g h c (getGenerators hash pG n) (getGenerators hash pH n) = .ok (pr, coms) ∧ st.check env' pr coms label g h (getGenerators hash pG m) (getGenerators hash pH m) r = .ok () := by
  obtain ⟨pr, coms, -, e1, e2⟩ := c98_travel hgen hrt label g h c (Gs := getGenerators hash pG n) (Gs' := getGenerators hash pG m) (Hs := getGenerators hash pH n) (Hs' := getGenerators hash pH m) r
    (by rw [(c45_entries hash pG n).1]; exact hn) (by rw [(c45_entries hash pH n).1]; exact hn) (by rw [c45_prefix hash pG hn, c45_prefix hash pG hm]) (by rw [c45_prefix hash pH hn, c45_prefix hash pH hm])
  exact ⟨pr, coms, e1, e2⟩

/-! ## Cases -/

/-- The hypotheses of `c98_enough_check` are met. -/
example (env : Env Z101 Z101) (pr : R1CSProof Z101 Z101) (a b r : Z101) : (Stmt.setMembership ([2, 3, 5] : List Z101)).check env pr [a, b, a, b] "t" 1 3 [1, 2, 3, 4] [5, 6, 7, 8] r =
    (Stmt.setMembership ([2, 3, 5] : List Z101)).check env pr [a, b, a, b] "t" 1 3 [1, 2, 3, 4, 9, 10] [5, 6, 7, 8, 11] r :=
  c98_enough_check (.setMembership ([2, 3, 5] : List Z101)) ⟨[9, 10], rfl⟩ ⟨[11], rfl⟩ env pr _ rfl "t" 1 3 r (by decide) (by decide)

/-- With fewer the result is another one: here it is the error. -/
example (env : Env Z101 Z101) (pr : R1CSProof Z101 Z101) (a b : Z101) : (Stmt.setMembership ([2, 3, 5] : List Z101)).check env pr [a, b, a, b] "t" 1 3 [1, 2, 3] [5, 6, 7] 9 = Res.err .invalidGeneratorsLength := by
  rw [c89_check _ env pr rfl]
  unfold verifyProof
  obtain ⟨s, e, -⟩ := c81_statements env (1 : Z101) 3 [Stmt.setMembership ([2, 3, 5] : List Z101)] (by simp [Stmt.Runs]) [a, b, a, b] rfl (Verifier.new [.init "t"]) rfl
  rw [e]
  have hs : totalSize [Stmt.setMembership ([2, 3, 5] : List Z101)] ≤ [a, b, a, b].length := le_of_eq rfl
  have e' := (c65_generators env 1 3 "t" _ _ hs e pr 1 3 [1, 2, 3] [5, 6, 7] 9).mpr (by decide)
  simp only [e']
  rfl

/-- The hypotheses of `c98_get_generators` are met: the prover of `5 ≠ 0` makes 2 generators of each kind, the verifier 64. -/
example (hash : String → Fr) (c : Coins Fr) (r : Fr) : ∃ pr coms, genProofNonZeroVal demoEnv 5 none (some fun i => i) (fun i => (i : Fr)) "t" 1 3 c (getGenerators hash "G" 2) (getGenerators hash "H" 2) = .ok (pr, coms) ∧
    verifyProofNonZeroVal demoEnv pr coms "t" 1 3 (getGenerators hash "G" 64) (getGenerators hash "H" 64) r = .ok () :=
  c98_get_generators (st := .nonZero) (c98_gen (.nonZero (5 : Fr) none (some fun i => (i : Fr)) fun i => (i : Fr)) demoEnv) (c89_non_zero demo_peers (value := 5) (by decide +kernel) _ _ _ (.inr rfl)) "t" 1 3 c hash "G" "H" (by decide) (by decide) r

/-- Likewise for the Hamming distance: the prover 100, the verifier 8. -/
example (hash : String → Fr) (c : Coins Fr) (r : Fr) : ∃ pr coms, genProofHammingDistance demoEnv [1, 2, 3] [1, 7, 8] 2 (fun i => (i : Fr)) "t" 1 3 c (getGenerators hash "G" 100) (getGenerators hash "H" 100) = .ok (pr, coms) ∧
    verifyProofHammingDistance demoEnv [1, 7, 8] 2 pr coms "t" 1 3 (getGenerators hash "G" 8) (getGenerators hash "H" 8) r = .ok () :=
  c98_get_generators (st := .hamming [1, 7, 8] 2) (c98_hamming demoEnv _ _ _ _) (c89_hamming demo_peers (original := [1, 2, 3]) (new := [1, 7, 8]) rfl (by decide +kernel) _) "t" 1 3 c hash "G" "H" (by decide) (by decide) r

end Bp
