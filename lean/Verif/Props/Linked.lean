import Verif.Spec.Linked
import Verif.Props.Statements
import Verif.Props.Interactive

/-! # C84: a commitment that is used in several statements or proofs stands for the same value in all of them -/

set_option linter.unusedSectionVars false

namespace Bp
variable {F G : Type} [Field F] [AddCommGroup G] [Module F G] [ByteRep F]

/-- The claim of a statement is about its own commitments only. -/
theorem Stmt.claim_congr (st : Stmt F) {v w : ℕ → F} (e : ∀ i < st.size, v i = w i) (hv : st.Claim v) : st.Claim w := by
  cases st with
  | boundedNum d l u n => obtain ⟨k, h1, h2, h3⟩ := hv; exact ⟨k, h1, h2, by rw [← e 0 (by simp [Stmt.size])]; exact h3⟩
  | nonZero => show w 0 ≠ 0; rw [← e 0 (by simp [Stmt.size])]; exact hv
  | setMembership set => show w 0 ∈ set; rw [← e 0 (by simp [Stmt.size])]; exact hv
  | setMembershipAlt set =>
    obtain ⟨h1, h2, h3⟩ := hv
    have hs : ∀ i ≤ set.length, v i = w i := fun i hi => e i (by simp only [Stmt.size]; omega)
    refine ⟨fun i hi => by rw [← hs i hi.le]; exact h1 i hi, ?_, by rw [← hs _ le_rfl]; exact h3⟩
    rw [← h2]
    congr 1
    exact List.map_congr_left fun i hi => (hs i (List.mem_range.mp hi).le).symm
  | setNonMembership set => show w 0 ∉ set; rw [← e 0 (by simp [Stmt.size])]; exact hv
  | hamming new count => exact hv
  | mimc image constants rounds => show Bp.mimc (w 0) (w 1) constants rounds = .ok image; rw [← e 0 (by simp [Stmt.size]), ← e 1 (by simp [Stmt.size])]; exact hv
  | poseidon2 output p sbox => show poseidonHash2 (w 0) (w 1) p sbox = .ok output; rw [← e 0 (by simp [Stmt.size]), ← e 1 (by simp [Stmt.size])]; exact hv
  | poseidon4 output p sbox =>
    show poseidonHash4 [w 0, w 1, w 2, w 3] p sbox = .ok output
    rw [← e 0 (by simp [Stmt.size]), ← e 1 (by simp [Stmt.size]), ← e 2 (by simp [Stmt.size]), ← e 3 (by simp [Stmt.size])]; exact hv
  | poseidon8 output p sbox =>
    show poseidonHash8 [w 0, w 1, w 2, w 3, w 4, w 5, w 6, w 7] p sbox = .ok output
    rw [← e 0 (by simp [Stmt.size]), ← e 1 (by simp [Stmt.size]), ← e 2 (by simp [Stmt.size]), ← e 3 (by simp [Stmt.size]), ← e 4 (by simp [Stmt.size]), ← e 5 (by simp [Stmt.size]), ← e 6 (by simp [Stmt.size]),
      ← e 7 (by simp [Stmt.size])]; exact hv
  | inclusion4 root depth p sbox => exact Included.congr (T := hasher4 p sbox) e hv
  | inclusion8 root depth p sbox => exact Included.congr (T := hasher8 p sbox) e hv
  | randomizer t db indices depth p => exact fun db0 hist hc hr => Randomized.congr (T := tree4 p) rfl e (hv db0 hist hc hr)
  | factors k r =>
    show ((List.range (k + 2)).map w).prod = r
    rw [← (show ((List.range (k + 2)).map v).prod = r from hv)]
    congr 1
    exact List.map_congr_left fun i hi => (e i (List.mem_range.mp hi)).symm

theorem AllHold.allTrue {g h : G} {val : G → F} (hval : Opens g h val) : ∀ {stmts : List (Stmt F)} {coms : List G}, totalSize stmts ≤ coms.length → AllHold g h stmts coms → AllTrue val stmts coms
  | [], _, _, _ => trivial
  | st :: stmts, coms, hl, hh => by
    have hl' : st.size + totalSize stmts ≤ coms.length := by simpa [totalSize] using hl
    refine ⟨fun hb => ?_, AllHold.allTrue hval (by rw [List.length_drop]; omega) hh.2⟩
    obtain ⟨v, hv, hc⟩ := hh.1.1 hb
    refine st.claim_congr (fun i hi => ?_) hc
    have hi' : i < coms.length := by omega
    obtain ⟨r, hr⟩ := hv i coms[i] (by rw [List.getElem?_take_of_lt hi]; exact List.getElem?_eq_getElem hi')
    rw [List.getD_eq_getElem?_getD, List.getElem?_eq_getElem hi', Option.getD_some, hr, hval]

open Classical in
theorem Unrelated.opens {g h : G} (hi : Unrelated F g h) : ∃ val : G → F, Opens g h val := by
  refine ⟨fun P => if hP : ∃ x : F, CommitsTo g h P x then hP.choose else 0, fun x r => ?_⟩
  have hP : ∃ y : F, CommitsTo g h (x • g + r • h) y := ⟨x, r, rfl⟩
  show (if hP : ∃ y : F, CommitsTo g h (x • g + r • h) y then hP.choose else 0) = x
  rw [dif_pos hP]
  exact c61_unique hi hP.choose_spec ⟨r, rfl⟩

/-- **C84**: for generators `g` and `h` without a relation there is one value for every commitment, such that all statements of all proofs that are ever accepted (from provers that can be rewound) are true of these values: whatever the
labels, the other generators, and the places in which a commitment is used. -/
theorem c84_one_value [DecidableEq G] {g h : G} (hi : Unrelated F g h) : ∃ val : G → F, Opens g h val ∧ ∀ (env : Env F G) (label : String) (stmts : List (Stmt F)) (coms : List G) (Gs Hs : List G), (∀ st ∈ stmts, st.Ok) →
    totalSize stmts ≤ coms.length → Convinced label (verifyStmts env g h stmts coms) g h Gs Hs → AllTrue val stmts coms := by
  obtain ⟨val, hval⟩ := hi.opens
  exact ⟨val, hval, fun env label stmts coms Gs Hs hok hl hc => (c61_knowledge env hok hl hc).allTrue hval hl⟩

/-- **C84**, without interaction: there is one value for every commitment, such that any prover that asks the oracle `Q` questions, and then chooses commitments and proof, gets a proof accepted of a list of statements that are not all true of
these values only with `(Q + D) B + 1` in `|F|` of the answers. -/
theorem c84_game [DecidableEq G] [Fintype F] {g h : G} (hi : Unrelated F g h) : ∃ val : G → F, Opens g h val ∧ ∀ (env : Env F G) (_ : env.batchInvert [] = .ok ([], 1)) (label : String) (stmts : List (Stmt F)) (Gs Hs : List G),
    (∀ st ∈ stmts, st.Ok) → Independent F (Gs ++ Hs ++ [g, h]) → ∀ (coms0 : List G) (_ : totalSize stmts ≤ coms0.length) (s0 : Verifier F G),
    verifyStmts env g h stmts coms0 (Verifier.new [.init label]) = (.ok (), s0) → ∀ (A : Forger F G) (Q : ℕ),
    A.forging env label (verifyStmts env g h stmts) coms0.length (AllTrue val stmts) g h Gs Hs Q s0.numDraws ≤ ((Q + s0.numDraws) * s0.badBound + 1) * Fintype.card F ^ (Q + s0.numDraws) := by
  obtain ⟨val, hval⟩ := hi.opens
  exact ⟨val, hval, fun env hb label stmts Gs Hs hok hind coms0 hl s0 hs0 A Q =>
    c58_game env hb label _ _ (Uniform.stmts env g h stmts) coms0 rfl s0 hs0 g h Gs Hs hind _ (fun _ he hc => (Convinced.allHold hok (he ▸ hl) hc).allTrue hval (he ▸ hl)) A Q⟩

/-- **C84**, two proofs: one shows that the value in `P` is between two bounds, the other, with its own label, that the value in `P` is in a set.  Then one and the same value, the only one that `P` can be opened to, is between the bounds and in the set. -/
theorem c84_bound_and_set [DecidableEq G] (env env' : Env F G) {g h : G} {label label' : String} {debug : Bool} {lower upper n : ℕ} {set : List F} {P : G} {cs cs' : List G} {Gs Hs Gs' Hs' : List G}
    (hl : lower < 2 ^ 64) (hu : upper < 2 ^ 64) (ho : 2 ^ 64 < IntRep.order F) (hn : 2 ^ (n + 1) ≤ IntRep.order F) (hset : ∃ y, y ∉ set)
    (hc : Convinced (F := F) label (verifyBoundedNum env debug lower upper n (P :: cs)) g h Gs Hs) (hc' : Convinced label' (verifySetMembership env' set (P :: cs')) g h Gs' Hs') :
    ∃ k : ℕ, lower ≤ k ∧ k ≤ upper ∧ (k : F) ∈ set ∧ CommitsTo g h P (k : F) ∧ ∀ y : F, CommitsTo g h P y → y = k := by
  have hi : Unrelated F g h := hc.pair (dv := fun coms => verifyBoundedNum env debug lower upper n coms) (coms := P :: cs)
  obtain ⟨P1, k, e1, hP, hk1, hk2⟩ := c55_bounded_num env debug lower upper n hl hu ho hn hc
  obtain ⟨P2, x, e2, hQ, hx⟩ := c55_set_membership env' set hset hc'
  obtain rfl : P = P1 := by simpa using e1
  obtain rfl : P = P2 := by simpa using e2
  exact ⟨k, hk1, hk2, by rw [← c61_unique hi hQ hP]; exact hx, hP, fun y hy => c61_unique hi hy hP⟩

/-- **C84**, the hypothesis is needed: when `g` is known as a multiple of `h`, every point is a commitment to every value, so that a commitment stands for nothing. -/
theorem c84_related {g h : G} {a b : F} (h0 : a • g + b • h = 0) (ha : a ≠ 0) {P : G} {x : F} (hP : CommitsTo g h P x) (y : F) : CommitsTo g h P y := by
  obtain ⟨r, rfl⟩ := hP
  have hg : g = (-(a⁻¹ * b)) • h := by
    have h1 : a⁻¹ • (a • g + b • h) = 0 := by rw [h0, smul_zero]
    rw [smul_add, smul_smul, smul_smul, inv_mul_cancel₀ ha, one_smul] at h1
    rw [neg_smul]
    exact eq_neg_of_add_eq_zero_left h1
  refine ⟨r + (x - y) * (-(a⁻¹ * b)), ?_⟩
  rw [add_smul, mul_smul, ← hg]
  module

/-! ## Cases -/

/-- The honest prover convinces: for every statement for which proving is complete, when the field is large enough for its number of constraints. -/
theorem HonestPair.convinced [DecidableEq G] [Fintype F] {env env' : Env F G} {m : ℕ} {dp : Drv (Prover F G) (List G)} {dv : List G → Drv (Verifier F G) Unit} {os ss : List (F × F)} (hp : HonestPair env env' none m os dp dv ss)
    (hO : env.oracle = env'.oracle) (h1 : ∀ coms, OnePhase (dv coms)) (hsize : nextPowerOfTwo m < 2 ^ 32) (hb : env'.batchInvert [] = .ok ([], 1)) (label : String) (g h : G) (Gs Hs : List G)
    (hG : nextPowerOfTwo m ≤ Gs.length) (hH : nextPowerOfTwo m ≤ Hs.length) (hind : Independent F (Gs.take (nextPowerOfTwo m) ++ Hs.take (nextPowerOfTwo m) ++ [g, h]))
    (q : ℕ) (hq : ∀ s, dv (os.map fun q => q.1 • g + q.2 • h) (Verifier.new [.init label]) = (.ok (), s) → s.constraints.length ≤ q)
    (hbig : knowledgeError (Nat.clog 2 m) q * Fintype.card F ^ (5 + Nat.clog 2 m) < (Fintype.card F - 1) ^ (1 + Nat.clog 2 m) * Fintype.card F ^ 5) :
    Convinced label (dv (os.map fun q => q.1 • g + q.2 • h)) g h Gs Hs := by
  obtain ⟨coms, p, s, -, e2, rfl, rfl, e5⟩ := c62_gadget hp hO h1 hsize (.inr hb) label g h ⟨0, 0, 0, fun _ => 0, fun _ => 0, 0, 0, 0, fun _ => 0, fun _ => 0, 0, 0, 0, 0, 0⟩ Gs Hs hG hH
  obtain ⟨t, s2, h2, -⟩ := c62_statement hb _ (h1 _) e2 (lt_of_lt_of_le (lt_of_le_of_lt (Nat.mul_le_mul_right _ (by unfold knowledgeError; have := hq s e2; omega)) hbig) e5)
  exact ⟨_, _, t, s, s2, h2, hind⟩

abbrev repGs : List RepB := Rep.Gs Fr 23 29 [2, 3, 5, 7] [11, 13, 17, 19]
abbrev repHs : List RepB := Rep.Hs Fr 23 29 [2, 3, 5, 7] [11, 13, 17, 19]

theorem rep4_independent : Independent Fr (repGs.take (nextPowerOfTwo 4) ++ repHs.take (nextPowerOfTwo 4) ++ [repG, repH]) := by
  have e : nextPowerOfTwo 4 = 4 := by decide +kernel
  have e1 : repGs.take 4 = repGs := List.take_of_length_le (by simp [Rep.Gs])
  have e2 : repHs.take 4 = repHs := List.take_of_length_le (by simp [Rep.Hs])
  rw [e, e1, e2]
  exact Rep.independent (F := Fr) 23 29 [2, 3, 5, 7] [11, 13, 17, 19]

theorem rep4_big (q : ℕ) (hq : q ≤ 100) {m : ℕ} (hm : m = 4) : knowledgeError (Nat.clog 2 m) q * Fintype.card Fr ^ (5 + Nat.clog 2 m) < (Fintype.card Fr - 1) ^ (1 + Nat.clog 2 m) * Fintype.card Fr ^ 5 := by
  subst hm
  rw [show Nat.clog 2 4 = 2 by decide +kernel, show Fintype.card Fr = blsOrder from ZMod.card _]
  refine lt_of_le_of_lt (Nat.mul_le_mul_right _ (show knowledgeError 2 q ≤ 200 by unfold knowledgeError; omega)) ?_
  decide +kernel

/-- The honest prover shows that the value in `2 g + 7 h` is between 1 and 3. -/
theorem bounds_convinced : Convinced (F := Fr) "bounds" (verifyBoundedNum (Env.std fun _ => 2) false 1 3 2 [repB ((2 : ℕ) : Fr) 7, repB ((2 - 1 : ℕ) : Fr) 3, repB ((3 - 2 : ℕ) : Fr) 3]) repG repH repGs repHs := by
  have hp := c26_complete (F := Fr) (G := RepB) (Env.std fun _ => 2) (Env.std fun _ => 2) rfl false 1 2 3 2 (by decide) (by decide) (by decide +kernel) (by decide) (some 7) none (fun _ => 3) (.inl rfl) none
  have hc := hp.convinced rfl (OnePhase.boundedNum _ _ _ _ _) (by decide +kernel) (by simp [Env.std]) "bounds" repG repH repGs repHs (by decide +kernel) (by decide +kernel) rep4_independent 100
    (fun s hs => by
      have e : _ = s := congrArg Prod.snd hs
      rw [← e]
      decide +kernel) (rep4_big 100 le_rfl rfl)
  exact hc

/-- It also shows, in another proof, that the value is in a set. -/
theorem member_convinced : Convinced (F := Fr) "set" (verifySetMembership (Env.std fun _ => 2) [2, 5, 6, 8] [repB ((2 : ℕ) : Fr) 7, repB (2 - (2 : ℕ)) 3, repB (5 - (2 : ℕ)) 3, repB (6 - (2 : ℕ)) 3, repB (8 - (2 : ℕ)) 3]) repG repH repGs repHs := by
  have hp := c28_complete (F := Fr) (G := RepB) (Env.std fun _ => 2) (Env.std fun _ => 2) rfl ((2 : ℕ) : Fr) [2, 5, 6, 8] (by simp) (some 7) none (fun _ => 3) (.inl rfl) none
  have hc := hp.convinced rfl (OnePhase.setMembership _ _) (by decide +kernel) (by simp [Env.std]) "set" repG repH repGs repHs (by decide +kernel) (by decide +kernel) rep4_independent 100
    (fun s hs => by
      have e : _ = s := congrArg Prod.snd hs
      rw [← e]
      decide +kernel) (rep4_big 100 le_rfl rfl)
  exact hc

/-- Together: one value, between 1 and 3 and in the set. -/
example : ∃ k : ℕ, 1 ≤ k ∧ k ≤ 3 ∧ (k : Fr) ∈ ([2, 5, 6, 8] : List Fr) ∧ CommitsTo repG repH (repB ((2 : ℕ) : Fr) 7) (k : Fr) ∧ ∀ y : Fr, CommitsTo repG repH (repB ((2 : ℕ) : Fr) 7) y → y = k :=
  c84_bound_and_set (Env.std fun _ => 2) (Env.std fun _ => 2) (by decide) (by decide) (by decide +kernel) (by decide +kernel) ⟨1, by decide +kernel⟩ bounds_convinced member_convinced

/-- The one value for every commitment, for these two proofs. -/
example : ∃ val : RepB → Fr, Opens repG repH val ∧ AllTrue val [Stmt.setMembership ([2, 5, 6, 8] : List Fr)] [repB ((2 : ℕ) : Fr) 7, repB (2 - (2 : ℕ)) 3, repB (5 - (2 : ℕ)) 3, repB (6 - (2 : ℕ)) 3, repB (8 - (2 : ℕ)) 3] := by
  obtain ⟨val, h1, h2⟩ := c84_one_value (F := Fr) (g := repG) (h := repH) (member_convinced.pair (dv := fun coms => verifySetMembership (Env.std fun _ => 2) [2, 5, 6, 8] coms))
  refine ⟨val, h1, h2 (Env.std fun _ => 2) "set" _ _ repGs repHs (by simp [Stmt.Ok]) (by simp [totalSize, Stmt.size]) ?_⟩
  obtain ⟨k, q, t, s, s2, h3, h4⟩ := member_convinced
  refine ⟨k, q, t, s, s2, ⟨?_, h3.size, h3.rows, h3.full, h3.accepted⟩, h4⟩
  exact Drv.bind_ok.mpr ⟨(), s, h3.built, rfl⟩

/-- The game is about concrete verifiers. -/
example : ∃ val : RepB → Fr, Opens repG repH val ∧ ∀ (A : Forger Fr RepB) (Q : ℕ),
    A.forging (Env.std fun _ => 2) "three" (verifyStmts (Env.std fun _ => 2) repG repH threeBounds) 9 (AllTrue val threeBounds) repG repH repGs repHs Q (stmtsV "three" threeBounds).numDraws ≤
      ((Q + (stmtsV "three" threeBounds).numDraws) * (stmtsV "three" threeBounds).badBound + 1) * Fintype.card Fr ^ (Q + (stmtsV "three" threeBounds).numDraws) := by
  obtain ⟨val, h1, h2⟩ := c84_game (F := Fr) (g := repG) (h := repH) (member_convinced.pair (dv := fun coms => verifySetMembership (Env.std fun _ => 2) [2, 5, 6, 8] coms))
  refine ⟨val, h1, fun A Q => ?_⟩
  exact h2 (Env.std fun _ => 2) (by simp [Env.std]) "three" threeBounds repGs repHs (by
    intro st hst
    simp only [threeBounds, List.mem_cons, List.not_mem_nil, or_false] at hst
    rcases hst with rfl | rfl | rfl <;> exact ⟨by decide, by decide, by decide +kernel, by decide +kernel⟩) (Rep.independent (F := Fr) 23 29 [2, 3, 5, 7] [11, 13, 17, 19]) ((List.range 9).map fun i : ℕ => repB (i : Fr) 1) (by decide) _
    (by unfold stmtsV; exact built_of_ok _ (by decide +kernel)) A Q

end Bp
