import Mathlib.LinearAlgebra.Basis.VectorSpace
import Mathlib.LinearAlgebra.Prod
import Verif.Spec.Linear
import Verif.Props.Linked

/-! # C100: linear combinations of commitments -/

set_option linter.unusedSectionVars false

namespace Bp
variable {F G : Type} [Field F] [AddCommGroup G] [Module F G]

theorem Unrelated.linear {g h : G} (hi : Unrelated F g h) : ∃ val : G →ₗ[F] F, Opens g h val := by
  obtain ⟨f, hf⟩ := LinearMap.exists_leftInverse_of_injective ((LinearMap.toSpanSingleton F G g).coprod (LinearMap.toSpanSingleton F G h)) (by
    rw [LinearMap.ker_eq_bot']
    rintro ⟨x, r⟩ e
    obtain ⟨rfl, rfl⟩ := hi x r (by simpa using e)
    rfl)
  refine ⟨(LinearMap.fst F F F).comp f, fun x r => ?_⟩
  have := LinearMap.congr_fun hf (x, r)
  simp only [LinearMap.comp_apply, LinearMap.coprod_apply, LinearMap.toSpanSingleton_apply, LinearMap.id_apply] at this
  rw [LinearMap.comp_apply, this]
  rfl

theorem combineComs_map (val : G →ₗ[F] F) : ∀ (as : List F) (Ps : List G), val (combineComs as Ps) = (List.zipWith (fun a x => a * x) as (Ps.map val)).sum
  | [], _ => by simp [combineComs]
  | _ :: _, [] => by simp [combineComs]
  | a :: as, P :: Ps => by
    have := combineComs_map val as Ps
    simp only [combineComs] at this
    simp [combineComs, this]

theorem combineComs_commit (g h : G) : ∀ (as xs rs : List F), xs.length = rs.length → combineComs as (List.zipWith (fun x r => x • g + r • h) xs rs) =
    (List.zipWith (fun a x => a * x) as xs).sum • g + (List.zipWith (fun a r => a * r) as rs).sum • h
  | [], _, _, _ => by simp [combineComs]
  | _ :: _, [], [], _ => by simp [combineComs]
  | a :: as, x :: xs, r :: rs, hl => by
    have := combineComs_commit g h as xs rs (by simpa using hl)
    simp only [combineComs] at this
    simp only [combineComs, List.zipWith_cons_cons, List.sum_cons, this]
    module

/-- **C100**, what a combination stands for: for generators `g` and `h` without a relation there is one *linear* assignment of values to points, such that all statements of all proofs that are ever accepted (from provers that can be
rewound) are true of these values.  So a statement about a combination of commitments is one about the combination of their values. -/
theorem c100_linear [ByteRep F] [DecidableEq G] {g h : G} (hi : Unrelated F g h) : ∃ val : G →ₗ[F] F, Opens g h val ∧ (∀ (as : List F) (Ps : List G), val (combineComs as Ps) = (List.zipWith (fun a x => a * x) as (Ps.map val)).sum) ∧
    ∀ (env : Env F G) (label : String) (stmts : List (Stmt F)) (coms : List G) (Gs Hs : List G), (∀ st ∈ stmts, st.Ok) →
    totalSize stmts ≤ coms.length → Convinced label (verifyStmts env g h stmts coms) g h Gs Hs → AllTrue val stmts coms := by
  obtain ⟨val, hval⟩ := hi.linear
  exact ⟨val, hval, combineComs_map val, fun env label stmts coms Gs Hs hok hl hc => (c61_knowledge env hok hl hc).allTrue hval hl⟩

/-- **C100**, without interaction. -/
theorem c100_game [ByteRep F] [DecidableEq G] [Fintype F] {g h : G} (hi : Unrelated F g h) : ∃ val : G →ₗ[F] F, Opens g h val ∧ (∀ (as : List F) (Ps : List G), val (combineComs as Ps) = (List.zipWith (fun a x => a * x) as (Ps.map val)).sum) ∧
    ∀ (env : Env F G) (_ : env.batchInvert [] = .ok ([], 1)) (label : String) (stmts : List (Stmt F)) (Gs Hs : List G),
    (∀ st ∈ stmts, st.Ok) → Independent F (Gs ++ Hs ++ [g, h]) → ∀ (coms0 : List G) (_ : totalSize stmts ≤ coms0.length) (s0 : Verifier F G),
    verifyStmts env g h stmts coms0 (Verifier.new [.init label]) = (.ok (), s0) → ∀ (A : Forger F G) (Q : ℕ),
    A.forging env label (verifyStmts env g h stmts) coms0.length (AllTrue val stmts) g h Gs Hs Q s0.numDraws ≤ ((Q + s0.numDraws) * s0.badBound + 1) * Fintype.card F ^ (Q + s0.numDraws) := by
  obtain ⟨val, hval⟩ := hi.linear
  exact ⟨val, hval, combineComs_map val, fun env hb label stmts Gs Hs hok hind coms0 hl s0 hs0 A Q =>
    c58_game env hb label _ _ (Uniform.stmts env g h stmts) coms0 rfl s0 hs0 g h Gs Hs hind _ (fun _ he hc => (Convinced.allHold hok (he ▸ hl) hc).allTrue hval (he ▸ hl)) A Q⟩

/-- **C100**, the holder's side: whoever knows values and blindings of some commitments gets the combination of the points as the commitment to the combination of the values, with the combination of the blindings. -/
theorem c100_commit (p : Prover F G) (as xs rs : List F) (hl : xs.length = rs.length) :
    (p.commit (List.zipWith (fun a x => a * x) as xs).sum (List.zipWith (fun a r => a * r) as rs).sum).1.1 = combineComs as (List.zipWith (fun x r => x • p.g + r • p.h) xs rs) := by
  rw [combineComs_commit p.g p.h as xs rs hl]
  rfl

/-- **C100**, an example of the kind: the values of `P₁, P₂, …` are known to be `x₁, x₂, …` (from other proofs, say), and membership in a set is shown of `a₁ P₁ + a₂ P₂ + …`.  Then `a₁ x₁ + a₂ x₂ + …` is in the set. -/
theorem c100_member [ByteRep F] [DecidableEq G] (env : Env F G) {g h : G} {label : String} {set as xs : List F} {Ps cs Gs Hs : List G} (hset : ∃ y, y ∉ set) (hP : List.Forall₂ (fun P x => CommitsTo g h P x) Ps xs)
    (hc : Convinced label (verifySetMembership env set (combineComs as Ps :: cs)) g h Gs Hs) : (List.zipWith (fun a x => a * x) as xs).sum ∈ set := by
  have hi : Unrelated F g h := hc.pair (dv := fun coms => verifySetMembership env set coms) (coms := combineComs as Ps :: cs)
  obtain ⟨val, hval⟩ := hi.linear
  obtain ⟨P, x, e, ⟨r, hr⟩, hx⟩ := c55_set_membership env set hset hc
  obtain rfl : combineComs as Ps = P := by simpa using e
  have h1 : val (combineComs as Ps) = x := by rw [hr, hval]
  have h2 : Ps.map val = xs := by
    clear hc e hr h1
    induction hP with
    | nil => rfl
    | cons hd _ ih => obtain ⟨r', rfl⟩ := hd; rw [List.map_cons, hval, ih]
  rw [combineComs_map, h2] at h1
  rw [h1]
  exact hx

section
variable [ByteRep F] [DecidableEq G]

theorem ShownInRange.value {g h P : G} {lower upper : ℕ} (hl : lower < 2 ^ 64) (hu : upper < 2 ^ 64) (ho : 2 ^ 64 < IntRep.order F) (hs : ShownInRange (F := F) g h lower upper P) :
    ∃ k : ℕ, lower ≤ k ∧ k ≤ upper ∧ CommitsTo g h P (k : F) := by
  obtain ⟨env, label, debug, n, cs, Gs, Hs, hn, hc⟩ := hs
  obtain ⟨P1, k, e1, hP, hk1, hk2⟩ := c55_bounded_num env debug lower upper n hl hu ho hn hc
  obtain rfl : P = P1 := by simpa using e1
  exact ⟨k, hk1, hk2, hP⟩

theorem ShownInRange.values {g h : G} {lower upper : ℕ} (hl : lower < 2 ^ 64) (hu : upper < 2 ^ 64) (ho : 2 ^ 64 < IntRep.order F) :
    ∀ Ps : List G, (∀ P ∈ Ps, ShownInRange (F := F) g h lower upper P) → ∃ ks : List ℕ, List.Forall₂ (fun P (k : ℕ) => CommitsTo g h P (k : F) ∧ lower ≤ k ∧ k ≤ upper) Ps ks ∧ ks.sum ≤ Ps.length * upper
  | [], _ => ⟨[], .nil, by simp⟩
  | P :: Ps, hs => by
    obtain ⟨k, h1, h2, h3⟩ := (hs P List.mem_cons_self).value hl hu ho
    obtain ⟨ks, h4, h5⟩ := ShownInRange.values hl hu ho Ps fun Q hQ => hs Q (List.mem_cons_of_mem _ hQ)
    refine ⟨k :: ks, .cons ⟨h3, h1, h2⟩ h4, ?_⟩
    rw [List.sum_cons, List.length_cons, Nat.add_mul, Nat.one_mul]
    omega

theorem sum_values {g h : G} {val : G →ₗ[F] F} (hval : Opens g h val) {lower upper : ℕ} {Ps : List G} {ks : List ℕ} (hP : List.Forall₂ (fun P (k : ℕ) => CommitsTo g h P (k : F) ∧ lower ≤ k ∧ k ≤ upper) Ps ks) :
    val Ps.sum = ((ks.sum : ℕ) : F) := by
  induction hP with
  | nil => simp
  | cons hd _ ih =>
    obtain ⟨⟨r, rfl⟩, -, -⟩ := hd
    rw [List.sum_cons, map_add, hval, ih, List.sum_cons, Nat.cast_add]

/-- **C100**, payments: of each input and each output it has been shown, in proofs of their own or together, that its value is between the bounds; and the inputs are the outputs and a public fee, up to a multiple of `h`, as points.
Then as numbers, without wrapping, the inputs add up to the outputs and the fee: nothing has been created. -/
theorem c100_balance {g h : G} (hi : Unrelated F g h) {lower upper fee : ℕ} (hl : lower < 2 ^ 64) (hu : upper < 2 ^ 64) (ho : 2 ^ 64 < IntRep.order F) {ins outs : List G}
    (hin : ∀ P ∈ ins, ShownInRange (F := F) g h lower upper P) (hout : ∀ P ∈ outs, ShownInRange (F := F) g h lower upper P)
    (hs1 : ins.length * upper < IntRep.order F) (hs2 : outs.length * upper + fee < IntRep.order F) {e : F} (hbal : ins.sum = outs.sum + (fee : F) • g + e • h) :
    ∃ ks ls : List ℕ, List.Forall₂ (fun P (k : ℕ) => CommitsTo g h P (k : F) ∧ lower ≤ k ∧ k ≤ upper) ins ks ∧ List.Forall₂ (fun P (k : ℕ) => CommitsTo g h P (k : F) ∧ lower ≤ k ∧ k ≤ upper) outs ls ∧
      ks.sum = ls.sum + fee := by
  obtain ⟨val, hval⟩ := hi.linear
  obtain ⟨ks, h1, h2⟩ := ShownInRange.values hl hu ho ins hin
  obtain ⟨ls, h3, h4⟩ := ShownInRange.values hl hu ho outs hout
  refine ⟨ks, ls, h1, h3, ?_⟩
  have h5 : ((ks.sum : ℕ) : F) = ((ls.sum + fee : ℕ) : F) := by
    rw [← sum_values hval h1, hbal, add_assoc, map_add, hval, sum_values hval h3, Nat.cast_add]
  have h6 := congrArg IntRep.rep h5
  rwa [IntRep.rep_cast _ (by omega), IntRep.rep_cast _ (by omega)] at h6

end

/-! ## Cases -/

/-- Two inputs `2 g + 7 h`, one output of the same kind, and a fee of 2. -/
example : ∃ ks ls : List ℕ, List.Forall₂ (fun P (k : ℕ) => CommitsTo repG repH P (k : Fr) ∧ 1 ≤ k ∧ k ≤ 3) [repB ((2 : ℕ) : Fr) 7, repB ((2 : ℕ) : Fr) 7] ks ∧
    List.Forall₂ (fun P (k : ℕ) => CommitsTo repG repH P (k : Fr) ∧ 1 ≤ k ∧ k ≤ 3) [repB ((2 : ℕ) : Fr) 7] ls ∧ ks.sum = ls.sum + 2 := by
  have hr : ShownInRange (F := Fr) repG repH 1 3 (repB ((2 : ℕ) : Fr) 7) := ⟨_, _, _, _, _, _, _, by decide +kernel, bounds_convinced⟩
  refine c100_balance (e := (7 : Fr)) (member_convinced.pair (dv := fun coms => verifySetMembership (Env.std fun _ => 2) [2, 5, 6, 8] coms)) (by decide) (by decide) (by decide +kernel)
    (fun P hP => ?_) (fun P hP => ?_) (by decide +kernel) (by decide +kernel) ?_
  · simp only [List.mem_cons, List.not_mem_nil, or_false, or_self] at hP
    rw [hP]; exact hr
  · rw [List.mem_singleton.mp hP]; exact hr
  · simp only [List.sum_cons, List.sum_nil]
    show repB ((2 : ℕ) : Fr) 7 + (repB ((2 : ℕ) : Fr) 7 + 0) = repB ((2 : ℕ) : Fr) 7 + 0 + ((2 : ℕ) : Fr) • repG + (7 : Fr) • repH
    have e : repB ((2 : ℕ) : Fr) 7 = ((2 : ℕ) : Fr) • repG + (7 : Fr) • repH := rfl
    rw [e]
    module

/-- The commitment of the membership proof of C84, seen as `1 · P₁ + 1 · P₂` of commitments to `1` and `1`: their sum is in the set. -/
example : ((1 : Fr) * 1 + (1 * 1 + 0)) ∈ ([2, 5, 6, 8] : List Fr) := by
  have e : combineComs ([1, 1] : List Fr) [(1 : Fr) • repG + (3 : Fr) • repH, (1 : Fr) • repG + (4 : Fr) • repH] = repB ((2 : ℕ) : Fr) 7 := by
    have e1 : repB ((2 : ℕ) : Fr) 7 = ((2 : ℕ) : Fr) • repG + (7 : Fr) • repH := rfl
    rw [e1]
    simp only [combineComs, List.zipWith_cons_cons, List.zipWith_nil_right, List.sum_cons, List.sum_nil]
    push_cast
    module
  have hc := member_convinced
  rw [← e] at hc
  exact c100_member (as := [1, 1]) (xs := [1, 1]) _ ⟨1, by decide +kernel⟩ (.cons ⟨3, rfl⟩ (.cons ⟨4, rfl⟩ .nil)) hc

/-- A commitment to `2 · 3 + 3 · 5` from commitments to `3` and `5`. -/
example : ((Prover.new (F := Z101) (G := Z101) 1 5 [.init "x"]).commit 21 (2 * 7 + 3 * 8)).1.1 = combineComs ([2, 3] : List Z101) ([3 * 1 + 7 * 5, 5 * 1 + 8 * 5] : List Z101) :=
  c100_commit (Prover.new (F := Z101) (G := Z101) 1 5 [.init "x"]) [2, 3] [3, 5] [7, 8] rfl

end Bp
