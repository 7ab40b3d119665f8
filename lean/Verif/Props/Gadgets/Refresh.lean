import Verif.Spec.Refresh
import Verif.Props.Gadgets.Merkle

/-! # C97: Merkle proofs and later updates -/

set_option linter.unusedSectionVars false

namespace Bp
variable {F : Type} [Field F]

theorem sides_congr (H : List F → F) {A : ℕ} (hA : 0 < A) (j : ℕ) : ∀ d (c c' : ℕ → F), (∀ i < A ^ d, c i = c' i) → sides H A d c j = sides H A d c' j
  | 0, _, _, _ => rfl
  | d + 1, c, c', h => by
    rw [sides, sides, sides_congr H hA j d _ _ (subContents_congr h (Nat.mod_lt _ hA))]
    congr 2
    unfold kids
    refine List.map_congr_left fun k hk => rootOf_congr H A d _ _ (subContents_congr h (List.mem_range.mp hk))

/-- The siblings of a leaf do not depend on the leaf. -/
theorem sides_self (H : List F → F) {A : ℕ} (hA : 0 < A) (j : ℕ) : ∀ d (c c' : ℕ → F), (∀ a < A ^ d, a ≠ j % A ^ d → c' a = c a) → sides H A d c' j = sides H A d c j
  | 0, _, _, _ => rfl
  | d + 1, c, c', h => by
    set k := j / A ^ d % A with hk
    have hkA : k < A := Nat.mod_lt _ hA
    have hpos : 0 < A ^ d := Nat.pow_pos hA
    have hjm : j % A ^ (d + 1) = k * A ^ d + j % A ^ d := by rw [pow_succ, Nat.mod_mul]; ring
    have hlt : ∀ k' < A, ∀ a < A ^ d, k' * A ^ d + a < A ^ (d + 1) := fun k' hk' a ha => by
      calc k' * A ^ d + a < k' * A ^ d + A ^ d := by omega
        _ = (k' + 1) * A ^ d := by ring
        _ ≤ A * A ^ d := Nat.mul_le_mul_right _ hk'
        _ = A ^ (d + 1) := by ring
    rw [sides, sides, ← hk, sides_self H hA j d (subContents c (A ^ d) k) (subContents c' (A ^ d) k) fun a ha hne => h _ (hlt k hkA a ha) (by rw [hjm]; omega)]
    congr 1
    have hset : kids H A d c' = (kids H A d c).set k (rootOf H A d (subContents c' (A ^ d) k)) := by
      apply List.ext_getElem?
      intro a
      by_cases ha : a < A
      · rw [kids_get ha, List.getElem?_set]
        by_cases e : k = a
        · subst e; simp [kids_length, hkA]
        · rw [if_neg e, kids_get ha]
          refine congrArg some (rootOf_congr H A d _ _ fun b hb => h _ (hlt a ha b hb) fun e' => e ?_)
          rw [hjm] at e'
          have h3 := congrArg (· / A ^ d) e'
          simp only [Nat.add_div_of_dvd_right (Dvd.intro_left a rfl), Nat.add_div_of_dvd_right (Dvd.intro_left k rfl), Nat.mul_div_cancel _ hpos, Nat.div_eq_of_lt hb,
            Nat.div_eq_of_lt (Nat.mod_lt j hpos)] at h3
          simpa using h3.symm
      · rw [List.getElem?_eq_none (by simp [kids_length]; omega), List.getElem?_eq_none (by simp [kids_length]; omega)]
    rw [hset, List.eraseIdx_set_eq]

theorem eraseIdx_set {α : Type} (l : List α) (x : α) {i j : ℕ} (hne : i ≠ j) : (l.set j x).eraseIdx i = (l.eraseIdx i).set (if j < i then j else j - 1) x := by
  split
  · rw [List.eraseIdx_set_gt (by omega)]
  · rw [List.eraseIdx_set_lt (by omega)]

variable [ByteRep F]

theorem refresh_ok (H : List F → F) {A : ℕ} (hA : 0 < A) (i j : ℕ) (w : F) : ∀ d (c c' : ℕ → F), (∀ a < A ^ d, c' a = if a = j % A ^ d then w else c a) →
    sides H A d c' i = refresh H w (digitsOf A d i) (digitsOf A d j) (sides H A d c i) (sides H A d c j)
  | 0, _, _, _ => rfl
  | d + 1, c, c', hc => by
    set k := j / A ^ d % A with hk
    have hkA : k < A := Nat.mod_lt _ hA
    have hpos : 0 < A ^ d := Nat.pow_pos hA
    have hjm : j % A ^ (d + 1) = k * A ^ d + j % A ^ d := by rw [pow_succ, Nat.mod_mul]; ring
    have hsub : ∀ a < A ^ d, subContents c' (A ^ d) k a = if a = j % A ^ d then w else subContents c (A ^ d) k a := by
      intro a ha
      have hlt : k * A ^ d + a < A ^ (d + 1) := by
        calc k * A ^ d + a < k * A ^ d + A ^ d := by omega
          _ = (k + 1) * A ^ d := by ring
          _ ≤ A * A ^ d := Nat.mul_le_mul_right _ hkA
          _ = A ^ (d + 1) := by ring
      rw [subContents, hc _ hlt, hjm]
      by_cases e : a = j % A ^ d
      · rw [if_pos e, if_pos (by omega)]
      · rw [if_neg e, if_neg (by omega)]; rfl
    have hoth : ∀ k' < A, k' ≠ k → ∀ a < A ^ d, subContents c' (A ^ d) k' a = subContents c (A ^ d) k' a := by
      intro k' hk' hne a ha
      have hlt : k' * A ^ d + a < A ^ (d + 1) := by
        calc k' * A ^ d + a < k' * A ^ d + A ^ d := by omega
          _ = (k' + 1) * A ^ d := by ring
          _ ≤ A * A ^ d := Nat.mul_le_mul_right _ hk'
          _ = A ^ (d + 1) := by ring
      rw [subContents, hc _ hlt, hjm, if_neg]
      · rfl
      · intro e
        apply hne
        have h3 := congrArg (· / A ^ d) e
        simp only [Nat.add_div_of_dvd_right (Dvd.intro_left k' rfl), Nat.add_div_of_dvd_right (Dvd.intro_left k rfl), Nat.mul_div_cancel _ hpos, Nat.div_eq_of_lt ha,
          Nat.div_eq_of_lt (Nat.mod_lt j hpos)] at h3
        simpa using h3
    have hset : kids H A d c' = (kids H A d c).set k (rootOf H A d (subContents c' (A ^ d) k)) := by
      apply List.ext_getElem?
      intro a
      by_cases ha : a < A
      · rw [kids_get ha, List.getElem?_set]
        by_cases e : k = a
        · subst e; simp [kids_length, hkA]
        · rw [if_neg e, kids_get ha]
          exact congrArg some (rootOf_congr H A d _ _ (hoth a ha (Ne.symm e)))
      · rw [List.getElem?_eq_none (by simp [kids_length]; omega), List.getElem?_eq_none (by simp [kids_length]; omega)]
    rw [digitsOf, digitsOf, sides, sides, sides, refresh, ← hk]
    by_cases hik : i / A ^ d % A = k
    · rw [if_pos hik, hik, hset, List.eraseIdx_set_eq, refresh_ok H hA i j w d _ _ hsub]
    · rw [if_neg hik, hset, eraseIdx_set _ _ hik, sides_congr H hA i d _ _ (hoth _ (Nat.mod_lt _ hA) hik)]
      congr 2
      rw [← merkleRoot_sides hA (j := j) d (subContents c' (A ^ d) k), hsub _ (Nat.mod_lt _ hpos), if_pos rfl]
      congr 2
      exact sides_self H hA j d _ _ fun a ha hne => by rw [hsub a ha, if_neg hne]


/-- **C97**: a Merkle proof (of whatever value, for whatever index) is accepted with one root only. -/
theorem c97_one_root [DecidableEq F] (T : TreeOps F) (t t' : SparseTree F) (hd : t.depth = t'.depth) (i v : F) (proof : List (List F)) (r r' : F) (h1 : t.verifyProof T i v proof (some r) = .ok true)
    (h2 : t'.verifyProof T i v proof (some r') = .ok true) : r = r' := by
  unfold SparseTree.verifyProof at h1 h2
  rw [← hd] at h2
  obtain ⟨path, e1, h1⟩ := res_bind_ok.mp h1
  obtain ⟨path', e1', h2⟩ := res_bind_ok.mp h2
  rw [e1] at e1'
  cases e1'
  obtain ⟨cur, e2, h1⟩ := res_bind_ok.mp h1
  obtain ⟨cur', e2', h2⟩ := res_bind_ok.mp h2
  rw [e2] at e2'
  cases e2'
  injection h1 with h1
  injection h2 with h2
  exact (of_decide_eq_true h1).symm.trans (of_decide_eq_true h2)

variable [DecidableEq F] (T : TreeOps F) (p : PoseidonParams F) (hp : p.Valid) (depth : ℕ) (hT : T.IsTree p depth) (db0 : HashDb (List F)) (h : History F)

include hp hT in
/-- **C97**: once the contents have changed, every proof made before is rejected, or there is a collision.  (`h1` and `h2` are any two histories: `h2` may be `h1` with more updates, say.) -/
theorem c97_stale (db1 db2 : HashDb (List F)) (h1 h2 : History F) (hc1 : T.CollisionFree depth h1) (hc2 : T.CollisionFree depth h2) (t1 t2 : SparseTree F) (d1 d2 : HashDb (List F)) (r1 : runHistory T depth db1 h1 = .ok (t1, d1))
    (r2 : runHistory T depth db2 h2 = .ok (t2, d2)) (i v : F) (proof : List (List F)) (hv1 : t1.verifyProof T i v proof none = .ok true) (hv2 : t2.verifyProof T i v proof none = .ok true) :
    (∀ i < T.arity ^ depth, written (T.arity ^ depth) h1 i = written (T.arity ^ depth) h2 i) ∨
      ∃ a ∈ childLists T.digest T.arity depth (written (T.arity ^ depth) h1), ∃ b ∈ childLists T.digest T.arity depth (written (T.arity ^ depth) h2), a ≠ b ∧ T.digest a = T.digest b := by
  obtain ⟨_, e1, -⟩ := run_ok hp hT db1 h1 hc1
  obtain ⟨_, e2, -⟩ := run_ok hp hT db2 h2 hc2
  have hd : t1.depth = t2.depth := by
    rw [r1] at e1; rw [r2] at e2
    injection e1 with e1; injection e1 with e1 _
    injection e2 with e2; injection e2 with e2 _
    rw [e1, e2]
  exact c39_contents_of_root T p hp depth hT db1 db2 h1 h2 hc1 hc2 t1 t2 d1 d2 r1 r2 (c97_one_root T t1 t2 hd i v proof t1.root t2.root hv1 hv2)

include hp hT in
/-- **C97**: after one more update, of leaf `j` to `w`, the proof that `get` returns for `i` is the old one brought up to date with the old proof for `j`; no database is needed for that. -/
theorem c97_refresh (j w : F) (hc : T.CollisionFree depth (h ++ [(j, w)])) (t t' : SparseTree F) (db db' : HashDb (List F)) (r : runHistory T depth db0 h = .ok (t, db)) (r' : runHistory T depth db0 (h ++ [(j, w)]) = .ok (t', db')) (i : F) :
    ∃ vi vj Pi Pj, t.get T i (some []) db = .ok (vi, some Pi) ∧ t.get T j (some []) db = .ok (vj, some Pj) ∧
      t'.get T i (some []) db' = .ok (if IntRep.rep i % T.arity ^ depth = IntRep.rep j % T.arity ^ depth then w else vi, some (refresh T.digest w (digitsOf T.arity depth (IntRep.rep i)) (digitsOf T.arity depth (IntRep.rep j)) Pi Pj)) ∧
      t'.verifyProof T i (if IntRep.rep i % T.arity ^ depth = IntRep.rep j % T.arity ^ depth then w else vi) (refresh T.digest w (digitsOf T.arity depth (IntRep.rep i)) (digitsOf T.arity depth (IntRep.rep j)) Pi Pj) none = .ok true := by
  have hch : T.CollisionFree depth h := by
    have hin : ∀ l ∈ historyLists T.digest T.arity depth h, l ∈ historyLists T.digest T.arity depth (h ++ [(j, w)]) := fun l hl => by
      obtain ⟨h'', hp'', hl⟩ := List.mem_flatMap.mp hl
      exact List.mem_flatMap.mpr ⟨h'', (List.mem_inits _ _).mpr (((List.mem_inits _ _).mp hp'').trans (List.prefix_append _ _)), hl⟩
    exact fun a ha b hb => hc a (hin a ha) b (hin b hb)
  obtain ⟨tot, hd⟩ := isTree_total hp hT
  obtain ⟨_, e, k⟩ := run_ok hp hT db0 h hch
  obtain ⟨_, e', k'⟩ := run_ok hp hT db0 _ hc
  rw [r] at e; rw [r'] at e'
  injection e with e; injection e with e1 e2
  injection e' with e'; injection e' with e1' e2'
  subst e1 e2 e1' e2'
  refine ⟨_, _, _, _, get_ok (T := T) (t := ⟨depth, _⟩) hd rfl (fun l hl => k h List.prefix_rfl l hl) i (some []), get_ok (T := T) (t := ⟨depth, _⟩) hd rfl (fun l hl => k h List.prefix_rfl l hl) j (some []), ?_⟩
  obtain ⟨v, P, hget, -, -, -, hver, -⟩ := c38_complete T p hp depth hT db0 _ hc _ _ r' i
  have hg := get_ok (T := T) (t := ⟨depth, rootOf T.digest T.arity depth (written (T.arity ^ depth) (h ++ [(j, w)]))⟩) hd rfl (fun l hl => k' _ List.prefix_rfl l hl) i (some [])
  rw [hget] at hg
  injection hg with hg
  injection hg with hg1 hg2
  injection hg2 with hg2
  simp only [List.nil_append] at hg2
  subst hg1 hg2
  rw [hget]
  refine (fun hh => ⟨hh, ?_⟩ : _ → _ ∧ _) ?_
  · injection hh with hh
    injection hh with hh1 hh2
    injection hh2 with hh2
    rw [← hh1, ← hh2]
    exact hver
  simp only [Option.map_some, List.nil_append, written_snoc]
  rw [refresh_ok T.digest T.arity_pos (IntRep.rep i) (IntRep.rep j) w depth (written (T.arity ^ depth) h) (written (T.arity ^ depth) (h ++ [(j, w)])) fun a _ => by rw [written_snoc]; simp only [eq_comm]]
  simp only [eq_comm]

/-- **C97**: at most one node of the old proof is replaced. -/
theorem c97_one_node (H : List F → F) (w : F) : ∀ (is js : List ℕ) (ss rs : List (List F)), ∃ level k x, refresh H w is js ss rs = ss.modify level fun s => s.set k x
  | i :: is, j :: js, s :: ss, r :: rs => by
    unfold refresh
    split
    · obtain ⟨l, k, x, e⟩ := c97_one_node H w is js ss rs
      exact ⟨l + 1, k, x, by rw [e]; rfl⟩
    · exact ⟨0, _, _, rfl⟩
  | [], _, ss, _ => ⟨ss.length, 0, 0, by simp [refresh, List.modify_eq_self]⟩
  | _ :: _, [], ss, _ => ⟨ss.length, 0, 0, by simp [refresh, List.modify_eq_self]⟩
  | _ :: _, _ :: _, [], _ => ⟨0, 0, 0, by simp [refresh]⟩
  | _ :: _, _ :: _, s :: ss, [] => ⟨(s :: ss).length, 0, 0, by rw [List.modify_eq_self (by simp)]; rfl⟩

/-! ## Examples -/

/-- The third update of the example of C36, seen from any leaf. -/
example (i : Fr) : ∃ t db t' db' vi vj Pi Pj, runHistory (tree4 demoParams5) 2 HashDb.new [(1, 7), (14, 8)] = .ok (t, db) ∧ runHistory (tree4 demoParams5) 2 HashDb.new demoHistory = .ok (t', db') ∧
    t.get (tree4 demoParams5) i (some []) db = .ok (vi, some Pi) ∧ t.get (tree4 demoParams5) 17 (some []) db = .ok (vj, some Pj) ∧
    t'.verifyProof (tree4 demoParams5) i (if IntRep.rep i % 4 ^ 2 = IntRep.rep (17 : Fr) % 4 ^ 2 then 9 else vi) (refresh (tree4 demoParams5).digest 9 (digitsOf 4 2 (IntRep.rep i)) (digitsOf 4 2 (IntRep.rep (17 : Fr))) Pi Pj) none = .ok true := by
  have hT : (tree4 demoParams5).IsTree demoParams5 2 := .inl ⟨rfl, rfl, by decide⟩
  have hc : (tree4 demoParams5).CollisionFree 2 [(1, 7), (14, 8)] := by
    have hin : ∀ l ∈ historyLists (tree4 demoParams5).digest (tree4 demoParams5).arity 2 [(1, 7), (14, 8)], l ∈ historyLists (tree4 demoParams5).digest (tree4 demoParams5).arity 2 demoHistory := fun l hl => by
      obtain ⟨h'', hp'', hl⟩ := List.mem_flatMap.mp hl
      exact List.mem_flatMap.mpr ⟨h'', (List.mem_inits _ _).mpr (((List.mem_inits _ _).mp hp'').trans ⟨[(17, 9)], rfl⟩), hl⟩
    exact fun a ha b hb => demo_collisionFree a (hin a ha) b (hin b hb)
  obtain ⟨d1, r1, -⟩ := run_ok demoParams5_valid hT HashDb.new [(1, 7), (14, 8)] hc
  obtain ⟨d2, r2, -⟩ := run_ok demoParams5_valid hT HashDb.new demoHistory demo_collisionFree
  obtain ⟨vi, vj, Pi, Pj, h1, h2, -, h3⟩ := c97_refresh (tree4 demoParams5) demoParams5 demoParams5_valid 2 hT HashDb.new [(1, 7), (14, 8)] 17 9 demo_collisionFree _ _ d1 d2 r1 r2 i
  exact ⟨_, d1, _, d2, vi, vj, Pi, Pj, r1, r2, h1, h2, h3⟩

/-- The proofs made before that update are not accepted after it (there is no collision here). -/
example : ∃ t db t' db', runHistory (tree4 demoParams5) 2 HashDb.new ([(1, 7)] : History Fr) = .ok (t, db) ∧ runHistory (tree4 demoParams5) 2 HashDb.new demoHistory = .ok (t', db') ∧
    ∀ i v proof, t.verifyProof (tree4 demoParams5) i v proof none = .ok true → t'.verifyProof (tree4 demoParams5) i v proof none ≠ .ok true := by
  have hT : (tree4 demoParams5).IsTree demoParams5 2 := .inl ⟨rfl, rfl, by decide⟩
  have hin : ∀ h, h <+: demoHistory → ∀ l ∈ childLists (tree4 demoParams5).digest (tree4 demoParams5).arity 2 (written (4 ^ 2) h), l ∈ historyLists (tree4 demoParams5).digest (tree4 demoParams5).arity 2 demoHistory := fun h hp l hl =>
    List.mem_flatMap.mpr ⟨h, (List.mem_inits _ _).mpr hp, hl⟩
  have hc : (tree4 demoParams5).CollisionFree 2 [(1, 7)] := fun a ha b hb => by
    obtain ⟨h1, p1, ha⟩ := List.mem_flatMap.mp ha
    obtain ⟨h2, p2, hb⟩ := List.mem_flatMap.mp hb
    exact demo_collisionFree a (hin h1 (((List.mem_inits _ _).mp p1).trans ⟨[(14, 8), (17, 9)], rfl⟩) a ha) b (hin h2 (((List.mem_inits _ _).mp p2).trans ⟨[(14, 8), (17, 9)], rfl⟩) b hb)
  obtain ⟨d1, r1, -⟩ := run_ok demoParams5_valid hT HashDb.new [(1, 7)] hc
  obtain ⟨d2, r2, -⟩ := run_ok demoParams5_valid hT HashDb.new demoHistory demo_collisionFree
  refine ⟨_, d1, _, d2, r1, r2, fun i v proof h1 h2 => ?_⟩
  rcases c97_stale (tree4 demoParams5) demoParams5 demoParams5_valid 2 hT HashDb.new HashDb.new [(1, 7)] demoHistory hc demo_collisionFree _ _ d1 d2 r1 r2 i v proof h1 h2 with heq | ⟨a, ha, b, hb, hne, he⟩
  · have := heq 14 (by decide)
    revert this
    decide +kernel
  · exact hne (demo_collisionFree a (hin _ ⟨[(14, 8), (17, 9)], rfl⟩ a ha) b (hin _ List.prefix_rfl b hb) he)

end Bp
