import Verif.Props.Gadgets.Believed
import Verif.Props.Gadgets.Flow

/-! # C102: checks around an untrusted database, for whole sessions -/

set_option linter.unusedSectionVars false

namespace Bp
variable {F : Type} [Field F] [ByteRep F]

/-- The root computed by the loop of `update` does not depend on the database. -/
theorem updateLoop_any {T : TreeOps F} : ∀ (ds : List ℕ) (ss : List (List F)) (v : F) (db db' : HashDb (List F)) (r : F × HashDb (List F)), SparseTree.updateLoop T ds ss v db = .ok r →
    ∃ d, SparseTree.updateLoop T ds ss v db' = .ok (r.1, d)
  | [], ss, v, db, db', r, h => by
    cases h
    exact ⟨db', rfl⟩
  | d :: ds, ss, v, db, db', r, h => by
    rw [SparseTree.updateLoop] at h ⊢
    split at h
    · cases h
    · next side hs =>
      obtain ⟨l, h1, h⟩ := res_bind_ok.mp h
      simp only [bind, Except.bind]
      rw [h1]
      simp only
      split at h
      · cases h
      · next hl =>
        rw [if_neg hl]
        obtain ⟨x, h2, h⟩ := res_bind_ok.mp h
        rw [h2]
        exact updateLoop_any ds _ x _ _ r h

theorem update_any {T : TreeOps F} {t : SparseTree F} {i w : F} {db db' : HashDb (List F)} (hsub : ∀ k l, db.get k = .ok l → db'.get k = .ok l) {r : F × SparseTree F × HashDb (List F)} (h : t.update T i w db = .ok r) :
    ∃ d, t.update T i w db' = .ok (r.1, r.2.1, d) := by
  rw [SparseTree.update] at h ⊢
  obtain ⟨⟨x, pf⟩, h1, h⟩ := res_bind_ok.mp h
  rw [c64_lossy T t db' db hsub i _ _ h1]
  cases pf with
  | none => cases h
  | some pf =>
    obtain ⟨path, h2, h⟩ := res_bind_ok.mp h
    obtain ⟨⟨cur, d1⟩, h3, h⟩ := res_bind_ok.mp h
    cases h
    obtain ⟨d, e⟩ := updateLoop_any path.reverse pf w db db' _ h3
    refine ⟨d, ?_⟩
    simp only [bind, Except.bind]
    rw [h2]
    simp only
    rw [e]
    rfl

/-- A checked database agrees with one that holds the tree, or there is a collision. -/
theorem audited_complete {T : TreeOps F} {depth : ℕ} {c : ℕ → F} (db : HashDb (List F)) (hcol : ¬DbCollision T.digest T.arity depth c (db.audited T.digest)) :
    ∃ db' : HashDb (List F), (∀ k l, (db.audited T.digest).get k = .ok l → db'.get k = .ok l) ∧ ∀ l ∈ childLists T.digest T.arity depth c, db'.Has T.digest l :=
  complete_db (fun _ _ hk => audited_get hk) (childLists T.digest T.arity depth c) (fun a ha b hb e => by_contra fun hne => hcol ⟨a, .inr ha, b, hb, hne, e⟩)
    fun k l hl l' hl' e => by_contra fun hne => hcol ⟨l, .inl ⟨k, hl⟩, l', hl', hne, e⟩

/-- **C102**: with the checks around it, a database can refuse to answer, but what `get` returns is the value last written, with the true proof, or there is a collision of the hash function. -/
theorem c102_audited_get (T : TreeOps F) (p : PoseidonParams F) (hp : p.Valid) (depth : ℕ) (hT : T.IsTree p depth) (c : ℕ → F) (db : HashDb (List F)) (i : F) (proof : Option (List (List F))) (r : F × Option (List (List F)))
    (hget : (⟨depth, rootOf T.digest T.arity depth c⟩ : SparseTree F).get T i proof (db.audited T.digest) = .ok r) :
    r = (c (IntRep.rep i % T.arity ^ depth), proof.map (· ++ sides T.digest T.arity depth c (IntRep.rep i))) ∨ DbCollision T.digest T.arity depth c (db.audited T.digest) := by
  by_cases hcol : DbCollision T.digest T.arity depth c (db.audited T.digest)
  · exact .inr hcol
  obtain ⟨db', k1, k2⟩ := audited_complete db hcol
  have h1 := c64_lossy T _ db' _ k1 i proof r hget
  rw [get_ok (T := T) (t := ⟨depth, rootOf T.digest T.arity depth c⟩) (isTree_total hp hT).2 rfl k2] at h1
  cases h1
  exact .inl rfl

/-- One update. -/
theorem audited_update (T : TreeOps F) (p : PoseidonParams F) (hp : p.Valid) (depth : ℕ) (hT : T.IsTree p depth) (h : History F) (w : F × F) (hc : T.CollisionFree depth (h ++ [w])) (db : HashDb (List F))
    (r : F × SparseTree F × HashDb (List F))
    (hu : (⟨depth, rootOf T.digest T.arity depth (written (T.arity ^ depth) h)⟩ : SparseTree F).update T w.1 w.2 (db.audited T.digest) = .ok r) :
    r.2.1 = ⟨depth, rootOf T.digest T.arity depth (written (T.arity ^ depth) (h ++ [w]))⟩ ∨ DbCollision T.digest T.arity depth (written (T.arity ^ depth) h) (db.audited T.digest) := by
  by_cases hcol : DbCollision T.digest T.arity depth (written (T.arity ^ depth) h) (db.audited T.digest)
  · exact .inr hcol
  obtain ⟨db', k1, k2⟩ := audited_complete db hcol
  obtain ⟨d, e⟩ := update_any k1 hu
  have hS : ∀ h', h' <+: h ++ [w] → ∀ l ∈ childLists T.digest T.arity depth (written (T.arity ^ depth) h'), l ∈ historyLists T.digest T.arity depth (h ++ [w]) := fun h' hp' l hl =>
    List.mem_flatMap.mpr ⟨h', (List.mem_inits _ _).mpr hp', hl⟩
  obtain ⟨d', e', -⟩ := update_ok (T := T) (t := ⟨depth, rootOf T.digest T.arity depth (written (T.arity ^ depth) h)⟩) (db := db') (c := written (T.arity ^ depth) h) (c' := written (T.arity ^ depth) (h ++ [w])) (i := w.1) (v := w.2)
    (isTree_total hp hT).1 hc (isTree_total hp hT).2 rfl (fun l hl => ⟨hS h (List.prefix_append _ _) l hl, k2 l hl⟩) (fun k _ => by
      rw [written_snoc]
      by_cases ek : k = IntRep.rep w.1 % T.arity ^ depth
      · rw [if_pos ek.symm, if_pos ek]
      · rw [if_neg (Ne.symm ek), if_neg ek]) (fun l hl => hS _ List.prefix_rfl l hl)
  rw [e] at e'
  exact .inl (congrArg (fun x => x.2.1) (Except.ok.inj e'))

/-- **C102** for whole sessions: a client that keeps only the tree object and gets another database for every update, each made by an adversary who knows all that has happened, has in the end the root of what it has written, or there is
a collision between an answer it was given (or a node of its tree) and a node of its tree. -/
theorem c102_session (T : TreeOps F) (p : PoseidonParams F) (hp : p.Valid) (depth : ℕ) (hT : T.IsTree p depth) : ∀ (steps : List ((F × F) × HashDb (List F))) (h : History F), T.CollisionFree depth (h ++ steps.map Prod.fst) → ∀ t,
    auditedRun T ⟨depth, rootOf T.digest T.arity depth (written (T.arity ^ depth) h)⟩ steps = .ok t →
    t = ⟨depth, rootOf T.digest T.arity depth (written (T.arity ^ depth) (h ++ steps.map Prod.fst))⟩ ∨
      ∃ pre w db post, steps = pre ++ (w, db) :: post ∧ DbCollision T.digest T.arity depth (written (T.arity ^ depth) (h ++ pre.map Prod.fst)) (db.audited T.digest)
  | [], h, _, t, hrun => by
    cases hrun
    exact .inl (by simp)
  | (w, db) :: rest, h, hc, t, hrun => by
    have happ : h ++ ((w, db) :: rest).map Prod.fst = (h ++ [w]) ++ rest.map Prod.fst := by simp
    rw [happ] at hc ⊢
    rw [auditedRun] at hrun
    obtain ⟨⟨r0, t1, d1⟩, h1, hrun⟩ := res_bind_ok.mp hrun
    rcases audited_update T p hp depth hT h w (collisionFree_prefix hc (List.prefix_append _ _)) db _ h1 with e | e
    · dsimp only at e hrun
      rw [e] at hrun
      rcases c102_session T p hp depth hT rest (h ++ [w]) hc t hrun with e | ⟨pre, w', db', post, e1, e2⟩
      · exact .inl e
      · refine .inr ⟨(w, db) :: pre, w', db', post, by rw [e1]; rfl, ?_⟩
        simpa using e2
    · exact .inr ⟨[], w, db, rest, rfl, by simpa using e⟩

/-- **C102**: the checks do not disturb an honest database: an update that succeeds without them succeeds with them and gives the same tree. -/
theorem c102_audited_honest (T : TreeOps F) (depth : ℕ) (db0 : HashDb (List F)) (h0 : db0.Checked T.digest) (h : History F) (t : SparseTree F) (db : HashDb (List F)) (hrun : runHistory T depth db0 h = .ok (t, db)) (i w : F)
    (r : F × SparseTree F × HashDb (List F)) (hu : t.update T i w db = .ok r) : ∃ d, t.update T i w (db.audited T.digest) = .ok (r.1, r.2.1, d) :=
  update_any (fun k l hk => by rw [c103_transparent _ db (c103_honest T depth db0 h0 h t db hrun)]; exact hk) hu

theorem HashDb.Arrays.insert {A : ℕ} {db : HashDb (List F)} (h : db.Arrays A) (k : List UInt8) (l : List F) (hl : l.length = A) : (db.insert k l).Arrays A := by
  intro k' l' hl'
  by_cases e : k = k'
  · rw [e, HashDb.get_insert_self] at hl'
    cases hl'
    exact hl
  · rw [HashDb.get_insert_ne _ _ e] at hl'
    exact h k' l' hl'

theorem newLoop_arrays {T : TreeOps F} : ∀ (n : ℕ) (prev : F) (db : HashDb (List F)) (r : F × HashDb (List F)), db.Arrays T.arity → SparseTree.newLoop T n prev db = .ok r → r.2.Arrays T.arity
  | 0, prev, db, r, hdb, h => by
    cases h
    exact hdb
  | n + 1, prev, db, r, hdb, h => by
    rw [SparseTree.newLoop] at h
    obtain ⟨new, h1, h⟩ := res_bind_ok.mp h
    exact newLoop_arrays n new _ r (hdb.insert _ _ List.length_replicate) h

theorem updateLoop_arrays {T : TreeOps F} : ∀ (ds : List ℕ) (sides : List (List F)) (cur : F) (db : HashDb (List F)) (r : F × HashDb (List F)), db.Arrays T.arity → SparseTree.updateLoop T ds sides cur db = .ok r →
    r.2.Arrays T.arity
  | [], sides, cur, db, r, hdb, h => by
    cases h
    exact hdb
  | d :: ds, sides, cur, db, r, hdb, h => by
    rw [SparseTree.updateLoop] at h
    split at h
    · cases h
    · obtain ⟨l, h1, h⟩ := res_bind_ok.mp h
      split at h
      · cases h
      · next hl =>
        obtain ⟨x, h2, h⟩ := res_bind_ok.mp h
        exact updateLoop_arrays ds _ x _ r (hdb.insert _ _ (not_not.mp hl)) h

/-- **C102**: the trees of the crate store only arrays of the right length. -/
theorem c102_arrays (T : TreeOps F) (depth : ℕ) (db0 : HashDb (List F)) (h0 : db0.Arrays T.arity) (hist : History F) (t : SparseTree F) (db : HashDb (List F)) (hrun : runHistory T depth db0 hist = .ok (t, db)) : db.Arrays T.arity := by
  rw [runHistory] at hrun
  obtain ⟨s, h1, h⟩ := res_bind_ok.mp hrun
  have hs : s.2.Arrays T.arity := by
    rw [SparseTree.new] at h1
    obtain ⟨r, h2, h1⟩ := res_bind_ok.mp h1
    cases h1
    exact newLoop_arrays _ _ _ _ h0 h2
  clear h1 hrun
  induction hist generalizing s with
  | nil => cases h; exact hs
  | cons w ws ih =>
    rw [List.foldlM_cons] at h
    obtain ⟨s', h2, h⟩ := res_bind_ok.mp h
    obtain ⟨r, h3, h2⟩ := res_bind_ok.mp h2
    cases h2
    refine ih _ h ?_
    rw [SparseTree.update] at h3
    obtain ⟨⟨x, pf⟩, h1, h3⟩ := res_bind_ok.mp h3
    cases pf with
    | none => cases h3
    | some pf =>
      obtain ⟨path, h2, h3⟩ := res_bind_ok.mp h3
      obtain ⟨⟨cur, db'⟩, h4, h3⟩ := res_bind_ok.mp h3
      cases h3
      exact updateLoop_arrays _ _ _ _ _ hs h4

/-- **C102** for whole sessions of the careful client: whatever the databases answer, call by call, if no check fails then the client ends with the tree of all that it has written, or there is a collision between
a list hashed in one of the checks and a node of the tree. -/
theorem c102_checked_session [DecidableEq F] (T : TreeOps F) (p : PoseidonParams F) (hp : p.Valid) (depth : ℕ) (hT : T.IsTree p depth) : ∀ (steps : List ((F × F) × HashDb (List F) × HashDb (List F))) (h : History F),
    T.CollisionFree depth (h ++ steps.map Prod.fst) → (∀ s ∈ steps, s.2.1.Arrays T.arity) → ∀ t,
    checkedRun T ⟨depth, rootOf T.digest T.arity depth (written (T.arity ^ depth) h)⟩ steps = .ok (some t) →
    t = ⟨depth, rootOf T.digest T.arity depth (written (T.arity ^ depth) (h ++ steps.map Prod.fst))⟩ ∨
      ∃ pre w db1 db2 post, steps = pre ++ (w, db1, db2) :: post ∧ ∃ v proof,
        (⟨depth, rootOf T.digest T.arity depth (written (T.arity ^ depth) (h ++ pre.map Prod.fst))⟩ : SparseTree F).get T w.1 (some []) db1 = .ok (v, some proof) ∧
        ∃ a ∈ merkleHashed T.digest ((digitsOf T.arity depth (IntRep.rep w.1)).zip proof) v, ∃ b ∈ childLists T.digest T.arity depth (written (T.arity ^ depth) (h ++ pre.map Prod.fst)), a ≠ b ∧ T.digest a = T.digest b
  | [], h, _, _, t, hrun => by
    cases hrun
    exact .inl (by simp)
  | (w, db1, db2) :: rest, h, hc, ha, t, hrun => by
    have happ : h ++ ((w, db1, db2) :: rest).map Prod.fst = (h ++ [w]) ++ rest.map Prod.fst := by simp
    rw [happ] at hc ⊢
    rw [checkedRun] at hrun
    obtain ⟨r, h1, hrun⟩ := res_bind_ok.mp hrun
    rcases r with _ | ⟨t1, d1⟩
    · cases hrun
    have hc1 := collisionFree_prefix hc (List.prefix_append (h ++ [w]) _)
    obtain ⟨_, e1, -⟩ := run_ok hp hT HashDb.new h (collisionFree_prefix hc1 (List.prefix_append _ _))
    obtain ⟨_, e2, -⟩ := run_ok hp hT HashDb.new (h ++ [w]) hc1
    rcases c102_checked T p hp depth hT HashDb.new h w.1 w.2 hc1 _ t1 _ _ _ e1 e2 db1 db2 d1 (ha _ List.mem_cons_self) h1 with e | e
    · dsimp only at hrun
      rw [e] at hrun
      rcases c102_checked_session T p hp depth hT rest (h ++ [w]) hc (fun s hs => ha s (List.mem_cons_of_mem _ hs)) t hrun with e | ⟨pre, w', d, d', post, e1, e2⟩
      · exact .inl e
      · refine .inr ⟨(w, db1, db2) :: pre, w', d, d', post, by rw [e1]; rfl, ?_⟩
        simpa using e2
    · exact .inr ⟨[], w, db1, db2, rest, rfl, by simpa using e⟩

/-- **C102**: there are databases (the honest ones) with which such a session reaches its end, whatever is to be written. -/
theorem c102_checked_session_honest [DecidableEq F] (T : TreeOps F) (p : PoseidonParams F) (hp : p.Valid) (depth : ℕ) (hT : T.IsTree p depth) : ∀ (ws h : History F), T.CollisionFree depth (h ++ ws) →
    ∃ steps : List ((F × F) × HashDb (List F) × HashDb (List F)), steps.map Prod.fst = ws ∧ (∀ s ∈ steps, s.2.1.Arrays T.arity) ∧
      checkedRun T ⟨depth, rootOf T.digest T.arity depth (written (T.arity ^ depth) h)⟩ steps = .ok (some ⟨depth, rootOf T.digest T.arity depth (written (T.arity ^ depth) (h ++ ws))⟩)
  | [], h, _ => ⟨[], rfl, fun _ hs => by simp at hs, by rw [List.append_nil]; rfl⟩
  | w :: ws, h, hc => by
    have happ : h ++ w :: ws = (h ++ [w]) ++ ws := by simp
    rw [happ] at hc ⊢
    have hc1 := collisionFree_prefix hc (List.prefix_append (h ++ [w]) _)
    obtain ⟨db, e1, -⟩ := run_ok hp hT HashDb.new h (collisionFree_prefix hc1 (List.prefix_append _ _))
    obtain ⟨_, e2, -⟩ := run_ok hp hT HashDb.new (h ++ [w]) hc1
    obtain ⟨r, k1, k2⟩ := c102_honest T p hp depth hT HashDb.new h w.1 w.2 hc1 _ db e1
    rw [show h ++ [(w.1, w.2)] = h ++ [w] from rfl, e2] at k2
    cases k2
    obtain ⟨steps, s1, s3, s2⟩ := c102_checked_session_honest T p hp depth hT ws (h ++ [w]) hc
    refine ⟨(w, db, db) :: steps, by rw [List.map_cons, s1], fun s hs => ?_, ?_⟩
    · rcases List.mem_cons.mp hs with rfl | hs
      · exact c102_arrays T depth HashDb.new (fun k l hk => by cases hk) h _ db e1
      · exact s3 s hs
    rw [checkedRun]
    exact res_bind_ok.mpr ⟨_, k1, s2⟩

/-- The whole of `demoHistory`, written by a careful client into an empty tree. -/
example : ∃ steps : List ((Fr × Fr) × HashDb (List Fr) × HashDb (List Fr)), steps.map Prod.fst = demoHistory ∧ (∀ s ∈ steps, s.2.1.Arrays 4) ∧
    checkedRun (tree4 demoParams5) ⟨2, rootOf (tree4 demoParams5).digest 4 2 (written 16 [])⟩ steps = .ok (some ⟨2, rootOf (tree4 demoParams5).digest 4 2 (written 16 demoHistory)⟩) :=
  c102_checked_session_honest (tree4 demoParams5) demoParams5 demoParams5_valid 2 (.inl ⟨rfl, rfl, by decide⟩) demoHistory [] demo_collisionFree

/-- The second write of `demoHistory` done by a client with the checks around the honest database: it succeeds. -/
example : ∃ (db : HashDb (List Fr)) (t : SparseTree Fr), runHistory (tree4 demoParams5) 2 HashDb.new (demoHistory.take 1) = .ok (⟨2, rootOf (tree4 demoParams5).digest 4 2 (written 16 (demoHistory.take 1))⟩, db) ∧
    auditedRun (tree4 demoParams5) ⟨2, rootOf (tree4 demoParams5).digest 4 2 (written 16 (demoHistory.take 1))⟩ [(demoHistory[1]!, db)] = .ok t ∧
    (t = ⟨2, rootOf (tree4 demoParams5).digest 4 2 (written 16 (demoHistory.take 1 ++ [demoHistory[1]!]))⟩ ∨ ∃ pre w db' post, [(demoHistory[1]!, db)] = pre ++ (w, db') :: post ∧
      DbCollision (tree4 demoParams5).digest 4 2 (written 16 (demoHistory.take 1 ++ pre.map Prod.fst)) (db'.audited (tree4 demoParams5).digest)) := by
  have hT : (tree4 demoParams5).IsTree demoParams5 2 := .inl ⟨rfl, rfl, by decide⟩
  have hpre : demoHistory.take 1 ++ [demoHistory[1]!] <+: demoHistory := ⟨demoHistory.drop 2, rfl⟩
  have hc := collisionFree_prefix demo_collisionFree hpre
  obtain ⟨db, e, -⟩ := run_ok demoParams5_valid hT HashDb.new (demoHistory.take 1) (collisionFree_prefix hc (List.prefix_append _ _))
  obtain ⟨db2, e2, -⟩ := run_ok demoParams5_valid hT HashDb.new (demoHistory.take 1 ++ [demoHistory[1]!]) hc
  have hup : ∃ r, (⟨2, rootOf (tree4 demoParams5).digest 4 2 (written 16 (demoHistory.take 1))⟩ : SparseTree Fr).update (tree4 demoParams5) demoHistory[1]!.1 demoHistory[1]!.2 db = .ok r := by
    rw [runHistory] at e e2
    obtain ⟨s, e3, e⟩ := res_bind_ok.mp e
    rw [e3] at e2
    change List.foldlM _ s _ = _ at e2
    rw [List.foldlM_append] at e2
    obtain ⟨s2, e4, e2⟩ := res_bind_ok.mp e2
    rw [e] at e4
    cases e4
    rw [List.foldlM_cons] at e2
    obtain ⟨s3, e5, -⟩ := res_bind_ok.mp e2
    obtain ⟨r, e6, -⟩ := res_bind_ok.mp e5
    exact ⟨r, e6⟩
  obtain ⟨r, hr⟩ := hup
  obtain ⟨d, hd⟩ := c102_audited_honest (tree4 demoParams5) 2 HashDb.new (fun k l h => by cases h) _ _ db e _ _ r hr
  have hrun : auditedRun (tree4 demoParams5) ⟨2, rootOf (tree4 demoParams5).digest 4 2 (written 16 (demoHistory.take 1))⟩ [(demoHistory[1]!, db)] = .ok r.2.1 := by
    rw [auditedRun]
    exact res_bind_ok.mpr ⟨_, hd, rfl⟩
  exact ⟨db, _, e, hrun, c102_session (tree4 demoParams5) demoParams5 demoParams5_valid 2 hT [(demoHistory[1]!, db)] (demoHistory.take 1) hc _ hrun⟩

end Bp
