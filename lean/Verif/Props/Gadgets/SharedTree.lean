import Verif.Spec.SharedTree
import Mathlib.Tactic.IntervalCases
import Verif.Props.Gadgets.Clients

/-! # C106: clients that share one tree -/

set_option linter.unusedSectionVars false

namespace Bp
variable {F : Type} [Field F] [ByteRep F] {α : Type}

/-- As `DbProg.Sound`, with the private database at the end. -/
def DbProg.SoundAt (H : List F → F) (S : List (List F)) (p : DbProg F α) (db : HashDb (List F)) (a : α) (s' : HashDb (List F)) : Prop :=
  ∃ s n, p.Fine H S s a s' n ∧ ∀ k l, s.get k = .ok l → db.get k = .ok l ∧ k = toBytes (H l) ∧ l ∈ S

theorem DbProg.SoundAt.step {H : List F → F} {S : List (List F)} (hS : NoCollision H S) {db s' : HashDb (List F)} {a : α} : ∀ {p : DbProg F α}, p.SoundAt H S db a s' → (p.step db).1.SoundAt H S (p.step db).2 a s'
  | .done r, h => h
  | .get k f, ⟨s, n, ⟨l, m, e, h1, h2⟩, h'⟩ => by
    refine ⟨s, m, ?_, h'⟩
    rw [DbProg.step, (h' k l h1).1]
    exact h2
  | .put k l p, ⟨s, n, ⟨m, e, h1, h2, h3⟩, h'⟩ => by
    refine ⟨s.insert k l, m, h3, fun k' l' hk => ?_⟩
    subst h1
    by_cases ek : toBytes (H l) = k'
    · subst ek
      rw [HashDb.get_insert_self] at hk
      cases hk
      exact ⟨HashDb.get_insert_self .., rfl, h2⟩
    · rw [HashDb.get_insert_ne _ _ ek] at hk
      exact insert_keeps hS h' h2 k' l' hk

/-- A request of a sound program leaves what is in `S`. -/
theorem DbProg.SoundAt.keeps {H : List F → F} {S : List (List F)} (hS : NoCollision H S) {db s' : HashDb (List F)} {a : α} {l0 : List F} (hl0 : l0 ∈ S) (h0 : db.Has H l0) :
    ∀ {p : DbProg F α}, p.SoundAt H S db a s' → (p.step db).2.Has H l0
  | .done r, _ => h0
  | .get k f, _ => h0
  | .put k l p, ⟨_, _, ⟨_, _, h1, h2, _⟩, _⟩ => by
    rw [DbProg.step, h1]
    exact h0.insert hS hl0 h2

theorem DbProg.SoundAt.other {H : List F → F} {S : List (List F)} (hS : NoCollision H S) {db s' s1' : HashDb (List F)} {a b : α} {q : DbProg F α} (hq : q.SoundAt H S db b s1') :
    ∀ {p : DbProg F α}, p.SoundAt H S db a s' → q.SoundAt H S (p.step db).2 b s1'
  | .done r, _ => hq
  | .get k f, _ => hq
  | .put k l p, ⟨_, _, ⟨_, _, h1, h2, _⟩, _⟩ => by
    obtain ⟨s, n, h, h'⟩ := hq
    refine ⟨s, n, h, ?_⟩
    rw [DbProg.step, h1]
    exact insert_keeps hS h' h2

/-- A database that holds exactly the given lists. -/
theorem exact_db {H : List F → F} : ∀ (L : List (List F)), NoCollision H L → ∃ s : HashDb (List F), (∀ l ∈ L, s.Has H l) ∧ ∀ k l, s.get k = .ok l → k = toBytes (H l) ∧ l ∈ L
  | [], _ => ⟨HashDb.new, fun _ h => by simp at h, fun _ _ h => by cases h⟩
  | l0 :: L, hL => by
    obtain ⟨s, h1, h2⟩ := exact_db L fun a ha b hb => hL a (List.mem_cons_of_mem _ ha) b (List.mem_cons_of_mem _ hb)
    refine ⟨s.insert (toBytes (H l0)) l0, fun l hl => ?_, fun k l hk => ?_⟩
    · rcases List.mem_cons.mp hl with rfl | hl'
      · exact HashDb.get_insert_self ..
      · exact (h1 l hl').insert hL hl List.mem_cons_self
    · by_cases e : toBytes (H l0) = k
      · subst e
        rw [HashDb.get_insert_self] at hk
        cases hk
        exact ⟨rfl, List.mem_cons_self⟩
      · rw [HashDb.get_insert_ne _ _ e] at hk
        exact ⟨(h2 k l hk).1, List.mem_cons_of_mem _ (h2 k l hk).2⟩

/-- The tree after the writes `w i` for `i` in `order`. -/
def sharedTree (T : TreeOps F) (depth : ℕ) (h0 : History F) (w : ℕ → F × F) (order : List ℕ) : SparseTree F :=
  ⟨depth, rootOf T.digest T.arity depth (written (T.arity ^ depth) (h0 ++ order.map w))⟩

/-- What holds after every step. -/
def SharedInv (T : TreeOps F) (depth : ℕ) (h0 : History F) (w : ℕ → F × F) (n : ℕ) (S : List (List F)) (s : SharedState F) : Prop :=
  ∃ order : List ℕ, order.Nodup ∧ (∀ i ∈ order, i < n) ∧ (∀ i, s.phase i = .success ↔ i ∈ order) ∧ s.tree = sharedTree T depth h0 w order ∧
    (∀ l ∈ childLists T.digest T.arity depth (written (T.arity ^ depth) (h0 ++ order.map w)), s.db.Has T.digest l) ∧ (∀ i, s.phase i ≠ .failed) ∧
    ∀ i snap p, s.phase i = .busy snap p → i < n ∧ ∃ o s', o <+: order ∧ snap = sharedTree T depth h0 w o ∧ p.SoundAt T.digest S s.db (sharedTree T depth h0 w (o ++ [i])) s' ∧
      ∀ l ∈ childLists T.digest T.arity depth (written (T.arity ^ depth) (h0 ++ (o ++ [i]).map w)), s'.Has T.digest l

theorem sharedInv_step [DecidableEq F] {T : TreeOps F} (hT : T.Total) {depth : ℕ} (hd : getByteSize depth (2 ^ T.bits) ≤ ByteRep.modBytes F) {h0 : History F} {w : ℕ → F × F} {n : ℕ} {S : List (List F)} (hS : NoCollision T.digest S)
    (hin : ∀ order : List ℕ, order.Nodup → (∀ i ∈ order, i < n) → ∀ l ∈ childLists T.digest T.arity depth (written (T.arity ^ depth) (h0 ++ order.map w)), l ∈ S)
    {s : SharedState F} (hs : SharedInv T depth h0 w n S s) {j : ℕ} (hj : j < n) : SharedInv T depth h0 w n S (s.step T w j) := by
  obtain ⟨order, o1, o2, o3, o4, o5, o6, o7⟩ := hs
  have hsnoc : ∀ (o : List ℕ) (i : ℕ), h0 ++ (o ++ [i]).map w = (h0 ++ o.map w) ++ [w i] := fun o i => by simp
  have hnot : ∀ o, o <+: order → j ∉ order → (o ++ [j]).Nodup ∧ ∀ i ∈ o ++ [j], i < n := fun o ho hjo => by
    refine ⟨List.nodup_append.mpr ⟨o1.sublist ho.sublist, List.nodup_singleton j, fun a ha b hb e => ?_⟩, fun i hi => ?_⟩
    · rw [List.mem_singleton] at hb
      subst hb e
      exact hjo (ho.subset ha)
    · rcases List.mem_append.mp hi with hi | hi
      · exact o2 i (ho.subset hi)
      · rw [List.mem_singleton.mp hi]
        exact hj
  rw [SharedState.step]
  cases hph : s.phase j with
  | success => exact ⟨order, o1, o2, o3, o4, o5, o6, o7⟩
  | failed => exact absurd hph (o6 j)
  | idle =>
    have hjo : j ∉ order := fun h => by rw [(o3 j).mpr h] at hph; cases hph
    dsimp only
    refine ⟨order, o1, o2, fun i => ?_, o4, o5, fun i => ?_, fun i snap p hi => ?_⟩
    · by_cases e : i = j
      · subst e
        simp [hjo]
      · simp only [Function.update_of_ne e]
        exact o3 i
    · by_cases e : i = j
      · subst e; simp
      · simp only [ne_eq, Function.update_of_ne e]
        exact o6 i
    · by_cases e : i = j
      · subst e
        simp only [Function.update_self, Phase.busy.injEq] at hi
        obtain ⟨rfl, rfl⟩ := hi
        have hL := hin order o1 o2
        obtain ⟨p0, k1, k2⟩ := exact_db (childLists T.digest T.arity depth (written (T.arity ^ depth) (h0 ++ order.map w))) fun a ha b hb => hS a (hL a ha) b (hL b hb)
        obtain ⟨q1, q2⟩ := hnot order List.prefix_rfl hjo
        obtain ⟨s', f, hf⟩ := update_fine hT hS hd (c := written (T.arity ^ depth) (h0 ++ order.map w)) (c' := written (T.arity ^ depth) (h0 ++ (order ++ [i]).map w)) (i := (w i).1) (v := (w i).2) (s := p0)
          (fun l hl => ⟨hL l hl, k1 l hl⟩) (fun k => by rw [hsnoc, written_snoc]; simp only [eq_comm]) (hin _ q1 q2)
        refine ⟨hj, order, s', List.prefix_rfl, o4, ⟨p0, _, by rw [o4]; exact f, fun k l hk => ?_⟩, hf⟩
        obtain ⟨e1, e2⟩ := k2 k l hk
        refine ⟨?_, e1, hL l e2⟩
        rw [e1]
        exact o5 l e2
      · simp only [Function.update_of_ne e] at hi
        exact o7 i snap p hi
  | busy snap p =>
    have hjo : j ∉ order := fun h => by rw [(o3 j).mpr h] at hph; cases hph
    obtain ⟨-, o, s', ho, hsnap, hsound, hhas⟩ := o7 j snap p hph
    have hmove : SharedInv T depth h0 w n S { s with db := (p.step s.db).2, phase := Function.update s.phase j (.busy snap (p.step s.db).1) } := by
      refine ⟨order, o1, o2, fun i => ?_, o4, fun l hl => hsound.keeps hS (hin order o1 o2 l hl) (o5 l hl), fun i => ?_, fun i sn q hi => ?_⟩
      · by_cases e : i = j
        · subst e; simp [hjo]
        · simp only [Function.update_of_ne e]; exact o3 i
      · by_cases e : i = j
        · subst e; simp
        · simp only [ne_eq, Function.update_of_ne e]; exact o6 i
      · by_cases e : i = j
        · subst e
          simp only [Function.update_self, Phase.busy.injEq] at hi
          obtain ⟨rfl, rfl⟩ := hi
          exact ⟨hj, o, s', ho, hsnap, hsound.step hS, hhas⟩
        · simp only [Function.update_of_ne e] at hi
          obtain ⟨a, o', s1, b, c, d, e'⟩ := o7 i sn q hi
          exact ⟨a, o', s1, b, c, d.other hS hsound, e'⟩
    cases p with
    | get k f => exact hmove
    | put k l q => exact hmove
    | done r =>
      obtain ⟨s0, m, ⟨hr, rfl⟩, hsub⟩ := hsound
      subst hr
      dsimp only
      split
      · next hroot =>
        obtain ⟨q1, q2⟩ := hnot order List.prefix_rfl hjo
        have hsame : ∀ k < T.arity ^ depth, written (T.arity ^ depth) (h0 ++ order.map w) k = written (T.arity ^ depth) (h0 ++ o.map w) k := by
          rw [o4, hsnap] at hroot
          rcases rootOf_binding depth _ _ hroot with h | ⟨a, ha, b, hb, hab, e⟩
          · exact h
          · exact absurd (hS a (hin order o1 o2 a ha) b (hin o (o1.sublist ho.sublist) (fun i hi => o2 i (ho.subset hi)) b hb) e) hab
        have hsame' : ∀ k < T.arity ^ depth, written (T.arity ^ depth) (h0 ++ (o ++ [j]).map w) k = written (T.arity ^ depth) (h0 ++ (order ++ [j]).map w) k := fun k hk => by
          rw [hsnoc, hsnoc, written_snoc, written_snoc, hsame k hk]
        refine ⟨order ++ [j], q1, q2, fun i => ?_, ?_, fun l hl => ?_, fun i => ?_, fun i sn q hi => ?_⟩
        · by_cases e : i = j
          · subst e; simp
          · simp only [Function.update_of_ne e, List.mem_append, List.mem_singleton, e, or_false]; exact o3 i
        · simp only [sharedTree]
          rw [rootOf_congr _ _ _ _ _ hsame']
        · rw [← childLists_congr _ _ _ _ _ hsame'] at hl
          have h1 := hhas l hl
          exact (hsub _ l h1).1
        · by_cases e : i = j
          · subst e; simp
          · simp only [ne_eq, Function.update_of_ne e]; exact o6 i
        · by_cases e : i = j
          · subst e
            simp at hi
          · simp only [Function.update_of_ne e] at hi
            obtain ⟨a, o', s1, b, c, d, e'⟩ := o7 i sn q hi
            exact ⟨a, o', s1, b.trans (List.prefix_append _ _), c, d, e'⟩
      · refine ⟨order, o1, o2, fun i => ?_, o4, o5, fun i => ?_, fun i sn q hi => ?_⟩
        · by_cases e : i = j
          · subst e; simp [hjo]
          · simp only [Function.update_of_ne e]; exact o3 i
        · by_cases e : i = j
          · subst e; simp
          · simp only [ne_eq, Function.update_of_ne e]; exact o6 i
        · by_cases e : i = j
          · subst e
            simp at hi
          · simp only [Function.update_of_ne e] at hi
            exact o7 i sn q hi

theorem sharedInv_run [DecidableEq F] (T : TreeOps F) (p : PoseidonParams F) (hp : p.Valid) (depth : ℕ) (hT : T.IsTree p depth) (db0 : HashDb (List F)) (h0 : History F) (t : SparseTree F) (db : HashDb (List F))
    (hrun : runHistory T depth db0 h0 = .ok (t, db)) (n : ℕ) (w : ℕ → F × F) (S : List (List F)) (hS : NoCollision T.digest S)
    (hin : ∀ order : List ℕ, order.Nodup → (∀ i ∈ order, i < n) → ∀ l ∈ historyLists T.digest T.arity depth (h0 ++ order.map w), l ∈ S) (sched : List ℕ) (hsched : ∀ i ∈ sched, i < n) :
    SharedInv T depth h0 w n S (SharedState.run T w ⟨db, t, fun _ => .idle⟩ sched) := by
  obtain ⟨k1, k2⟩ := isTree_total hp hT
  have hin' : ∀ order : List ℕ, order.Nodup → (∀ i ∈ order, i < n) → ∀ l ∈ childLists T.digest T.arity depth (written (T.arity ^ depth) (h0 ++ order.map w)), l ∈ S := fun o a b l hl =>
    hin o a b l (List.mem_flatMap.mpr ⟨_, (List.mem_inits _ _).mpr List.prefix_rfl, hl⟩)
  have hstart : SharedInv T depth h0 w n S ⟨db, t, fun _ => .idle⟩ := by
    have hc : T.CollisionFree depth h0 := fun a ha b hb => by
      have := hin [] List.nodup_nil (by simp)
      simp only [List.map_nil, List.append_nil] at this
      exact hS a (this a ha) b (this b hb)
    obtain ⟨db', e, k⟩ := run_ok hp hT db0 h0 hc
    rw [hrun] at e
    injection e with e
    injection e with e1 e2
    subst e2
    refine ⟨[], List.nodup_nil, by simp, by simp, by simpa [sharedTree] using e1, by simpa using k h0 List.prefix_rfl, by simp, by simp⟩
  have : ∀ (sched : List ℕ) (s0 : SharedState F), (∀ i ∈ sched, i < n) → SharedInv T depth h0 w n S s0 → SharedInv T depth h0 w n S (SharedState.run T w s0 sched) := by
    intro sched
    induction sched with
    | nil => exact fun _ _ h => h
    | cons j js ih => exact fun s0 hj h => ih _ (fun i hi => hj i (List.mem_cons_of_mem _ hi)) (sharedInv_step k1 k2 hS hin' h (hj j List.mem_cons_self))
  exact this sched _ hsched hstart

/-- **C106**: clients `0, …, n - 1`, each with one write, share a tree through a database and a register with compare-and-exchange. After every schedule of their single requests there is an order of the clients that have succeeded such that the
register holds the tree in which their writes, and no others, have been made one after the other in this order; no client fails; and all nodes of the tree are in the database. -/
theorem c106_linearizable [DecidableEq F] (T : TreeOps F) (p : PoseidonParams F) (hp : p.Valid) (depth : ℕ) (hT : T.IsTree p depth) (db0 : HashDb (List F)) (h0 : History F) (t : SparseTree F) (db : HashDb (List F))
    (hrun : runHistory T depth db0 h0 = .ok (t, db)) (n : ℕ) (w : ℕ → F × F) (S : List (List F)) (hS : NoCollision T.digest S)
    (hin : ∀ order : List ℕ, order.Nodup → (∀ i ∈ order, i < n) → ∀ l ∈ historyLists T.digest T.arity depth (h0 ++ order.map w), l ∈ S) (sched : List ℕ) (hsched : ∀ i ∈ sched, i < n) :
    let s := SharedState.run T w ⟨db, t, fun _ => .idle⟩ sched
    (∀ i, s.phase i ≠ .failed) ∧ ∃ order : List ℕ, order.Nodup ∧ (∀ i, i ∈ order ↔ s.phase i = .success) ∧
      s.tree = ⟨depth, rootOf T.digest T.arity depth (written (T.arity ^ depth) (h0 ++ order.map w))⟩ ∧
      ∀ i proof, s.tree.get T i proof s.db = .ok (written (T.arity ^ depth) (h0 ++ order.map w) (IntRep.rep i % T.arity ^ depth),
        proof.map (· ++ sides T.digest T.arity depth (written (T.arity ^ depth) (h0 ++ order.map w)) (IntRep.rep i))) := by
  intro s
  obtain ⟨order, o1, o2, o3, o4, o5, o6, -⟩ := sharedInv_run T p hp depth hT db0 h0 t db hrun n w S hS hin sched hsched
  refine ⟨o6, order, o1, fun i => (o3 i).symm, o4, fun i proof => ?_⟩
  have o4' : s.tree = sharedTree T depth h0 w order := o4
  rw [o4']
  exact get_ok (T := T) (t := sharedTree T depth h0 w order) (isTree_total hp hT).2 rfl o5 i proof

/-- A client that has finished its write stays so. -/
theorem SharedState.run_success [DecidableEq F] (T : TreeOps F) (w : ℕ → F × F) (j : ℕ) : ∀ (n : ℕ) (s : SharedState F), s.phase j = .success → (SharedState.run T w s (List.replicate n j)).phase j = .success
  | 0, _, h => h
  | n + 1, s, h => by
    rw [List.replicate_succ, SharedState.run, List.foldl_cons, SharedState.step, h]
    exact SharedState.run_success T w j n s h

theorem solo_ok [DecidableEq F] {T : TreeOps F} (w : ℕ → F × F) (j : ℕ) {S : List (List F)} (hS : NoCollision T.digest S) : ∀ (n : ℕ) (p : DbProg F (SparseTree F)) (s : SharedState F) (snap a : SparseTree F) (q s' : HashDb (List F)),
    s.phase j = .busy snap p → s.tree.root = snap.root → p.Fine T.digest S q a s' n → (∀ k l, q.get k = .ok l → s.db.get k = .ok l ∧ k = toBytes (T.digest l) ∧ l ∈ S) →
      (SharedState.run T w s (List.replicate (n + 1) j)).phase j = .success
  | n, .done r, s, snap, a, q, s', h1, h2, ⟨e, _⟩, _ => by
    subst e
    rw [List.replicate_succ, SharedState.run, List.foldl_cons, SharedState.step, h1]
    simp only [h2, if_true]
    exact SharedState.run_success T w j n _ (by simp)
  | n, .get k f, s, snap, a, q, s', h1, h2, ⟨l, m, e, h3, h4⟩, h5 => by
    subst e
    rw [List.replicate_succ, SharedState.run, List.foldl_cons, SharedState.step, h1]
    refine solo_ok w j hS m (f l) _ snap a q s' ?_ h2 h4 h5
    simp only [Function.update_self, DbProg.step, (h5 k l h3).1]
  | n, .put k l p, s, snap, a, q, s', h1, h2, ⟨m, e, h3, h4, h6⟩, h5 => by
    subst e h3
    rw [List.replicate_succ, SharedState.run, List.foldl_cons, SharedState.step, h1]
    refine solo_ok w j hS m p _ snap a (q.insert (toBytes (T.digest l)) l) s' (by simp only [Function.update_self, DbProg.step]) h2 h6 fun k' l' hk => ?_
    by_cases ek : toBytes (T.digest l) = k'
    · subst ek
      rw [HashDb.get_insert_self] at hk
      cases hk
      exact ⟨HashDb.get_insert_self .., rfl, h4⟩
    · rw [HashDb.get_insert_ne _ _ ek] at hk
      exact insert_keeps hS h5 h4 k' l' hk

/-- **C106**: after every schedule, a client that is about to start (for the first time or again) and is then left alone has made its write after `2 * depth + 2` steps. -/
theorem c106_progress [DecidableEq F] (T : TreeOps F) (p : PoseidonParams F) (hp : p.Valid) (depth : ℕ) (hT : T.IsTree p depth) (db0 : HashDb (List F)) (h0 : History F) (t : SparseTree F) (db : HashDb (List F))
    (hrun : runHistory T depth db0 h0 = .ok (t, db)) (n : ℕ) (w : ℕ → F × F) (S : List (List F)) (hS : NoCollision T.digest S)
    (hin : ∀ order : List ℕ, order.Nodup → (∀ i ∈ order, i < n) → ∀ l ∈ historyLists T.digest T.arity depth (h0 ++ order.map w), l ∈ S) (sched : List ℕ) (hsched : ∀ i ∈ sched, i < n)
    (j : ℕ) (hj : j < n) (hidle : (SharedState.run T w ⟨db, t, fun _ => .idle⟩ sched).phase j = .idle) :
    (SharedState.run T w ⟨db, t, fun _ => .idle⟩ (sched ++ List.replicate (2 * depth + 2) j)).phase j = .success := by
  obtain ⟨k1, k2⟩ := isTree_total hp hT
  obtain ⟨order, o1, o2, o3, o4, o5, -, -⟩ := sharedInv_run T p hp depth hT db0 h0 t db hrun n w S hS hin sched hsched
  have hin' : ∀ order : List ℕ, order.Nodup → (∀ i ∈ order, i < n) → ∀ l ∈ childLists T.digest T.arity depth (written (T.arity ^ depth) (h0 ++ order.map w)), l ∈ S := fun o a b l hl =>
    hin o a b l (List.mem_flatMap.mpr ⟨_, (List.mem_inits _ _).mpr List.prefix_rfl, hl⟩)
  have hjo : j ∉ order := fun h => by rw [(o3 j).mpr h] at hidle; cases hidle
  have hL := hin' order o1 o2
  obtain ⟨p0, q1, q2⟩ := exact_db (childLists T.digest T.arity depth (written (T.arity ^ depth) (h0 ++ order.map w))) fun a ha b hb => hS a (hL a ha) b (hL b hb)
  obtain ⟨s', f, -⟩ := update_fine k1 hS k2 (c := written (T.arity ^ depth) (h0 ++ order.map w)) (c' := written (T.arity ^ depth) (h0 ++ (order ++ [j]).map w)) (i := (w j).1) (v := (w j).2) (s := p0)
    (fun l hl => ⟨hL l hl, q1 l hl⟩) (fun k => by
      have : h0 ++ (order ++ [j]).map w = (h0 ++ order.map w) ++ [w j] := by simp
      rw [this, written_snoc]; simp only [eq_comm])
    (hin' _ (List.nodup_append.mpr ⟨o1, List.nodup_singleton j, fun a ha b hb e => hjo (by rw [List.mem_singleton] at hb; subst hb e; exact ha)⟩) fun i hi => by
      rcases List.mem_append.mp hi with hi | hi
      · exact o2 i hi
      · rw [List.mem_singleton.mp hi]; exact hj)
  have hsplit : ∀ s0 : SharedState F, SharedState.run T w s0 (sched ++ List.replicate (2 * depth + 2) j) = SharedState.run T w ((SharedState.run T w s0 sched).step T w j) (List.replicate (2 * depth + 1) j) := fun s0 => by
    rw [SharedState.run, List.foldl_append, List.replicate_succ, List.foldl_cons]
    rfl
  rw [hsplit]
  generalize hs : SharedState.run T w ⟨db, t, fun _ => .idle⟩ sched = s at *
  have hstep : s.step T w j = { s with phase := Function.update s.phase j (.busy s.tree (updateP T s.tree (w j).1 (w j).2)) } := by rw [SharedState.step, hidle]
  have o4' : s.tree = ⟨depth, rootOf T.digest T.arity depth (written (T.arity ^ depth) (h0 ++ order.map w))⟩ := o4
  rw [hstep]
  rw [← o4'] at f
  refine solo_ok w j hS (2 * depth) (updateP T s.tree (w j).1 (w j).2) _ s.tree _ p0 s' (Function.update_self ..) rfl f fun k l hk => ?_
  obtain ⟨e1, e2⟩ := q2 k l hk
  refine ⟨?_, e1, hL l e2⟩
  rw [e1]
  exact o5 l e2

/-- A step leaves the register as it is or is the success of a client; no success is taken back; a busy client that stays busy keeps the tree it has read. -/
theorem SharedState.step_cases [DecidableEq F] (T : TreeOps F) (w : ℕ → F × F) (s : SharedState F) (i : ℕ) :
    ((s.step T w i).tree = s.tree ∨ (∃ snap p, s.phase i = .busy snap p) ∧ (s.step T w i).phase i = .success) ∧ (∀ k, s.phase k = .success → (s.step T w i).phase k = .success) ∧
      ∀ k snap p snap' p', s.phase k = .busy snap p → (s.step T w i).phase k = .busy snap' p' → snap' = snap := by
  rw [SharedState.step]
  cases hph : s.phase i with
  | success => exact ⟨.inl rfl, fun _ h => h, fun k snap p snap' p' h h' => by rw [h] at h'; cases h'; rfl⟩
  | failed => exact ⟨.inl rfl, fun _ h => h, fun k snap p snap' p' h h' => by rw [h] at h'; cases h'; rfl⟩
  | idle =>
    refine ⟨.inl rfl, fun k h => ?_, fun k snap p snap' p' h h' => ?_⟩
    · have : k ≠ i := fun e => by rw [e, hph] at h; cases h
      simp only [Function.update_of_ne this]; exact h
    · have : k ≠ i := fun e => by rw [e, hph] at h; cases h
      simp only [Function.update_of_ne this] at h'; rw [h] at h'; cases h'; rfl
  | busy sn q =>
    have hk : ∀ k, s.phase k = .success → k ≠ i := fun k h e => by rw [e, hph] at h; cases h
    have hmove : ∀ (d : HashDb (List F)) (q' : DbProg F (SparseTree F)), ((⟨d, s.tree, Function.update s.phase i (.busy sn q')⟩ : SharedState F).tree = s.tree ∨ (∃ snap p, Phase.busy sn q = .busy snap p) ∧ Function.update s.phase i (.busy sn q') i = .success) ∧
        (∀ k, s.phase k = .success → Function.update s.phase i (.busy sn q') k = .success) ∧
        ∀ k snap p snap' p', s.phase k = .busy snap p → Function.update s.phase i (.busy sn q') k = .busy snap' p' → snap' = snap := fun d q' => by
      refine ⟨.inl rfl, fun k h => by rw [Function.update_of_ne (hk k h)]; exact h, fun k snap p snap' p' h h' => ?_⟩
      by_cases e : k = i
      · subst e
        rw [Function.update_self] at h'
        rw [hph] at h
        cases h; cases h'; rfl
      · rw [Function.update_of_ne e, h] at h'; cases h'; rfl
    have hend : ∀ ph : Phase F, (∀ a b, ph ≠ .busy a b) → (∀ k, s.phase k = .success → Function.update s.phase i ph k = .success) ∧
        ∀ k snap p snap' p', s.phase k = .busy snap p → Function.update s.phase i ph k = .busy snap' p' → snap' = snap := fun ph hb => by
      refine ⟨fun k h => by rw [Function.update_of_ne (hk k h)]; exact h, fun k snap p snap' p' h h' => ?_⟩
      by_cases e : k = i
      · subst e
        rw [Function.update_self] at h'
        exact absurd h' (hb _ _)
      · rw [Function.update_of_ne e, h] at h'; cases h'; rfl
    cases q with
    | get k f => exact hmove _ _
    | put k l q => exact hmove _ _
    | done r =>
      cases r with
      | error e => exact ⟨.inl rfl, hend _ (by simp)⟩
      | ok t =>
        dsimp only
        split
        · exact ⟨.inr ⟨⟨_, _, rfl⟩, by simp⟩, hend _ (by simp)⟩
        · exact ⟨.inl rfl, hend _ (by simp)⟩

theorem SharedState.run_tree [DecidableEq F] (T : TreeOps F) (w : ℕ → F × F) (j : ℕ) : ∀ (sched : List ℕ) (s : SharedState F) (snap : SparseTree F) (p : DbProg F (SparseTree F)), s.phase j = .busy snap p →
    (∀ q, q <+: sched → ∃ snap p, (SharedState.run T w s q).phase j = .busy snap p) →
      (∃ p', (SharedState.run T w s sched).phase j = .busy snap p') ∧ (∀ k, s.phase k = .success → (SharedState.run T w s sched).phase k = .success) ∧
        ((SharedState.run T w s sched).tree = s.tree ∨ ∃ i, i ≠ j ∧ s.phase i ≠ .success ∧ (SharedState.run T w s sched).phase i = .success)
  | [], s, snap, p, h, _ => ⟨⟨p, h⟩, fun _ h => h, .inl rfl⟩
  | i :: is, s, snap, p, h, hb => by
    obtain ⟨c1, c2, c3⟩ := SharedState.step_cases T w s i
    obtain ⟨snap1, p1, h1⟩ := hb [i] (by simp)
    have h1' : (s.step T w i).phase j = .busy snap1 p1 := h1
    have e := c3 j snap p snap1 p1 h h1'
    subst e
    obtain ⟨d1, d2, d3⟩ := SharedState.run_tree T w j is (s.step T w i) snap1 p1 h1' fun q hq => hb (i :: q) (List.cons_prefix_cons.mpr ⟨rfl, hq⟩)
    refine ⟨d1, fun k hk => d2 k (c2 k hk), ?_⟩
    rcases d3 with d3 | ⟨k, hkj, hk, hk'⟩
    · rcases c1 with c1 | ⟨⟨a, b, hab⟩, c1⟩
      · exact .inl (d3.trans c1)
      · refine .inr ⟨i, fun e => ?_, fun e => ?_, d2 i c1⟩
        · rw [e] at c1 h1'
          rw [h1'] at c1
          cases c1
        · rw [hab] at e; cases e
    · exact .inr ⟨k, hkj, fun e => hk (c2 k e), hk'⟩

/-- **C106**: a client has to start again only because another one has succeeded in the meantime: if client `j` reads the register, is busy during the steps `sched` and has to start again with the next step, some other client has made its write between. -/
theorem c106_lockfree [DecidableEq F] (T : TreeOps F) (w : ℕ → F × F) (s : SharedState F) (j : ℕ) (sched : List ℕ) (hidle : s.phase j = .idle) :
    let s1 := s.step T w j
    let s2 := SharedState.run T w s1 sched
    (∀ q, q <+: sched → ∃ snap p, (SharedState.run T w s1 q).phase j = .busy snap p) → (s2.step T w j).phase j = .idle → ∃ i, i ≠ j ∧ s.phase i ≠ .success ∧ s2.phase i = .success := by
  intro s1 s2 hb hagain
  have hstep : s1 = { s with phase := Function.update s.phase j (.busy s.tree (updateP T s.tree (w j).1 (w j).2)) } := by
    change s.step T w j = _
    rw [SharedState.step, hidle]
  have h1 : s1.phase j = .busy s.tree (updateP T s.tree (w j).1 (w j).2) := by rw [hstep]; exact Function.update_self ..
  obtain ⟨⟨p', d1⟩, -, d3⟩ := SharedState.run_tree T w j sched s1 _ _ h1 hb
  rcases d3 with d3 | ⟨i, hij, hi, hi'⟩
  · exfalso
    have d1' : s2.phase j = .busy s.tree p' := d1
    have d3' : s2.tree = s.tree := d3.trans (by rw [hstep])
    rw [SharedState.step, d1'] at hagain
    cases p' with
    | get k f => simp at hagain
    | put k l q => simp at hagain
    | done r =>
      cases r with
      | error e => simp at hagain
      | ok t => simp [d3'] at hagain
  · refine ⟨i, hij, fun e => hi ?_, hi'⟩
    rw [hstep]
    simp only [Function.update_of_ne hij]
    exact e

/-! ### Non-vacuity -/

/-- The writes of two clients. -/
def demoWrites (i : ℕ) : Fr × Fr := if i = 0 then (2, 8) else (3, 5)

/-- All nodes that two clients can make. -/
def demoNodes : List (List Fr) := [[0, 0, 0, 0], [0, 7, 0, 0], [0, 7, 8, 0], [0, 7, 0, 5], [0, 7, 8, 5]]

theorem demoNodes_all : ∀ order : List ℕ, order.Nodup → (∀ i ∈ order, i < 2) → ∀ l ∈ historyLists (tree4 demoParams5).digest (tree4 demoParams5).arity 1 ([(1, 7)] ++ order.map demoWrites), l ∈ demoNodes
  | [], _, _ => by decide +kernel
  | [a], _, h => by
    have := h a (by simp)
    interval_cases a <;> decide +kernel
  | [a, b], hn, h => by
    have h1 := h a (by simp)
    have h2 := h b (by simp)
    interval_cases a <;> interval_cases b
    · simp at hn
    · decide +kernel
    · decide +kernel
    · simp at hn
  | a :: b :: c :: o, hn, h => by
    have h1 := h a (by simp)
    have h2 := h b (by simp)
    have h3 := h c (by simp)
    simp only [List.nodup_cons, List.mem_cons, not_or] at hn
    omega

theorem demoNodes_noCollision : NoCollision (tree4 demoParams5).digest demoNodes := by
  unfold NoCollision
  decide +kernel

/-- Two clients, every schedule: the hypotheses hold, and if both have succeeded the tree holds 7, 8 and 5, in whatever order they came. -/
example (t : SparseTree Fr) (db : HashDb (List Fr)) (hrun : runHistory (tree4 demoParams5) 1 HashDb.new [(1, 7)] = .ok (t, db)) (sched : List ℕ) (hsched : ∀ i ∈ sched, i < 2) :
    let s := SharedState.run (tree4 demoParams5) demoWrites ⟨db, t, fun _ => .idle⟩ sched
    ∃ order : List ℕ, order.Nodup ∧ (∀ i, i ∈ order ↔ s.phase i = .success) ∧ s.tree = ⟨1, rootOf (tree4 demoParams5).digest 4 1 (written (4 ^ 1) ([(1, 7)] ++ order.map demoWrites))⟩ := by
  obtain ⟨-, o, h1, h2, h3, -⟩ := c106_linearizable (tree4 demoParams5) demoParams5 demoParams5_valid 1 (.inl ⟨rfl, rfl, by decide⟩) HashDb.new [(1, 7)] t db hrun 2 demoWrites demoNodes demoNodes_noCollision demoNodes_all sched hsched
  exact ⟨o, h1, h2, h3⟩

/-- The first client, alone from the start, is done after four steps. -/
example (t : SparseTree Fr) (db : HashDb (List Fr)) (hrun : runHistory (tree4 demoParams5) 1 HashDb.new [(1, 7)] = .ok (t, db)) :
    (SharedState.run (tree4 demoParams5) demoWrites ⟨db, t, fun _ => .idle⟩ ([] ++ List.replicate 4 0)).phase 0 = .success :=
  c106_progress (tree4 demoParams5) demoParams5 demoParams5_valid 1 (.inl ⟨rfl, rfl, by decide⟩) HashDb.new [(1, 7)] t db hrun 2 demoWrites demoNodes demoNodes_noCollision demoNodes_all [] (by simp) 0 (by decide) rfl

/-- The history of the examples does run. -/
example : ∃ r, runHistory (tree4 demoParams5) 1 HashDb.new [((1 : Fr), (7 : Fr))] = .ok r := by
  obtain ⟨db, h, -⟩ := run_ok demoParams5_valid (T := tree4 demoParams5) (depth := 1) (.inl ⟨rfl, rfl, by decide⟩) HashDb.new [((1 : Fr), (7 : Fr))] fun a ha b hb =>
    demoNodes_noCollision a (demoNodes_all [] List.nodup_nil (by simp) a ha) b (demoNodes_all [] List.nodup_nil (by simp) b hb)
  exact ⟨_, h⟩

/-- When both have read the register before either has exchanged it, the second starts again and then succeeds. -/
example : (match runHistory (tree4 demoParams5) 1 HashDb.new [((1 : Fr), (7 : Fr))] with
    | .ok (t, db) =>
      let s := SharedState.run (tree4 demoParams5) demoWrites ⟨db, t, fun _ => .idle⟩ [0, 1, 0, 1, 0, 1, 0, 1]
      let s' := SharedState.run (tree4 demoParams5) demoWrites s [1, 1, 1, 1]
      (match s.phase 0, s.phase 1, s'.phase 1 with
        | .success, .idle, .success => true
        | _, _, _ => false)
    | .error _ => false) = true := by decide +kernel

/-- Is the client busy? -/
def isBusy : Phase Fr → Bool
  | .busy _ _ => true
  | _ => false

/-- Is it about to start? -/
def isIdle : Phase Fr → Bool
  | .idle => true
  | _ => false

theorem isBusy_iff (ph : Phase Fr) (h : isBusy ph = true) : ∃ snap p, ph = .busy snap p := by
  cases ph <;> simp_all [isBusy]

theorem isIdle_iff (ph : Phase Fr) (h : isIdle ph = true) : ph = .idle := by
  cases ph <;> simp_all [isIdle]

/-- There the second client meets the hypotheses of `c106_lockfree`: it reads the register after one step of the first, is busy during the next five steps, and has to start again. -/
example : ∃ (s : SharedState Fr) (sched : List ℕ), s.phase 1 = .idle ∧ (∀ q, q <+: sched → ∃ snap p, (SharedState.run (tree4 demoParams5) demoWrites (s.step (tree4 demoParams5) demoWrites 1) q).phase 1 = .busy snap p) ∧
    ((SharedState.run (tree4 demoParams5) demoWrites (s.step (tree4 demoParams5) demoWrites 1) sched).step (tree4 demoParams5) demoWrites 1).phase 1 = .idle := by
  have h : (match runHistory (tree4 demoParams5) 1 HashDb.new [((1 : Fr), (7 : Fr))] with
    | .ok (t, db) =>
      let s := SharedState.run (tree4 demoParams5) demoWrites ⟨db, t, fun _ => .idle⟩ [0]
      isIdle (s.phase 1) && ([0, 1, 0, 1, 0].inits.all fun q => isBusy ((SharedState.run (tree4 demoParams5) demoWrites (s.step (tree4 demoParams5) demoWrites 1) q).phase 1)) &&
        isIdle (((SharedState.run (tree4 demoParams5) demoWrites (s.step (tree4 demoParams5) demoWrites 1) [0, 1, 0, 1, 0]).step (tree4 demoParams5) demoWrites 1).phase 1)
    | .error _ => false) = true := by decide +kernel
  split at h
  · simp only [Bool.and_eq_true, List.all_eq_true] at h
    exact ⟨_, [0, 1, 0, 1, 0], isIdle_iff _ h.1.1, fun q hq => isBusy_iff _ (h.1.2 q ((List.mem_inits _ _).mpr hq)), isIdle_iff _ h.2⟩
  · cases h

end Bp
