import Verif.Spec.Believed
import Verif.Lemmas.Gadgets.Believed

/-! # C103: the randomizer with a database that is not trusted -/

set_option linter.unusedSectionVars false

namespace Bp
variable {F G : Type} [Field F] [AddCommGroup G] [Module F G] [ByteRep F]

theorem forged_gadget {H : List F → F} {db : HashDb (List F)} {d : ℕ} {c : ℕ → F} (hdb : ∀ l ∈ childLists H 4 (d + 1) c, db.Has H l) {r : F} (hnew : ∀ l, db.get (toBytes r) ≠ .ok l) {indices : List F} (hi : indices ≠ [])
    {C : Type} {rnd : Bool} (origRoot : Var) (vs : List Var) (ps : List (List Var)) (statics : List Var) (p : PoseidonParams F) (synth : LC F → F → Prog F C rnd Var) :
    randomizerGadget (d + 1) origRoot ⟨d + 1, r⟩ (db.insert (toBytes r) (kids H 4 d c)) indices vs ps statics p synth = randomizerGadget (d + 1) origRoot ⟨d + 1, rootOf H 4 (d + 1) c⟩ db indices vs ps statics p synth := by
  refine (Prog.Ref.eq (Prog.Ref.randomizer (Nat.succ_pos d) origRoot hi (fun x _ path hp m m' hm => ?_) vs ps statics p synth)).symm
  obtain ⟨h1, h2⟩ := getBase4Repr_length hp
  exact addNodes_forged hdb hnew h1 (by rw [h2]; exact digitsOf_lt (by norm_num) _ _) hm

/-- **C103**: the verifier of a randomizer proof believes the database of the new tree: for every tree, every list of indices and *every* new root there is a database (the same for both sides) with which proving and verifying that the tree
with the new root differs from the original one at the listed indices only succeeds, whatever the new root is the root of. -/
theorem c103_believed [DecidableEq F] [DecidableEq G] {env env' : Env F G} (hO : env.oracle = env'.oracle) (hne : ∀ l, env.oracle l ≠ 0) (p : PoseidonParams F) (hp : p.Valid) (hw : p.width = 5) (depth : ℕ) (h0 : depth ≠ 0)
    (hd : depth ≤ 4 * ByteRep.modBytes F) (db0 : HashDb (List F)) (hist : History F) (hc : (tree4 p).CollisionFree depth hist) (t : SparseTree F) (db : HashDb (List F))
    (hrun : runHistory (tree4 p) depth db0 hist = .ok (t, db)) (r : F) (hnew : ∀ l, db.get (toBytes r) ≠ .ok l) (indices : List F) (hi : indices ≠ []) (g h : G) (coins : ℕ → F)
    (hsz : nextPowerOfTwo (2 * (indices.length * (depth * permGates SboxType.quint.gates p))) < 2 ^ 32)
    (hb : 1 < 2 * (indices.length * (depth * permGates SboxType.quint.gates p)) ∨ env'.batchInvert [] = .ok ([], 1)) :
    ∃ (newDb : HashDb (List F)) (data : List (F × List (List F))), List.Forall₂ (fun x e => t.get (tree4 p) x (some []) db = .ok (e.1, some e.2)) indices data ∧
      EndToEnd env env' (2 * (indices.length * (depth * permGates SboxType.quint.gates p))) ((t.root :: data.flatMap fun e => e.1 :: e.2.flatten).mapIdx fun j x => (x, coins j))
        (proveRandomizer env t db ⟨depth, r⟩ newDb indices (data.map Prod.fst) depth p .quint coins) (verifyRandomizer env' ⟨depth, r⟩ newDb indices depth p .quint g h) := by
  obtain ⟨data, h1, h2⟩ := c46_end_to_end hO hne p hp hw depth h0 hd db0 db0 hist hist hc hc t t db db hrun hrun indices (fun _ _ _ => rfl) g h coins hsz hb
  obtain ⟨db1, e, k⟩ := run_ok hp (T := tree4 p) (.inl ⟨rfl, hw, hd⟩) db0 hist hc
  rw [hrun] at e
  injection e with e; injection e with e1 e2
  subst e2
  obtain ⟨d, rfl⟩ : ∃ d, depth = d + 1 := ⟨depth - 1, by omega⟩
  have hdb : ∀ l ∈ childLists (tree4 p).digest 4 (d + 1) (written ((tree4 p).arity ^ (d + 1)) hist), db.Has (tree4 p).digest l := k hist List.prefix_rfl
  set newDb := db.insert (toBytes r) (kids (tree4 p).digest 4 d (written ((tree4 p).arity ^ (d + 1)) hist)) with hn
  have hf : ∀ (v : Var) (vs : List Var) (ps : List (List Var)) (statics : List Var), randomizerGadget (C := Callback F) (rnd := false) (d + 1) v ⟨d + 1, r⟩ newDb indices vs ps statics p SboxType.quint.synthesize =
      randomizerGadget (d + 1) v t db indices vs ps statics p SboxType.quint.synthesize := fun v vs ps statics => by
    rw [e1, hn]
    exact forged_gadget hdb hnew hi v vs ps statics p _
  refine ⟨newDb, data, h1, ?_⟩
  have e2 : proveRandomizer env t db ⟨d + 1, r⟩ newDb indices (data.map Prod.fst) (d + 1) p .quint coins = proveRandomizer env t db t db indices (data.map Prod.fst) (d + 1) p .quint coins := by
    unfold proveRandomizer
    simp only [hf]
  have e3 : verifyRandomizer env' ⟨d + 1, r⟩ newDb indices (d + 1) p .quint g h = verifyRandomizer env' t db indices (d + 1) p .quint g h := by
    funext coms
    unfold verifyRandomizer
    simp only [hf]
  rw [e2, e3]
  exact h2

theorem verifyRandomizer_more (env : Env F G) {db db' : HashDb (List F)} (hsub : ∀ k l, db.get k = .ok l → db'.get k = .ok l) (t : SparseTree F) (indices : List F) (depth : ℕ) (h0 : depth ≠ 0) (p : PoseidonParams F) (sbox : SboxType) (g h : G)
    (coms : List G) (s s' : Verifier F G) (hv : verifyRandomizer env t db indices depth p sbox g h coms s = (.ok (), s')) : verifyRandomizer env t db' indices depth p sbox g h coms s = (.ok (), s') := by
  by_cases ht : t.depth = depth
  swap
  · exact absurd hv (c46_other_depth env g h sbox p depth t ht db indices coms s s')
  obtain ⟨td, r⟩ := t
  simp only at ht
  subst ht
  unfold verifyRandomizer at hv ⊢
  obtain ⟨c1, s1, h1, hv⟩ := Drv.bind_ok.mp hv
  obtain ⟨v1, s2, h2, hv⟩ := Drv.bind_ok.mp hv
  obtain ⟨⟨vs, ps⟩, s3, h3, hv⟩ := Drv.bind_ok.mp hv
  obtain ⟨st, s4, h4, hv⟩ := Drv.bind_ok.mp hv
  refine Drv.bind_ok.mpr ⟨c1, s1, h1, Drv.bind_ok.mpr ⟨v1, s2, h2, Drv.bind_ok.mpr ⟨⟨vs, ps⟩, s3, h3, Drv.bind_ok.mpr ⟨st, s4, h4, ?_⟩⟩⟩⟩
  split at hv
  · rename_i root _ _
    by_cases hi : indices = []
    · subst hi
      exact hv
    · rw [Verifier.gadget_ok] at hv ⊢
      exact (Prog.Ref.randomizer (lax := True) (Nat.pos_of_ne_zero h0) root hi (fun x _ path _ m m' hm => addNodes_more hsub path r [] hm) vs ps st p sbox.synthesize).verifier env _ hv
  · obtain ⟨h, -⟩ := Drv.lift_ok.mp hv
    cases h

/-- **C103**: if the verifier checks each answer of the database, the statement is the one of C46, whoever provides the database and however incomplete it is: for a new tree with contents `c`, or there is a collision of the hash
function. -/
theorem c103_checked (env : Env F G) (g h : G) (sbox : SboxType) (hs : sbox ≠ .inverse) (p : PoseidonParams F) (depth : ℕ) (c : ℕ → F) (t : SparseTree F) (hr : t.root = rootOf (hasher4 p sbox).digest 4 depth c)
    (db : HashDb (List F)) (hdb : db.Checked (hasher4 p sbox).digest) (indices : List F) :
    SoundForWith (1 + indices.length * (1 + 3 * depth)) [0] [0] (verifyRandomizer env t db indices depth p sbox g h) (Randomized (hasher4 p sbox) depth c indices) ∨ DbCollision (hasher4 p sbox).digest 4 depth c db := by
  by_cases hcol : DbCollision (hasher4 p sbox).digest 4 depth c db
  · exact .inr hcol
  refine .inl ?_
  by_cases h0 : depth = 0
  · exact c46_sound env g h sbox hs p depth c t db hr (by subst h0; simp [childLists]) indices
  · obtain ⟨db', k1, k2⟩ := complete_db hdb (childLists (hasher4 p sbox).digest 4 depth c) (fun a ha b hb e => by_contra fun hne => hcol ⟨a, .inr ha, b, hb, hne, e⟩)
      fun k l hl l' hl' e => by_contra fun hne => hcol ⟨l, .inl ⟨k, hl⟩, l', hl', hne, e⟩
    intro coms s s' hv
    exact c46_sound env g h sbox hs p depth c t db' hr k2 indices coms s s' (verifyRandomizer_more env k1 t indices depth h0 p sbox g h coms s s' hv)

/-- What a database passes on with the checks is what it answered, and it hashes to the key. -/
theorem audited_get {H : List F → F} {db : HashDb (List F)} {k : List UInt8} {l : List F} (h : (db.audited H).get k = .ok l) : k = toBytes (H l) := by
  rw [HashDb.get] at h
  split at h
  · next e he =>
    cases h
    have h1 := List.find?_some he
    have h2 := List.mem_filter.mp (List.mem_of_find?_eq_some he)
    simp only [decide_eq_true_eq] at h1 h2
    rw [← h1]
    exact h2.2
  · cases h

/-- **C103** for every database whatever: a verifier that puts the checks around it is safe. -/
theorem c103_audited (env : Env F G) (g h : G) (sbox : SboxType) (hs : sbox ≠ .inverse) (p : PoseidonParams F) (depth : ℕ) (c : ℕ → F) (t : SparseTree F) (hr : t.root = rootOf (hasher4 p sbox).digest 4 depth c)
    (db : HashDb (List F)) (indices : List F) :
    SoundForWith (1 + indices.length * (1 + 3 * depth)) [0] [0] (verifyRandomizer env t (db.audited (hasher4 p sbox).digest) indices depth p sbox g h) (Randomized (hasher4 p sbox) depth c indices) ∨
      DbCollision (hasher4 p sbox).digest 4 depth c (db.audited (hasher4 p sbox).digest) :=
  c103_checked env g h sbox hs p depth c t hr _ (fun _ _ hk => audited_get hk) indices

/-- The checks change nothing for an honest database. -/
theorem c103_transparent (H : List F → F) (db : HashDb (List F)) (hdb : db.Checked H) (k : List UInt8) : (db.audited H).get k = db.get k := by
  have hh : ∀ l, db.get k = .ok l → k = toBytes (H l) := fun l hl => hdb k l hl
  rw [HashDb.get] at hh
  rw [HashDb.get, HashDb.get, HashDb.audited]
  simp only [List.find?_filter]
  revert hh
  induction db.db with
  | nil => intro _; rfl
  | cons e es ih =>
    intro hh
    by_cases e1 : e.1 = k
    · have : e.1 = toBytes (H e.2) := by
        rw [e1]
        exact hh e.2 (by simp [e1])
      rw [List.find?_cons_of_pos (by simp [e1] at this ⊢; exact this), List.find?_cons_of_pos (by simp [e1])]
    · rw [List.find?_cons_of_neg (by simp [e1]), List.find?_cons_of_neg (by simp [e1])]
      rw [List.find?_cons_of_neg (by simp [e1])] at hh
      exact ih hh

/-! ## The databases of the crate pass the checks -/

theorem HashDb.Checked.insert {H : List F → F} {db : HashDb (List F)} (h : db.Checked H) (l : List F) : (db.insert (toBytes (H l)) l).Checked H := by
  intro k l' hl
  by_cases e : toBytes (H l) = k
  · rw [← e, HashDb.get_insert_self] at hl
    cases hl
    exact e.symm
  · rw [HashDb.get_insert_ne _ _ e] at hl
    exact h k l' hl

theorem digest_of_hash {T : TreeOps F} {l : List F} {x : F} (h : T.hash l = .ok x) : T.digest l = x := by
  simp [TreeOps.digest, h]

theorem newLoop_checked {T : TreeOps F} : ∀ (n : ℕ) (prev : F) (db : HashDb (List F)) (r : F × HashDb (List F)), db.Checked T.digest → SparseTree.newLoop T n prev db = .ok r → r.2.Checked T.digest
  | 0, prev, db, r, hdb, h => by
    cases h
    exact hdb
  | n + 1, prev, db, r, hdb, h => by
    rw [SparseTree.newLoop] at h
    obtain ⟨new, h1, h⟩ := res_bind_ok.mp h
    have := hdb.insert (List.replicate T.arity prev)
    rw [digest_of_hash h1] at this
    exact newLoop_checked n new _ r this h

theorem updateLoop_checked {T : TreeOps F} : ∀ (ds : List ℕ) (sides : List (List F)) (cur : F) (db : HashDb (List F)) (r : F × HashDb (List F)), db.Checked T.digest → SparseTree.updateLoop T ds sides cur db = .ok r →
    r.2.Checked T.digest
  | [], sides, cur, db, r, hdb, h => by
    cases h
    exact hdb
  | d :: ds, sides, cur, db, r, hdb, h => by
    rw [SparseTree.updateLoop] at h
    split at h
    · cases h
    · obtain ⟨l, h1, h⟩ := res_bind_ok.mp h
      split at h
      · cases h
      · obtain ⟨x, h2, h⟩ := res_bind_ok.mp h
        have := hdb.insert l
        rw [digest_of_hash h2] at this
        exact updateLoop_checked ds _ x _ r this h

theorem update_checked {T : TreeOps F} {t : SparseTree F} {i v : F} {db : HashDb (List F)} {r : F × SparseTree F × HashDb (List F)} (hdb : db.Checked T.digest) (h : t.update T i v db = .ok r) : r.2.2.Checked T.digest := by
  rw [SparseTree.update] at h
  obtain ⟨⟨x, pf⟩, h1, h⟩ := res_bind_ok.mp h
  cases pf with
  | none => cases h
  | some pf =>
    obtain ⟨path, h2, h⟩ := res_bind_ok.mp h
    obtain ⟨⟨cur, db'⟩, h3, h⟩ := res_bind_ok.mp h
    cases h
    exact updateLoop_checked _ _ _ _ _ hdb h3

/-- **C103**: the checks refuse no honest database: whatever a tree stores in a database that passes them leaves it so. -/
theorem c103_honest (T : TreeOps F) (depth : ℕ) (db0 : HashDb (List F)) (h0 : db0.Checked T.digest) (hist : History F) (t : SparseTree F) (db : HashDb (List F)) (hrun : runHistory T depth db0 hist = .ok (t, db)) : db.Checked T.digest := by
  rw [runHistory] at hrun
  obtain ⟨s, h1, h⟩ := res_bind_ok.mp hrun
  have hs : s.2.Checked T.digest := by
    rw [SparseTree.new] at h1
    obtain ⟨r, h2, h1⟩ := res_bind_ok.mp h1
    cases h1
    exact newLoop_checked _ _ _ _ h0 h2
  clear h1 hrun
  induction hist generalizing s with
  | nil => cases h; exact hs
  | cons w ws ih =>
    rw [List.foldlM_cons] at h
    obtain ⟨s', h2, h⟩ := res_bind_ok.mp h
    obtain ⟨r, h3, h2⟩ := res_bind_ok.mp h2
    cases h2
    exact ih _ h (update_checked hs h3)

/-! ## The hypotheses are met -/

/-- A new root that belongs to other contents everywhere (all 16 leaves hold 5): the verifier accepts that only the leaf 3 has changed. -/
example : ∃ (t : SparseTree Fr) (db newDb : HashDb (List Fr)) (data : List (Fr × List (List Fr))), runHistory (tree4 demoParams5) 2 HashDb.new demoHistory = .ok (t, db) ∧
    EndToEnd demoEnv demoEnv (2 * (1 * (2 * permGates SboxType.quint.gates demoParams5))) ((t.root :: data.flatMap fun e => e.1 :: e.2.flatten).mapIdx fun j x => (x, (j : Fr)))
      (proveRandomizer demoEnv t db ⟨2, rootOf (tree4 demoParams5).digest 4 2 fun _ => 5⟩ newDb [3] (data.map Prod.fst) 2 demoParams5 .quint fun j => (j : Fr))
      (verifyRandomizer demoEnv ⟨2, rootOf (tree4 demoParams5).digest 4 2 fun _ => 5⟩ newDb [3] 2 demoParams5 .quint 5 6) := by
  have hT : (tree4 demoParams5).IsTree demoParams5 2 := .inl ⟨rfl, rfl, by decide⟩
  obtain ⟨db, e, -⟩ := run_ok demoParams5_valid hT HashDb.new demoHistory demo_collisionFree
  have key : (match runHistory (tree4 demoParams5) 2 HashDb.new demoHistory with
      | .ok r => (match r.2.get (toBytes (rootOf (tree4 demoParams5).digest 4 2 fun _ => (5 : Fr))) with | .ok _ => false | .error _ => true)
      | .error _ => false) = true := by decide +kernel
  rw [e] at key
  obtain ⟨newDb, data, -, h⟩ := c103_believed (env := demoEnv) (env' := demoEnv) rfl demoEnv_ne_zero demoParams5 demoParams5_valid rfl 2 (by decide) (by decide) HashDb.new demoHistory demo_collisionFree _ db e
    (rootOf (tree4 demoParams5).digest 4 2 fun _ => 5) (fun l hl => by
      simp only at key
      rw [hl] at key
      cases key) [3] (by simp) (5 : Fr) 6 (fun j => (j : Fr)) (by decide +kernel) (.inl (by decide +kernel))
  exact ⟨_, db, newDb, data, e, h⟩

/-- The database of the crate passes the checks, and then the statement is sound. -/
example : ∃ (t : SparseTree Fr) (db : HashDb (List Fr)), runHistory (tree4 demoParams5) 2 HashDb.new demoHistory = .ok (t, db) ∧ db.Checked (tree4 demoParams5).digest ∧
    (SoundForWith (1 + 2 * 7) [0] [0] (verifyRandomizer demoEnv t db [14, 1] 2 demoParams5 .quint (5 : Fr) 6) (Randomized (tree4 demoParams5) 2 (written 16 demoHistory) [14, 1]) ∨
      DbCollision (tree4 demoParams5).digest 4 2 (written 16 demoHistory) db) := by
  have hT : (tree4 demoParams5).IsTree demoParams5 2 := .inl ⟨rfl, rfl, by decide⟩
  obtain ⟨db, e, -⟩ := run_ok demoParams5_valid hT HashDb.new demoHistory demo_collisionFree
  have hc := c103_honest (tree4 demoParams5) 2 HashDb.new (fun k l h => by cases h) demoHistory _ db e
  exact ⟨_, db, e, hc, c103_checked demoEnv 5 6 .quint (by decide) demoParams5 2 (written 16 demoHistory) _ rfl db hc [14, 1]⟩

/-- The checks pass on the children of the root of a tree of the crate, and not the children of another node under the name of that root. -/
example : ∃ (t : SparseTree Fr) (db : HashDb (List Fr)), runHistory (tree4 demoParams5) 2 HashDb.new demoHistory = .ok (t, db) ∧ (∃ l, (db.audited (tree4 demoParams5).digest).get (toBytes t.root) = .ok l) ∧
    ∀ l, ((db.insert (toBytes t.root) [1, 2, 3, 4]).audited (tree4 demoParams5).digest).get (toBytes t.root) ≠ .ok l := by
  have hT : (tree4 demoParams5).IsTree demoParams5 2 := .inl ⟨rfl, rfl, by decide⟩
  obtain ⟨db, e, k⟩ := run_ok demoParams5_valid hT HashDb.new demoHistory demo_collisionFree
  have hc := c103_honest (tree4 demoParams5) 2 HashDb.new (fun k l h => by cases h) demoHistory _ db e
  refine ⟨_, db, e, ⟨_, (c103_transparent _ db hc _).trans (k demoHistory List.prefix_rfl _ (mem_childLists.mpr (.inl rfl)))⟩, fun l hl => ?_⟩
  have key : toBytes (rootOf (tree4 demoParams5).digest (tree4 demoParams5).arity 2 (written ((tree4 demoParams5).arity ^ 2) demoHistory)) ≠ toBytes ((tree4 demoParams5).digest [1, 2, 3, 4]) := by decide +kernel
  rw [HashDb.get] at hl
  split at hl
  · next e he =>
    have h1 := List.find?_some he
    have h2 := List.mem_filter.mp (List.mem_of_find?_eq_some he)
    simp only [decide_eq_true_eq, HashDb.insert, List.mem_cons, List.mem_filter, ne_eq] at h1 h2
    rcases h2 with ⟨rfl | h2, h3⟩
    · exact key h3
    · exact h2.2 h1
  · cases hl

end Bp
