import Verif.Props.Gadgets.Randomizer
import Verif.Props.Gadgets.Untrusted

/-! # Lemmas for C103: the randomizer gadget with different databases -/

set_option linter.unusedSectionVars false

namespace Bp
variable {F G : Type} [Field F] [AddCommGroup G] [SMul F G]
variable {C : Type} {rnd : Bool} {α β γ δ : Type}

/-- Two programs make the same calls; if `lax`, the first one may stop with an error or a panic earlier. -/
inductive Prog.Ref (lax : Prop) (R : α → β → Prop) : Prog F C rnd α → Prog F C rnd β → Prop
  | ret {a b} (h : R a b) : Prog.Ref lax R (.ret a) (.ret b)
  | err (e) : Prog.Ref lax R (.err e) (.err e)
  | panic (w) : Prog.Ref lax R (.panic w) (.panic w)
  | laxErr (hl : lax) (e P) : Prog.Ref lax R (.err e) P
  | laxPanic (hl : lax) (w P) : Prog.Ref lax R (.panic w) P
  | multiply (l r) {k k'} (h : ∀ x, Prog.Ref lax R (k x) (k' x)) : Prog.Ref lax R (.multiply l r k) (.multiply l r k')
  | allocate (x) {k k'} (h : ∀ x, Prog.Ref lax R (k x) (k' x)) : Prog.Ref lax R (.allocate x k) (.allocate x k')
  | allocateMultiplier (x) {k k'} (h : ∀ x, Prog.Ref lax R (k x) (k' x)) : Prog.Ref lax R (.allocateMultiplier x k) (.allocateMultiplier x k')
  | constrain (lc) {k k'} (h : Prog.Ref lax R k k') : Prog.Ref lax R (.constrain lc k) (.constrain lc k')
  | specify (cb) {k k'} (h : Prog.Ref lax R k k') : Prog.Ref lax R (.specify cb k) (.specify cb k')
  | evaluateLc (lc) {k k'} (h : ∀ x, Prog.Ref lax R (k x) (k' x)) : Prog.Ref lax R (.evaluateLc lc k) (.evaluateLc lc k')
  | allocateSingle (x) {k k'} (h : ∀ x, Prog.Ref lax R (k x) (k' x)) : Prog.Ref lax R (.allocateSingle x k) (.allocateSingle x k')
  | challenge (hr) (l) {k k'} (h : ∀ x, Prog.Ref lax R (k x) (k' x)) : Prog.Ref lax R (.challenge hr l k) (.challenge hr l k')
  | simplify (lc) {k k'} (h : ∀ x, Prog.Ref lax R (k x) (k' x)) : Prog.Ref lax R (.simplify lc k) (.simplify lc k')

namespace Prog.Ref
variable {lax : Prop} {R : α → β → Prop}

theorem eq {P P' : Prog F C rnd α} (h : Prog.Ref False Eq P P') : P = P' := by
  induction h with
  | ret h => rw [h]
  | err e => rfl
  | panic w => rfl
  | laxErr hl => exact hl.elim
  | laxPanic hl => exact hl.elim
  | multiply l r _ ih => rw [funext ih]
  | allocate x _ ih => rw [funext ih]
  | allocateMultiplier x _ ih => rw [funext ih]
  | constrain lc _ ih => rw [ih]
  | specify cb _ ih => rw [ih]
  | evaluateLc lc _ ih => rw [funext ih]
  | allocateSingle x _ ih => rw [funext ih]
  | challenge hr l _ ih => rw [funext ih]
  | simplify lc _ ih => rw [funext ih]

theorem refl (P : Prog F C rnd α) : Prog.Ref lax Eq P P := by
  induction P with
  | ret a => exact .ret rfl
  | err e => exact .err e
  | panic w => exact .panic w
  | multiply l r _ ih => exact .multiply l r ih
  | allocate x _ ih => exact .allocate x ih
  | allocateMultiplier x _ ih => exact .allocateMultiplier x ih
  | constrain lc _ ih => exact .constrain lc ih
  | specify cb _ ih => exact .specify cb ih
  | evaluateLc lc _ ih => exact .evaluateLc lc ih
  | allocateSingle x _ ih => exact .allocateSingle x ih
  | challenge hr l _ ih => exact .challenge hr l ih
  | simplify lc _ ih => exact .simplify lc ih

theorem bind {S : γ → δ → Prop} {P : Prog F C rnd α} {P' : Prog F C rnd β} (h : Prog.Ref lax R P P') {f : α → Prog F C rnd γ} {f' : β → Prog F C rnd δ}
    (hf : ∀ a b, R a b → Prog.Ref lax S (f a) (f' b)) : Prog.Ref lax S (P >>= f) (P' >>= f') := by
  induction h with
  | ret h => exact hf _ _ h
  | err e => exact .err e
  | panic w => exact .panic w
  | laxErr hl => exact .laxErr hl _ _
  | laxPanic hl => exact .laxPanic hl _ _
  | multiply l r _ ih => exact .multiply l r ih
  | allocate x _ ih => exact .allocate x ih
  | allocateMultiplier x _ ih => exact .allocateMultiplier x ih
  | constrain lc _ ih => exact .constrain lc ih
  | specify cb _ ih => exact .specify cb ih
  | evaluateLc lc _ ih => exact .evaluateLc lc ih
  | allocateSingle x _ ih => exact .allocateSingle x ih
  | challenge hr l _ ih => exact .challenge hr l ih
  | simplify lc _ ih => exact .simplify lc ih

theorem mono {S : α → β → Prop} {P : Prog F C rnd α} {P' : Prog F C rnd β} (h : Prog.Ref lax R P P') (hS : ∀ a b, R a b → S a b) : Prog.Ref lax S P P' := by
  induction h with
  | ret h => exact .ret (hS _ _ h)
  | err e => exact .err e
  | panic w => exact .panic w
  | laxErr hl => exact .laxErr hl _ _
  | laxPanic hl => exact .laxPanic hl _ _
  | multiply l r _ ih => exact .multiply l r ih
  | allocate x _ ih => exact .allocate x ih
  | allocateMultiplier x _ ih => exact .allocateMultiplier x ih
  | constrain lc _ ih => exact .constrain lc ih
  | specify cb _ ih => exact .specify cb ih
  | evaluateLc lc _ ih => exact .evaluateLc lc ih
  | allocateSingle x _ ih => exact .allocateSingle x ih
  | challenge hr l _ ih => exact .challenge hr l ih
  | simplify lc _ ih => exact .simplify lc ih

/-- The same program first. -/
theorem bind' {S : γ → δ → Prop} (P : Prog F C rnd α) {f : α → Prog F C rnd γ} {f' : α → Prog F C rnd δ} (hf : ∀ a, Prog.Ref lax S (f a) (f' a)) : Prog.Ref lax S (P >>= f) (P >>= f') :=
  (refl P).bind fun a _ h => h ▸ hf a

theorem verifier {P P' : Prog F C rnd α} (h : Prog.Ref lax Eq P P') (env : Env F G) (onSpec : C → Verifier F G → Verifier F G) : ∀ {s : Verifier F G} {r : α × Verifier F G}, Verifier.run env onSpec P s = .ok r →
    Verifier.run env onSpec P' s = .ok r := by
  induction h with
  | ret h => rw [h]; exact id
  | err e => exact id
  | panic w => exact id
  | laxErr hl => intro s r h; cases h
  | laxPanic hl => intro s r h; cases h
  | multiply l r _ ih => exact ih _
  | allocate x _ ih => exact ih _
  | allocateMultiplier x _ ih => exact ih _
  | constrain lc _ ih => exact ih
  | specify cb _ ih => exact ih
  | evaluateLc lc _ ih => exact ih _
  | allocateSingle x _ ih => exact ih _
  | challenge hr l _ ih => exact ih _
  | simplify lc _ ih => exact ih _

end Prog.Ref

/-! ## Maps that agree except at the root -/

/-- The maps have the same entries, except perhaps for the empty key. -/
def NodeMap.Agree (m m' : NodeMap F) : Prop := ∀ k, k ≠ [] → m.get? k = m'.get? k

/-- As `NodeMap.Agree`, and if `b` for the empty key, too. -/
def NodeMap.AgreeIf (b : Prop) (m m' : NodeMap F) : Prop := ∀ k, (k ≠ [] ∨ b) → m.get? k = m'.get? k

theorem NodeMap.AgreeIf.insert {b : Prop} {m m' : NodeMap F} (h : m.AgreeIf b m') (key : List ℕ) (lc : LC F) : (m.insert key lc).AgreeIf (b ∨ key = []) (m'.insert key lc) := by
  intro k hk
  rw [NodeMap.get?_insert, NodeMap.get?_insert]
  split
  · rfl
  · next hne =>
    refine h k ?_
    rcases hk with hk | hk | hk
    · exact .inl hk
    · exact .inr hk
    · exact .inl fun e => hne (by rw [hk, e])

theorem NodeMap.Agree.insert {m m' : NodeMap F} (h : m.Agree m') (key : List ℕ) (lc : LC F) : (m.insert key lc).Agree (m'.insert key lc) := by
  intro k hk
  rw [NodeMap.get?_insert, NodeMap.get?_insert, h k hk]

theorem NodeMap.Agree.addChildren (pre : List ℕ) : ∀ (cs : List (F × ℕ)) {m m' : NodeMap F}, m.Agree m' → (addChildren pre cs m).Agree (Bp.addChildren pre cs m')
  | [], _, _, h => h
  | (c, k) :: cs, m, m', h => by
    rw [Bp.addChildren, Bp.addChildren, h (pre ++ [k]) (by simp)]
    split
    · exact NodeMap.Agree.addChildren pre cs h
    · exact NodeMap.Agree.addChildren pre cs (h.insert _ _)

theorem levelSiblings_agree {b : Prop} {m m' : NodeMap F} (h : m.AgreeIf b m') (path : List ℕ) (hp : path ≠ []) (j pj : ℕ) : ∀ ks, levelSiblings m path j pj ks = levelSiblings m' path j pj ks
  | [] => rfl
  | k :: ks => by
    rw [levelSiblings, levelSiblings, levelSiblings_agree h path hp j pj ks, NodeMap.index, NodeMap.index, h (path.set j k) (.inl (by simpa using hp))]

variable {lax : Prop}

theorem Prog.Ref.updatePath (depth : ℕ) (statics : List (LC F)) (p : PoseidonParams F) (synth : LC F → F → Prog F C rnd Var) : ∀ (n : ℕ) (path : List ℕ) (lc : LC F) {b : Prop} {m m' : NodeMap F}, path.length = n →
    m.AgreeIf b m' → Prog.Ref lax (NodeMap.AgreeIf (b ∨ 0 < n)) (Bp.updatePath depth statics p synth n path lc m) (Bp.updatePath depth statics p synth n path lc m')
  | 0, path, lc, b, m, m', _, h => by
    rw [Bp.updatePath, Bp.updatePath]
    exact .ret (by simpa using h)
  | j + 1, path, lc, b, m, m', hl, h => by
    rw [Bp.updatePath, Bp.updatePath]
    refine bind' _ fun pj => ?_
    rw [levelSiblings_agree h path (by intro e; simp [e] at hl) j pj]
    refine bind' _ fun nodes => bind' _ fun nodes => bind' _ fun hh => ?_
    have hl' : (path.eraseIdx j).length = j := by rw [List.length_eraseIdx_of_lt (by omega)]; omega
    have h1 : NodeMap.AgreeIf b (if j + 1 = depth then m.insert path lc else m) (if j + 1 = depth then m'.insert path lc else m') := by
      split
      · exact fun k hk => h.insert path lc k (hk.imp_right .inl)
      · exact h
    have := Prog.Ref.updatePath depth statics p synth j (path.eraseIdx j) hh hl' (h1.insert (path.eraseIdx j) hh)
    refine this.mono fun a c hac k _ => hac k ?_
    rcases Nat.eq_zero_or_pos j with e | e
    · exact .inr (.inl (.inr (List.length_eq_zero_iff.mp (by rw [hl', e]))))
    · exact .inr (.inr e)

variable [ByteRep F]

theorem getBase4Repr_length {x : F} {depth : ℕ} {path : List ℕ} (h : getBase4Repr x depth = .ok path) : path.length = depth ∧ path = digitsOf 4 depth (IntRep.rep x) := by
  rw [getBase4Repr, getBaseRepr] at h
  split at h
  · cases h
  · injection h with h
    rw [← h, baseLoop_digits, digitsOf_length]
    exact ⟨rfl, rfl⟩

theorem Prog.Ref.updateLoop4 {depth : ℕ} (hd : 0 < depth) (statics : List (LC F)) (p : PoseidonParams F) (synth : LC F → F → Prog F C rnd Var) : ∀ (is : List F) (vs : List Var) {b : Prop} {m m' : NodeMap F},
    m.AgreeIf b m' → Prog.Ref lax (NodeMap.AgreeIf (b ∨ is ≠ [])) (Bp.updateLoop4 depth statics p synth is vs m) (Bp.updateLoop4 depth statics p synth is vs m')
  | [], vs, b, m, m', h => by
    rw [Bp.updateLoop4, Bp.updateLoop4]
    exact .ret (by simpa using h)
  | i :: is, [], b, m, m', h => by
    rw [Bp.updateLoop4, Bp.updateLoop4]
    exact .panic _
  | i :: is, v :: vs, b, m, m', h => by
    rw [Bp.updateLoop4, Bp.updateLoop4]
    cases hp : getBase4Repr i depth with
    | error f =>
      cases f with
      | err e => exact .err e
      | panic w => exact .panic w
    | ok path =>
      refine (Prog.Ref.updatePath depth statics p synth depth path (LC.ofVar v) (getBase4Repr_length hp).1 h).bind fun a c hac => ?_
      exact (Prog.Ref.updateLoop4 hd statics p synth is vs hac).mono fun a c hac k _ => hac k (.inr (.inl (.inr hd)))

/-- Two results are alike; if `lax`, the first one may be an error. -/
def ResRef (lax : Prop) (R : α → β → Prop) (a : Res α) (b : Res β) : Prop := (∃ x y, a = .ok x ∧ b = .ok y ∧ R x y) ∨ (lax ∧ ∃ f, a = .error f)

theorem ResRef.prog {R : α → β → Prop} {a : Res α} {b : Res β} (h : ResRef lax R a b) : Prog.Ref (F := F) (C := C) (rnd := rnd) lax R (Prog.ofRes a) (Prog.ofRes b) := by
  rcases h with ⟨x, y, rfl, rfl, h⟩ | ⟨hl, f, rfl⟩
  · exact .ret h
  · cases f with
    | err e => exact .laxErr hl _ _
    | panic w => exact .laxPanic hl _ _

theorem Prog.Ref.origLoop {depth : ℕ} (origRoot : Var) {r r' : F} {db db' : HashDb (List F)} (statics : List (LC F)) (p : PoseidonParams F) (synth : LC F → F → Prog F C rnd Var) :
    ∀ (is : List F) (vs : List Var) (ps : List (List Var)) {m m' : NodeMap F},
    (∀ x ∈ is, ∀ path, getBase4Repr x depth = .ok path → ∀ m m' : NodeMap F, m.Agree m' → ResRef lax NodeMap.Agree (addNodes db path r [] m) (addNodes db' path r' [] m')) → m.Agree m' →
    Prog.Ref lax NodeMap.Agree (Bp.origLoop depth origRoot r db statics p synth is vs ps m) (Bp.origLoop depth origRoot r' db' statics p synth is vs ps m')
  | [], vs, ps, m, m', _, h => by
    rw [Bp.origLoop, Bp.origLoop]
    exact .ret h
  | i :: is, [], ps, m, m', _, h => by
    unfold Bp.origLoop
    exact .panic _
  | i :: is, v :: vs, [], m, m', _, h => by
    unfold Bp.origLoop
    exact .panic _
  | i :: is, v :: vs, nodes :: ps, m, m', hn, h => by
    rw [Bp.origLoop, Bp.origLoop]
    cases hp : getBase4Repr i depth with
    | error f =>
      cases f with
      | err e => exact .err e
      | panic w => exact .panic w
    | ok path =>
      refine bind' (origPath statics p synth path.reverse nodes (LC.ofVar v)) fun hh => bind' (Prog.con (hh.sub (LC.ofVar origRoot))) fun _ =>
        ((hn i List.mem_cons_self path hp m m' h).prog).bind fun a c hac => ?_
      exact Prog.Ref.origLoop origRoot statics p synth is vs ps (fun x hx => hn x (List.mem_cons_of_mem _ hx)) hac

/-- The gadget with two new trees and databases that look alike along the paths to the listed indices. -/
theorem Prog.Ref.randomizer {depth : ℕ} (hd : 0 < depth) (origRoot : Var) {r r' : F} {db db' : HashDb (List F)} {indices : List F} (hi : indices ≠ [])
    (hn : ∀ x ∈ indices, ∀ path, getBase4Repr x depth = .ok path → ∀ m m' : NodeMap F, m.Agree m' → ResRef lax NodeMap.Agree (addNodes db path r [] m) (addNodes db' path r' [] m'))
    (vs : List Var) (ps : List (List Var)) (statics : List Var) (p : PoseidonParams F) (synth : LC F → F → Prog F C rnd Var) :
    Prog.Ref lax Eq (randomizerGadget depth origRoot ⟨depth, r⟩ db indices vs ps statics p synth) (randomizerGadget depth origRoot ⟨depth, r'⟩ db' indices vs ps statics p synth) := by
  rw [randomizerGadget, randomizerGadget, if_neg (show ¬(⟨depth, r⟩ : SparseTree F).depth ≠ depth by simp), if_neg (show ¬(⟨depth, r'⟩ : SparseTree F).depth ≠ depth by simp)]
  split
  · exact .panic _
  · refine (Prog.Ref.origLoop (m := (NodeMap.mk []).insert [] (LC.ofScalar r)) (m' := (NodeMap.mk []).insert [] (LC.ofScalar r')) origRoot (statics.map LC.ofVar) p synth indices vs ps hn ?_).bind fun m m' hm => ?_
    · intro k hk
      rw [NodeMap.get?_insert, NodeMap.get?_insert, if_neg (Ne.symm hk), if_neg (Ne.symm hk)]
    · refine (Prog.Ref.updateLoop4 (b := False) hd (statics.map LC.ofVar) p synth indices vs fun k hk => hm k (hk.resolve_right id)).bind fun m m' hm => ?_
      rw [NodeMap.index, NodeMap.index, hm [] (.inr (.inr hi))]
      exact refl _

/-! ## Databases -/

/-- A database with more entries. -/
theorem addNodes_more {db db' : HashDb (List F)} (hsub : ∀ k l, db.get k = .ok l → db'.get k = .ok l) : ∀ (path : List ℕ) (cur : F) (pre : List ℕ) {m m' : NodeMap F}, m.Agree m' →
    ResRef True NodeMap.Agree (addNodes db path cur pre m) (addNodes db' path cur pre m')
  | [], cur, pre, m, m', h => .inl ⟨m, m', rfl, rfl, h⟩
  | pos :: path, cur, pre, m, m', h => by
    rw [addNodes, addNodes]
    cases hg : db.get (toBytes cur) with
    | error f => exact .inr ⟨trivial, _, rfl⟩
    | ok children =>
      rw [hsub _ _ hg]
      simp only [bind, Except.bind]
      cases idx children pos with
      | error f => exact .inr ⟨trivial, f, rfl⟩
      | ok next => exact addNodes_more hsub path next (pre ++ [pos]) (NodeMap.Agree.addChildren pre children.zipIdx h)

theorem ResRef.strict {R : α → β → Prop} {a : Res α} {b : Res β} (h : ResRef True R a b) {x : α} (ha : a = .ok x) : ResRef lax R a b := by
  rcases h with h | ⟨-, f, h⟩
  · exact .inl h
  · rw [h] at ha; cases ha

/-- With a database that holds the tree all nodes on a path are found. -/
theorem addNodes_total {H : List F → F} {db : HashDb (List F)} : ∀ (d : ℕ) (path : List ℕ) (c : ℕ → F) (pre : List ℕ) (m : NodeMap F), path.length = d → (∀ x ∈ path, x < 4) →
    (∀ l ∈ childLists H 4 d c, db.Has H l) → ∃ m', addNodes db path (rootOf H 4 d c) pre m = .ok m'
  | _, [], _, _, m, _, _, _ => ⟨m, rfl⟩
  | 0, _ :: _, _, _, _, hl, _, _ => by simp at hl
  | d + 1, pos :: path, c, pre, m, hl, hx, hdb => by
    have hg : db.get (toBytes (rootOf H 4 (d + 1) c)) = .ok (kids H 4 d c) := hdb _ (mem_childLists.mpr (.inl rfl))
    have hpos := hx pos List.mem_cons_self
    rw [addNodes, hg]
    simp only [bind, Except.bind]
    rw [idx_get.mpr (kids_get hpos)]
    exact addNodes_total d path _ _ _ (by simpa using hl) (fun x h => hx x (List.mem_cons_of_mem _ h)) fun l h => hdb l (mem_childLists.mpr (.inr ⟨pos, hpos, h⟩))

/-- With one entry more, the database of a tree serves another root as if it were that of the tree. -/
theorem addNodes_forged {H : List F → F} {db : HashDb (List F)} {d : ℕ} {c : ℕ → F} (hdb : ∀ l ∈ childLists H 4 (d + 1) c, db.Has H l) {r : F} (hnew : ∀ l, db.get (toBytes r) ≠ .ok l) {path : List ℕ} (hl : path.length = d + 1)
    (hx : ∀ x ∈ path, x < 4) {m m' : NodeMap F} (hm : m.Agree m') :
    ResRef lax NodeMap.Agree (addNodes db path (rootOf H 4 (d + 1) c) [] m) (addNodes (db.insert (toBytes r) (kids H 4 d c)) path r [] m') := by
  cases path with
  | nil => simp at hl
  | cons pos path =>
    obtain ⟨x, e⟩ := addNodes_total (d + 1) (pos :: path) c [] m hl hx hdb
    refine ResRef.strict ?_ e
    have hg : db.get (toBytes (rootOf H 4 (d + 1) c)) = .ok (kids H 4 d c) := hdb _ (mem_childLists.mpr (.inl rfl))
    rw [addNodes, addNodes, hg, HashDb.get_insert_self]
    simp only [bind, Except.bind]
    rw [idx_get.mpr (kids_get (hx pos List.mem_cons_self))]
    exact addNodes_more (get_insert_new hnew _) path _ _ (NodeMap.Agree.addChildren _ _ hm)

/-- A database without collisions can be completed to one that holds a given tree. -/
theorem complete_db {H : List F → F} {db : HashDb (List F)} (hdb : ∀ k l, db.get k = .ok l → k = toBytes (H l)) : ∀ (S : List (List F)), NoCollision H S → (∀ k l, db.get k = .ok l → ∀ l' ∈ S, H l = H l' → l = l') →
    ∃ db' : HashDb (List F), (∀ k l, db.get k = .ok l → db'.get k = .ok l) ∧ ∀ l ∈ S, db'.Has H l
  | [], _, _ => ⟨db, fun _ _ h => h, by simp⟩
  | l0 :: S, h1, h2 => by
    obtain ⟨db', k1, k2⟩ := complete_db hdb S (fun a ha b hb => h1 a (List.mem_cons_of_mem _ ha) b (List.mem_cons_of_mem _ hb)) fun k l h l' hl' => h2 k l h l' (List.mem_cons_of_mem _ hl')
    refine ⟨db'.insert (toBytes (H l0)) l0, fun k l h => ?_, fun l hl => ?_⟩
    · by_cases e : toBytes (H l0) = k
      · have := hdb k l h
        rw [← e, HashDb.get_insert_self, h2 k l h l0 List.mem_cons_self (toBytes_injective (this.symm.trans e.symm))]
      · rw [HashDb.get_insert_ne _ _ e]
        exact k1 k l h
    · rw [HashDb.Has]
      by_cases e : toBytes (H l0) = toBytes (H l)
      · rw [← e, HashDb.get_insert_self, h1 l0 List.mem_cons_self l hl (toBytes_injective e)]
      · rw [HashDb.get_insert_ne _ _ e]
        rcases List.mem_cons.mp hl with rfl | hl
        · exact absurd rfl e
        · exact k2 l hl

end Bp
