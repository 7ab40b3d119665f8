import Verif.Spec.Flow
import Verif.Props.Gadgets.Randomizer

/-! # C104: the randomizer from beginning to end -/

set_option linter.unusedSectionVars false

namespace Bp
variable {F G : Type} [Field F] [AddCommGroup G] [Module F G] [ByteRep F]

theorem written_filling {N : ℕ} : ∀ {data : List F}, data.length ≤ N → data.length ≤ IntRep.order F → written N (filling data) = leavesOf data := by
  intro data
  induction data using List.reverseRecOn with
  | nil => intro _ _; funext i; simp [filling, written, leavesOf]
  | append_singleton data x ih =>
    intro h1 h2
    rw [List.length_append, List.length_singleton] at h1 h2
    funext i
    rw [filling, List.mapIdx_concat, written_snoc]
    simp only
    rw [IntRep.rep_cast _ (by omega), Nat.mod_eq_of_lt (by omega), show List.mapIdx (fun i x => ((i : F), x)) data = filling data from rfl, ih (by omega) (by omega)]
    simp only [leavesOf]
    split
    · next e => subst e; simp
    · next e =>
      rcases Nat.lt_or_gt_of_ne e with e | e
      · rw [List.getD_eq_getElem?_getD, List.getD_eq_getElem?_getD, List.getElem?_eq_none (by omega), List.getElem?_eq_none (by simp; omega)]
      · rw [List.getD_eq_getElem?_getD, List.getD_eq_getElem?_getD, List.getElem?_append_left e]

theorem written_listed {N : ℕ} (h : History F) (f : F → F) (k : ℕ) : ∀ {l : List F}, (∀ x ∈ l, IntRep.rep x < N) →
    ((∃ x ∈ l, IntRep.rep x = k) → written N (h ++ l.map fun x => (x, f x)) k = f (k : F)) ∧ ((∀ x ∈ l, IntRep.rep x ≠ k) → written N (h ++ l.map fun x => (x, f x)) k = written N h k) := by
  intro l
  induction l using List.reverseRecOn with
  | nil => intro _; simp
  | append_singleton l y ih =>
    intro hl
    obtain ⟨i1, i2⟩ := ih fun x hx => hl x (List.mem_append_left _ hx)
    have hy := hl y (by simp)
    rw [List.map_append, ← List.append_assoc, List.map_singleton, written_snoc]
    simp only
    rw [Nat.mod_eq_of_lt hy]
    by_cases e : IntRep.rep y = k
    · rw [if_pos e]
      exact ⟨fun _ => by rw [← e, IntRep.cast_rep], fun hn => absurd e (hn y (by simp))⟩
    · rw [if_neg e]
      refine ⟨fun ⟨x, hx, hk⟩ => i1 ⟨x, ?_, hk⟩, fun hn => i2 fun x hx => hn x (List.mem_append_left _ hx)⟩
      rcases List.mem_append.mp hx with hx | hx
      · exact hx
      · exact absurd ((List.mem_singleton.mp hx) ▸ hk) e

theorem collisionFree_prefix {T : TreeOps F} {depth : ℕ} {h h' : History F} (hc : T.CollisionFree depth h) (hp : h' <+: h) : T.CollisionFree depth h' := by
  have hin : ∀ l ∈ historyLists T.digest T.arity depth h', l ∈ historyLists T.digest T.arity depth h := fun l hl => by
    obtain ⟨h'', hp'', hl⟩ := List.mem_flatMap.mp hl
    exact List.mem_flatMap.mpr ⟨h'', (List.mem_inits _ _).mpr (((List.mem_inits _ _).mp hp'').trans hp), hl⟩
  exact fun a ha b hb => hc a (hin a ha) b (hin b hb)

section
variable {env env' : Env F G} [DecidableEq F]

/-- **C104**: for all data and every nonce, the steps of a client fit together: the tree is filled, the indices chosen by `get_indices_to_modify` are accepted by `get_randomized_data` (in any order), the updates with the randomized values
give the tree of the new data, undoing them gives back the original root, the new root is another one (unless all the values are mapped to themselves), and the proof that is made for the two trees with the old values is accepted. -/
theorem c104_flow [DecidableEq G] (hO : env.oracle = env'.oracle) (hne : ∀ l, env.oracle l ≠ 0) (p : PoseidonParams F) (hp : p.Valid) (hw : p.width = 5) (depth : ℕ) (h0 : depth ≠ 0) (hd : depth ≤ 4 * ByteRep.modBytes F)
    (shake : List UInt8 → ℕ → UInt8) (fromBytes hashMsg : List UInt8 → F) (limbBits : ℕ) (nonce : F) (data : List F) (count : ℕ) (hdata : data ≠ []) (ho : data.length < IntRep.order F) (hlimb : data.length ≤ 2 ^ limbBits)
    (hN : data.length ≤ 4 ^ depth) (db0 : HashDb (List F)) (g h : G) (coins : ℕ → F) :
    ∃ l, getIndicesToModify shake fromBytes nonce data.length count = .ok l ∧ ∀ l', l'.Perm l →
      ∃ modified new, getRandomizedData hashMsg limbBits data l' = .ok (modified, new) ∧ modified.map Prod.fst = l' ∧
        ((tree4 p).CollisionFree depth (filling data ++ randomizing hashMsg modified ++ modified) →
          ∃ t db t1 db1 t2 db2, runHistory (tree4 p) depth db0 (filling data) = .ok (t, db) ∧ runHistory (tree4 p) depth db0 (filling data ++ randomizing hashMsg modified) = .ok (t1, db1) ∧
            runHistory (tree4 p) depth db0 (filling data ++ randomizing hashMsg modified ++ modified) = .ok (t2, db2) ∧
            t.root = rootOf (tree4 p).digest 4 depth (leavesOf data) ∧ t1.root = rootOf (tree4 p).digest 4 depth (leavesOf new) ∧ t2.root = t.root ∧
            (t1.root = t.root → ∀ e ∈ modified, randomize hashMsg e.2 = e.2) ∧
            (nextPowerOfTwo (2 * (l.length * (depth * permGates SboxType.quint.gates p))) < 2 ^ 32 → (1 < 2 * (l.length * (depth * permGates SboxType.quint.gates p)) ∨ env'.batchInvert [] = .ok ([], 1)) →
              ∃ openings, EndToEnd env env' (2 * (l.length * (depth * permGates SboxType.quint.gates p))) openings
                (proveRandomizer env t db t1 db1 (modified.map Prod.fst) (modified.map Prod.snd) depth p .quint coins) (verifyRandomizer env' t1 db1 (modified.map Prod.fst) depth p .quint g h))) := by
  obtain ⟨l, e, h1, h2, h3⟩ := c47_indices shake fromBytes nonce data.length count (List.length_pos_iff.mpr hdata) ho
  refine ⟨l, e, fun l' hperm => ?_⟩
  have hl' : ∀ x ∈ l', IntRep.rep x < data.length := fun x hx => h3 x (hperm.mem_iff.mp hx)
  have hlN : ∀ x ∈ l', IntRep.rep x < 4 ^ depth := fun x hx => lt_of_lt_of_le (hl' x hx) hN
  obtain ⟨new, a1, a2, a3⟩ := c47_data hashMsg limbBits data l' (hperm.nodup_iff.mpr h2) hl' hlimb
  refine ⟨_, new, a1, by simp [Function.comp_def], fun hc => ?_⟩
  set modified := l'.map fun x => (x, data.getD (IntRep.rep x) 0) with hmod
  have hfst : modified.map Prod.fst = l' := by simp [hmod, Function.comp_def]
  have hsnd : modified.map Prod.snd = l'.map fun x => data.getD (IntRep.rep x) 0 := by simp [hmod, Function.comp_def]
  have hrnd : randomizing hashMsg modified = l'.map fun x => (x, randomize hashMsg (data.getD (IntRep.rep x) 0)) := by simp [hmod, randomizing, Function.comp_def]
  have hc1 := collisionFree_prefix hc (List.prefix_append _ modified)
  have hc0 := collisionFree_prefix hc1 (List.prefix_append _ (randomizing hashMsg modified))
  have hT : (tree4 p).IsTree p depth := .inl ⟨rfl, hw, hd⟩
  obtain ⟨db, r0, -⟩ := run_ok hp hT db0 _ hc0
  obtain ⟨db1, r1, -⟩ := run_ok hp hT db0 _ hc1
  obtain ⟨db2, r2, -⟩ := run_ok hp hT db0 _ hc
  have w0 : written (4 ^ depth) (filling data) = leavesOf data := written_filling hN ho.le
  have hrep : ∀ k, (∃ x ∈ l', IntRep.rep x = k) → IntRep.rep (k : F) = k := fun k ⟨x, _, hk⟩ => by rw [← hk, IntRep.cast_rep]
  have w1 : written (4 ^ depth) (filling data ++ randomizing hashMsg modified) = leavesOf new := by
    funext k
    rw [hrnd]
    obtain ⟨k1, k2⟩ := written_listed (N := 4 ^ depth) (filling data) (fun x => randomize hashMsg (data.getD (IntRep.rep x) 0)) k hlN
    by_cases hk : ∃ x ∈ l', IntRep.rep x = k
    · rw [k1 hk, hrep k hk]
      obtain ⟨x, hx, e⟩ := hk
      have hkl : k < data.length := e ▸ hl' x hx
      rw [leavesOf, a3 k hkl, if_pos ⟨by rw [← e, IntRep.cast_rep]; exact hx, by omega⟩]
      rfl
    · push Not at hk
      rw [k2 hk, w0, leavesOf, leavesOf]
      by_cases hkl : k < data.length
      · rw [a3 k hkl, if_neg fun hm => hk _ hm.1 (IntRep.rep_cast k hm.2)]
      · rw [List.getD_eq_getElem?_getD, List.getD_eq_getElem?_getD, List.getElem?_eq_none (by omega), List.getElem?_eq_none (by omega)]
  have w2 : written (4 ^ depth) (filling data ++ randomizing hashMsg modified ++ modified) = leavesOf data := by
    funext k
    obtain ⟨k1, k2⟩ := written_listed (N := 4 ^ depth) (filling data ++ randomizing hashMsg modified) (fun x => data.getD (IntRep.rep x) 0) k hlN
    by_cases hk : ∃ x ∈ l', IntRep.rep x = k
    · rw [hmod, k1 hk, hrep k hk, leavesOf]
    · push Not at hk
      rw [hmod, k2 hk, hrnd, (written_listed (N := 4 ^ depth) (filling data) (fun x => randomize hashMsg (data.getD (IntRep.rep x) 0)) k hlN).2 hk, w0]
  have v0 : rootOf (tree4 p).digest (tree4 p).arity depth (written ((tree4 p).arity ^ depth) (filling data)) = rootOf (tree4 p).digest 4 depth (leavesOf data) := by rw [← w0]; rfl
  have v1 : rootOf (tree4 p).digest (tree4 p).arity depth (written ((tree4 p).arity ^ depth) (filling data ++ randomizing hashMsg modified)) = rootOf (tree4 p).digest 4 depth (leavesOf new) := by rw [← w1]; rfl
  have v2 : rootOf (tree4 p).digest (tree4 p).arity depth (written ((tree4 p).arity ^ depth) (filling data ++ randomizing hashMsg modified ++ modified)) = rootOf (tree4 p).digest 4 depth (leavesOf data) := by rw [← w2]; rfl
  refine ⟨_, db, _, db1, _, db2, r0, r1, r2, v0, v1, v2.trans v0.symm, fun er => ?_, fun hsz hb => ?_⟩
  · rcases rootOf_binding (H := (tree4 p).digest) (A := (tree4 p).arity) depth _ _ er with hcon | ⟨a, ha, b, hb, hab, hh⟩
    · intro e he
      obtain ⟨x, hx, rfl⟩ := List.mem_map.mp he
      have := hcon (IntRep.rep x) (hlN x hx)
      have this' : written (4 ^ depth) (filling data ++ randomizing hashMsg modified) (IntRep.rep x) = written (4 ^ depth) (filling data) (IntRep.rep x) := this
      rw [hrnd, (written_listed (N := 4 ^ depth) (filling data) (fun x => randomize hashMsg (data.getD (IntRep.rep x) 0)) _ hlN).1 ⟨x, hx, rfl⟩, w0, IntRep.cast_rep] at this'
      exact this'
    · refine absurd (hc a ?_ b ?_ hh) hab
      · exact List.mem_flatMap.mpr ⟨_, (List.mem_inits _ _).mpr (List.prefix_append _ _), ha⟩
      · exact List.mem_flatMap.mpr ⟨_, (List.mem_inits _ _).mpr ((List.prefix_append _ _).trans (List.prefix_append _ _)), hb⟩
  · rw [hfst, hsnd]
    rw [← hperm.length_eq] at hsz hb ⊢
    obtain ⟨dt, -, f2, f3⟩ := c46_complete hO p hp hw depth h0 hd db0 db0 (filling data) (filling data ++ randomizing hashMsg modified) hc0 hc1 _ _ db db1 r0 r1 l' (fun i _ hn => by
      rw [hrnd]
      exact (written_listed (N := 4 ^ depth) (filling data) (fun x => randomize hashMsg (data.getD (IntRep.rep x) 0)) i hlN).2 fun x hx e => hn x hx (by rw [Nat.mod_eq_of_lt (hlN x hx), e])) g h coins none
    have f4 : dt.map Prod.fst = l'.map fun x => data.getD (IntRep.rep x) 0 := by
      rw [f2]
      refine List.map_congr_left fun x hx => ?_
      rw [Nat.mod_eq_of_lt (hlN x hx), w0, leavesOf]
    rw [f4] at f3
    exact ⟨_, f3.endToEnd hO hne hsz hb⟩

end

/-! ## The hypotheses are met -/

/-- A hash function for the example: the sum of the bytes plus 100. -/
def demoMsgHash (b : List UInt8) : Fr := (((b.map UInt8.toNat).sum + 100 : ℕ) : Fr)

/-- Three entries in a tree of depth 2; the indices 1 and 2 are chosen and taken in the other order. -/
example : ∃ t db t1 db1, runHistory (tree4 demoParams5) 2 HashDb.new (filling [7, 8, 9]) = .ok (t, db) ∧ runHistory (tree4 demoParams5) 2 HashDb.new (filling [7, 8, 9] ++ [(2, 109), (1, 108)]) = .ok (t1, db1) ∧ t1.root ≠ t.root ∧
    t1.root = rootOf (tree4 demoParams5).digest 4 2 (leavesOf [7, 108, 109]) ∧ ∃ openings, EndToEnd demoEnv demoEnv (2 * (2 * (2 * permGates SboxType.quint.gates demoParams5))) openings
      (proveRandomizer demoEnv t db t1 db1 [2, 1] [9, 8] 2 demoParams5 .quint fun j => (j : Fr)) (verifyRandomizer demoEnv t1 db1 [2, 1] 2 demoParams5 .quint (5 : Fr) 6) := by
  obtain ⟨l, e, k⟩ := c104_flow (env := demoEnv) (env' := demoEnv) rfl demoEnv_ne_zero demoParams5 demoParams5_valid rfl 2 (by decide) (by decide) (fun _ i => if i < ByteRep.modBytes Fr then 1 else 2)
    (fun b => ((b.headD 0).toNat : Fr)) demoMsgHash 58 3 [7, 8, 9] 2 (by simp) (by decide +kernel) (by decide) (by decide) HashDb.new (5 : Fr) 6 fun j => (j : Fr)
  have e' : getIndicesToModify (fun _ i => if i < ByteRep.modBytes Fr then 1 else 2) (fun b => ((b.headD 0).toNat : Fr)) 3 ([7, 8, 9] : List Fr).length 2 = .ok [1, 2] := by decide +kernel
  rw [e'] at e
  cases e
  obtain ⟨modified, new, h1, -, h2⟩ := k [2, 1] (List.Perm.swap 1 2 [])
  have h1' : getRandomizedData demoMsgHash 58 [7, 8, 9] [2, 1] = .ok ([(2, 9), (1, 8)], [7, 108, 109]) := by decide +kernel
  rw [h1'] at h1
  cases h1
  have hr : randomizing demoMsgHash [(2, 9), (1, 8)] = [(2, 109), (1, 108)] := by decide +kernel
  rw [hr] at h2
  obtain ⟨t, db, t1, db1, t2, db2, r0, r1, -, -, v1, -, hn, hp⟩ := h2 (by unfold TreeOps.CollisionFree NoCollision; decide +kernel)
  refine ⟨t, db, t1, db1, r0, r1, fun er => ?_, v1, hp (by decide +kernel) (.inl (by decide +kernel))⟩
  have := hn er (2, 9) (by simp)
  revert this
  decide +kernel

end Bp
