import Verif.Lemmas.Gadgets.Randomizer

set_option linter.unusedSectionVars false
set_option linter.unusedSimpArgs false

/-! # Completeness of the randomizer gadget -/

namespace Bp
variable {F G : Type} [Field F] [AddCommGroup G] [Module F G]
variable {C C' : Type} {rnd : Bool} {α β : Type}
variable {env : Env F G} {σ : Assignment F} {onSpec : C → Prover F G → Prover F G}

/-! ## The prover -/

theorem forall₂_insertIdx {R : α → β → Prop} : ∀ {l : List α} {m : List β}, List.Forall₂ R l m → ∀ {a : α} {b : β}, R a b → ∀ k, List.Forall₂ R (l.insertIdx k a) (m.insertIdx k b)
  | [], [], _, a, b, h, 0 => by simpa using h
  | [], [], _, a, b, h, k + 1 => by simp
  | x :: l, y :: m, hf, a, b, h, 0 => by simpa using ⟨h, by simpa using hf⟩
  | x :: l, y :: m, .cons hx hf, a, b, h, k + 1 => by
    rw [List.insertIdx_succ_cons, List.insertIdx_succ_cons]
    exact .cons hx (forall₂_insertIdx hf h k)

theorem PS.origPath {sbox : SboxType} (hs : sbox ≠ .inverse) {p : PoseidonParams F} (hp : p.Valid) (hw : p.width = 5) {z : LC F} : ∀ (path : List ℕ) {q : Prover F G} {nodes : List Var} {xs : List F} {cur : LC F} {x : F},
    q.Good → q.Has z 0 → (∀ d ∈ path, d < 4) → nodes.length = 3 * path.length → List.Forall₂ q.HasV nodes xs → q.Has cur x →
    PS env onSpec q (origPath [z] p sbox.synthesize path nodes cur : Prog F C rnd _) fun l q' => q.Next q' ∧
      q'.Has l (merkleRoot (hasher4 p sbox).digest (path.reverse.zip (groups 3 path.length xs)) x)
  | [], q, nodes, xs, cur, x, hg, _, _, _, _, hc => PS.pure ⟨.refl hg, by simpa [merkleRoot] using hc⟩
  | pos :: path, q, nodes, xs, cur, x, hg, hz, hd, hl, hn, hc => by
    rw [List.length_cons] at hl
    have hxl := hn.length_eq
    unfold Bp.origPath
    have hsplit := (List.take_append_drop (3 * path.length) nodes).symm
    have hsplit' := (List.take_append_drop (3 * path.length) xs).symm
    have h3 : (nodes.drop (3 * path.length)).length = 3 := by rw [List.length_drop]; omega
    have h3' : (xs.drop (3 * path.length)).length = 3 := by rw [List.length_drop]; omega
    have hpos := hd pos (by simp)
    rw [popNodes_eq hsplit h3]
    refine PS.bind (PS.pure (Q := fun a p' => a = (nodes.take (3 * path.length), nodes.drop (3 * path.length)) ∧ p' = q) ⟨rfl, rfl⟩) ?_
    rintro _ p1 ⟨rfl, e⟩
    rw [e]
    have hv : vecInsert ((nodes.drop (3 * path.length)).map LC.ofVar) pos cur = .ok (((nodes.drop (3 * path.length)).map LC.ofVar).insertIdx pos cur) := by
      rw [vecInsert, if_pos (by rw [List.length_map, h3]; omega)]
    simp only [hv]
    refine PS.bind (PS.ofRes _) ?_
    rintro _ p2 ⟨rfl, e⟩
    rw [e]
    have hf : List.Forall₂ q.Has (((nodes.drop (3 * path.length)).map LC.ofVar).insertIdx pos cur) ((xs.drop (3 * path.length)).insertIdx pos x) := by
      refine forall₂_insertIdx ?_ hc pos
      rw [List.forall₂_map_left_iff]
      exact (List.forall₂_drop _ hn).imp fun _ _ h => .ofVar h
    refine PS.bind (PS.hash4 hs hp hw hg hz (xs := (xs.drop (3 * path.length)).insertIdx pos x) (by rw [List.length_insertIdx_of_le_length (by omega), h3']) hf) ?_
    rintro h q1 ⟨n1, hh⟩
    refine (PS.origPath hs hp hw path n1.good (hz.next hg n1) (fun d hx => hd d (by simp [hx])) (by rw [List.length_take]; omega)
      ((List.forall₂_take _ hn).imp fun _ _ hx => hx.next hg n1) hh).mono ?_
    rintro l q2 ⟨n2, hl2⟩
    refine ⟨n1.trans n2, ?_⟩
    have : merkleRoot (hasher4 p sbox).digest ((pos :: path).reverse.zip (groups 3 (pos :: path).length xs)) x =
        merkleRoot (hasher4 p sbox).digest (path.reverse.zip (groups 3 path.length (xs.take (3 * path.length)))) ((hasher4 p sbox).digest ((xs.drop (3 * path.length)).insertIdx pos x)) := by
      conv_lhs => rw [hsplit', List.length_cons, groups_snoc _ _ _ (by rw [List.length_take]; omega) h3', List.reverse_cons, List.zip_append (by simp [groups_length]),
        merkleRoot_append]
      rfl
    rw [this]
    exact hl2

theorem PS.updatePath {sbox : SboxType} (hs : sbox ≠ .inverse) {p : PoseidonParams F} (hp : p.Valid) (hw : p.width = 5) {z : LC F} {depth r : ℕ} {c : ℕ → F} : ∀ (n : ℕ) {q : Prover F G} {lc : LC F} {m : NodeMap F},
    q.Good → q.Has z 0 → n ≤ depth → m.Covers (digitsOf 4 depth r) → UInv q.Has depth r (nodeAt (hasher4 p sbox).digest depth c) n lc m →
    PS env onSpec q (updatePath depth [z] p sbox.synthesize n ((digitsOf 4 depth r).take n) lc m : Prog F C rnd _) fun m' q' => q.Next q' ∧ m.Sub m' ∧
      ∃ lc', UInv q'.Has depth r (nodeAt (hasher4 p sbox).digest depth c) 0 lc' m'
  | 0, q, lc, m, hg, _, _, _, h => PS.pure ⟨.refl hg, .refl _, lc, h⟩
  | j + 1, q, lc, m, hg, hz, hn, hcov, h => by
    unfold Bp.updatePath
    have hlen : j < (digitsOf 4 depth r).length := by rw [digitsOf_length]; exact hn
    have hpj : ((digitsOf 4 depth r).take (j + 1))[j]? = some (digitsOf 4 depth r)[j] := by rw [List.getElem?_take_of_succ, List.getElem?_eq_getElem hlen]
    have hlt : (digitsOf 4 depth r)[j] < 4 := digitsOf_lt (by norm_num) depth r _ (List.getElem_mem hlen)
    refine PS.bind (PS.index hpj) ?_
    rintro _ p1 ⟨rfl, e⟩
    rw [e]
    obtain ⟨L, hL⟩ := levelSiblings_defined (m := m) (path := (digitsOf 4 depth r).take (j + 1)) (j := j) (pj := (digitsOf 4 depth r)[j]) (ks := List.range 4) (by
      intro k hk
      rw [take_set hlen]
      exact hcov j hlen k (List.mem_range.mp hk))
    have hLl : L.length = 3 := by
      have := (levelSiblings_ok hL).length_eq
      generalize (digitsOf 4 depth r)[j] = pj at hlt this
      rw [← this]
      interval_cases pj <;> decide
    have hv : vecInsert L (digitsOf 4 depth r)[j] lc = .ok (L.insertIdx (digitsOf 4 depth r)[j] lc) := by
      rw [vecInsert, if_pos (by omega)]
    rw [hL]
    refine PS.bind (PS.ofRes _) ?_
    rintro _ p2 ⟨rfl, e⟩
    rw [e, hv]
    refine PS.bind (PS.ofRes _) ?_
    rintro _ p3 ⟨rfl, e⟩
    rw [e]
    have hch := h.children hn (by rw [List.getElem?_eq_getElem hlen]) hL hv
    refine PS.bind (PS.hash4 hs hp hw hg hz (by simp) hch) ?_
    rintro h' q1 ⟨n1, hh⟩
    rw [take_erase hlen]
    have hk := nodeAt_kids (H := (hasher4 p sbox).digest) (c := c) (depth := depth) (key := (digitsOf 4 depth r).take j) (by simp [digitsOf_length]; omega)
    rw [← hk] at hh
    have hsub : m.Sub ((if j + 1 = depth then m.insert ((digitsOf 4 depth r).take (j + 1)) lc else m).insert ((digitsOf 4 depth r).take j) h') := by
      refine NodeMap.Sub.trans ?_ (NodeMap.sub_insert _ _ _)
      split
      · exact NodeMap.sub_insert _ _ _
      · exact .refl _
    refine (PS.updatePath hs hp hw j n1.good (hz.next hg n1) (by omega) (hcov.sub hsub) (h.step (fun _ _ hx => hx.next hg n1) hn hh)).mono ?_
    rintro m' q2 ⟨n2, hs2, h2⟩
    exact ⟨n1.trans n2, hsub.trans hs2, h2⟩

section loops
variable [ByteRep F]

theorem MapInv.mono {R R' : LC F → F → Prop} (hR : ∀ l x, R l x → R' l x) {depth : ℕ} {val : List ℕ → F} {m : NodeMap F} (h : MapInv R depth val m) : MapInv R' depth val m := fun k l hk =>
  ⟨(h k l hk).1, (h k l hk).2.1, hR _ _ (h k l hk).2.2⟩

theorem PS.origLoop {sbox : SboxType} (hs : sbox ≠ .inverse) {p : PoseidonParams F} (hp : p.Valid) (hw : p.width = 5) {z : LC F} {depth : ℕ} (hd : getByteSize depth 4 ≤ ByteRep.modBytes F) {c : ℕ → F} {root : F}
    {db : HashDb (List F)} {rv : Var} (hdb : ∀ l ∈ childLists (hasher4 p sbox).digest 4 depth c, db.Has (hasher4 p sbox).digest l) :
    ∀ (orig : List (F × F × List F)) {q : Prover F G} {vs : List Var} {proofs : List (List Var)} {m : NodeMap F}, q.Good → q.Has z 0 → q.HasV rv root →
      (∀ e ∈ orig, e.2.2.length = 3 * depth ∧ merkleRoot (hasher4 p sbox).digest ((digitsOf 4 depth (IntRep.rep e.1)).zip (groups 3 depth e.2.2)) e.2.1 = root) →
      List.Forall₂ (fun v e => q.HasV v e.2.1) vs orig → List.Forall₂ (fun ns e => List.Forall₂ q.HasV ns e.2.2) proofs orig →
      MapInv q.Has depth (nodeAt (hasher4 p sbox).digest depth c) m →
      PS env onSpec q (origLoop depth rv (rootOf (hasher4 p sbox).digest 4 depth c) db [z] p sbox.synthesize (orig.map Prod.fst) vs proofs m : Prog F C rnd _) fun m' q' => q.Next q' ∧ m.Sub m' ∧
        MapInv q'.Has depth (nodeAt (hasher4 p sbox).digest depth c) m' ∧ ∀ e ∈ orig, m'.Covers (digitsOf 4 depth (IntRep.rep e.1))
  | [], q, _, _, m, hg, _, _, _, .nil, .nil, hm => by
    rw [List.map_nil]
    unfold Bp.origLoop
    exact PS.pure ⟨.refl hg, .refl _, hm, by simp⟩
  | (x, y, ns) :: orig, q, v :: vs, nv :: proofs, m, hg, hz, hr, ho, .cons hv hvs, .cons hn hns, hm => by
    rw [List.map_cons]
    unfold Bp.origLoop
    rw [show getBase4Repr x depth = .ok (digitsOf 4 depth (IntRep.rep x)) from getBaseRepr_ok hd]
    refine PS.bind (PS.ofRes _) ?_
    rintro _ p1 ⟨rfl, e⟩
    rw [e]
    obtain ⟨o1, o2⟩ := ho _ (List.mem_cons_self ..)
    simp only at o1 o2 hv hn
    refine PS.bind (PS.origPath hs hp hw _ hg hz (fun d hx => digitsOf_lt (by norm_num) _ _ d (List.mem_reverse.mp hx)) (by rw [List.length_reverse, digitsOf_length, hn.length_eq, o1]) hn (.ofVar hv)) ?_
    rintro h q1 ⟨n1, hh⟩
    rw [List.length_reverse, digitsOf_length, List.reverse_reverse, o2] at hh
    refine PS.bind (PS.con n1.good ((hh.sub (.ofVar (hr.next hg n1))).congr (sub_self _))) fun _ q2 n2 => ?_
    have hm2 : MapInv q2.Has depth (nodeAt (hasher4 p sbox).digest depth c) m := hm.mono fun l x hx => (hx.next hg n1).next n1.good n2
    obtain ⟨m2, a1, a2, a3, a4⟩ := addNodes_ok (R := q2.Has) (fun x => .ofScalar x) (H := (hasher4 p sbox).digest) (db := db) (c := c) (digitsOf 4 depth (IntRep.rep x)) [] m
      (by simp [digitsOf_length]) (by simp) (digitsOf_lt (by norm_num) _ _) (by
        have : subContents c (4 ^ depth) 0 = c := by funext i; simp [subContents]
        simpa [keyNum, this] using hdb) hm2
    rw [nodeAt_nil] at a1
    rw [a1]
    refine PS.bind (PS.ofRes _) ?_
    rintro _ p1 ⟨rfl, e⟩
    rw [e]
    have n12 := n1.trans n2
    refine (PS.origLoop hs hp hw hd hdb orig n12.good (hz.next hg n12) (hr.next hg n12) (fun e he => ho e (by simp [he])) (hvs.imp fun _ _ hx => hx.next hg n12)
      (hns.imp fun _ _ hx => hx.imp fun _ _ hy => hy.next hg n12) a2).mono ?_
    rintro m3 q3 ⟨n3, s3, i3, c3⟩
    refine ⟨n12.trans n3, a3.trans s3, i3, fun e he => ?_⟩
    rcases List.mem_cons.mp he with rfl | he
    · exact fun t ht k hk => s3 _ (by simpa using a4 t ht k hk)
    · exact c3 e he

theorem PS.updateLoop4 {sbox : SboxType} (hs : sbox ≠ .inverse) {p : PoseidonParams F} (hp : p.Valid) (hw : p.width = 5) {z : LC F} {depth : ℕ} (hd : getByteSize depth 4 ≤ ByteRep.modBytes F) (h0 : depth ≠ 0) :
    ∀ (orig : List (F × F)) {q : Prover F G} {vs : List Var} {m : NodeMap F} {c : ℕ → F}, q.Good → q.Has z 0 → List.Forall₂ (fun v e => q.HasV v e.2) vs orig →
      (∀ e ∈ orig, m.Covers (digitsOf 4 depth (IntRep.rep e.1))) → MapInv q.Has depth (nodeAt (hasher4 p sbox).digest depth c) m →
      PS env onSpec q (updateLoop4 depth [z] p sbox.synthesize (orig.map Prod.fst) vs m : Prog F C rnd _) fun m' q' => q.Next q' ∧ m.Sub m' ∧
        MapInv q'.Has depth (nodeAt (hasher4 p sbox).digest depth (overlay (4 ^ depth) orig c)) m'
  | [], q, _, m, c, hg, _, .nil, _, hm => by
    rw [List.map_nil]
    unfold Bp.updateLoop4
    exact PS.pure ⟨.refl hg, .refl _, by simpa [overlay_nil] using hm⟩
  | (x, y) :: orig, q, v :: vs, m, c, hg, hz, .cons hv hvs, hcov, hm => by
    rw [List.map_cons]
    unfold Bp.updateLoop4
    rw [show getBase4Repr x depth = .ok (digitsOf 4 depth (IntRep.rep x)) from getBaseRepr_ok hd]
    refine PS.bind (PS.ofRes _) ?_
    rintro _ p1 ⟨rfl, e⟩
    rw [e]
    have hu : UInv q.Has depth (IntRep.rep x) (nodeAt (hasher4 p sbox).digest depth (overlay (4 ^ depth) [(x, y)] c)) depth (LC.ofVar v) m :=
      UInv.start (c := c) (x := y) (fun i => overlay_one _ _ _ _) (.ofVar hv) hm
    have hpp := PS.updatePath (env := env) (onSpec := onSpec) (rnd := rnd) hs hp hw depth hg hz le_rfl (hcov _ (List.mem_cons_self ..)) hu
    rw [List.take_of_length_le (by rw [digitsOf_length])] at hpp
    refine PS.bind hpp ?_
    rintro m1 q1 ⟨n1, s1, lc', h1⟩
    refine (PS.updateLoop4 hs hp hw hd h0 orig n1.good (hz.next hg n1) (hvs.imp fun _ _ hx => hx.next hg n1) (fun e he => (hcov e (by simp [he])).sub s1) (h1.finish h0)).mono ?_
    rintro m2 q2 ⟨n2, s2, i2⟩
    refine ⟨n1.trans n2, s1.trans s2, ?_⟩
    rw [overlay_cons]
    exact i2

theorem PS.randomizerGadget {sbox : SboxType} (hs : sbox ≠ .inverse) {p : PoseidonParams F} (hp : p.Valid) (hw : p.width = 5) {z : Var} {depth : ℕ} (hd : getByteSize depth 4 ≤ ByteRep.modBytes F) (h0 : depth ≠ 0)
    {c : ℕ → F} {t : SparseTree F} {db : HashDb (List F)} {root : F} {rv : Var} (ht : t.depth = depth) (htr : t.root = rootOf (hasher4 p sbox).digest 4 depth c)
    (hdb : ∀ l ∈ childLists (hasher4 p sbox).digest 4 depth c, db.Has (hasher4 p sbox).digest l) (orig : List (F × F × List F)) {q : Prover F G} {vs : List Var} {proofs : List (List Var)}
    (hg : q.Good) (hz : q.HasV z 0) (hr : q.HasV rv root)
    (ho : ∀ e ∈ orig, e.2.2.length = 3 * depth ∧ merkleRoot (hasher4 p sbox).digest ((digitsOf 4 depth (IntRep.rep e.1)).zip (groups 3 depth e.2.2)) e.2.1 = root)
    (hvs : List.Forall₂ (fun v e => q.HasV v e.2.1) vs orig) (hns : List.Forall₂ (fun ns e => List.Forall₂ q.HasV ns e.2.2) proofs orig)
    (hroot : rootOf (hasher4 p sbox).digest 4 depth (overlay (4 ^ depth) (orig.map fun e => (e.1, e.2.1)) c) = root) :
    PS env onSpec q (randomizerGadget depth rv t db (orig.map Prod.fst) vs proofs [z] p sbox.synthesize : Prog F C rnd _) fun _ q' => q.Next q' := by
  unfold Bp.randomizerGadget
  rw [if_neg (by simp [ht]), if_neg (by rw [hvs.length_eq]; simp), htr]
  have hm0 : MapInv q.Has depth (nodeAt (hasher4 p sbox).digest depth c) ((NodeMap.mk []).insert [] (LC.ofScalar (rootOf (hasher4 p sbox).digest 4 depth c))) := mapInv_root fun x => .ofScalar x
  refine PS.bind (PS.origLoop hs hp hw hd hdb orig hg (.ofVar hz) hr ho hvs hns hm0) ?_
  rintro m1 q1 ⟨n1, s1, i1, c1⟩
  have hu := PS.updateLoop4 (env := env) (onSpec := onSpec) (rnd := rnd) (z := LC.ofVar z) hs hp hw hd h0 (orig.map fun e => (e.1, e.2.1)) (vs := vs) (m := m1) (c := c) n1.good (.ofVar (hz.next hg n1))
    (by rw [List.forall₂_map_right_iff]; exact hvs.imp fun _ _ hx => hx.next hg n1) (by
      intro e he
      obtain ⟨e', he', rfl⟩ := List.mem_map.mp he
      exact c1 e' he') i1
  rw [List.map_map, show (Prod.fst ∘ fun e : F × F × List F => (e.1, e.2.1)) = Prod.fst from rfl] at hu
  refine PS.bind hu ?_
  rintro m2 q2 ⟨n2, s2, i2⟩
  have hsome : (m2.get? []).isSome := s2 _ (s1 _ (by rw [NodeMap.get?_insert]; simp))
  obtain ⟨lc, hlc⟩ := Option.isSome_iff_exists.mp hsome
  rw [NodeMap.index_ok.mpr hlc]
  refine PS.bind (PS.ofRes _) ?_
  rintro _ p1 ⟨rfl, e⟩
  rw [e]
  have h1 := (i2 _ _ hlc).2.2
  rw [nodeAt_nil, hroot] at h1
  have n12 := n1.trans n2
  exact (PS.con n12.good ((h1.sub (.ofVar (hr.next hg n12))).congr (sub_self _))).mono fun _ q3 n3 => n12.trans n3

end loops

/-! ## Prover and verifier in step -/

/-- The two maps have the same keys, with equivalent entries. -/
def NodeMap.Same (m m' : NodeMap F) : Prop := ∀ key, Option.Rel LC.Equiv (m.get? key) (m'.get? key)

theorem NodeMap.Same.refl (m : NodeMap F) : m.Same m := by
  intro key
  cases m.get? key with
  | none => exact .none
  | some l => exact .some .rfl'

theorem NodeMap.Same.insert {m m' : NodeMap F} (h : m.Same m') (key : List ℕ) {l l' : LC F} (hl : l.Equiv l') : (m.insert key l).Same (m'.insert key l') := by
  intro k
  rw [NodeMap.get?_insert, NodeMap.get?_insert]
  split
  · exact .some hl
  · exact h k

/-- Two results that are both defined and related, or both the same panic. -/
inductive ResSame (R : α → β → Prop) : Res α → Res β → Prop
  | ok {a b} : R a b → ResSame R (.ok a) (.ok b)
  | panic {w} : ResSame R (.error (.panic w)) (.error (.panic w))

theorem ResSame.bind {α' β' : Type} {R : α → β → Prop} {R' : α' → β' → Prop} {r : Res α} {r' : Res β} (h : ResSame R r r') {f : α → Res α'} {f' : β → Res β'} (hf : ∀ a b, R a b → ResSame R' (f a) (f' b)) :
    ResSame R' (r >>= f) (r' >>= f') := by
  cases h with
  | ok h => exact hf _ _ h
  | panic => exact .panic

theorem Prog.Same.ofResSame {RC : C → C' → Prop} {R : α → β → Prop} {r : Res α} {r' : Res β} (h : ResSame R r r') : Prog.Same RC R (Prog.ofRes r : Prog F C rnd α) (Prog.ofRes r') := by
  cases h with
  | ok h => exact .ret h
  | panic => exact .panic

theorem NodeMap.Same.index {m m' : NodeMap F} (h : m.Same m') (key : List ℕ) : ResSame LC.Equiv (m.index key) (m'.index key) := by
  unfold NodeMap.index
  have := h key
  cases h1 : m.get? key <;> cases h2 : m'.get? key <;> rw [h1, h2] at this
  · exact .panic
  · cases this
  · cases this
  · cases this with | some h => exact .ok h

theorem levelSiblings_same {m m' : NodeMap F} (h : m.Same m') (path : List ℕ) (j pj : ℕ) : ∀ ks, ResSame (List.Forall₂ LC.Equiv) (levelSiblings m path j pj ks) (levelSiblings m' path j pj ks)
  | [] => .ok .nil
  | k :: ks => by
    unfold levelSiblings
    split
    · exact (h.index _).bind fun a b hab => (levelSiblings_same h path j pj ks).bind fun as bs hs => .ok (.cons hab hs)
    · exact levelSiblings_same h path j pj ks

theorem vecInsert_same {l l' : List (LC F)} (h : List.Forall₂ LC.Equiv l l') (k : ℕ) {a a' : LC F} (ha : a.Equiv a') : ResSame (List.Forall₂ LC.Equiv) (vecInsert l k a) (vecInsert l' k a') := by
  unfold vecInsert
  rw [h.length_eq]
  split
  · exact .ok (forall₂_insertIdx h ha k)
  · exact .panic

theorem addChildren_same (pre : List ℕ) : ∀ (cs : List (F × ℕ)) {m m' : NodeMap F}, m.Same m' → (addChildren pre cs m).Same (addChildren pre cs m')
  | [], _, _, h => h
  | (c, k) :: cs, m, m', h => by
    unfold addChildren
    refine addChildren_same pre cs ?_
    have e : (m.get? (pre ++ [k])).isSome = (m'.get? (pre ++ [k])).isSome := by
      have := h (pre ++ [k])
      cases h1 : m.get? (pre ++ [k]) <;> cases h2 : m'.get? (pre ++ [k]) <;> rw [h1, h2] at this <;> first | rfl | cases this
    rw [e]
    split
    · exact h
    · exact h.insert _ .rfl'

theorem addNodes_same [ByteRep F] (db : HashDb (List F)) : ∀ (path : List ℕ) (cur : F) (pre : List ℕ) {m m' : NodeMap F}, m.Same m' → ResSame NodeMap.Same (addNodes db path cur pre m) (addNodes db path cur pre m')
  | [], _, _, _, _, h => .ok h
  | pos :: path, cur, pre, m, m', h => by
    unfold addNodes
    cases db.get (toBytes cur) with
    | error _ => exact .panic
    | ok children =>
      have : ResSame Eq (idx children pos) (idx children pos) := by
        unfold idx
        cases children[pos]? with
        | none => exact .panic
        | some x => exact .ok rfl
      refine this.bind ?_
      rintro a _ rfl
      exact addNodes_same db path a _ (addChildren_same _ _ h)

theorem Prog.Same.origPath {RC : C → C' → Prop} (sbox : SboxType) (p : PoseidonParams F) (zs : List (LC F)) : ∀ (path : List ℕ) (nodes : List Var) {cur cur' : LC F}, cur.Equiv cur' →
    Prog.Same RC LC.Equiv (origPath zs p sbox.synthesize path nodes cur : Prog F C rnd _) (origPath zs p sbox.synthesize path nodes cur')
  | [], _, _, _, h => .pure h
  | pos :: path, nodes, cur, cur', h => by
    unfold Bp.origPath
    refine .bind (.popNodes 3 nodes) ?_
    rintro ⟨rest, popped⟩ _ rfl
    refine .bind (.ofResSame (vecInsert_same ?_ pos h)) fun a b hab => .bind (.hash4 sbox p zs hab) fun l l' hl => Prog.Same.origPath sbox p zs path rest hl
    rw [List.forall₂_map_left_iff, List.forall₂_map_right_iff]
    exact List.forall₂_same.mpr fun _ _ => .rfl'

theorem Prog.Same.updatePath {RC : C → C' → Prop} (sbox : SboxType) (p : PoseidonParams F) (depth : ℕ) (zs : List (LC F)) : ∀ (n : ℕ) (path : List ℕ) {lc lc' : LC F} {m m' : NodeMap F}, lc.Equiv lc' → m.Same m' →
    Prog.Same RC NodeMap.Same (updatePath depth zs p sbox.synthesize n path lc m : Prog F C rnd _) (updatePath depth zs p sbox.synthesize n path lc' m')
  | 0, _, _, _, _, _, _, h => .pure h
  | j + 1, path, lc, lc', m, m', hl, h => by
    unfold Bp.updatePath
    refine .bind (.index_self path j) ?_
    rintro pj _ rfl
    refine .bind (.ofResSame (levelSiblings_same h path j pj _)) fun a b hab => .bind (.ofResSame (vecInsert_same hab pj hl)) fun c d hcd => .bind (.hash4 sbox p zs hcd) fun h1 h2 hh =>
      Prog.Same.updatePath sbox p depth zs j _ hh (NodeMap.Same.insert ?_ _ hh)
    split
    · exact h.insert _ hl
    · exact h

section loops
variable [ByteRep F]

theorem Prog.Same.origLoop {RC : C → C' → Prop} (sbox : SboxType) (p : PoseidonParams F) (depth : ℕ) (rv : Var) (newRoot : F) (db : HashDb (List F)) (zs : List (LC F)) : ∀ (is : List F) (vs : List Var)
    (proofs : List (List Var)) {m m' : NodeMap F}, m.Same m' →
    Prog.Same RC NodeMap.Same (origLoop depth rv newRoot db zs p sbox.synthesize is vs proofs m : Prog F C rnd _) (origLoop depth rv newRoot db zs p sbox.synthesize is vs proofs m')
  | [], _, _, m, m', h => by unfold Bp.origLoop; exact .pure h
  | _ :: _, [], _, _, _, _ => by unfold Bp.origLoop; exact .panic
  | _ :: _, _ :: _, [], _, _, _ => by unfold Bp.origLoop; exact .panic
  | x :: is, v :: vs, ns :: proofs, m, m', h => by
    unfold Bp.origLoop
    refine .bind (.ofRes _) ?_
    rintro path _ rfl
    exact .bind (Prog.Same.origPath sbox p zs _ ns .rfl') fun l l' hl => .bind (.con (hl.sub .rfl')) fun _ _ _ => .bind (.ofResSame (addNodes_same db path newRoot [] h)) fun m1 m2 h1 =>
      Prog.Same.origLoop sbox p depth rv newRoot db zs is vs proofs h1

theorem Prog.Same.updateLoop4 {RC : C → C' → Prop} (sbox : SboxType) (p : PoseidonParams F) (depth : ℕ) (zs : List (LC F)) : ∀ (is : List F) (vs : List Var) {m m' : NodeMap F}, m.Same m' →
    Prog.Same RC NodeMap.Same (updateLoop4 depth zs p sbox.synthesize is vs m : Prog F C rnd _) (updateLoop4 depth zs p sbox.synthesize is vs m')
  | [], _, m, m', h => by unfold Bp.updateLoop4; exact .pure h
  | _ :: _, [], _, _, _ => by unfold Bp.updateLoop4; exact .panic
  | x :: is, v :: vs, m, m', h => by
    unfold Bp.updateLoop4
    refine .bind (.ofRes _) ?_
    rintro path _ rfl
    exact .bind (Prog.Same.updatePath sbox p depth zs depth path .rfl' h) fun m1 m2 h1 => Prog.Same.updateLoop4 sbox p depth zs is vs h1

theorem Prog.Same.randomizerGadget {RC : C → C' → Prop} (sbox : SboxType) (p : PoseidonParams F) (depth : ℕ) (rv : Var) (t : SparseTree F) (db : HashDb (List F)) (is : List F) (vs : List Var) (proofs : List (List Var))
    (zs : List Var) :
    Prog.Same RC (fun _ _ => True) (randomizerGadget depth rv t db is vs proofs zs p sbox.synthesize : Prog F C rnd _) (randomizerGadget depth rv t db is vs proofs zs p sbox.synthesize) := by
  unfold Bp.randomizerGadget
  split
  · exact .panic
  split
  · exact .panic
  exact .bind (Prog.Same.origLoop sbox p depth rv _ db _ is vs proofs (.refl _)) fun m1 m2 h1 => .bind (Prog.Same.updateLoop4 sbox p depth _ is vs h1) fun m3 m4 h2 =>
    .bind (.ofResSame (h2.index [])) fun l l' hl => .con (hl.sub .rfl')

/-! ## Gates -/

theorem PC.origPath {pd : Option ℕ} {sbox : SboxType} (hs : sbox ≠ .inverse) (p : PoseidonParams F) (hw : p.width ≠ 0) (zs : List (LC F)) : ∀ (path : List ℕ) (nodes : List Var) (cur : LC F),
    PC pd (origPath zs p sbox.synthesize path nodes cur : Prog F C rnd _) (path.length * permGates sbox.gates p)
  | [], _, _ => (PC.pure _).congr (by simp)
  | pos :: path, nodes, cur => by
    unfold Bp.origPath
    refine (PC.bind (k := 0) (l := permGates sbox.gates p + path.length * permGates sbox.gates p) (PCQ.popNodes 3 nodes).pc ?_).congr (by simp; ring)
    rintro ⟨rest, popped⟩
    exact (PC.bind (k := 0) (PC.ofRes _) fun _ => PC.bind (PC.hash4 hs p hw _ _) fun _ => PC.origPath hs p hw zs path rest _).congr (by simp)

theorem PC.updatePath {pd : Option ℕ} {sbox : SboxType} (hs : sbox ≠ .inverse) (p : PoseidonParams F) (hw : p.width ≠ 0) (depth : ℕ) (zs : List (LC F)) : ∀ (n : ℕ) (path : List ℕ) (lc : LC F) (m : NodeMap F),
    PC pd (updatePath depth zs p sbox.synthesize n path lc m : Prog F C rnd _) (n * permGates sbox.gates p)
  | 0, _, _, _ => (PC.pure _).congr (by simp)
  | j + 1, path, lc, m => by
    unfold Bp.updatePath
    exact (PC.bind (k := 0) (PC.index _ _) fun _ => PC.bind (k := 0) (PC.ofRes _) fun _ => PC.bind (k := 0) (PC.ofRes _) fun _ => PC.bind (PC.hash4 hs p hw _ _) fun _ =>
      PC.updatePath hs p hw depth zs j _ _ _).congr (by ring)

theorem PC.origLoop {pd : Option ℕ} {sbox : SboxType} (hs : sbox ≠ .inverse) (p : PoseidonParams F) (hw : p.width ≠ 0) (depth : ℕ) (rv : Var) (newRoot : F) (db : HashDb (List F)) (zs : List (LC F)) :
    ∀ (is : List F) (vs : List Var) (proofs : List (List Var)) (m : NodeMap F),
      PC pd (origLoop depth rv newRoot db zs p sbox.synthesize is vs proofs m : Prog F C rnd _) (is.length * (depth * permGates sbox.gates p))
  | [], _, _, m => by unfold Bp.origLoop; exact (PC.pure _).congr (by simp)
  | _ :: _, [], _, _ => by unfold Bp.origLoop; exact PC.panic _ _
  | _ :: _, _ :: _, [], _ => by unfold Bp.origLoop; exact PC.panic _ _
  | x :: is, v :: vs, ns :: proofs, m => by
    unfold Bp.origLoop
    refine (PCQ.bind (k := 0) (l := depth * permGates sbox.gates p + is.length * (depth * permGates sbox.gates p)) (Q := fun path => path.length = depth) ?_ fun path hp =>
      (PC.bind ((PC.origPath hs p hw zs path.reverse ns _).congr (by rw [List.length_reverse, hp])) fun _ => PC.bind (k := 0) (PC.con _) fun _ => PC.bind (k := 0) (PC.ofRes _) fun _ =>
        PC.origLoop hs p hw depth rv newRoot db zs is vs proofs _).q.congr (by ring)).pc.congr (by simp; ring)
    cases h : getBase4Repr x depth with
    | error e => cases e with
      | err e => exact PCQ.err _ _ _
      | panic w => exact PCQ.panic _ _ _
    | ok path =>
      refine PCQ.pure ?_
      rw [getBase4Repr_eq h, digitsOf_length]

theorem PC.updateLoop4 {pd : Option ℕ} {sbox : SboxType} (hs : sbox ≠ .inverse) (p : PoseidonParams F) (hw : p.width ≠ 0) (depth : ℕ) (zs : List (LC F)) : ∀ (is : List F) (vs : List Var) (m : NodeMap F),
    PC pd (updateLoop4 depth zs p sbox.synthesize is vs m : Prog F C rnd _) (is.length * (depth * permGates sbox.gates p))
  | [], _, m => by unfold Bp.updateLoop4; exact (PC.pure _).congr (by simp)
  | _ :: _, [], _ => by unfold Bp.updateLoop4; exact PC.panic _ _
  | x :: is, v :: vs, m => by
    unfold Bp.updateLoop4
    exact (PC.bind (k := 0) (PC.ofRes _) fun _ => PC.bind (PC.updatePath hs p hw depth zs depth _ _ _) fun _ => PC.updateLoop4 hs p hw depth zs is vs _).congr (by simp; ring)

theorem PC.randomizerGadget {pd : Option ℕ} {sbox : SboxType} (hs : sbox ≠ .inverse) (p : PoseidonParams F) (hw : p.width ≠ 0) (depth : ℕ) (rv : Var) (t : SparseTree F) (db : HashDb (List F)) (is : List F)
    (vs : List Var) (proofs : List (List Var)) (zs : List Var) :
    PC pd (randomizerGadget depth rv t db is vs proofs zs p sbox.synthesize : Prog F C rnd _) (2 * (is.length * (depth * permGates sbox.gates p))) := by
  unfold Bp.randomizerGadget
  split
  · exact PC.panic _ _
  split
  · exact PC.panic _ _
  exact (PC.bind (PC.origLoop hs p hw depth rv _ db _ is vs proofs _) fun _ => PC.bind (PC.updateLoop4 hs p hw depth _ is vs _) fun _ => PC.bind (k := 0) (l := 0) (PC.ofRes _) fun _ => PC.con _).congr (by ring)

end loops

/-! ## Entry points -/

section entry
variable [ByteRep F] [DecidableEq F]

/-- What is committed for the listed leaves of a tree with contents `o`: each value followed by the siblings on its path. -/
def origCommitted (H : List F → F) (depth : ℕ) (o : ℕ → F) (indices : List F) : List F :=
  indices.flatMap fun i => o (IntRep.rep i % 4 ^ depth) :: (sides H 4 depth o (IntRep.rep i)).flatten

/-- The data of the listed leaves, as used by the gadget. -/
def origData (H : List F → F) (depth : ℕ) (o : ℕ → F) (indices : List F) : List (F × F × List F) :=
  indices.map fun i => (i, o (IntRep.rep i % 4 ^ depth), (sides H 4 depth o (IntRep.rep i)).flatten)

theorem sides_flatten_length (H : List F → F) (depth : ℕ) (o : ℕ → F) (r : ℕ) : (sides H 4 depth o r).flatten.length = 3 * depth := by
  rw [flatten_length (n := 3) _ (fun s hs => sides_node_length H (by norm_num) depth o r s hs), sides_length]

theorem commitOrig_ok {env env' : Env F G} (hO : env.oracle = env'.oracle) {T : TreeOps F} (hT : T.arity = 4) {t : SparseTree F} {db : HashDb (List F)} {depth : ℕ} {o : ℕ → F} (ht : t.depth = depth)
    (hd : getByteSize depth (2 ^ T.bits) ≤ ByteRep.modBytes F) (hr : t.root = rootOf T.digest T.arity depth o) (hdb : ∀ l ∈ childLists T.digest T.arity depth o, db.Has T.digest l) (coins : ℕ → F) :
    ∀ (indices : List F) (k : ℕ) {q : Prover F G} {s : Verifier F G}, Joint env env' q s → ∃ cs vs ps q' s',
      commitOrig T t db coins k indices (indices.map fun i => o (IntRep.rep i % 4 ^ depth)) q = (.ok (cs, vs, ps), q') ∧
      (∀ rest, commitVals depth indices.length (cs ++ rest) s = (.ok (vs, ps), s')) ∧ Joint env env' q' s' ∧ q'.pending = q.pending ∧ q'.aL = q.aL ∧ q.Ext q' ∧
      Opened q q' ((origCommitted T.digest depth o indices).mapIdx fun j x => (x, coins (k + j))) cs ∧
      List.Forall₂ (fun v e => q'.HasV v e.2.1) vs (origData T.digest depth o indices) ∧
      List.Forall₂ (fun ns e => List.Forall₂ q'.HasV ns e.2.2) ps (origData T.digest depth o indices)
  | [], k, q, s, J => ⟨[], [], [], q, s, rfl, fun _ => rfl, J, rfl, rfl, .refl _, ⟨by simp [origCommitted], by simp [origCommitted], rfl, rfl, rfl⟩, .nil, .nil⟩
  | i :: is, k, q, s, J => by
    have hget := get_ok (T := T) (t := t) (db := db) (c := o) (by rw [ht]; exact hd) (by rw [ht]; exact hr) (by rw [ht]; exact hdb) i (some [])
    rw [ht, hT] at hget
    simp only [Option.map_some, List.nil_append] at hget
    generalize hv : o (IntRep.rep i % 4 ^ depth) = v at *
    have hsl := sides_flatten_length T.digest depth o (IntRep.rep i)
    generalize hsd : sides T.digest 4 depth o (IntRep.rep i) = sd at *
    obtain ⟨cv, p1, s1, a1, a2, J1, hp1, hl1, e1, o1, f1⟩ := J.commitAll hO [(v, coins k)]
    obtain ⟨cn, p2, s2, b1, b2, J2, hp2, hl2, e2, o2, f2⟩ := J1.commitAll hO (sd.flatten.mapIdx fun j x => (x, coins (k + 1 + j)))
    obtain ⟨cs, vs, ps, p3, s3, d1, d2, J3, hp3, hl3, e3, o3, f3, f4⟩ := commitOrig_ok hO hT ht hd hr hdb coins is (k + 1 + sd.flatten.length) J2
    obtain ⟨⟨c, w⟩, rfl⟩ : ∃ x, cv = [x] := List.length_eq_one_iff.mp (by simpa using f1.length_eq)
    have hcn : cn.length = 3 * depth := by have := f2.length_eq; simpa [hsl] using this
    refine ⟨([(c, w)] ++ cn).map Prod.fst ++ cs, [w] ++ vs, cn.map Prod.snd :: ps, p3, s3, ?_, ?_, J3, by rw [hp3, hp2, hp1], by rw [hl3, hl2, hl1], (e1.trans e2).trans e3, ?_, ?_, ?_⟩
    · unfold commitOrig
      refine Drv.bind_ok.mpr ⟨_, q, Drv.lift_ok.mpr ⟨hget, rfl⟩, ?_⟩
      simp only [List.map_cons, hv, ne_eq, not_true_eq_false, if_false]
      exact Drv.bind_ok.mpr ⟨_, p1, a1, Drv.bind_ok.mpr ⟨_, p2, b1, Drv.bind_ok.mpr ⟨_, p3, d1, rfl⟩⟩⟩
    · intro rest
      rw [List.length_cons]
      unfold commitVals
      have t1 : takeComms (([(c, w)] ++ cn).map Prod.fst ++ cs ++ rest) 1 = .ok [c] := takeComms_ok.mpr ⟨by simp, by simp⟩
      have t2 : takeComms ((([(c, w)] ++ cn).map Prod.fst ++ cs ++ rest).drop 1) (depth * 3) = .ok (cn.map Prod.fst) := takeComms_ok.mpr ⟨by simp; omega, by
        simp only [List.cons_append, List.nil_append, List.map_cons, List.drop_succ_cons, List.drop_zero, List.append_assoc]
        rw [List.take_left' (by rw [List.length_map]; omega)]⟩
      have t3 : ((([(c, w)] ++ cn).map Prod.fst ++ cs ++ rest).drop 1).drop (depth * 3) = cs ++ rest := by
        simp only [List.cons_append, List.nil_append, List.map_cons, List.drop_succ_cons, List.drop_zero, List.append_assoc]
        rw [List.drop_left' (by rw [List.length_map]; omega)]
      rw [t3]
      exact Drv.bind_ok.mpr ⟨_, s, Drv.lift_ok.mpr ⟨t1, rfl⟩, Drv.bind_ok.mpr ⟨_, s1, a2, Drv.bind_ok.mpr ⟨_, s1, Drv.lift_ok.mpr ⟨t2, rfl⟩, Drv.bind_ok.mpr ⟨_, s2, b2,
        Drv.bind_ok.mpr ⟨_, s3, d2 rest, rfl⟩⟩⟩⟩⟩
    · have := (o1.trans o2).trans o3
      have e : (origCommitted T.digest depth o (i :: is)).mapIdx (fun j x => (x, coins (k + j))) =
          [(v, coins k)] ++ (sd.flatten.mapIdx fun j x => (x, coins (k + 1 + j))) ++ (origCommitted T.digest depth o is).mapIdx fun j x => (x, coins (k + 1 + sd.flatten.length + j)) := by
        simp only [origCommitted, List.flatMap_cons, hv, hsd, List.cons_append, List.mapIdx_cons, List.mapIdx_append, List.nil_append, Nat.add_zero]
        congr 1
        congr 1
        · congr 1; funext j x; congr 2; omega
        · congr 1; funext j x; congr 2; omega
      rw [e, List.map_append]
      exact this
    · simp only [origData, List.map_cons]
      refine .cons ?_ f3
      simp only [List.map_cons, List.map_nil, List.forall₂_cons, List.forall₂_nil_left_iff, and_true] at f1
      rw [hv]
      exact (f1.ext J1.good.wf e2).ext J2.good.wf e3
    · simp only [origData, List.map_cons]
      refine .cons ?_ f4
      rw [hsd]
      have hfst : (sd.flatten.mapIdx fun j x => (x, coins (k + 1 + j))).map Prod.fst = sd.flatten := by apply List.ext_getElem <;> simp
      rw [hfst] at f2
      exact f2.imp fun _ _ hx => hx.ext J2.good.wf e3

/-- Completeness of the entry point. -/
theorem randomizer_honest (env env' : Env F G) (hO : env.oracle = env'.oracle) (pd : Option ℕ) (g h : G) {p : PoseidonParams F} (hp : p.Valid) (hw : p.width = 5) {depth : ℕ} (h0 : depth ≠ 0)
    (hd : getByteSize depth 4 ≤ ByteRep.modBytes F) {o c : ℕ → F} {t t' : SparseTree F} {db db' : HashDb (List F)} (ht : t.depth = depth) (ht' : t'.depth = depth)
    (hr : t.root = rootOf (tree4 p).digest 4 depth o) (hr' : t'.root = rootOf (tree4 p).digest 4 depth c)
    (hdb : ∀ l ∈ childLists (tree4 p).digest 4 depth o, db.Has (tree4 p).digest l) (hdb' : ∀ l ∈ childLists (tree4 p).digest 4 depth c, db'.Has (tree4 p).digest l) (indices : List F)
    (hc : ∀ i < 4 ^ depth, (∀ x ∈ indices, IntRep.rep x % 4 ^ depth ≠ i) → c i = o i) (coins : ℕ → F) :
    HonestPair env env' pd (2 * (indices.length * (depth * permGates SboxType.quint.gates p))) ((t.root :: origCommitted (tree4 p).digest depth o indices).mapIdx fun j x => (x, coins j))
      (proveRandomizer env t db t' db' indices (indices.map fun i => o (IntRep.rep i % 4 ^ depth)) depth p .quint coins)
      (verifyRandomizer env' t' db' indices depth p .quint g h) [(0, 0)] := by
  intro q s J hq
  obtain ⟨c0, p1, s1, a1, a2, J1, hp1, hl1, e1, o1, f1⟩ := J.commitAll hO [(t.root, coins 0)]
  obtain ⟨cs, vs, ps, p2, s2, b1, b2, J2, hp2, hl2, e2, o2, f2, f3⟩ := commitOrig_ok (T := tree4 p) (db := db) hO rfl ht hd hr hdb coins indices 1 J1
  obtain ⟨ds, p3, s3, d1, d2, J3, hp3, hl3, e3, o3, f4⟩ := J2.commitAll hO [((0 : F), (0 : F))]
  obtain ⟨⟨cr, w⟩, rfl⟩ : ∃ x, c0 = [x] := List.length_eq_one_iff.mp (by simpa using f1.length_eq)
  obtain ⟨⟨cz, vz⟩, rfl⟩ : ∃ x, ds = [x] := List.length_eq_one_iff.mp (by simpa using f4.length_eq)
  simp only [List.map_cons, List.map_nil, List.forall₂_cons, List.forall₂_nil_left_iff, and_true] at f1 f4
  have hds : (tree4 p).digest = (hasher4 p .quint).digest := rfl
  have hroot : rootOf (hasher4 p .quint).digest 4 depth (overlay (4 ^ depth) ((origData (tree4 p).digest depth o indices).map fun e => (e.1, e.2.1)) c) = t.root := by
    rw [hr, hds]
    refine rootOf_congr _ 4 depth _ _ fun i hi => ?_
    unfold overlay
    split
    · next w hw =>
      have h1 := List.find?_some hw
      have h2 := List.mem_reverse.mp (List.mem_of_find?_eq_some hw)
      simp only [origData, List.map_map, List.mem_map, Function.comp] at h2
      obtain ⟨x, hx, rfl⟩ := h2
      simp only [decide_eq_true_eq] at h1 ⊢
      rw [h1]
    · next hn =>
      refine hc i hi fun x hx e => ?_
      rw [List.find?_eq_none] at hn
      have := hn (x, o (IntRep.rep x % 4 ^ depth)) (by
        rw [List.mem_reverse]
        simp only [origData, List.map_map, List.mem_map, Function.comp]
        exact ⟨x, hx, rfl⟩)
      simp [e] at this
  have hps := PS.randomizerGadget (env := env) (onSpec := fun cb p => p.specify cb) (rnd := false) (C := Callback F) (sbox := .quint) (by simp) hp hw (z := vz) hd h0 ht' hr' hdb' (origData (tree4 p).digest depth o indices) (rv := w)
    (vs := vs) (proofs := ps) J3.good f4 ((f1.ext J1.good.wf e2).ext J2.good.wf e3) (by
      intro e he
      simp only [origData, List.mem_map] at he
      obtain ⟨x, hx, rfl⟩ := he
      refine ⟨sides_flatten_length _ _ _ _, ?_⟩
      have hgl := groups_flatten (n := 3) (sides (tree4 p).digest 4 depth o (IntRep.rep x)) fun s hs => sides_node_length (tree4 p).digest (by norm_num) depth o _ s hs
      rw [sides_length] at hgl
      simp only
      rw [hgl, hr]
      exact merkleRoot_sides (by norm_num) _ _) (f2.imp fun _ _ hx => hx.ext J2.good.wf e3) (f3.imp fun _ _ hx => hx.imp fun _ _ hy => hy.ext J2.good.wf e3) hroot
  have hfst : (origData (tree4 p).digest depth o indices).map Prod.fst = indices := by simp [origData, Function.comp_def]
  rw [hfst] at hps
  have hpc := PC.randomizerGadget (C := Callback F) (rnd := false) (pd := p3.pending) (sbox := .quint) (by simp) p (by omega) depth w t' db' indices vs ps [vz]
  obtain ⟨⟨⟩, ⟨⟩, p4, s4, g1, g2, J4, -, -, n4, hp4, hl4⟩ := J3.gadget hO hps (fun _ _ h => h) (Prog.Same.randomizerGadget .quint p depth w t' db' indices vs ps [vz]) hpc
  refine ⟨[cr] ++ cs, p4, s4, ?_, ?_, J4, by rw [hp4, hp3, hp2, hp1, hq], by rw [hl4, hl3, hl2, hl1], ?_⟩
  · unfold proveRandomizer
    refine Drv.bind_ok.mpr ⟨_, p1, a1, Drv.bind_ok.mpr ⟨_, p2, b1, Drv.bind_ok.mpr ⟨[vz], p3, ?_, Drv.bind_ok.mpr ⟨(), p4, g1, rfl⟩⟩⟩⟩
    unfold allocateStaticsForProver
    refine Drv.bind_ok.mpr ⟨[(cz, vz)], p3, ?_, rfl⟩
    simpa [staticValues, zeroConst] using d1
  · unfold verifyRandomizer
    refine Drv.bind_ok.mpr ⟨[cr], s, Drv.lift_ok.mpr ⟨takeComms_ok.mpr ⟨by simp, by simp⟩, rfl⟩, Drv.bind_ok.mpr ⟨[w], s1, a2, Drv.bind_ok.mpr ⟨(vs, ps), s2, ?_,
      Drv.bind_ok.mpr ⟨[vz], s3, ?_, g2⟩⟩⟩⟩
    · have := b2 []
      simpa using this
    · rw [allocateStaticsForVerifier_one]
      have hcz := o3.points
      simp only [List.map_cons, List.map_nil, zero_smul, add_zero, List.cons.injEq, and_true] at hcz
      simp only [List.map_cons, List.map_nil, hcz] at d2
      exact d2
  · have := ((o1.trans o2).statics o3).next n4
    rw [List.mapIdx_cons]
    have e : ((origCommitted (tree4 p).digest depth o indices).mapIdx fun j x => (x, coins (j + 1))) = (origCommitted (tree4 p).digest depth o indices).mapIdx fun j x => (x, coins (1 + j)) := by
      congr 1; funext j x; rw [Nat.add_comm]
    rw [e]
    exact this

end entry
end Bp
