import Verif.Lemmas.Gadgets.Range
import Verif.Props.Total
import Verif.Lemmas.Game
import Verif.Lemmas.Sizes

set_option linter.unusedSectionVars false

/-! # C82: the verifying functions constrain only what exists, and do not panic in the check of a proof -/

namespace Bp
variable {F G : Type} [Field F] [AddCommGroup G] [Module F G]

/-- Gates and commitments are only added; if `A`, and if in the end there are no more than `N` and `M`, then all that `d` constrains is in range, and its result satisfies `Q`. -/
def DR (N M : ℕ) (A : Prop) {α : Type} (d : Drv (Verifier F G) α) (Q : α → Prop) : Prop :=
  ∀ s x s', d s = (.ok x, s') → (s.numVars ≤ s'.numVars ∧ s.V.length ≤ s'.V.length) ∧ (A → s'.numVars ≤ N → s'.V.length ≤ M → s.Within N M → s'.Within N M ∧ Q x)

namespace DR
variable {N M : ℕ} {A : Prop} {α β : Type} {env : Env F G}

theorem bind {d : Drv (Verifier F G) α} {f : α → Drv (Verifier F G) β} {Q : α → Prop} {R : β → Prop} (h1 : DR N M A d Q) (h2 : ∀ x, DR N M (A ∧ Q x) (f x) R) : DR N M A (d >>= f) R := fun s x s' h => by
  obtain ⟨y, s1, e1, e2⟩ := Drv.bind_ok.mp h
  obtain ⟨⟨a1, a2⟩, a3⟩ := h1 s y s1 e1
  obtain ⟨⟨b1, b2⟩, b3⟩ := h2 y s1 x s' e2
  refine ⟨⟨a1.trans b1, a2.trans b2⟩, fun hA hN hM hs => ?_⟩
  obtain ⟨c1, c2⟩ := a3 hA (b1.trans hN) (b2.trans hM) hs
  exact b3 ⟨hA, c2⟩ hN hM c1
theorem pure {x : α} {Q : α → Prop} (h : A → Q x) : DR (F := F) (G := G) N M A (Pure.pure x) Q := fun s y s' e => by
  obtain ⟨rfl, rfl⟩ := Drv.pure_ok.mp e
  exact ⟨⟨le_refl _, le_refl _⟩, fun hA _ _ hs => ⟨hs, h hA⟩⟩
theorem lift {r : Res α} : DR (F := F) (G := G) N M A (Drv.lift r) fun x => r = .ok x := fun s y s' e => by
  obtain ⟨h, rfl⟩ := Drv.lift_ok.mp e
  exact ⟨⟨le_refl _, le_refl _⟩, fun _ _ _ hs => ⟨hs, h⟩⟩
theorem panic {w : String} {Q : α → Prop} : DR (F := F) (G := G) N M A (Drv.lift (Res.panic w)) Q := fun s y s' e => by
  obtain ⟨h, rfl⟩ := Drv.lift_ok.mp e
  cases h

theorem commitAll_within : ∀ (Vs : List G) (s : Verifier F G), (s.commitAll Vs).2.numVars = s.numVars ∧ (s.commitAll Vs).2.constraints = s.constraints ∧ (s.commitAll Vs).2.pending = s.pending ∧ s.V.length ≤ (s.commitAll Vs).2.V.length ∧
    ∀ v ∈ (s.commitAll Vs).1, v.InRange 0 (s.commitAll Vs).2.V.length
  | [], s => ⟨rfl, rfl, rfl, le_refl _, by simp [Verifier.commitAll]⟩
  | V :: Vs, s => by
    obtain ⟨h1, h2, h3, h4, h5⟩ := commitAll_within Vs (s.commit V).2
    have hlen : (s.commit V).2.V.length = s.V.length + 1 := by simp [Verifier.commit]
    rw [hlen] at h4
    refine ⟨h1, h2, h3, by show s.V.length ≤ ((s.commit V).2.commitAll Vs).2.V.length; omega, fun v hv => ?_⟩
    rcases List.mem_cons.mp hv with rfl | hv
    · show s.V.length < ((s.commit V).2.commitAll Vs).2.V.length
      omega
    · exact h5 v hv

theorem inRange_mono {v : Var} {n m : ℕ} (h : v.InRange 0 n) (hn : n ≤ m) : v.InRange N m := by
  cases v with
  | committed i => exact Nat.lt_of_lt_of_le h hn
  | left i => exact absurd h (Nat.not_lt_zero _)
  | right i => exact absurd h (Nat.not_lt_zero _)
  | out i => exact absurd h (Nat.not_lt_zero _)
  | one => trivial

theorem commits (Vs : List G) : DR (F := F) N M A (Verifier.commits Vs) fun x => ∀ v ∈ x, v.InRange N M := fun s x s' e => by
  obtain ⟨h1, h2, h3, h4, h5⟩ := commitAll_within Vs s
  cases e
  exact ⟨⟨h1.ge, h4⟩, fun _ _ hM hs => ⟨⟨by rw [h2]; exact hs.constraints, by rw [h3]; exact hs.pending⟩, fun v hv => inRange_mono (h5 v hv) hM⟩⟩

theorem gadget {c : Prog1 F α} {Q : α → Prop} (h : A → VR env N M c Q) : DR N M A (Verifier.gadget env c) Q := fun s x s' e => by
  have hr : s.run1 env c = .ok (x, s') := by
    unfold Verifier.gadget at e
    split at e
    · rename_i h'; rw [h']; cases e; rfl
    · cases e
  have hV : s'.V = s.V := Verifier.run_V (onSpec := fun cb s => s.specify cb) (fun _ _ => rfl) c _ _ _ hr
  exact ⟨⟨run_numVars_le env (onSpec := fun cb s => s.specify cb) (fun _ _ => rfl) c s s' x hr, by rw [hV]⟩, fun hA hN _ hs => h hA (fun cb s => s.specify cb) (fun _ _ => ⟨rfl, rfl, rfl⟩) s x s' hr hN hs⟩

theorem bits : ∀ (Vs : List G) (A : Prop), DR N M A (verifyBits env Vs) fun x => ∀ v ∈ x, v.InRange N M
  | [], _ => pure fun _ => by simp
  | V :: Vs, A => by
    unfold verifyBits
    refine bind (commits [V]) fun x => ?_
    match x with
    | [v] => exact bind (gadget fun h => VR.bitGadget (h.2 v List.mem_cons_self)) fun _ => bind (bits Vs _) fun y => pure fun h => by simpa using ⟨h.1.1.2 v List.mem_cons_self, h.2⟩
    | [] => exact panic
    | _ :: _ :: _ => exact panic

theorem vals (depth : ℕ) : ∀ (n : ℕ) (coms : List G) (A : Prop), DR (F := F) N M A (commitVals depth n coms) fun x => (∀ v ∈ x.1, v.InRange N M) ∧ ∀ l ∈ x.2, ∀ v ∈ l, v.InRange N M
  | 0, _, _ => pure fun _ => by simp
  | n + 1, coms, A => by
    unfold commitVals
    refine bind lift fun _ => bind (commits _) fun x => bind lift fun _ => bind (commits _) fun y => bind (vals depth n _ _) fun ⟨vs, pss⟩ => pure fun h => ?_
    obtain ⟨⟨⟨⟨-, h1⟩, -⟩, h2⟩, h3, h4⟩ := h
    refine ⟨fun v hv => ?_, fun l hl => ?_⟩
    · rcases List.mem_append.mp hv with hv | hv
      · exact h1 v hv
      · exact h3 v hv
    · rcases List.mem_cons.mp hl with rfl | hl
      · exact h2
      · exact h4 l hl

theorem allocs {vs : List Var} (h : ∀ v ∈ vs, v.InRange N M) : ∀ d ∈ vs.map fun d => (⟨d, none⟩ : Alloc F), d.var.InRange N M := fun d hd => by
  obtain ⟨v, hv, rfl⟩ := List.mem_map.mp hd
  exact h v hv

theorem mem_evens : ∀ {l : List α} {x : α}, x ∈ evens l → x ∈ l
  | [], _, h => h
  | [_], _, h => h
  | a :: b :: l, x, h => by
    rcases List.mem_cons.mp h with rfl | h
    · exact List.mem_cons_self
    · exact List.mem_cons_of_mem _ (List.mem_cons_of_mem _ (mem_evens h))
theorem mem_odds : ∀ {l : List α} {x : α}, x ∈ odds l → x ∈ l
  | [], _, h => by simp [odds] at h
  | [_], _, h => by simp [odds] at h
  | a :: b :: l, x, h => by
    rcases List.mem_cons.mp h with rfl | h
    · exact List.mem_cons_of_mem _ List.mem_cons_self
    · exact List.mem_cons_of_mem _ (List.mem_cons_of_mem _ (mem_odds h))

variable [ByteRep F]

theorem preimage {k : ℕ} {g h : G} {call : List Var → List Var → Prog1 F Unit} (hc : ∀ vs zs, (∀ v ∈ vs, v.InRange N M) → (∀ v ∈ zs, v.InRange N M) → VR env N M (call vs zs) fun _ => True) (coms : List G) :
    DR N M A (verifyPreimage env k g h call coms) fun _ => True :=
  bind lift fun _ => bind (commits _) fun _ => bind (commits _) fun _ => gadget fun h => hc _ _ h.1.2 h.2

theorem inclusion {g h : G} {call : Var → Alloc F → List Var → List Var → Prog1 F Unit}
    (hc : ∀ l i ns zs, l.InRange N M → i.InRange N M → (∀ v ∈ ns, v.InRange N M) → (∀ v ∈ zs, v.InRange N M) → VR env N M (call l ⟨i, none⟩ ns zs) fun _ => True) (coms : List G) :
    DR N M A (verifyInclusion env g h call coms) fun _ => True := by
  match coms with
  | [] => exact panic
  | [_] => exact panic
  | a :: b :: ns =>
    refine bind (commits [a, b]) fun x => bind (commits ns) fun y => bind (commits _) fun z => ?_
    match x with
    | [l, i] => exact gadget fun h => hc l i y z (h.1.1.2 l (by simp)) (h.1.1.2 i (by simp)) h.1.2 h.2
    | [] => exact panic
    | [_] => exact panic
    | _ :: _ :: _ :: _ => exact panic

theorem stmt (g h : G) (st : Stmt F) (coms : List G) : DR N M A (st.verify env g h coms) fun _ => True := by
  cases st with
  | boundedNum debug lower upper n =>
    refine bind lift fun _ => bind (commits _) fun y => ?_
    match y with
    | [a, b, c] => exact gadget fun h => VR.boundCheck n (h.2 a (by simp)) (h.2 b (by simp)) (h.2 c (by simp))
    | [] => exact panic
    | [_] => exact panic
    | [_, _] => exact panic
    | _ :: _ :: _ :: _ :: _ => exact panic
  | nonZero =>
    refine bind lift fun _ => bind (commits _) fun y => ?_
    match y with
    | [a, b] => exact gadget fun h => VR.isNonzero (h.2 a (by simp)) (h.2 b (by simp))
    | [] => exact panic
    | [_] => exact panic
    | _ :: _ :: _ :: _ => exact panic
  | setMembership set =>
    refine bind lift fun _ => bind (commits _) fun y => ?_
    match y with
    | v :: ds => exact gadget fun h => VR.setMembership (h.2 v (by simp)) (allocs fun v hv => h.2 v (List.mem_cons_of_mem _ hv))
    | [] => exact panic
  | setMembershipAlt set =>
    refine bind lift fun _ => bind (bits _ _) fun y => bind (gadget fun h => VR.vectorSum h.2 1) fun _ => bind (commits _) fun z => ?_
    match z with
    | [v] => exact gadget fun h => VR.vectorProduct (h.2 v (by simp))
    | [] => exact panic
    | _ :: _ :: _ => exact panic
  | setNonMembership set =>
    refine bind lift fun _ => bind (commits _) fun y => ?_
    match y with
    | v :: ds => exact gadget fun h => VR.setNonMembership (h.2 v (by simp)) (fun d hd => allocs (fun v hv => h.2 v (List.mem_cons_of_mem _ hv)) d (mem_evens hd)) (fun d hd => allocs (fun v hv => h.2 v (List.mem_cons_of_mem _ hv)) d (mem_odds hd))
    | [] => exact panic
  | hamming new count => exact bind (commits _) fun y => gadget fun h => VR.hamming
  | mimc image constants rounds =>
    refine bind lift fun _ => bind (commits _) fun y => ?_
    match y with
    | [a, b] => exact gadget fun h => VR.mimc (h.2 a (by simp)) (h.2 b (by simp))
    | [] => exact panic
    | [_] => exact panic
    | _ :: _ :: _ :: _ => exact panic
  | poseidon2 output p sbox => exact preimage (fun vs zs hv hz => VR.hash2Call (VR.synthesize sbox) hv hz) coms
  | poseidon4 output p sbox => exact preimage (fun vs zs hv hz => VR.hash4Call (VR.synthesize sbox) hv hz) coms
  | poseidon8 output p sbox => exact preimage (fun vs zs hv hz => VR.hash8Call (VR.synthesize sbox) hv hz) coms
  | inclusion4 root depth p sbox => exact inclusion (fun l i ns zs hl hi hn hz => VR.merkle4 (VR.synthesize sbox) hl hi hn hz) coms
  | inclusion8 root depth p sbox =>
    refine inclusion (fun l i ns zs hl hi hn hz => ?_) coms
    match zs with
    | z :: _ => exact VR.merkle8 (VR.synthesize sbox) hl hi hn (hz z List.mem_cons_self)
    | [] => exact VR.panic
  | randomizer t db indices depth p =>
    refine bind lift fun _ => bind (commits _) fun y => bind (vals depth _ _ _) fun ⟨vs, pss⟩ => bind (commits _) fun z => ?_
    match y with
    | [r] => exact gadget fun h => VR.randomizer (VR.synthesize .quint) (h.1.1.2 r (by simp)) h.1.2.1 h.1.2.2 h.2
    | [] => exact panic
    | _ :: _ :: _ => exact panic
  | factors k r =>
    refine bind lift fun _ => bind (commits _) fun y => ?_
    match y with
    | a :: b :: ds => exact gadget fun h => VR.factors (h.2 a (by simp)) (h.2 b (by simp)) fun v hv => h.2 v (by simp [hv])
    | [] => exact panic
    | [_] => exact panic

theorem stmts (g h : G) : ∀ (l : List (Stmt F)) (coms : List G) (A : Prop), DR N M A (verifyStmts env g h l coms) fun _ => True
  | [], _, _ => pure fun _ => trivial
  | st :: l, _, _ => bind (stmt g h st _) fun _ => stmts g h l _ _

end DR

variable [ByteRep F]

/-- **C82**, only what exists: whatever the statements, their public parameters and the commitments are, the verifier constrains only gates it has allocated and commitments it has been given. -/
theorem c82_in_range (env : Env F G) (label : String) (g h : G) (stmts : List (Stmt F)) (coms : List G) (s : Verifier F G) (hs : verifyStmts env g h stmts coms (Verifier.new [.init label]) = (.ok (), s)) :
    ∀ lc ∈ s.constraints, ∀ t ∈ lc.terms, Var.InRange s.numVars s.V.length t.1 :=
  ((DR.stmts g h stmts coms True _ _ _ hs).2 trivial (le_refl _) (le_refl _) ⟨by simp [Verifier.new], by simp [Verifier.new]⟩).1.constraints

/-- **C82**, no panic in the check of a proof: the statements have been read without failure; then for every proof, with as many R as L, the check accepts or reports an error. -/
theorem c82_check [DecidableEq G] (env : Env F G) (label : String) (g h : G) (stmts : List (Stmt F)) (coms : List G) (s : Verifier F G) (hs : verifyStmts env g h stmts coms (Verifier.new [.init label]) = (.ok (), s))
    (pr : R1CSProof F G) (hLR : pr.ipp.R.length = pr.ipp.L.length) (Gs Hs : List G) (hH : nextPowerOfTwo s.numVars ≤ Hs.length) (h0 : ∀ l, env.oracle l ≠ 0) (hb : pr.ipp.L ≠ [] ∨ env.batchInvert [] = .ok ([], 1)) (r : F) :
    (∃ t, s.verify env pr g h Gs Hs r = .ok t) ∨ ∃ e, s.verify env pr g h Gs Hs r = Res.err e := by
  have hd : s.deferred = [] := ((OnePhase.stmts env g h stmts coms) _ _ _ hs).1
  have hcrc : ∃ s2, (s.start pr).createRandomizedConstraints env = .ok s2 := by
    have : (s.start pr).deferred = [] := hd
    unfold Verifier.createRandomizedConstraints
    simp only [this, List.length_nil, if_true]
    exact ⟨_, rfl⟩
  obtain ⟨s2, hcrc⟩ := hcrc
  have e := crc_onePhase (s := s.start pr) hd hcrc
  have en : s2.numVars = s.numVars := by rw [e]; rfl
  refine c49_no_panic_partial env s s2 pr g h Gs Hs r hcrc (by rw [en]; exact hH) ?_ (.inl hLR) (fun u hu => ?_) hb
  · rw [en, show s2.constraints = s.constraints by rw [e]; rfl, show s2.V = s.V by rw [e]; rfl]
    exact c82_in_range env label g h stmts coms s hs
  · exact ippChallenges_ne_zero h0 hu

/-- **C82**, the whole verifying function: with public parameters with which the code runs (C81), any points in the right number and any proof with as many R as L, it accepts or reports an error. -/
theorem c82_verify [DecidableEq G] (env : Env F G) (label : String) (g h : G) (stmts : List (Stmt F)) (hr : ∀ st ∈ stmts, st.Runs) (coms : List G) (hl : coms.length = totalSize stmts) (pr : R1CSProof F G)
    (hLR : pr.ipp.R.length = pr.ipp.L.length) (Gs Hs : List G) (hH : nextPowerOfTwo (totalGates stmts) ≤ Hs.length) (h0 : ∀ l, env.oracle l ≠ 0) (hb : pr.ipp.L ≠ [] ∨ env.batchInvert [] = .ok ([], 1)) (r : F) :
    verifyProof env label (verifyStmts env g h stmts coms) pr g h Gs Hs r = .ok () ∨ ∃ e, verifyProof env label (verifyStmts env g h stmts coms) pr g h Gs Hs r = Res.err e := by
  obtain ⟨s, hs, -⟩ := c81_statements env g h stmts hr coms hl (Verifier.new [.init label]) rfl
  have hn : s.numVars = totalGates stmts := by
    have hg := (DC.stmts (env := env) g h stmts coms hl.ge _ _ _ hs rfl).1
    rw [hg.gates]
    simp [Verifier.new]
  unfold verifyProof
  rw [hs]
  rcases c82_check env label g h stmts coms s hs pr hLR Gs Hs (by rw [hn]; exact hH) h0 hb r with ⟨t, e⟩ | ⟨e', e⟩
  · left; simp only [e]
  · right; exact ⟨e', by simp only [e]; rfl⟩

/-! ## Cases -/

/-- Any four points and any proof for the membership of a set of three. -/
example (a b c d : Z101) (pr : R1CSProof Z101 Z101) (h : pr.ipp.R.length = pr.ipp.L.length) (r : Z101) (Gs Hs : List Z101) (hH : 4 ≤ Hs.length) :
    verifyProof (Env.std fun _ => 2 : Env Z101 Z101) "set" (verifyStmts (Env.std fun _ => 2) 1 5 [.setMembership [2, 3, 5]] [a, b, c, d]) pr 1 5 Gs Hs r = .ok () ∨
      ∃ e, verifyProof (Env.std fun _ => 2 : Env Z101 Z101) "set" (verifyStmts (Env.std fun _ => 2) 1 5 [.setMembership [2, 3, 5]] [a, b, c, d]) pr 1 5 Gs Hs r = Res.err e :=
  c82_verify _ "set" 1 5 [.setMembership [2, 3, 5]] (by simp [Stmt.Runs]) _ rfl pr h Gs Hs (by exact hH) (fun _ => show (2 : Z101) ≠ 0 by decide) (.inr (by simp [Env.std])) r

end Bp
