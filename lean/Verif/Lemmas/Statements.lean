import Verif.Lemmas.Gadgets.Pinned3
import Verif.Lemmas.Uniform
import Verif.Spec.Statements
import Verif.Props.Gadgets.Basic
import Verif.Props.Gadgets.Sets
import Verif.Props.Gadgets.Hamming
import Verif.Props.Gadgets.Mimc

/-! # Several statements in one proof -/

set_option linter.unusedSectionVars false

namespace Bp
variable {F G : Type} [Field F] [AddCommGroup G]

section
variable [Module F G]

/-! ## Solutions of a constraint system whose commitments are points -/

/-- Values for the gates that satisfy all constraints, whatever functional (1 on `g`, 0 on `h`) is applied to the commitments. -/
def Solved (g h : G) (s2 : Verifier F G) : Prop :=
  ∃ σ : Assignment F, σ.Gates ∧ ∀ φ : G →ₗ[F] F, φ g = 1 → φ h = 0 → ({ σ with committed := fun j => φ (s2.V.getD j 0) } : Assignment F).Sat s2.constraints

theorem SoundForWith.exactly {k : ℕ} {statics : List F} {points : List G} {dv : List G → Drv (Verifier F G) Unit} {R : (ℕ → F) → Prop} (h : SoundForWith k statics points dv R) :
    SoundForExactly k statics points dv R := by
  intro coms s s' hl hd
  obtain ⟨_, h2, h3, h4⟩ := h coms s s' hd
  rw [← hl, List.take_length] at h3
  exact ⟨h2, h3, h4⟩

theorem SoundFor.exactly {k : ℕ} {dv : List G → Drv (Verifier F G) Unit} {R : (ℕ → F) → Prop} (h : SoundFor k dv R) : SoundForExactly k [] [] dv R := h.with.exactly

/-- The statics are commitments to what they should be. -/
def StaticsOk (g h : G) (statics : List F) (points : List G) : Prop := ∀ (i : ℕ) x, statics[i]? = some x → ∃ P, points[i]? = some P ∧ CommitsTo g h P x

/-- The statics are zero, committed to without blinding. -/
def StaticsZero (statics : List F) (points : List G) : Prop := ∀ (i : ℕ) x, statics[i]? = some x → points[i]? = some 0 ∧ x = 0

theorem StaticsZero.nil (points : List G) : StaticsZero (F := F) [] points := fun i x hx => by simp at hx
theorem StaticsZero.zero : StaticsZero (F := F) (G := G) [0] [0] := fun i x hx => by
  cases i with
  | zero =>
    simp only [List.getElem?_cons_zero, Option.some.injEq] at hx
    exact ⟨rfl, hx.symm⟩
  | succ i => simp at hx

theorem StaticsZero.ok {statics : List F} {points : List G} (hz : StaticsZero statics points) (g h : G) : StaticsOk g h statics points := fun i x hx => by
  obtain ⟨h1, rfl⟩ := hz i x hx
  exact ⟨0, h1, 0, by simp⟩

section known
variable {k : ℕ} {statics : List F} {points : List G} {dv : List G → Drv (Verifier F G) Unit} {R : (ℕ → F) → Prop} {g h : G}

/-- What a solution gives for each functional. -/
theorem Solved.claim (hs : SoundForExactly k statics points dv R) (hst : StaticsOk g h statics points) {coms : List G} {s s' s2 : Verifier F G} (hl : coms.length = k)
    (hd : dv coms s = (.ok (), s')) (e1 : s'.constraints <+: s2.constraints) (e2 : s'.V <+: s2.V) {σ : Assignment F} (hg : σ.Gates)
    (φ : G →ₗ[F] F) (hφ : φ g = 1) (hφ' : φ h = 0) (hsat : ({ σ with committed := fun j => φ (s2.V.getD j 0) } : Assignment F).Sat s2.constraints) :
    (∀ (i : ℕ) P, coms[i]? = some P → φ (s2.V.getD (s.V.length + i) 0) = φ P) ∧ (∀ (i : ℕ) x, statics[i]? = some x → φ (s2.V.getD (s.V.length + k + i) 0) = x) ∧
      R (fun i => φ (s2.V.getD (s.V.length + i) 0)) := by
  obtain ⟨a1, a2, a3⟩ := hs coms s s' hl hd
  obtain ⟨V', hV⟩ := a2.trans e2
  have hst' : ∀ (i : ℕ) x, statics[i]? = some x → φ (s2.V.getD (s.V.length + k + i) 0) = x := by
    intro i x hx
    obtain ⟨P, hP, r, rfl⟩ := hst i x hx
    have hi := (List.getElem?_eq_some_iff.mp hP).1
    rw [← hV, List.getD_eq_getElem?_getD, List.getElem?_append_left (by simp; omega), List.getElem?_append_right (by simp; omega)]
    rw [List.length_append, hl, Nat.add_sub_cancel_left, hP]
    simp [hφ, hφ']
  refine ⟨fun i P hP => ?_, hst', a3 { σ with committed := fun j => φ (s2.V.getD j 0) } hg (fun lc hlc => hsat lc (e1.subset hlc)) hst'⟩
  have hi := (List.getElem?_eq_some_iff.mp hP).1
  rw [← hV, List.getD_eq_getElem?_getD, List.getElem?_append_left (by simp; omega), List.getElem?_append_left (by simp; omega), List.getElem?_append_right (by omega), Nat.add_sub_cancel_left, hP]
  rfl

/-- A statement that determines its commitments: they can be opened, and the claim is true. -/
theorem Solved.known (hs : SoundForExactly k statics points dv R) (hst : StaticsOk g h statics points) (hp : (∃ v, R v) → Pinned k statics dv) (hi : ∀ α β : F, α • g + β • h = 0 → α = 0 ∧ β = 0)
    {coms : List G} {s s' s2 : Verifier F G} (hl : coms.length = k) (hd : dv coms s = (.ok (), s')) (e1 : s'.constraints <+: s2.constraints) (e2 : s'.V <+: s2.V) (hsol : Solved g h s2) :
    Known g h coms R := by
  obtain ⟨σ, hg, hsol⟩ := hsol
  obtain ⟨φ0, z1, z2⟩ := (exists_opening hi 0).1
  obtain ⟨b1, b2, b3⟩ := Solved.claim hs hst hl hd e1 e2 hg φ0 z1 z2 (hsol φ0 z1 z2)
  refine ⟨_, fun i P hP => ?_, b3⟩
  have hik : i < k := hl ▸ (List.getElem?_eq_some_iff.mp hP).1
  rcases (exists_opening hi P).2 with ⟨x, r, hx⟩ | hφ
  · refine ⟨r, ?_⟩
    rw [b1 i P hP]
    conv_rhs => rw [hx]
    conv_lhs => rw [hx]
    simp [z1, z2]
  · obtain ⟨φ, p1, p2, p3⟩ := hφ (φ0 P + 1)
    obtain ⟨c1, c2, c3⟩ := Solved.claim hs hst hl hd e1 e2 hg φ p1 p2 (hsol φ p1 p2)
    have := hp ⟨_, b3⟩ coms s s' hl hd { σ with committed := fun j => φ0 (s2.V.getD j 0) } { σ with committed := fun j => φ (s2.V.getD j 0) } ⟨rfl, rfl, rfl⟩ hg hg
      (fun lc hlc => hsol φ0 z1 z2 lc (e1.subset hlc)) (fun lc hlc => hsol φ p1 p2 lc (e1.subset hlc)) b2 c2 i hik
    simp only at this
    rw [b1 i P hP, c1 i P hP, p3] at this
    simp at this

end known

/-! ## The statements -/

theorem verifyRandomizer_prefix [ByteRep F] (env : Env F G) (g h : G) (sbox : SboxType) (p : PoseidonParams F) (depth : ℕ) (t : SparseTree F) (db : HashDb (List F)) (indices : List F) {coms : List G}
    {s s' : Verifier F G} (hk : coms.length = 1 + indices.length * (1 + 3 * depth)) (hd : verifyRandomizer env t db indices depth p sbox g h coms s = (.ok (), s')) :
    s.constraints <+: s'.constraints ∧ s.V ++ coms ++ [0] <+: s'.V := by
  unfold verifyRandomizer at hd
  obtain ⟨c1, s1, h1, hd⟩ := Drv.bind_ok.mp hd
  obtain ⟨h1', rfl⟩ := Drv.lift_ok.mp h1
  obtain ⟨hl1, rfl⟩ := takeComms_ok.mp h1'
  obtain ⟨v1, s2, h2, hd⟩ := Drv.bind_ok.mp hd
  rw [Verifier.commits_ok] at h2
  obtain ⟨rfl, rfl⟩ := h2
  obtain ⟨⟨vs, ps⟩, s3, h3, hd⟩ := Drv.bind_ok.mp hd
  obtain ⟨a1, a2, a3, a4, a5⟩ := commitVals_ok h3
  obtain ⟨st, s4, h4, hd⟩ := Drv.bind_ok.mp hd
  rw [allocateStaticsForVerifier_one, Verifier.commits_ok] at h4
  obtain ⟨rfl, rfl⟩ := h4
  have t1 : (coms.take 1).length = 1 := by rw [List.length_take]; omega
  simp only [t1, List.range_one, List.map_cons, List.map_nil, Nat.add_zero, List.length_cons, List.length_nil, Nat.zero_add] at hd
  obtain ⟨b1, b2, -⟩ := Verifier.gadget_sound hd
  have hV : s3.V = s.V ++ coms := by
    rw [a2]
    simp only
    rw [List.append_assoc, ← List.take_add, ← hk, List.take_length]
  exact ⟨by rw [← a3]; exact b1, by rw [b2, ← hV]⟩

namespace Stmt
variable [ByteRep F] (env : Env F G) (g h : G)

/-- Each statement is sound for its claim, and determines its commitments. -/
theorem spec' (st : Stmt F) (hok : st.Ok) : ∃ (statics : List F) (points : List G), StaticsZero statics points ∧ SoundForExactly st.size statics points (st.verify env g h) st.Claim ∧
    (st.Binding → (∃ v, st.Claim v) → Pinned st.size statics (st.verify env g h)) := by
  cases st with
  | boundedNum debug lower upper n =>
    obtain ⟨h1, h2, h3, h4⟩ := hok
    exact ⟨[], [], .nil _, (c26_sound env debug lower upper n h1 h2 h3 h4).exactly, fun _ _ => .boundedNum env debug lower upper n⟩
  | nonZero => exact ⟨[], [], .nil _, (c27_sound env).exactly, fun _ _ => .nonZeroVal env⟩
  | setMembership set =>
    refine ⟨[], [], .nil _, (c28_sound env set).exactly, fun _ ⟨v, hv⟩ => .setMembership env set ?_⟩
    rintro rfl
    exact absurd hv (by simp [Claim])
  | setMembershipAlt set => exact ⟨[], [], .nil _, (c29_bitmap_partial env set).exactly, fun _ _ => .setMembershipAlt env set⟩
  | setNonMembership set => exact ⟨[], [], .nil _, (c30_sound env set).exactly, fun _ _ => .setNonMembership env set hok⟩
  | hamming new count => exact ⟨[], [], .nil _, (c31_sound_partial env new count).exactly, fun hb => hb.elim⟩
  | mimc image constants rounds => exact ⟨[], [], .nil _, (c32_sound_exact env image constants rounds hok.1).exactly, fun _ _ => .mimcPreimage env image constants rounds hok.2⟩
  | poseidon2 output p sbox =>
    have := c35_sound_2 env output p sbox hok.1 g h
    rw [zero_smul, zero_smul, add_zero] at this
    exact ⟨[0], [0], .zero, this.exactly, fun _ _ => .preimage env 2 g h hok.1 p hok.2 output (isCall2 _ p output)⟩
  | poseidon4 output p sbox =>
    have := c35_sound_4 env output p sbox hok.1 g h
    rw [zero_smul, zero_smul, add_zero] at this
    exact ⟨[0], [0], .zero, this.exactly, fun _ _ => .preimage env 4 g h hok.1 p hok.2 output (isCall4 _ p output)⟩
  | poseidon8 output p sbox =>
    have := c35_sound_8 env output p sbox hok.1 g h
    rw [zero_smul, zero_smul, add_zero] at this
    exact ⟨[0], [0], .zero, this.exactly, fun _ _ => .preimage env 8 g h hok.1 p hok.2 output (isCall8 _ p output)⟩
  | inclusion4 root depth p sbox => exact ⟨[0], [0], .zero, c41_sound env root depth p sbox hok g h, fun _ _ => .inclusion4 env root depth p sbox g h⟩
  | inclusion8 root depth p sbox => exact ⟨[0], [0], .zero, c42_sound env root depth p sbox hok g h, fun _ _ => .inclusion8 env root depth p sbox g h⟩
  | randomizer t db indices depth p =>
    obtain ⟨h1, h2, h3, h4, h5⟩ := hok
    refine ⟨[0], [0], .zero, ?_, fun _ _ => .randomizer env g h (by decide) p h5 h4 t db indices⟩
    intro coms s s' hl hd
    obtain ⟨a, b⟩ := verifyRandomizer_prefix env g h .quint p depth t db indices hl hd
    exact ⟨a, b, fun σ hg hs hst db0 hist hc hrun => ((c46_tree_sound env g h p h1 h2 depth h3 db0 hist hc t db hrun indices) coms s s' hd).2.2.2 σ hg hs hst⟩
  | factors k r => exact ⟨[], [], .nil _, (c60_sound env k r).exactly, fun _ _ => .factors env k r⟩

theorem spec (st : Stmt F) (hok : st.Ok) : ∃ (statics : List F) (points : List G), StaticsOk g h statics points ∧ SoundForExactly st.size statics points (st.verify env g h) st.Claim ∧
    (st.Binding → (∃ v, st.Claim v) → Pinned st.size statics (st.verify env g h)) := by
  obtain ⟨a, b, h1, h2⟩ := spec' env g h st hok
  exact ⟨a, b, h1.ok g h, h2⟩

end Stmt

variable [ByteRep F] {env : Env F G} {g h : G}

/-- The calls only add commitments and constraints. -/
theorem verifyStmts_prefix : ∀ {stmts : List (Stmt F)} {coms : List G} {s s' : Verifier F G}, (∀ st ∈ stmts, st.Ok) → totalSize stmts ≤ coms.length → verifyStmts env g h stmts coms s = (.ok (), s') →
    s.constraints <+: s'.constraints ∧ s.V <+: s'.V
  | [], coms, s, s', _, _, hd => by
    obtain ⟨-, rfl⟩ := Drv.pure_ok.mp hd
    exact ⟨List.prefix_rfl, List.prefix_rfl⟩
  | st :: stmts, coms, s, s', hok, hl, hd => by
    obtain ⟨⟨⟩, s1, h1, hd⟩ := Drv.bind_ok.mp hd
    simp only [totalSize, List.map_cons, List.sum_cons] at hl
    obtain ⟨statics, points, -, hs, -⟩ := st.spec env g h (hok _ (.head _))
    obtain ⟨a1, a2, -⟩ := hs _ _ _ (by rw [List.length_take]; omega) h1
    obtain ⟨b1, b2⟩ := verifyStmts_prefix (fun x hx => hok x (.tail _ hx)) (by rw [List.length_drop, totalSize]; omega) hd
    rw [List.append_assoc] at a2
    exact ⟨a1.trans b1, ((List.prefix_append _ _).trans a2).trans b2⟩

/-- A solution of the final constraint system: all statements hold. -/
theorem Solved.allHold (hi : ∀ α β : F, α • g + β • h = 0 → α = 0 ∧ β = 0) {s2 : Verifier F G} (hsol : Solved g h s2) : ∀ {stmts : List (Stmt F)} {coms : List G} {s s' : Verifier F G}, (∀ st ∈ stmts, st.Ok) →
    totalSize stmts ≤ coms.length → verifyStmts env g h stmts coms s = (.ok (), s') → s'.constraints <+: s2.constraints → s'.V <+: s2.V → AllHold g h stmts coms
  | [], _, _, _, _, _, _, _, _ => trivial
  | st :: stmts, coms, s, s', hok, hl, hd, e1, e2 => by
    obtain ⟨⟨⟩, s1, h1, hd⟩ := Drv.bind_ok.mp hd
    simp only [totalSize, List.map_cons, List.sum_cons] at hl
    have hl' : totalSize stmts ≤ (coms.drop st.size).length := by rw [List.length_drop, totalSize]; omega
    obtain ⟨b1, b2⟩ := verifyStmts_prefix (fun x hx => hok x (.tail _ hx)) hl' hd
    obtain ⟨statics, points, hst, hs, hp⟩ := st.spec env g h (hok _ (.head _))
    have ht : (coms.take st.size).length = st.size := by rw [List.length_take]; omega
    refine ⟨⟨fun hb => Solved.known hs hst (hp hb) hi ht h1 (b1.trans e1) (b2.trans e2) hsol, ?_⟩, hsol.allHold hi (fun x hx => hok x (.tail _ hx)) hl' hd e1 e2⟩
    obtain ⟨σ, hg, hsol⟩ := hsol
    obtain ⟨φ, z1, z2⟩ := (exists_opening hi 0).1
    exact ⟨_, (Solved.claim hs hst ht h1 (b1.trans e1) (b2.trans e2) hg φ z1 z2 (hsol φ z1 z2)).2.2⟩

/-- What a convincing prover knows. -/
theorem Convinced.allHold [DecidableEq G] {label : String} {stmts : List (Stmt F)} (hok : ∀ st ∈ stmts, st.Ok) {coms : List G} (hl : totalSize stmts ≤ coms.length) {Gs Hs : List G}
    (hc : Convinced label (verifyStmts env g h stmts coms) g h Gs Hs) : AllHold g h stmts coms := by
  obtain ⟨k, q, t, s, s2, hc, hi⟩ := hc
  obtain ⟨e1, e2⟩ := hc.ext
  obtain ⟨σ, g1, g2, -⟩ := c21_independent t s s2 g h Gs Hs hc.size hc.rows hc.full hc.accepted hi
  refine Solved.allHold hi.pair ⟨σ, g1, fun φ hg hh lc hlc => ?_⟩ hok hl hc.built e1 e2
  obtain ⟨β, hβ⟩ := g2 lc hlc
  rw [← LC.functional_commitment φ hg, hβ, map_smul, hh, smul_zero]

end

/-! ## One phase, and commuting with linear maps -/

variable [SMul F G] [ByteRep F]

namespace NoSpec
theorem multiplyOn' {C : Type} {rnd : Bool} : ∀ (vs : List Var) (o : Var), (multiplyOn o vs : Prog F C rnd _).NoSpec
  | [], o => pure _
  | v :: vs, o => bind (mul _ _) fun q => multiplyOn' vs _
theorem factors {C : Type} {rnd : Bool} (v w : Var) (vs : List Var) (r : F) : (factorsGadget v w vs r : Prog F C rnd _).NoSpec :=
  bind (mul _ _) fun _ => bind (multiplyOn' _ _) fun _ => con _
end NoSpec

namespace OnePhase

theorem factors (env : Env F G) (k : ℕ) (r : F) (coms : List G) : OnePhase (verifyFactors env k r coms) := by
  unfold verifyFactors
  refine bind (lift _) fun _ => bind (commits _) fun _ => ?_
  split
  · exact gadget env (NoSpec.factors _ _ _ _)
  · exact lift _

theorem stmt (env : Env F G) (g h : G) (st : Stmt F) (coms : List G) : OnePhase (st.verify env g h coms) := by
  cases st with
  | boundedNum debug lower upper n => exact boundedNum _ _ _ _ _ _
  | nonZero => exact nonZeroVal _ _
  | setMembership set => exact setMembership _ _ _
  | setMembershipAlt set => exact setMembershipAlt _ _ _
  | setNonMembership set => exact setNonMembership _ _ _
  | hamming new count => exact hammingDistance _ _ _ _
  | mimc image constants rounds => exact mimcPreimage _ _ _ _ _
  | poseidon2 output p sbox => exact poseidon2 _ _ _ _ _ _ _
  | poseidon4 output p sbox => exact poseidon4 _ _ _ _ _ _ _
  | poseidon8 output p sbox => exact poseidon8 _ _ _ _ _ _ _
  | inclusion4 root depth p sbox => exact inclusion4 _ _ _ _ _ _ _ _
  | inclusion8 root depth p sbox => exact inclusion8 _ _ _ _ _ _ _ _
  | randomizer t db indices depth p => exact randomizer _ _ _ _ _ _ _ _ _ _
  | factors k r => exact factors _ _ _ _

theorem stmts (env : Env F G) (g h : G) : ∀ (l : List (Stmt F)) (coms : List G), OnePhase (verifyStmts env g h l coms)
  | [], _ => pure _
  | st :: l, _ => bind (stmt env g h st _) fun _ => stmts env g h l _

end OnePhase

namespace DrvNat
variable {M : Type} [AddCommGroup M] [SMul F M] {Φ : Type} [FunLike Φ M G] [AddMonoidHomClass Φ M G] [MulActionHomClass Φ F M G] (φ : Φ)

theorem verifyBits' (env : Env F G) : ∀ Vs : List M, DrvNat φ (verifyBits env (Vs.map φ)) (verifyBits (env.pull φ) Vs) := by
  intro Vs
  induction Vs with
  | nil => exact pure _
  | cons V Vs ih =>
    refine bind (commits φ [V]) fun vars => ?_
    split
    · exact bind (gadget φ env _) fun _ => bind ih fun _ => pure _
    · exact lift _

theorem setMembershipAlt (env : Env F G) (set : List ℕ) (coms : List M) : DrvNat φ (verifySetMembershipAlt env set (coms.map φ)) (verifySetMembershipAlt (env.pull φ) set coms) := by
  unfold verifySetMembershipAlt
  refine take _ _ fun l => ?_
  rw [← List.map_take, ← List.map_drop]
  refine bind (verifyBits' φ env _) fun vars => bind (gadget φ env _) fun _ => bind (commits φ _) fun vv => ?_
  split
  · exact gadget φ env _
  · exact lift _

theorem hammingDistance (env : Env F G) (new : List F) (count : ℕ) (coms : List M) : DrvNat φ (verifyHammingDistance env new count (coms.map φ)) (verifyHammingDistance (env.pull φ) new count coms) := by
  unfold verifyHammingDistance
  exact bind (commits φ _) fun _ => gadget φ env _

theorem factors (env : Env F G) (k : ℕ) (r : F) (coms : List M) : DrvNat φ (verifyFactors env k r (coms.map φ)) (verifyFactors (env.pull φ) k r coms) := by
  unfold verifyFactors
  refine take _ _ fun l => bind (commits φ l) fun vars => ?_
  split
  · exact gadget φ env _
  · exact lift _

theorem stmt (env : Env F G) (g h : M) (st : Stmt F) (coms : List M) : DrvNat φ (st.verify env (φ g) (φ h) (coms.map φ)) (st.verify (env.pull φ) g h coms) := by
  cases st with
  | boundedNum debug lower upper n => exact boundedNum _ _ _ _ _ _ _
  | nonZero => exact nonZeroVal _ _ _
  | setMembership set => exact setMembership _ _ _ _
  | setMembershipAlt set => exact setMembershipAlt _ _ _ _
  | setNonMembership set => exact setNonMembership _ _ _ _
  | hamming new count => exact hammingDistance _ _ _ _ _
  | mimc image constants rounds => exact mimcPreimage _ _ _ _ _ _
  | poseidon2 output p sbox => exact preimage _ _ _ _ _ _ _
  | poseidon4 output p sbox => exact preimage _ _ _ _ _ _ _
  | poseidon8 output p sbox => exact preimage _ _ _ _ _ _ _
  | inclusion4 root depth p sbox => exact inclusion _ _ _ _ _ _
  | inclusion8 root depth p sbox => exact inclusion _ _ _ _ _ _
  | randomizer t db indices depth p => exact randomizer _ _ _ _ _ _ _ _ _ _ _
  | factors k r => exact factors _ _ _ _ _

theorem stmts (env : Env F G) (g h : M) : ∀ (l : List (Stmt F)) (coms : List M), DrvNat φ (verifyStmts env (φ g) (φ h) l (coms.map φ)) (verifyStmts (env.pull φ) g h l coms)
  | [], _ => pure _
  | st :: l, coms => by
    unfold verifyStmts
    rw [← List.map_take, ← List.map_drop]
    exact bind (stmt φ env g h st _) fun _ => stmts env g h l _

end DrvNat

theorem verifyBits_order {env env' : Env F G} (ho : env'.hashOrd = env.hashOrd) : ∀ Vs : List G, verifyBits env' Vs = verifyBits env Vs
  | [] => rfl
  | V :: Vs => by
    unfold verifyBits
    rw [verifyBits_order ho Vs]
    simp only [gadget_order ho]

theorem Stmt.verify_order {env env' : Env F G} (ho : env'.hashOrd = env.hashOrd) (g h : G) (st : Stmt F) (coms : List G) : st.verify env' g h coms = st.verify env g h coms := by
  cases st with
  | boundedNum debug lower upper n => simp only [Stmt.verify, verifyBoundedNum, gadget_order ho]
  | nonZero => simp only [Stmt.verify, verifyNonZeroVal, gadget_order ho]
  | setMembership set => simp only [Stmt.verify, verifySetMembership, gadget_order ho]
  | setMembershipAlt set => simp only [Stmt.verify, verifySetMembershipAlt, gadget_order ho, verifyBits_order ho]
  | setNonMembership set => simp only [Stmt.verify, verifySetNonMembership, gadget_order ho]
  | hamming new count => simp only [Stmt.verify, verifyHammingDistance, gadget_order ho]
  | mimc image constants rounds => simp only [Stmt.verify, verifyMimcPreimage, gadget_order ho]
  | poseidon2 output p sbox => simp only [Stmt.verify, verifyPoseidon2, verifyPreimage, gadget_order ho]
  | poseidon4 output p sbox => simp only [Stmt.verify, verifyPoseidon4, verifyPreimage, gadget_order ho]
  | poseidon8 output p sbox => simp only [Stmt.verify, verifyPoseidon8, verifyPreimage, gadget_order ho]
  | inclusion4 root depth p sbox => simp only [Stmt.verify, verifyInclusion4, verifyInclusion, gadget_order ho]
  | inclusion8 root depth p sbox => simp only [Stmt.verify, verifyInclusion8, verifyInclusion, gadget_order ho]
  | randomizer t db indices depth p => simp only [Stmt.verify, verifyRandomizer, gadget_order ho]
  | factors k r => simp only [Stmt.verify, verifyFactors, gadget_order ho]

theorem Stmt.verify_pull (f : G → G) (env : Env F G) (g h : G) (st : Stmt F) (coms : List G) : st.verify (env.pull f) g h coms = st.verify env g h coms := Stmt.verify_order (env := env) (env' := env.pull f) rfl g h st coms

theorem verifyStmts_order {env env' : Env F G} (ho : env'.hashOrd = env.hashOrd) (g h : G) : ∀ (l : List (Stmt F)) (coms : List G), verifyStmts env' g h l coms = verifyStmts env g h l coms
  | [], _ => rfl
  | st :: l, coms => by
    unfold verifyStmts
    rw [Stmt.verify_order ho]
    simp only [verifyStmts_order ho g h l]

/-! ## What is built depends only on the number of commitments -/

/-- All points are forgotten. -/
structure Forget (F G : Type) where

instance : FunLike (Forget F G) G PUnit where
  coe _ := fun _ => PUnit.unit
  coe_injective _ _ _ := rfl
instance : AddMonoidHomClass (Forget F G) G PUnit where
  map_add _ _ _ := rfl
  map_zero _ := rfl
instance : MulActionHomClass (Forget F G) F G PUnit where
  map_smulₛₗ _ _ _ := rfl

theorem Uniform.stmts {label : String} {m : ℕ} (env : Env F G) (g h : G) (l : List (Stmt F)) : Uniform label m (verifyStmts env g h l) :=
  ⟨fun _ => OnePhase.stmts _ _ _ _ _, fun a b s s' ha hb hs hs' => by
    have key : ∀ a s, verifyStmts env g h l a (Verifier.new [.init label]) = (.ok (), s) →
        verifyStmts (env.seen fun _ => 0 : Env F PUnit) PUnit.unit PUnit.unit l (List.replicate a.length PUnit.unit) (Verifier.new [.init label]) = (.ok (), s.mapG fun _ => PUnit.unit) := by
      intro a s hs
      have := DrvNat.stmts (⟨⟩ : Forget F G) (env.seen fun _ => 0 : Env F PUnit) g h l a
      rw [verifyStmts_order (env := env) (env' := Env.pull _ (env.seen fun _ => 0 : Env F PUnit)) rfl] at this
      have h2 := this.built hs
      rwa [show a.map (⟨⟩ : Forget F G) = List.replicate a.length PUnit.unit from List.eq_replicate_iff.mpr ⟨by simp, fun _ _ => rfl⟩] at h2
    have e : (s.mapG fun _ => PUnit.unit) = s'.mapG fun _ => PUnit.unit := by
      have h1 := key a s hs
      rw [ha, ← hb] at h1
      exact (Prod.mk.inj (h1.symm.trans (key b s' hs'))).2
    clear key hs hs'
    have h1 := congrArg Verifier.constraints e
    have h2 := congrArg Verifier.numVars e
    have h3 := congrArg Verifier.deferred e
    have h4 := congrArg Verifier.pending e
    have h5 := congrArg Verifier.seed e
    cases s; cases s'
    simp_all [Verifier.mapG]⟩

end Bp
