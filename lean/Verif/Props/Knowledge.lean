import Verif.Lemmas.Knowledge
import Verif.Props.SoundnessExample
import Verif.Props.Gadgets.Compose
import Verif.Props.Gadgets.Poseidon
import Verif.Props.Gadgets.Randomizer

/-! # C55: what the verifier accepts is true of the committed values -/

set_option linter.unusedSectionVars false

namespace Bp
variable {F G : Type} [Field F] [AddCommGroup G] [Module F G] [DecidableEq G]
variable {label : String} {coms : List G} {g h : G} {Gs Hs : List G} {kk : ℕ} {statics : List F} {points : List G} {dv : List G → Drv (Verifier F G) Unit} {R : (ℕ → F) → Prop}

/-! ## For every sound statement -/

/-- **C55**, without assumption on the generators: if the verifier of a sound statement is convinced, then the statement is true of every opening `v` of the committed points, or one of the finitely many relations computed from the
prover's answers and that opening is a non-trivial relation between the generators. -/
theorem c55_openings_or_relation {k q : ℕ} (t : R1CSTree F G k q) (s s2 : Verifier F G) (hs : SoundForWith kk statics points dv R) (hc : Convincing t label (dv coms) g h Gs Hs s s2)
    (v r : ℕ → F) (hV : ∀ j < s2.V.length, s2.V.getD j 0 = v j • g + r j • h) (hst : ∀ i x, statics[i]? = some x → v (kk + i) = x) :
    (R v ∧ coms.take kk ++ points <+: s2.V) ∨
    ∃ ρ ∈ t.relations s.numVars s2.weights ++ t.openRelations s.numVars s2.numVars s2.weights s2.constraints v r,
      ¬ ρ.Trivial (2 ^ k) ∧ ρ.value (2 ^ k) g h (Gs.take (2 ^ k)) (Hs.take (2 ^ k)) = 0 := by
  rcases c21_openings t s s2 g h Gs Hs hc.size hc.rows hc.full hc.accepted v r hV with ⟨h1, h2⟩ | h1
  · left
    obtain ⟨-, -, a1, a2⟩ := hs _ _ _ hc.built
    obtain ⟨e1, e2⟩ := hc.ext
    have := a2 _ h1 (fun lc hlc => h2 lc (e1.subset hlc)) (fun i x hx => by simpa [Verifier.new, R1CSTree.assignment] using hst i x hx)
    exact ⟨by simpa [Verifier.new, R1CSTree.assignment] using this, by simpa [Verifier.new] using a1.trans e2⟩
  · exact .inr h1

theorem SoundForWith.new (hs : SoundForWith kk statics points dv R) (s' : Verifier F G) (hd : dv coms (Verifier.new [.init label]) = (.ok (), s')) : kk ≤ coms.length ∧ coms.take kk ++ points <+: s'.V ∧
      ∀ σ : Assignment F, σ.Gates → σ.Sat s'.constraints → (∀ i x, statics[i]? = some x → σ.committed (kk + i) = x) → R σ.committed := by
  obtain ⟨a0, -, a1, a2⟩ := hs _ _ _ hd
  exact ⟨a0, by simpa [Verifier.new] using a1, fun σ h1 h2 h3 => by simpa [Verifier.new] using a2 σ h1 h2 (by simpa [Verifier.new] using h3)⟩

theorem SoundForExactly.new (hs : SoundForExactly kk statics points dv R) (hl : coms.length = kk) (s' : Verifier F G) (hd : dv coms (Verifier.new [.init label]) = (.ok (), s')) :
    kk ≤ coms.length ∧ coms.take kk ++ points <+: s'.V ∧
      ∀ σ : Assignment F, σ.Gates → σ.Sat s'.constraints → (∀ i x, statics[i]? = some x → σ.committed (kk + i) = x) → R σ.committed := by
  obtain ⟨a1, a2, a3⟩ := hs _ _ _ hl hd
  rw [← hl, List.take_length]
  exact ⟨le_refl _, by simpa [Verifier.new] using a2, fun σ h1 h2 h3 => by simpa [Verifier.new] using a3 σ h1 h2 (by simpa [Verifier.new, hl] using h3)⟩

/-- Independent generators: `g` and `h` have no relation. -/
theorem Convinced.pair (hc : Convinced (F := F) label (dv coms) g h Gs Hs) : ∀ α β : F, α • g + β • h = 0 → α = 0 ∧ β = 0 := by
  obtain ⟨k, q, t, s, s2, -, hi⟩ := hc
  exact hi.pair

/-- Binding: a point is a commitment to one value only. -/
theorem CommitsTo.unique (hi : ∀ α β : F, α • g + β • h = 0 → α = 0 ∧ β = 0) {P : G} {x y : F} (h1 : CommitsTo g h P x) (h2 : CommitsTo g h P y) : x = y := by
  obtain ⟨r, rfl⟩ := h1
  obtain ⟨r', e⟩ := h2
  refine sub_eq_zero.mp (hi (x - y) (r - r') ?_).1
  rw [sub_smul, sub_smul, show x • g - y • g + (r • h - r' • h) = x • g + r • h - (y • g + r' • h) by abel, e, sub_self]

/-- **C55**, openings: if the verifier of a sound statement about `kk` commitments is convinced, and the commitments are Pedersen commitments to `v 0, v 1, ..`, then the statement is true of these values. -/
theorem c55_openings (hs : SoundForWith kk statics points dv R) (hp : ∀ (i : ℕ) x, statics[i]? = some x → ∃ P, points[i]? = some P ∧ CommitsTo g h P x)
    (hR : ∀ v w : ℕ → F, (∀ i < kk, v i = w i) → R v → R w) (hc : Convinced label (dv coms) g h Gs Hs) (v : ℕ → F) (hv : ∀ (i : ℕ) P, i < kk → coms[i]? = some P → CommitsTo g h P (v i)) : R v := by
  obtain ⟨φ, hg, hh⟩ := (exists_opening hc.pair (0 : G)).1
  obtain ⟨w, h1, h2⟩ := hc.functional hs.new hp φ hg hh
  refine hR w v (fun i hi => ?_) h1
  obtain ⟨P, hP, e⟩ := h2 i hi
  obtain ⟨r, rfl⟩ := hv i P hi hP
  rw [e]; simp [hg, hh]

/-- The same for statements that use all the commitments given. -/
theorem c55_openings_exact (hs : SoundForExactly kk statics points dv R) (hl : coms.length = kk) (hp : ∀ (i : ℕ) x, statics[i]? = some x → ∃ P, points[i]? = some P ∧ CommitsTo g h P x)
    (hR : ∀ v w : ℕ → F, (∀ i < kk, v i = w i) → R v → R w) (hc : Convinced label (dv coms) g h Gs Hs) (v : ℕ → F) (hv : ∀ (i : ℕ) P, coms[i]? = some P → CommitsTo g h P (v i)) : R v := by
  obtain ⟨φ, hg, hh⟩ := (exists_opening hc.pair (0 : G)).1
  obtain ⟨w, h1, h2⟩ := hc.functional (hs.new hl) hp φ hg hh
  refine hR w v (fun i hi => ?_) h1
  obtain ⟨P, hP, e⟩ := h2 i hi
  obtain ⟨r, rfl⟩ := hv i P hP
  rw [e]; simp [hg, hh]

/-- **C55**, knowledge: if the statement excludes some value for commitment `j`, then a convinced verifier was given a commitment to a value there, and it is one for which the statement can be true. -/
theorem c55_knowledge (hs : SoundForWith kk statics points dv R) (hp : ∀ (i : ℕ) x, statics[i]? = some x → ∃ P, points[i]? = some P ∧ CommitsTo g h P x)
    (hc : Convinced label (dv coms) g h Gs Hs) {j : ℕ} (hj : j < kk) (S : F → Prop) (hS : ∀ v, R v → S (v j)) (c : F) (hn : ¬ S c) : ∃ P x, coms[j]? = some P ∧ CommitsTo g h P x ∧ S x := by
  obtain ⟨φ, hg, hh⟩ := (exists_opening hc.pair (0 : G)).1
  obtain ⟨w, h1, h2⟩ := hc.functional hs.new hp φ hg hh
  obtain ⟨P, hP, e⟩ := h2 j hj
  rcases (exists_opening hc.pair P).2 with ⟨x, hx⟩ | hφ
  · refine ⟨P, x, hP, hx, ?_⟩
    obtain ⟨r, rfl⟩ := hx
    have := hS w h1
    rwa [e, map_add, map_smul, map_smul, hg, hh, smul_zero, add_zero, smul_eq_mul, mul_one] at this
  · obtain ⟨ψ, g1, g2, g3⟩ := hφ c
    obtain ⟨w', i1, i2⟩ := hc.functional hs.new hp ψ g1 g2
    obtain ⟨P', hP', e'⟩ := i2 j hj
    rw [hP] at hP'
    obtain rfl := Option.some.inj hP'
    exact absurd (by rw [← g3, ← e']; exact hS w' i1) hn

/-! ## For the statements of the crate -/

/-- **C55**, bounded number: the first commitment is to an integer between the bounds. -/
theorem c55_bounded_num [IntRep F] (env : Env F G) (debug : Bool) (lower upper n : ℕ) (hl : lower < 2 ^ 64) (hu : upper < 2 ^ 64) (ho : 2 ^ 64 < IntRep.order F) (hn : 2 ^ (n + 1) ≤ IntRep.order F)
    (hc : Convinced (F := F) label (verifyBoundedNum env debug lower upper n coms) g h Gs Hs) : ∃ P, ∃ k : ℕ, coms[0]? = some P ∧ CommitsTo g h P (k : F) ∧ lower ≤ k ∧ k ≤ upper := by
  obtain ⟨P, x, h1, h2, k, h3, h4, rfl⟩ := c55_knowledge (c26_sound env debug lower upper n hl hu ho hn).with (by simp) hc (j := 0) (by decide) (fun x => ∃ k : ℕ, lower ≤ k ∧ k ≤ upper ∧ x = (k : F))
    (fun v hv => hv) ((2 ^ 64 : ℕ) : F) (by
      rintro ⟨k, -, hk, e⟩
      have := congrArg IntRep.rep e
      rw [IntRep.rep_cast _ ho, IntRep.rep_cast _ (by omega)] at this
      omega)
  exact ⟨P, k, h1, h2, h3, h4⟩

/-- **C55**, non-zero value: the first commitment is to a non-zero value. -/
theorem c55_non_zero (env : Env F G) (hc : Convinced (F := F) label (verifyNonZeroVal env coms) g h Gs Hs) : ∃ P, ∃ x : F, coms[0]? = some P ∧ CommitsTo g h P x ∧ x ≠ 0 :=
  c55_knowledge (c27_sound env).with (by simp) hc (j := 0) (by decide) (fun x => x ≠ 0) (fun v hv => hv) 0 (by simp)

/-- **C55**, set membership (for a set that is not the whole field): the first commitment is to an element of the set. -/
theorem c55_set_membership (env : Env F G) (set : List F) (hset : ∃ y, y ∉ set) (hc : Convinced label (verifySetMembership env set coms) g h Gs Hs) :
    ∃ P x, coms[0]? = some P ∧ CommitsTo g h P x ∧ x ∈ set := by
  obtain ⟨y, hy⟩ := hset
  exact c55_knowledge (c28_sound env set).with (by simp) hc (j := 0) (by omega) (fun x => x ∈ set) (fun v hv => hv) y hy

/-- **C55**, set non-membership (for a non-empty set): the first commitment is to a value outside the set. -/
theorem c55_set_non_membership (env : Env F G) (set : List F) (hset : set ≠ []) (hc : Convinced label (verifySetNonMembership env set coms) g h Gs Hs) :
    ∃ P x, coms[0]? = some P ∧ CommitsTo g h P x ∧ x ∉ set := by
  obtain ⟨y, hy⟩ := List.exists_mem_of_ne_nil _ hset
  exact c55_knowledge (c30_sound env set).with (by simp) hc (j := 0) (by omega) (fun x => x ∉ set) (fun v hv => hv) y (by simpa using hy)

/-- **C55**, MiMC preimage: the two committed values hash to the image. -/
theorem c55_mimc (env : Env F G) (image : F) (constants : List F) (rounds : ℕ) (hr : constants.length = rounds) (hc : Convinced label (verifyMimcPreimage env image constants rounds coms) g h Gs Hs)
    (v : ℕ → F) (hv : ∀ (i : ℕ) P, i < 2 → coms[i]? = some P → CommitsTo g h P (v i)) : mimc (v 0) (v 1) constants rounds = .ok image :=
  c55_openings (c32_sound_exact env image constants rounds hr).with (by simp) (fun v w e hv => by rw [← e 0 (by decide), ← e 1 (by decide)]; exact hv) hc v hv

/-- The static commitment to 0. -/
theorem commits_zero (g h : G) : ∀ (i : ℕ) x, [(0 : F)][i]? = some x → ∃ P, [(0 : G)][i]? = some P ∧ CommitsTo g h P x := by
  intro i x hx
  cases i with
  | zero =>
    obtain rfl : (0 : F) = x := by simpa using hx
    exact ⟨0, rfl, 0, by simp⟩
  | succ i => simp at hx

/-- **C55**, Poseidon preimage (2:1): the two committed values hash to the output. -/
theorem c55_poseidon_2 (env : Env F G) (output : F) (p : PoseidonParams F) (sbox : SboxType) (hs : sbox ≠ .inverse) (hc : Convinced label (verifyPoseidon2 env output p sbox g h coms) g h Gs Hs)
    (v : ℕ → F) (hv : ∀ (i : ℕ) P, i < 2 → coms[i]? = some P → CommitsTo g h P (v i)) : poseidonHash2 (v 0) (v 1) p sbox = .ok output :=
  c55_openings (c35_sound_2 env output p sbox hs g h) (by simpa using commits_zero g h) (fun v w e hv => by rw [← e 0 (by decide), ← e 1 (by decide)]; exact hv) hc v hv

/-- **C55**, Poseidon preimage (4:1). -/
theorem c55_poseidon_4 (env : Env F G) (output : F) (p : PoseidonParams F) (sbox : SboxType) (hs : sbox ≠ .inverse) (hc : Convinced label (verifyPoseidon4 env output p sbox g h coms) g h Gs Hs)
    (v : ℕ → F) (hv : ∀ (i : ℕ) P, i < 4 → coms[i]? = some P → CommitsTo g h P (v i)) : poseidonHash4 [v 0, v 1, v 2, v 3] p sbox = .ok output :=
  c55_openings (c35_sound_4 env output p sbox hs g h) (by simpa using commits_zero g h) (fun v w e hv => by
    rw [← e 0 (by decide), ← e 1 (by decide), ← e 2 (by decide), ← e 3 (by decide)]; exact hv) hc v hv

/-- **C55**, Poseidon preimage (8:1). -/
theorem c55_poseidon_8 (env : Env F G) (output : F) (p : PoseidonParams F) (sbox : SboxType) (hs : sbox ≠ .inverse) (hc : Convinced label (verifyPoseidon8 env output p sbox g h coms) g h Gs Hs)
    (v : ℕ → F) (hv : ∀ (i : ℕ) P, i < 8 → coms[i]? = some P → CommitsTo g h P (v i)) : poseidonHash8 [v 0, v 1, v 2, v 3, v 4, v 5, v 6, v 7] p sbox = .ok output :=
  c55_openings (c35_sound_8 env output p sbox hs g h) (by simpa using commits_zero g h) (fun v w e hv => by
    rw [← e 0 (by decide), ← e 1 (by decide), ← e 2 (by decide), ← e 3 (by decide), ← e 4 (by decide), ← e 5 (by decide), ← e 6 (by decide), ← e 7 (by decide)]; exact hv) hc v hv

theorem nodesAt_congr {n m k : ℕ} {v w : ℕ → F} (e : ∀ i < k + n * m, v i = w i) : nodesAt n m k v = nodesAt n m k w := by
  unfold nodesAt
  refine List.map_congr_left fun i hi => List.map_congr_left fun j hj => e _ ?_
  have hi := List.mem_range.mp hi
  have hj := List.mem_range.mp hj
  have : n * (i + 1) ≤ n * m := Nat.mul_le_mul_left n hi
  rw [Nat.mul_succ] at this
  omega

theorem Included.congr {T : TreeOps F} {m : ℕ} {root : F} {v w : ℕ → F} (e : ∀ i < 2 + (T.arity - 1) * m, v i = w i) (hv : Included T m root v) : Included T m root w := by
  obtain ⟨path, h1, h2, h3, h4⟩ := hv
  exact ⟨path, h1, h2, by rw [← e 1 (by omega)]; exact h3, by rw [← nodesAt_congr e, ← e 0 (by omega)]; exact h4⟩

/-- **C55**, Merkle inclusion (4-ary): the committed leaf is at the committed index below the root, with the committed siblings. -/
theorem c55_inclusion_4 [ByteRep F] (env : Env F G) (root : F) (depth : ℕ) (p : PoseidonParams F) (sbox : SboxType) (hs : sbox ≠ .inverse) (hl : coms.length = 2 + 3 * depth)
    (hc : Convinced label (verifyInclusion4 env root depth p sbox g h coms) g h Gs Hs) (v : ℕ → F) (hv : ∀ (i : ℕ) P, coms[i]? = some P → CommitsTo g h P (v i)) : Included (hasher4 p sbox) depth root v :=
  c55_openings_exact (c41_sound env root depth p sbox hs g h) hl (commits_zero g h) (fun _ _ e => Included.congr e) hc v hv

/-- **C55**, Merkle inclusion (8-ary). -/
theorem c55_inclusion_8 [ByteRep F] (env : Env F G) (root : F) (depth : ℕ) (p : PoseidonParams F) (sbox : SboxType) (hs : sbox ≠ .inverse) (hl : coms.length = 2 + 7 * depth)
    (hc : Convinced label (verifyInclusion8 env root depth p sbox g h coms) g h Gs Hs) (v : ℕ → F) (hv : ∀ (i : ℕ) P, coms[i]? = some P → CommitsTo g h P (v i)) : Included (hasher8 p sbox) depth root v :=
  c55_openings_exact (c42_sound env root depth p sbox hs g h) hl (commits_zero g h) (fun _ _ e => Included.congr e) hc v hv

theorem randVal_lt {depth i n : ℕ} (hi : i < n) : randVal depth i + 1 + 3 * depth ≤ 1 + n * (1 + 3 * depth) := by
  unfold randVal
  have : (i + 1) * (1 + 3 * depth) ≤ n * (1 + 3 * depth) := Nat.mul_le_mul_right _ hi
  rw [Nat.succ_mul] at this
  omega

theorem Randomized.congr [ByteRep F] {T : TreeOps F} (hT : T.arity = 4) {depth : ℕ} {c : ℕ → F} {indices : List F} {v w : ℕ → F} (e : ∀ i < 1 + indices.length * (1 + 3 * depth), v i = w i)
    (hv : Randomized T depth c indices v) : Randomized T depth c indices w := by
  obtain ⟨h1, h2⟩ := hv
  have e0 : v 0 = w 0 := e 0 (by omega)
  have ei : ∀ i < indices.length, v (randVal depth i) = w (randVal depth i) := fun i hi => e _ (by have := randVal_lt (depth := depth) hi; omega)
  refine ⟨fun i x hx => ?_, ?_⟩
  · have hi := (List.getElem?_eq_some_iff.mp hx).1
    rw [← e0, ← ei i hi, ← nodesAt_congr (v := v) (w := w) fun j hj => e j ?_]
    · exact h1 i x hx
    · have := randVal_lt (depth := depth) hi
      rw [hT] at hj
      omega
  · rw [← e0, ← h2]
    congr 2
    unfold origPairs
    refine List.ext_getElem (by simp) fun i hi hi' => ?_
    simp only [List.getElem_mapIdx]
    rw [ei i (by simpa using hi)]

/-- **C55**, randomizer: for a new tree with any history of updates, the committed original values are at their indices below the committed root, and writing them into the new tree gives that root. -/
theorem c55_randomizer [ByteRep F] (env : Env F G) (p : PoseidonParams F) (hp : p.Valid) (hw : p.width = 5) (depth : ℕ) (hd : depth ≤ 4 * ByteRep.modBytes F) (db0 : HashDb (List F)) (hist : History F)
    (hcf : (tree4 p).CollisionFree depth hist) (t : SparseTree F) (db : HashDb (List F)) (hrun : runHistory (tree4 p) depth db0 hist = .ok (t, db)) (indices : List F)
    (hc : Convinced label (verifyRandomizer env t db indices depth p .quint g h coms) g h Gs Hs) (v : ℕ → F)
    (hv : ∀ (i : ℕ) P, i < 1 + indices.length * (1 + 3 * depth) → coms[i]? = some P → CommitsTo g h P (v i)) : Randomized (tree4 p) depth (written (4 ^ depth) hist) indices v :=
  c55_openings (c46_tree_sound env g h p hp hw depth hd db0 hist hcf t db hrun indices) (commits_zero g h) (fun _ _ e => Randomized.congr rfl e) hc v hv

/-! ## Example -/

/-- A honest proof that `9 g + 7 h` commits to an element of `{9}`. -/
def setComs : List V4 := [(9 : Z101) • unit4 0 + (7 : Z101) • unit4 1, (0 : Z101) • unit4 0 + (8 : Z101) • unit4 1]

def setDv : Drv (Verifier Z101 V4) Unit := verifySetMembership (Env.std fun _ => 2) [(9 : Z101)] setComs
def setV : Verifier Z101 V4 := (setDv (Verifier.new [.init "set"])).2

/-- The answers of the honest prover. -/
def setTree : R1CSTree Z101 V4 0 4 where
  A_I1 := (1 : Z101) • unit4 2 + (11 : Z101) • unit4 1
  A_O1 := (12 : Z101) • unit4 1
  S1 := (5 : Z101) • unit4 2 + (6 : Z101) • unit4 3 + (13 : Z101) • unit4 1
  A_I2 := 0
  A_O2 := 0
  S2 := 0
  ys _ := ⟨2, fun b =>
    let z : Z101 := (b.val + 1 : ℕ)
    let A := 1 - z ^ 3
    let B := z ^ 4 - 1
    let C := - z ^ 2
    let T := fun i : ℕ => [A * B, A * C, 5 * B, 6 * A + 5 * C, 0, 30].getD (i - 1) 0 • unit4 0 + ((20 + i : ℕ) : Z101) • unit4 1
    ⟨z, T 1, T 3, T 4, T 5, T 6, fun c => ⟨(c.val + 1 : ℕ), fun d =>
      let x : Z101 := (d.val + 1 : ℕ)
      let l := x * A + x ^ 3 * 5
      let r := B + x * C + x ^ 3 * 6
      ⟨x, l * r, 21 * x - (7 * z + 8 * (z + z ^ 3)) * x ^ 2 + 23 * x ^ 3 + 24 * x ^ 4 + 25 * x ^ 5 + 26 * x ^ 6, 11 * x + 12 * x ^ 2 + 13 * x ^ 3, fun e => (e.val + 1 : ℕ), fun _ => .leaf l r⟩⟩⟩⟩

theorem setTree_full : setTree.Full where
  y0 := by decide
  yd := by decide
  zd := by decide
  u0 := by decide
  ud := by decide
  x0 := by decide
  xd := by decide
  w0 := by decide
  wd := by decide
  ipp := fun _ _ _ _ _ => trivial

/-- The verifier after its (empty) second phase. -/
def setV2 : Verifier Z101 V4 :=
  match (setV.start (setTree.proof 0 0 0 0 ⟨[], [], 0, 0⟩)).createRandomizedConstraints (Env.std fun _ => 2) with
  | .ok s => s
  | .error _ => setV

/-- It accepts. -/
def setOk (b : Fin 5) (c : Fin 5) (d : Fin 6) (e : Fin 2) : Bool :=
  match setTree.ys 0 |>.zs b |>.us c |>.xs d |>.ipp e with
  | .leaf α β => [0, 1].all fun r => (setV.verify (Env.std (labelOracle (setTree.chals 0 b c d e))) (setTree.proof 0 b c d ⟨[], [], α, β⟩) (unit4 0) (unit4 1) [unit4 2] [unit4 3] r).isOk
  | _ => false

set_option maxRecDepth 100000 in
theorem set_ok : ∀ b c d e, setOk b c d e = true := by decide +kernel

theorem setTree_accepted : setTree.Accepted setV setV2 (unit4 0) (unit4 1) [unit4 2] [unit4 3] := by
  intro a b c d e L R us α β hp
  obtain rfl : a = 0 := Subsingleton.elim (α := Fin 1) _ _
  have hok := set_ok b c d e
  generalize hT : ((((setTree.ys 0).zs b).us c).xs d).ipp e = T at hp
  cases hp with
  | node => cases hT
  | leaf =>
    rw [setOk] at hok
    rw [hT] at hok
    have h0 := isOk_elim (List.all_eq_true.mp hok 0 (by simp))
    have h1 := isOk_elim (List.all_eq_true.mp hok 1 (by simp))
    exact ⟨Env.std (labelOracle (setTree.chals 0 b c d e)), 0, 1, h0.choose, h1.choose, by decide, rfl, rfl, rfl, .inr (by simp [Env.std]), h0.choose_spec, h1.choose_spec⟩

theorem set_convincing : Convincing setTree "set" setDv (unit4 0) (unit4 1) [unit4 2] [unit4 3] setV setV2 :=
  ⟨rfl, by decide +kernel, rfl, setTree_full, setTree_accepted⟩

/-- All hypotheses are met by a honest prover. -/
theorem set_convinced : Convinced (F := Z101) "set" (verifySetMembership (Env.std fun _ => 2) [(9 : Z101)] setComs) (unit4 0) (unit4 1) [unit4 2] [unit4 3] :=
  ⟨0, 4, setTree, setV, setV2, set_convincing, unit4_independent⟩

example : ∃ P, ∃ x : Z101, setComs[0]? = some P ∧ CommitsTo (unit4 0) (unit4 1) P x ∧ x ∈ [(9 : Z101)] := c55_set_membership _ _ ⟨0, by decide⟩ set_convinced

example : (9 : Z101) ∈ [(9 : Z101)] :=
  c55_openings (R := fun v => v 0 ∈ [(9 : Z101)]) (c28_sound _ [(9 : Z101)]).with (by simp) (fun v w e hv => by rw [← e 0 (by decide)]; exact hv) set_convinced (fun i => if i = 0 then 9 else 0) (by
    intro i P hi hP
    have hi : i < 2 := hi
    interval_cases i
    · exact ⟨7, (Option.some.inj hP).symm⟩
    · exact ⟨8, (Option.some.inj hP).symm⟩)

example := c55_openings_or_relation setTree setV setV2 (c28_sound _ [(9 : Z101)]).with set_convincing (fun i => if i = 0 then 9 else 0) (fun i => if i = 0 then 7 else 8) (by
    have : setV2.V = setComs := rfl
    rw [this]
    intro j hj
    have hj : j < 2 := hj
    interval_cases j <;> rfl) (by simp)

end Bp
