import Mathlib.Data.Nat.Digits.Lemmas
import Mathlib.Tactic.LinearCombination
import Verif.Spec.Merkle
import Verif.Lemmas.Gadgets.Tree
import Verif.Lemmas.Gadgets.Count
import Verif.Lemmas.Gadgets.PoseidonHash

set_option linter.unusedSectionVars false
set_option linter.unusedSimpArgs false

/-! # Merkle inclusion gadgets -/

namespace Bp
variable {F G : Type} [Field F] [AddCommGroup G] [Module F G]
variable {C C' : Type} {rnd : Bool} {α β : Type}
variable {env : Env F G} {σ : Assignment F} {onSpec : C → Prover F G → Prover F G}

/-! ## Groups of siblings -/

/-- `m` consecutive groups of `n` elements. -/
def groups (n : ℕ) : ℕ → List α → List (List α)
  | 0, _ => []
  | m + 1, xs => xs.take n :: groups n m (xs.drop n)

theorem groups_length (n : ℕ) : ∀ m (xs : List α), (groups n m xs).length = m
  | 0, _ => rfl
  | m + 1, xs => by simp [groups, groups_length n m]

theorem groups_node_length {n : ℕ} : ∀ m (xs : List α), xs.length = n * m → ∀ s ∈ groups n m xs, s.length = n
  | 0, _, _ => by simp [groups]
  | m + 1, xs, h => by
    intro s hs
    simp only [groups, List.mem_cons] at hs
    rcases hs with rfl | hs
    · rw [List.length_take, h]; apply Nat.min_eq_left; rw [Nat.mul_succ]; omega
    · exact groups_node_length m (xs.drop n) (by rw [List.length_drop, h, Nat.mul_succ]; omega) s hs

theorem groups_flatten {n : ℕ} : ∀ (ss : List (List α)), (∀ s ∈ ss, s.length = n) → groups n ss.length ss.flatten = ss
  | [], _ => rfl
  | s :: ss, h => by
    have hs := h s (by simp)
    simp only [List.length_cons, groups, List.flatten_cons]
    rw [List.take_left' hs, List.drop_left' hs, groups_flatten ss fun t ht => h t (by simp [ht])]

theorem flatten_length {n : ℕ} : ∀ (ss : List (List α)), (∀ s ∈ ss, s.length = n) → ss.flatten.length = n * ss.length
  | [], _ => by simp
  | s :: ss, h => by
    rw [List.flatten_cons, List.length_append, h s (by simp), flatten_length ss fun t ht => h t (by simp [ht]), List.length_cons]; ring

theorem groups_nodesAt (n : ℕ) (v : ℕ → F) : ∀ m k, groups n m ((List.range (n * m)).map fun i => v (k + i)) = nodesAt n m k v
  | 0, k => rfl
  | m + 1, k => by
    have h1 : ((List.range (n * (m + 1))).map fun i => v (k + i)).take n = (List.range n).map fun j => v (k + n * 0 + j) := by
      rw [← List.map_take, List.take_range, Nat.min_eq_left (by rw [Nat.mul_succ]; omega)]; simp
    have h2 : ((List.range (n * (m + 1))).map fun i => v (k + i)).drop n = (List.range (n * m)).map fun i => v (k + n + i) := by
      apply List.ext_getElem
      · simp [Nat.mul_succ]
      · intro i h1 h2; simp [Nat.add_assoc]
    rw [groups, h1, h2, groups_nodesAt n v m (k + n)]
    unfold nodesAt
    rw [List.range_succ_eq_map, List.map_cons, List.map_map]
    refine List.cons_eq_cons.mpr ⟨rfl, List.map_congr_left fun i _ => ?_⟩
    refine List.map_congr_left fun j _ => ?_
    congr 1; rw [Nat.mul_succ]; omega

/-- The nodes used at the `k`-th level from the leaf. -/
theorem take_popped {n m k : ℕ} (hk : k < m) (xs : List α) :
    xs.take (n * (m - k)) = xs.take (n * (m - (k + 1))) ++ (xs.drop (n * (m - (k + 1)))).take n := by
  have : n * (m - k) = n * (m - (k + 1)) + n := by rw [show m - k = (m - (k + 1)) + 1 by omega, Nat.mul_succ]
  rw [this, List.take_add]

theorem groups_step {n m k : ℕ} (hk : k < m) (xs : List α) :
    groups n (k + 1) (xs.drop (n * (m - (k + 1)))) = (xs.drop (n * (m - (k + 1)))).take n :: groups n k (xs.drop (n * (m - k))) := by
  have : n * (m - k) = n * (m - (k + 1)) + n := by rw [show m - k = (m - (k + 1)) + 1 by omega, Nat.mul_succ]
  rw [groups, List.drop_drop, this]

/-! ## The loop -/

/-- `if proof_nodes.is_empty() { break; }` around a level. -/
def guarded (level : MerkleState F → Prog F C rnd (MerkleState F)) (st : MerkleState F) : Prog F C rnd (MerkleState F) :=
  if st.nodes.isEmpty then pure st else level st

/-- Soundness invariant after `k` iterations; `pre` are the nodes too few for a level. -/
structure MInv (σ : Assignment F) (H : List F → F) (A m : ℕ) (pre ns : List Var) (leaf idx : F) (k : ℕ) (st : MerkleState F) : Prop where
  nodes : st.nodes = pre ++ ns.take ((A - 1) * (m - k))
  rest : m < k → pre = []
  exp : k ≤ m → st.exp = (A : F) ^ k
  path : ∃ ds : List ℕ, ds.length = min k m ∧ (∀ d ∈ ds, d < A) ∧ LC.termsVal σ st.terms = (Nat.ofDigits A ds.reverse : ℕ) - idx ∧
    st.prev.value σ = merkleRoot H (ds.zip (groups (A - 1) (min k m) ((ns.map σ.val).drop ((A - 1) * (m - k))))) leaf

/-- What one level has to guarantee for soundness. -/
def LevelVS (env : Env F G) (σ : Assignment F) (H : List F → F) (A : ℕ) (level : MerkleState F → Prog F C rnd (MerkleState F)) : Prop :=
  (∀ st rest popped, st.nodes = rest ++ popped → popped.length = A - 1 → VS env σ (level st) fun st' => st'.nodes = rest ∧ st'.exp = st.exp * A ∧
    ∃ d < A, LC.termsVal σ st'.terms = LC.termsVal σ st.terms + d * st.exp ∧ st'.prev.value σ = H ((popped.map σ.val).insertIdx d (st.prev.value σ))) ∧
  ∀ st, st.nodes.length < A - 1 → VS env σ (level st) fun _ => False

theorem VS.guarded {H : List F → F} {A m : ℕ} (hA : 2 ≤ A) {pre nodes : List Var} (hpre : pre.length < A - 1) (hn : nodes.length = (A - 1) * m) {leaf idx : F}
    {level : MerkleState F → Prog F C rnd (MerkleState F)} (hL : LevelVS env σ H A level) {k : ℕ} {st : MerkleState F} (h : MInv σ H A m pre nodes leaf idx k st) :
    VS env σ (guarded level st) (MInv σ H A m pre nodes leaf idx (k + 1)) := by
  unfold Bp.guarded
  by_cases hk : k < m
  · have hpos : 0 < (A - 1) * (m - k) := Nat.mul_pos (by omega) (by omega)
    have hle : (A - 1) * (m - k) ≤ nodes.length := by rw [hn]; exact Nat.mul_le_mul_left _ (by omega)
    rw [if_neg (by rw [h.nodes, List.isEmpty_iff_length_eq_zero, List.length_append, List.length_take]; omega)]
    have e := take_popped (n := A - 1) hk nodes
    have hpl : ((nodes.drop ((A - 1) * (m - (k + 1)))).take (A - 1)).length = A - 1 := by
      rw [List.length_take, List.length_drop, hn, show m = (m - (k + 1)) + (k + 1) by omega, Nat.mul_add]
      apply Nat.min_eq_left
      rw [show (m - (k + 1)) + (k + 1) - (k + 1) = m - (k + 1) by omega, Nat.mul_succ]
      omega
    refine (hL.1 st _ _ (by rw [h.nodes, e, ← List.append_assoc]) hpl).mono ?_
    rintro st' ⟨h1, h2, d, hd, h3, h4⟩
    obtain ⟨ds, g1, g2, g3, g4⟩ := h.path
    rw [Nat.min_eq_left (by omega)] at g1 g4
    refine ⟨h1, fun _ => by omega, fun _ => by rw [h2, h.exp (by omega), pow_succ], d :: ds, ?_, ?_, ?_, ?_⟩
    · rw [Nat.min_eq_left (by omega), List.length_cons, g1]
    · simpa using ⟨hd, g2⟩
    · rw [h3, g3, h.exp (by omega), List.reverse_cons, Nat.ofDigits_append, Nat.ofDigits_singleton, List.length_reverse, g1]
      push_cast; ring
    · rw [h4, g4, Nat.min_eq_left (by omega), groups_step hk, List.zip_cons_cons, merkleRoot, List.map_take, List.map_drop]
  · have h0 : m - k = 0 := by omega
    have h0' : m - (k + 1) = 0 := by omega
    have hnd : st.nodes = pre := by rw [h.nodes, h0]; simp
    by_cases hp : pre = []
    swap
    · rw [if_neg (by rw [hnd]; simpa using hp)]
      exact (hL.2 st (by rw [hnd]; exact hpre)).mono fun _ h => h.elim
    rw [if_pos (by rw [hnd, hp]; rfl)]
    refine VS.pure ⟨by rw [h.nodes, h0, h0'], fun _ => hp, fun _ => by omega, ?_⟩
    obtain ⟨ds, g1, g2, g3, g4⟩ := h.path
    rw [Nat.min_eq_right (by omega)] at g1 g4
    rw [h0] at g4
    exact ⟨ds, by rw [g1]; omega, g2, g3, by rw [g4, Nat.min_eq_right (by omega), h0']⟩

theorem MInv.init (H : List F → F) (A m : ℕ) (pre nodes : List Var) (hn : nodes.length = (A - 1) * m) (leaf idx : Var) :
    MInv σ H A m pre nodes (σ.val leaf) (σ.val idx) 0 ⟨pre ++ nodes, LC.ofVar leaf, [(idx, -1)], 1⟩ := by
  refine ⟨by simp [← hn], fun h => by omega, fun _ => by simp, [], by simp, by simp, ?_, ?_⟩
  · simp [LC.termsVal_cons, LC.termsVal_nil]
  · simp [LC.value_ofVar, merkleRoot]

/-- Completeness invariant after `k` iterations. -/
structure PInv (p0 : Prover F G) (H : List F → F) (A m : ℕ) (nodes : List Var) (vals : List F) (leaf idxF : F) (idx : ℕ) (k : ℕ) (st : MerkleState F) (p : Prover F G) : Prop where
  next : p0.Next p
  nodes : st.nodes = nodes.take ((A - 1) * (m - k))
  exp : k ≤ m → st.exp = (A : F) ^ k
  terms : p.Has (LC.ofTerms st.terms) ((idx % A ^ min k m : ℕ) - idxF)
  prev : p.Has st.prev (merkleRoot H ((digitsOf A (min k m) idx).zip (groups (A - 1) (min k m) (vals.drop ((A - 1) * (m - k))))) leaf)

/-- What one level has to guarantee for completeness, with digit `d`. -/
def LevelPS (env : Env F G) (onSpec : C → Prover F G → Prover F G) (p0 : Prover F G) (H : List F → F) (A d : ℕ) (level : MerkleState F → Prog F C rnd (MerkleState F)) : Prop :=
  ∀ st rest popped xs x y p, p0.Next p → st.nodes = rest ++ popped → List.Forall₂ p.HasV popped xs → xs.length = A - 1 → p.Has st.prev x → p.Has (LC.ofTerms st.terms) y →
    PS env onSpec p (level st) fun st' p' => p.Next p' ∧ st'.nodes = rest ∧ st'.exp = st.exp * A ∧ p'.Has (LC.ofTerms st'.terms) (y + d * st.exp) ∧ p'.Has st'.prev (H (xs.insertIdx d x))

theorem PS.guarded {p0 : Prover F G} (hg0 : p0.Good) {H : List F → F} {A m : ℕ} (hA : 2 ≤ A) {nodes : List Var} {vals : List F} (hv : List.Forall₂ p0.HasV nodes vals)
    (hn : nodes.length = (A - 1) * m) {leaf idxF : F} {idx k : ℕ} {level : MerkleState F → Prog F C rnd (MerkleState F)}
    (hL : k < m → LevelPS env onSpec p0 H A (idx / A ^ k % A) level) {st : MerkleState F} {p : Prover F G} (h : PInv p0 H A m nodes vals leaf idxF idx k st p) :
    PS env onSpec p (guarded level st) (PInv p0 H A m nodes vals leaf idxF idx (k + 1)) := by
  unfold Bp.guarded
  have hvl := hv.length_eq
  by_cases hk : k < m
  · have hpos : 0 < (A - 1) * (m - k) := Nat.mul_pos (by omega) (by omega)
    have hle : (A - 1) * (m - k) ≤ nodes.length := by rw [hn]; exact Nat.mul_le_mul_left _ (by omega)
    rw [if_neg (by rw [h.nodes, List.isEmpty_iff_length_eq_zero, List.length_take]; omega)]
    have e := take_popped (n := A - 1) hk nodes
    have hpl : ((vals.drop ((A - 1) * (m - (k + 1)))).take (A - 1)).length = A - 1 := by
      rw [List.length_take, List.length_drop, ← hvl, hn, show m = (m - (k + 1)) + (k + 1) by omega, Nat.mul_add]
      apply Nat.min_eq_left
      rw [show (m - (k + 1)) + (k + 1) - (k + 1) = m - (k + 1) by omega, Nat.mul_succ]
      omega
    have hf : List.Forall₂ p.HasV ((nodes.drop ((A - 1) * (m - (k + 1)))).take (A - 1)) ((vals.drop ((A - 1) * (m - (k + 1)))).take (A - 1)) :=
      List.forall₂_take _ (List.forall₂_drop _ (hv.imp fun _ _ hx => hx.next hg0 h.next))
    refine (hL hk st _ _ _ _ _ p h.next (h.nodes.trans e) hf hpl h.prev h.terms).mono ?_
    rintro st' p' ⟨n1, h1, h2, h3, h4⟩
    rw [Nat.min_eq_left (by omega)] at h3 h4
    refine ⟨h.next.trans n1, h1, fun _ => by rw [h2, h.exp (by omega), pow_succ], h3.congr ?_, h4.congr ?_⟩
    · rw [Nat.min_eq_left (by omega), h.exp (by omega), pow_succ, Nat.mod_mul]
      push_cast; ring
    · rw [Nat.min_eq_left (by omega), groups_step hk, digitsOf, List.zip_cons_cons, merkleRoot]
  · have h0 : m - k = 0 := by omega
    have h0' : m - (k + 1) = 0 := by omega
    rw [if_pos (by rw [h.nodes, h0]; simp)]
    have h3 := h.terms
    have h4 := h.prev
    rw [Nat.min_eq_right (by omega)] at h3 h4
    rw [h0] at h4
    exact PS.pure ⟨h.next, by rw [h.nodes, h0, h0'], fun _ => by omega, by rwa [Nat.min_eq_right (by omega)], by rwa [Nat.min_eq_right (by omega), h0']⟩

theorem PInv.init {p : Prover F G} (hg : p.Good) (H : List F → F) (A m : ℕ) {nodes : List Var} (hn : nodes.length = (A - 1) * m) (vals : List F) {leaf idx : Var} {x y : F} (hx : p.HasV leaf x)
    (hy : p.HasV idx y) (i : ℕ) : PInv p H A m nodes vals x y i 0 ⟨nodes, LC.ofVar leaf, [(idx, -1)], 1⟩ p := by
  refine ⟨.refl hg, by simp [← hn], fun _ => by simp, ?_, ?_⟩
  · exact (Prover.Has.cons (c := (-1 : F)) hy .nil).congr (by simp [Nat.mod_one])
  · exact (Prover.Has.ofVar hx).congr (by simp [digitsOf, merkleRoot])

/-- Prover's and verifier's loop states. -/
structure MerkleState.Same (a b : MerkleState F) : Prop where
  nodes : a.nodes = b.nodes
  prev : a.prev.Equiv b.prev
  terms : a.terms = b.terms
  exp : a.exp = b.exp

theorem Prog.Same.loop' {RC : C → C' → Prop} {body : ℕ → α → Prog F C rnd α} {body' : ℕ → β → Prog F C' rnd β} (R : α → β → Prop) : ∀ n i a b, R a b →
    (∀ j, i ≤ j → j < i + n → ∀ a b, R a b → Prog.Same RC R (body j a) (body' j b)) → Prog.Same RC R (Prog.loop body i n a) (Prog.loop body' i n b) := by
  intro n
  induction n with
  | zero => intro i a b h _; exact .ret h
  | succ n ih => intro i a b h hb; exact Prog.Same.bind (hb i (by omega) (by omega) a b h) fun a' b' h' => ih _ _ _ h' fun j h1 h2 => hb j (by omega) (by omega)

theorem Prog.Same.forN' {RC : C → C' → Prop} {body : ℕ → α → Prog F C rnd α} {body' : ℕ → β → Prog F C' rnd β} (R : α → β → Prop) {n : ℕ} {a : α} {b : β} (h : R a b)
    (hb : ∀ j, j < n → ∀ a b, R a b → Prog.Same RC R (body j a) (body' j b)) : Prog.Same RC R (Prog.forN n a body) (Prog.forN n b body') :=
  Prog.Same.loop' R n 0 a b h fun j _ h2 => hb j (by omega)

theorem Prog.Same.guarded {RC : C → C' → Prop} {level : MerkleState F → Prog F C rnd (MerkleState F)} {level' : MerkleState F → Prog F C' rnd (MerkleState F)} {a b : MerkleState F} (h : a.Same b)
    (hL : ∀ a b, a.Same b → Prog.Same RC MerkleState.Same (level a) (level' b)) : Prog.Same RC MerkleState.Same (guarded level a) (guarded level' b) := by
  unfold Bp.guarded
  rw [h.nodes]
  split
  · exact .pure h
  · exact hL a b h

/-- Gate count of a loop whose iterations differ. -/
theorem PCQ.loop {pd : Option ℕ} {body : ℕ → β → Prog F C rnd β} (I : ℕ → β → Prop) {g : ℕ → ℕ} (hm : Monotone g) : ∀ n i a, I i a →
    (∀ j, i ≤ j → j < i + n → ∀ a, I j a → PCQ pd (body j a) (g (j + 1) - g j) (I (j + 1))) → PCQ pd (Prog.loop body i n a) (g (i + n) - g i) (I (i + n)) := by
  intro n
  induction n with
  | zero => intro i a h _; exact (PCQ.ret h).congr (by simp)
  | succ n ih =>
    intro i a h hb
    rw [show i + (n + 1) = i + 1 + n by omega]
    have h1 := hm (show i ≤ i + 1 by omega)
    have h2 := hm (show i + 1 ≤ i + 1 + n by omega)
    exact (PCQ.bind (hb i (by omega) (by omega) a h) fun b hb' => ih (i + 1) b hb' fun j h1 h2 => hb j (by omega) (by omega)).congr (by omega)

theorem PCQ.forN {pd : Option ℕ} {body : ℕ → β → Prog F C rnd β} (I : ℕ → β → Prop) {g : ℕ → ℕ} (hm : Monotone g) (n : ℕ) (a : β) (h : I 0 a)
    (hb : ∀ j, j < n → ∀ a, I j a → PCQ pd (body j a) (g (j + 1) - g j) (I (j + 1))) : PCQ pd (Prog.forN n a body) (g n - g 0) (I n) := by
  have := PCQ.loop (pd := pd) I hm n 0 a h fun j _ h2 => hb j (by omega)
  rwa [Nat.zero_add] at this

/-- Gates after `k` iterations. -/
def levelGates (c m k : ℕ) : ℕ := min k m * c

theorem levelGates_mono (c m : ℕ) : Monotone (levelGates c m) := fun a b h => Nat.mul_le_mul_right _ (by omega)

theorem PCQ.guarded {pd : Option ℕ} {A m c : ℕ} (hA : 2 ≤ A) {level : MerkleState F → Prog F C rnd (MerkleState F)}
    (hL : ∀ st : MerkleState F, A - 1 ≤ st.nodes.length → PCQ pd (level st) c fun st' => st'.nodes.length = st.nodes.length - (A - 1)) {k : ℕ} {st : MerkleState F}
    (h : st.nodes.length = (A - 1) * (m - k)) : PCQ pd (Bp.guarded level st) (levelGates c m (k + 1) - levelGates c m k) fun st' => st'.nodes.length = (A - 1) * (m - (k + 1)) := by
  unfold Bp.guarded levelGates
  by_cases hk : k < m
  · have e : (A - 1) * (m - k) = (A - 1) * (m - (k + 1)) + (A - 1) := by rw [show m - k = (m - (k + 1)) + 1 by omega, Nat.mul_succ]
    rw [if_neg (by rw [List.isEmpty_iff_length_eq_zero]; omega)]
    exact ((hL st (by omega)).mono fun st' h' => by omega).congr (by rw [Nat.min_eq_left (by omega), Nat.min_eq_left (by omega), Nat.add_mul]; omega)
  · rw [show m - k = 0 by omega] at h
    rw [if_pos (by rw [List.isEmpty_iff_length_eq_zero]; simpa using h), show m - (k + 1) = 0 by omega]
    rw [Nat.min_eq_right (show m ≤ k by omega), Nat.min_eq_right (show m ≤ k + 1 by omega), Nat.sub_self]
    exact PCQ.pure h

end Bp
