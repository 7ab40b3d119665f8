import Verif.Lemmas.Gadgets.Total
import Verif.Lemmas.Prove2

set_option linter.unusedSectionVars false
set_option linter.unusedSimpArgs false

/-! # The Merkle gadgets on the verifier's side, for all numbers of proof nodes -/

namespace Bp
variable {F G : Type} [Field F] [AddCommGroup G] [Module F G]
variable {C : Type} {rnd : Bool} {α β : Type}

/-- Like `VT`, but `c` may also panic. -/
def VO (env : Env F G) (d : Bool) (c : Prog F C rnd α) (d' : Bool) (Q : α → Prop) : Prop :=
  ∀ (onSpec : C → Verifier F G → Verifier F G), (∀ cb s, (onSpec cb s).pending = s.pending) → ∀ s, s.pending.isSome = d →
    Panics (Verifier.run env onSpec c s) ∨ ∃ x s', Verifier.run env onSpec c s = .ok (x, s') ∧ s'.pending.isSome = d' ∧ Q x

variable {env : Env F G} {d d' d'' : Bool}

theorem VT.vo {c : Prog F C rnd α} {Q : α → Prop} (h : VT env d c d' Q) : VO env d c d' Q := fun o ho s hp => .inr (h o ho s hp)

theorem VO.bind {c : Prog F C rnd α} {f : α → Prog F C rnd β} {Q : α → Prop} {R : β → Prop} (h1 : VO env d c d' Q) (h2 : ∀ x, Q x → VO env d' (f x) d'' R) : VO env d (c >>= f) d'' R := by
  intro onSpec ho s hp
  rw [Prog.bind_eq, Verifier.run_bind]
  rcases h1 onSpec ho s hp with ⟨w, e⟩ | ⟨x, s1, e1, e2, e3⟩
  · exact .inl ⟨w, by rw [e]; rfl⟩
  · rw [e1]
    exact h2 x e3 onSpec ho s1 e2

theorem VO.panic (w : String) (Q : α → Prop) : VO env d (Prog.panic w : Prog F C rnd α) d' Q := fun _ _ _ _ => .inl ⟨w, rfl⟩
theorem VO.mono {c : Prog F C rnd α} {Q R : α → Prop} (h : VO env d c d' Q) (hQ : ∀ x, Q x → R x) : VO env d c d' R := fun o ho s hp => by
  rcases h o ho s hp with h | ⟨x, s', a, b, q⟩
  · exact .inl h
  · exact .inr ⟨x, s', a, b, hQ x q⟩

theorem VO.loop {body : ℕ → β → Prog F C rnd β} (Q : ℕ → β → Prop) : ∀ (n i : ℕ) (x : β), Q i x → (∀ j, i ≤ j → j < i + n → ∀ x, Q j x → VO env d (body j x) d (Q (j + 1))) → VO env d (Prog.loop body i n x) d (Q (i + n))
  | 0, i, x, h, _ => (VT.ret h).vo
  | n + 1, i, x, h, hb => by
    have := VO.bind (hb i (le_refl _) (by omega) x h) fun y hy => VO.loop Q n (i + 1) y hy fun j h1 h2 => hb j (by omega) (by omega)
    rw [show i + 1 + n = i + (n + 1) by omega] at this
    exact this

theorem VO.forN' {body : ℕ → β → Prog F C rnd β} (Q : ℕ → β → Prop) (n : ℕ) (x : β) (h : Q 0 x) (hb : ∀ j, j < n → ∀ x, Q j x → VO env d (body j x) d (Q (j + 1))) : VO env d (Prog.forN n x body) d (Q n) := by
  have := VO.loop (env := env) (d := d) Q n 0 x h fun j _ h2 => hb j (by omega)
  rwa [Nat.zero_add] at this

variable {synth : LC F → F → Prog F C rnd Var}

theorem VO.level4 (hs : ∀ l k, VT env d (synth l k) d fun _ => True) (bits : Option (ℕ × ℕ)) (z : LC F) {p : PoseidonParams F} (hv : p.Valid) (hw : p.width = 5) (st : MerkleState F) :
    VO env d (merkleLevel4 bits [z] p synth st) d fun st' => 3 ≤ st.nodes.length ∧ st'.nodes.length = st.nodes.length - 3 := by
  by_cases h : 3 ≤ st.nodes.length
  · exact (VT.level4 hs bits z hv hw st h).vo.mono fun _ h' => ⟨h, h'⟩
  · unfold merkleLevel4
    apply VO.bind (VT.allocBit _).vo; rintro _ -
    apply VO.bind (VT.allocBit _).vo; rintro _ -
    unfold Bp.popNodes
    rw [if_pos (by omega)]
    exact VO.bind (d' := d) (VO.panic _ fun _ => False) fun _ h => h.elim

theorem VO.level8 (hs : ∀ l k, VT env d (synth l k) d fun _ => True) (bits : Option (ℕ × ℕ × ℕ)) (z : LC F) {p : PoseidonParams F} (hv : p.Valid) (hw : p.width = 9) (st : MerkleState F) :
    VO env d (merkleLevel8 bits z p synth st) d fun st' => 7 ≤ st.nodes.length ∧ st'.nodes.length = st.nodes.length - 7 := by
  by_cases h : 7 ≤ st.nodes.length
  · exact (VT.level8 hs bits z hv hw st h).vo.mono fun _ h' => ⟨h, h'⟩
  · unfold merkleLevel8
    apply VO.bind (VT.allocBit _).vo; rintro _ -
    apply VO.bind (VT.allocBit _).vo; rintro _ -
    apply VO.bind (VT.allocBit _).vo; rintro _ -
    unfold Bp.popNodes
    rw [if_pos (by omega)]
    exact VO.bind (d' := d) (VO.panic _ fun _ => False) fun _ h => h.elim

/-- Nodes that do not make whole levels: the gadget panics, unless there are so many that it does not get to the end of them. -/
theorem VO.merkle4 [ByteRep F] (hs : ∀ l k, VT env d (synth l k) d fun _ => True) (depth : ℕ) (root : F) (leaf index : Var) (nodes : List Var) (z : Var) {p : PoseidonParams F} (hv : p.Valid) (hw : p.width = 5)
    (hn : ¬ 3 ∣ nodes.length) : VO env d (merkleGadget4 depth root leaf ⟨index, none⟩ nodes [z] p synth) d fun _ => 12 * getByteSize depth 4 ≤ nodes.length := by
  unfold merkleGadget4
  apply VO.bind (VO.forN' (fun i (st : MerkleState F) => st.nodes.length + 12 * i = nodes.length) _ _ (by simp) fun i _ st hst =>
    (VO.forN' (fun j (st : MerkleState F) => st.nodes.length + 3 * j + 12 * i = nodes.length) 4 st (by omega) fun j _ st hst => by
      split
      · rename_i he
        rw [List.isEmpty_iff_length_eq_zero] at he
        exact absurd ⟨j + 4 * i, by omega⟩ hn
      · apply VO.bind (show VT env d (indexBits4 (none : Option F) i j : Prog F C rnd _) d fun _ => True from VT.pure trivial).vo
        rintro _ -
        exact (VO.level4 hs _ _ hv hw st).mono fun st' h' => by omega).mono fun st h => by omega)
  intro st hst
  apply VO.bind VT.con.vo; rintro _ -
  exact VT.conScalar.vo.mono fun _ _ => by omega

theorem VO.merkle8 [ByteRep F] (hs : ∀ l k, VT env d (synth l k) d fun _ => True) (depth : ℕ) (root : F) (leaf index : Var) (nodes : List Var) (z : Var) {p : PoseidonParams F} (hv : p.Valid) (hw : p.width = 9)
    (hn : ¬ 7 ∣ nodes.length) : VO env d (merkleGadget8 depth root leaf ⟨index, none⟩ nodes z p synth) d fun _ => 7 * depth ≤ nodes.length := by
  unfold merkleGadget8
  apply VO.bind (show VT env d (indexOctets (none : Option F) depth : Prog F C rnd _) d fun o => o = none from VT.pure rfl).vo
  rintro _ rfl
  apply VO.bind (VO.forN' (fun i (st : MerkleState F) => st.nodes.length + 7 * i = nodes.length) _ _ (by simp) fun i _ st hst => by
      split
      · rename_i he
        rw [List.isEmpty_iff_length_eq_zero] at he
        exact absurd ⟨i, by omega⟩ hn
      · apply VO.bind (show VT env d (octetBits (none : Option (List ℕ)) i : Prog F C rnd _) d fun _ => True from VT.pure trivial).vo
        rintro _ -
        exact (VO.level8 hs _ _ hv hw st).mono fun st' h' => by omega)
  intro st hst
  apply VO.bind VT.con.vo; rintro _ -
  exact VT.conScalar.vo.mono fun _ _ => by omega

/-- More nodes than the gadget uses. -/
theorem VT.merkle4_many [ByteRep F] (hs : ∀ l k, VT env d (synth l k) d fun _ => True) (depth : ℕ) (root : F) (leaf index : Var) (nodes : List Var) (z : Var) {p : PoseidonParams F} (hv : p.Valid) (hw : p.width = 5)
    (hn : 12 * getByteSize depth 4 ≤ nodes.length) : VT env d (merkleGadget4 depth root leaf ⟨index, none⟩ nodes [z] p synth) d fun _ => True := by
  unfold merkleGadget4
  apply VT.bind (VT.forN' (fun i (st : MerkleState F) => st.nodes.length + 12 * i = nodes.length) _ _ (by simp) fun i hi st hst =>
    (VT.forN' (fun j (st : MerkleState F) => st.nodes.length + 3 * j + 12 * i = nodes.length) 4 st (by omega) fun j hj st hst => by
      have h3 : 3 ≤ st.nodes.length := by omega
      rw [if_neg (by rw [List.isEmpty_iff_length_eq_zero]; omega)]
      apply VT.bind (show VT env d (indexBits4 (none : Option F) i j : Prog F C rnd _) d fun _ => True from VT.pure trivial)
      rintro _ -
      exact (VT.level4 hs _ _ hv hw st h3).mono fun st' h' => by omega).mono fun st h => by omega)
  rintro st -
  vtb VT.con
  exact VT.conScalar

theorem VT.merkle8_many [ByteRep F] (hs : ∀ l k, VT env d (synth l k) d fun _ => True) (depth : ℕ) (root : F) (leaf index : Var) (nodes : List Var) (z : Var) {p : PoseidonParams F} (hv : p.Valid) (hw : p.width = 9)
    (hn : 7 * depth ≤ nodes.length) : VT env d (merkleGadget8 depth root leaf ⟨index, none⟩ nodes z p synth) d fun _ => True := by
  unfold merkleGadget8
  apply VT.bind (show VT env d (indexOctets (none : Option F) depth : Prog F C rnd _) d fun o => o = none from VT.pure rfl)
  rintro _ rfl
  apply VT.bind (VT.forN' (fun i (st : MerkleState F) => st.nodes.length + 7 * i = nodes.length) _ _ (by simp) fun i hi st hst => by
      have h3 : 7 ≤ st.nodes.length := by omega
      rw [if_neg (by rw [List.isEmpty_iff_length_eq_zero]; omega)]
      apply VT.bind (show VT env d (octetBits (none : Option (List ℕ)) i : Prog F C rnd _) d fun _ => True from VT.pure trivial)
      rintro _ -
      exact (VT.level8 hs _ _ hv hw st h3).mono fun st' h' => by omega)
  rintro st -
  vtb VT.con
  exact VT.conScalar

end Bp
