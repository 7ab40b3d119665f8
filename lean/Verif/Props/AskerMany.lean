import Verif.Props.Asker
import Verif.Props.Total

/-! # C91 for provers that hand over any number of commitments -/

set_option linter.unusedSectionVars false

namespace Bp
variable {F G M ι α β : Type} [Field F] [AddCommGroup G] [Module F G]

/-- The same questions, and then `u` of what it would have ended with. -/
def Asker.after (u : α → β) : Asker F M α → Asker F M β
  | .done a => .done (u a)
  | .ask q next => .ask q fun a => (next a).after u

theorem Asker.after_within (u : α → β) : ∀ (A : Asker F M α) {Q : ℕ}, A.Within Q → (A.after u).Within Q
  | .done _, _, _ => trivial
  | .ask _ next, _, ⟨Q', e, h⟩ => ⟨Q', e, fun a => (next a).after_within u (h a)⟩

theorem Asker.after_chance [Finite F] (f : M → G) {v : Answered F G → α → ℚ} {w : Answered F G → β → ℚ} {u : α → β} (huv : ∀ K a, v K a ≤ w K (u a)) : ∀ (A : Asker F M α) (K : Answered F G), A.chance f v K ≤ (A.after u).chance f w K
  | .done a, K => huv K a
  | .ask q next, K => by
    unfold Asker.after Asker.chance
    rcases K (q.mapG f) with _ | a
    · exact avg_mono fun a => (next a).after_chance f huv _
    · exact (next a).after_chance f huv K

variable [ByteRep F]

/-- All statements but inclusion in a Merkle tree (whose depth is given by the number of commitments, C43). -/
def Stmt.Counted : Stmt F → Prop
  | .inclusion4 .. => False
  | .inclusion8 .. => False
  | _ => True

/-- Like `Stmt.fooled`, for any number of commitments: the statement is about the first ones. -/
noncomputable def Stmt.fooledAny [DecidableEq G] (st : Stmt F) (env : Env F G) (label : String) (f : M → G) (claim : List M → Prop) (g h : G) (Gs Hs : List G) (K : Answered F G) (sub : List M × R1CSProof F M) : ℚ :=
  prob fun x : (Fin (drawsOf [st]) → F) × F => ¬ claim (sub.1.take st.size) ∧
    st.check (env.withOracle (K.over (nextCoins [] (List.ofFn x.1)))) (sub.2.mapG f) (sub.1.map f) label g h Gs Hs x.2 = .ok ()

/-- **C81**, **C91**: an accepted call has had enough commitments, and is accepted without the surplus ones. -/
theorem c91_first_ones [DecidableEq G] {st : Stmt F} (hst : st.Counted) (env : Env F G) (pr : R1CSProof F G) (coms : List G) (label : String) (g h : G) (Gs Hs : List G) (r : F)
    (hc : st.check env pr coms label g h Gs Hs r = .ok ()) : st.size ≤ coms.length ∧ st.check env pr (coms.take st.size) label g h Gs Hs r = .ok () := by
  rw [Stmt.check_eq] at hc
  by_cases hr : st.Removes
  · have hle : st.size ≤ coms.length := by
      by_contra hlt
      obtain ⟨w, e⟩ := c81_few_panics env g h st hr coms (not_le.mp hlt) (Verifier.new [.init label])
      unfold verifyProof at hc
      generalize st.verify env g h coms (Verifier.new [.init label]) = q at e hc
      obtain ⟨q1, q2⟩ := q
      cases e
      cases hc
    rw [c81_many_ignored env g h st hr coms hle] at hc
    exact ⟨hle, by rw [Stmt.check_eq]; exact hc⟩
  · cases st with
    | hamming new count =>
      by_cases hl : coms.length = (Stmt.hamming new count).size
      · rw [← hl, List.take_length]
        exact ⟨le_rfl, by rw [Stmt.check_eq]; exact hc⟩
      · have e := c81_hamming_reported env g h new count coms hl (Verifier.new [.init label])
        unfold verifyProof at hc
        generalize (Stmt.hamming new count).verify env g h coms (Verifier.new [.init label]) = q at e hc
        obtain ⟨q1, q2⟩ := q
        cases e
        cases hc
    | inclusion4 => exact hst.elim
    | inclusion8 => exact hst.elim
    | _ => exact absurd trivial hr

theorem Stmt.fooledAny_le [Finite F] [DecidableEq G] {st : Stmt F} (hst : st.Counted) (env : Env F G) (label : String) (f : M → G) (claim : List M → Prop) (g h : G) (Gs Hs : List G) (K : Answered F G) (sub : List M × R1CSProof F M) :
    st.fooledAny env label f claim g h Gs Hs K sub ≤ st.fooled env label f claim g h Gs Hs K (sub.1.take st.size, sub.2) := by
  refine prob_mono fun x ⟨h1, h2⟩ => ?_
  obtain ⟨hle, h2⟩ := c91_first_ones hst _ _ _ _ _ _ _ _ _ h2
  rw [List.length_map] at hle
  exact ⟨by rw [List.length_take, min_eq_left hle], h1, by rw [List.map_take]; exact h2⟩

/-- **C91** for provers that hand over any number of commitments. -/
theorem c91_forge_any [Fintype ι] [Fintype F] [DecidableEq F] [DecidableEq G] [DecidableEq ι] {B : G} (hB : Function.Bijective fun a : F => a • B) (env : Env F G) (hb : env.batchInvert [] = .ok ([], 1)) (label : String)
    {st : Stmt F} (hok : st.Ok) (hst : st.Counted) (g h : ι) (Gs Hs : List ι) (hd : (Gs ++ Hs ++ [g, h]).Nodup) (A : (ι → G) → Asker F (ι → F) (List (ι → F) × R1CSProof F (ι → F))) (Q : ℕ) (hA : ∀ P, (A P).Within Q) (x : F) :
    ∃ finder : (Fin (Q + drawsOf [st]) → F) × F → (ι → G) → ι → F,
      (1 - 1 / Fintype.card F) * (avg (fun P : ι → G => (A P).chance (combine P) (st.fooledAny env label (combine P) (fun coms => Stmt.Holds (unitOf g) (unitOf h) coms st) (P g) (P h) (Gs.map P) (Hs.map P)) fun _ => none) -
          ((Q + drawsOf [st]) * badOf [st] + 1 : ℕ) / Fintype.card F) ≤
        prob fun p : ((Fin (Q + drawsOf [st]) → F) × F) × (ι → F) × (ι → F) => logOf finder B p.1 p.2.1 p.2.2 (x • B) = x := by
  have := finite_of_base hB
  have hF : (0 : ℚ) < Fintype.card F := by exact_mod_cast Fintype.card_pos
  have hF1 : (1 : ℚ) ≤ Fintype.card F := by exact_mod_cast Fintype.card_pos (α := F)
  refine ⟨_, le_trans ?_ (c91_forge hB env hb label hok g h Gs Hs hd (fun P => (A P).after fun sub => (sub.1.take st.size, sub.2)) Q (fun P => (A P).after_within _ (hA P)) x)⟩
  refine mul_le_mul_of_nonneg_left (sub_le_sub_right (avg_mono fun P => ?_) _) (sub_nonneg.mpr ((div_le_one hF).mpr hF1))
  exact Asker.after_chance (combine P) (Stmt.fooledAny_le hst env label (combine P) _ _ _ _ _) (A P) _

/-- **C91** for generators without any relation and provers that hand over any number of commitments. -/
theorem c91_game_any [Fintype F] [DecidableEq G] (env : Env F G) (hb : env.batchInvert [] = .ok ([], 1)) (label : String) {st : Stmt F} (hok : st.Ok) (hst : st.Counted) (g h : G) (Gs Hs : List G) (hind : Independent F (Gs ++ Hs ++ [g, h]))
    (A : Asker F G (List G × R1CSProof F G)) (Q : ℕ) (hA : A.Within Q) :
    A.chance id (st.fooledAny env label id (fun coms => Stmt.Holds g h coms st) g h Gs Hs) (fun _ => none) ≤ ((Q + drawsOf [st]) * badOf [st] + 1 : ℕ) / Fintype.card F :=
  (Asker.after_chance id (Stmt.fooledAny_le hst env label id _ g h Gs Hs) A _).trans
    (c91_game env hb label hok g h Gs Hs hind (A.after fun sub => (sub.1.take st.size, sub.2)) Q (A.after_within _ hA))

/-! ## The hypotheses are met -/

/-- The prover of the examples of C91 hands over three commitments; `verify_proof_of_non_zero_val` needs two. -/
example : (demoAsker (unit6 4)).chance id (Stmt.fooledAny (F := Z101) .nonZero (Env.std fun _ => 2) "data" id (fun coms => Stmt.Holds (F := Z101) (unit6 4) (unit6 5) coms .nonZero) (unit6 4) (unit6 5) [unit6 0, unit6 1] [unit6 2, unit6 3]) (fun _ => none) ≤ 57 / 101 := by
  have := c91_game_any (Env.std fun _ => (2 : Z101)) (by simp [Env.std]) "data" (st := .nonZero) trivial trivial (unit6 4) (unit6 5) [unit6 0, unit6 1] [unit6 2, unit6 3] unit6_independent (demoAsker (unit6 4)) 2 (demoAsker_within _)
  rw [ZMod.card, show drawsOf [(.nonZero : Stmt Z101)] = 6 by decide +kernel, show badOf [(.nonZero : Stmt Z101)] = 7 by decide +kernel] at this
  norm_num at this ⊢
  exact this

/-- The same prover against `verify_proof_of_non_zero_val` with four generators, in a group with discrete logarithms. -/
example (x : Fr) : ∃ finder : (Fin (2 + drawsOf [(.nonZero : Stmt Fr)]) → Fr) × Fr → (Fin 6 → Fr) → Fin 6 → Fr,
    (1 - 1 / Fintype.card Fr) * (avg (fun P : Fin 6 → Fr => (demoAsker fun i => P i).chance (combine P) (Stmt.fooledAny (F := Fr) .nonZero demoEnv "data" (combine P) (fun coms => Stmt.Holds (F := Fr) (unitOf 4) (unitOf 5) coms .nonZero)
        (P 4) (P 5) ([0, 1].map P) ([2, 3].map P)) fun _ => none) - ((2 + drawsOf [(.nonZero : Stmt Fr)]) * badOf [(.nonZero : Stmt Fr)] + 1 : ℕ) / Fintype.card Fr) ≤
      prob fun p : ((Fin (2 + drawsOf [(.nonZero : Stmt Fr)]) → Fr) × Fr) × (Fin 6 → Fr) × (Fin 6 → Fr) => logOf finder 1 p.1 p.2.1 p.2.2 (x • (1 : Fr)) = x :=
  c91_forge_any (B := (1 : Fr)) ⟨fun a b e => by simpa using e, fun b => ⟨b, by simp⟩⟩ demoEnv (by simp [demoEnv, Env.std]) "data" (st := .nonZero) trivial trivial (4 : Fin 6) 5 [0, 1] [2, 3] (by decide)
    (fun P => demoAsker fun i => P i) 2 (fun _ => demoAsker_within _) x

end Bp
