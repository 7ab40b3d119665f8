import Verif.Spec.IppGame
import Verif.Lemmas.FiatShamir2
import Verif.Lemmas.Game
import Verif.Lemmas.Verify2

/-! # The game of the stand-alone inner-product argument -/

set_option linter.unusedSectionVars false

namespace Bp
variable {F G : Type} [Field F] [AddCommGroup G] [Module F G] [DecidableEq G]

/-- What is accepted has the right number of points, and this log. -/
theorem verifyIpp_inv {env : Env F G} {k : ℕ} {t T : Transcript F G} {Gf Hf : List F} {P Q : G} {Gs Hs : List G} {a b : F} {L R : List G} (h1 : Gs.length = 2 ^ k) (h2 : Hs.length = 2 ^ k) (h3 : Gf.length = 2 ^ k)
    (h4 : Hf.length = 2 ^ k) (hv : verifyIpp env (2 ^ k) t Gf Hf P Q Gs Hs a b L R = .ok T) : L.length = k ∧ R.length = k ∧ T = t.ippDomainSep (2 ^ k) ++ roundsLog (L.zip R) := by
  unfold verifyIpp at hv
  cases hs : verificationScalars env L R (2 ^ k) t with
  | error e => simp [hs, Res.panic, bind, Except.bind] at hv
  | ok x =>
    obtain ⟨⟨uSq, uInvSq, s⟩, t'⟩ := x
    obtain ⟨-, e2, e3, e4, e5, rfl⟩ := verificationScalars_shape hs
    have hL : L.length = k := (Nat.pow_right_injective (le_refl 2) e2).symm
    rw [hs] at hv
    simp only [bind, Except.bind] at hv
    unfold multiScalarMul at hv
    split at hv
    · simp [Res.panic] at hv
    · rename_i v he
      split at he
      · rename_i hlen
        simp only [List.length_append, List.length_cons, List.length_nil, List.length_take, List.length_zipWith, List.length_map, List.length_reverse, h1, h2, h3, h4, e3, e4, e5] at hlen
        have hR : R.length = k := by omega
        refine ⟨hL, hR, ?_⟩
        split at hv
        · rw [← Except.ok.inj hv, (ippChallenges_log _ _ _).1]
        · simp [Res.err] at hv
      · simp [Res.panic] at he

section
variable (t : Transcript F G) (k : ℕ) (Gf Hf : List F) (P Q : G) (Gs Hs : List G)

/-- The messages and the challenges of an accepted proof. -/
def FullIpp (ms : List (Transcript F G)) (cs : List F) (pr : IppProof F G) : Prop :=
  ∃ (env : Env F G) (T : Transcript F G), pr.L.length = k ∧ pr.R.length = k ∧ ms = roundMsgs [.domSep "ipp v1", .u64 "n" (2 ^ k)] (pr.L.zip pr.R) ∧ chalsOf env.oracle t ms = cs ∧
    (k ≠ 0 ∨ env.batchInvert [] = .ok ([], 1)) ∧ verifyIpp env (2 ^ k) t Gf Hf P Q Gs Hs pr.a pr.b pr.L pr.R = .ok T

def IppAcc (ms : List (Transcript F G)) (cs : List F) : Prop := ∃ pr, FullIpp t k Gf Hf P Q Gs Hs ms cs pr

variable {t k Gf Hf P Q Gs Hs}

theorem live_ipp : ∀ (j : ℕ) (ms : List (Transcript F G)) (cs : List F), Live (IppAcc t k Gf Hf P Q Gs Hs) (List.replicate j 7) ms cs →
    ∃ tree : IppTree F G, tree.Full j ∧ ∀ L R us a b, tree.Path L R us a b → ∃ rm pr, FullIpp t k Gf Hf P Q Gs Hs (ms ++ rm) (cs ++ us) pr ∧ rm.map lOf = L ∧ rm.map rOf = R ∧ pr.a = a ∧ pr.b = b
  | 0, ms, cs, hl => by
    obtain ⟨pr, hp⟩ := hl
    refine ⟨.leaf pr.a pr.b, trivial, fun L R us a b hpath => ?_⟩
    cases hpath
    exact ⟨[], pr, by simpa using hp, rfl, rfl, rfl, rfl⟩
  | j + 1, ms, cs, hl => by
    obtain ⟨msg, hl⟩ := hl
    obtain ⟨f, h1, h2, h3⟩ := pick_squares hl
    choose tree t1 t2 using fun i => live_ipp j _ _ (h3 i)
    refine ⟨.node (lOf msg) (rOf msg) f tree, ⟨h1, h2, t1⟩, fun L R us a b hpath => ?_⟩
    cases hpath with
    | node i hp =>
      obtain ⟨rm, pr, h4, rfl, rfl, h5, h6⟩ := t2 i _ _ _ _ _ hp
      exact ⟨msg :: rm, pr, by simpa using h4, rfl, rfl, h5, h6⟩

/-- If more than seven challenges keep every round alive, the statement is true. -/
theorem live_claim (h1 : Gs.length = 2 ^ k) (h2 : Hs.length = 2 ^ k) (h3 : Gf.length = 2 ^ k) (h4 : Hf.length = 2 ^ k) (hind : Independent F (Gs ++ Hs ++ [Q])) (g0 : ∀ x ∈ Gf, x ≠ 0) (h0 : ∀ x ∈ Hf, x ≠ 0)
    (hl : Live (IppAcc t k Gf Hf P Q Gs Hs) (List.replicate k 7) [] []) : IppClaim (2 ^ k) Gf Hf Q Gs Hs P := by
  obtain ⟨tree, hf, hp⟩ := live_ipp k [] [] hl
  refine c16_independent k t Gf Hf P Q Gs Hs h1 h2 h3 h4 hind g0 h0 tree hf fun L R us a b hpath => ?_
  obtain ⟨rm, pr, ⟨env, T, e1, e2, e3, e4, e5, e6⟩, rfl, rfl, rfl, rfl⟩ := hp L R us a b hpath
  rw [List.nil_append] at e3 e4
  rw [List.nil_append] at e4
  subst e3
  have l1 : (roundMsgs ([.domSep "ipp v1", .u64 "n" (2 ^ k)] : Transcript F G) (pr.L.zip pr.R)).map lOf = pr.L := by rw [roundMsgs_lOf, List.map_fst_zip (by omega)]
  have l2 : (roundMsgs ([.domSep "ipp v1", .u64 "n" (2 ^ k)] : Transcript F G) (pr.L.zip pr.R)).map rOf = pr.R := by rw [roundMsgs_rOf, List.map_snd_zip (by omega)]
  rw [l1, l2]
  exact ⟨env, T, by rw [← e4, chalsOf_rounds]; rfl, e5, e6⟩

end

/-- The bad answers: those that make a wrong partial proof, after the commitment was logged, one that can be completed. -/
def ippBad (base : Transcript F G) (l : String) (k : ℕ) (Gf Hf : List F) (Q : G) (Gs Hs : List G) : BadRule F G 7 where
  bad O t := {c | ∃ P, c ∈ badFor (IppAcc (base.commitPoint l P) k Gf Hf P Q Gs Hs) (List.replicate k 7) (base.commitPoint l P) O t}
  few O t := by
    by_cases hd : ∃ P c, c ∈ badFor (IppAcc (base.commitPoint l P) k Gf Hf P Q Gs Hs) (List.replicate k 7) (base.commitPoint l P) O t
    · obtain ⟨P, c, hc⟩ := hd
      refine (Set.encard_le_encard ?_).trans (badFor_card (Acc := IppAcc (base.commitPoint l P) k Gf Hf P Q Gs Hs) (thr := List.replicate k 7) (B := 7) (fun m hm => (List.eq_of_mem_replicate hm).le) (base.commitPoint l P) O t)
      rintro c' ⟨P', hc'⟩
      obtain ⟨pre, l1, e1, p1⟩ := badFor_prefix hc
      obtain ⟨pre', l1', e1', p1'⟩ := badFor_prefix hc'
      have q1 : base ++ [TEvent.point l P] <+: t := p1.trans (e1 ▸ List.prefix_append _ _)
      have q2 : base ++ [TEvent.point l P'] <+: t := p1'.trans (e1' ▸ List.prefix_append _ _)
      have := List.prefix_of_prefix_length_le q1 q2 (by simp)
      rw [List.prefix_append_right_inj] at this
      obtain rfl : P = P' := by simpa using this
      exact hc'
    · rw [Set.eq_empty_of_forall_notMem (s := {c | ∃ P, c ∈ badFor (IppAcc (base.commitPoint l P) k Gf Hf P Q Gs Hs) (List.replicate k 7) (base.commitPoint l P) O t}) (by
        rintro c ⟨P, hc⟩
        exact hd ⟨P, c, hc⟩)]
      simp
  before O O' pre l' h := Set.ext fun c => ⟨fun ⟨P, hc⟩ => ⟨P, badFor_local h hc⟩, fun ⟨P, hc⟩ => ⟨P, badFor_local (fun q i hq => (h q i hq).symm) hc⟩⟩

/-- What is accepted is true, or a bad answer was given. -/
theorem ipp_hit {env : Env F G} {k : ℕ} (hb : k ≠ 0 ∨ env.batchInvert [] = .ok ([], 1)) {base T : Transcript F G} {l : String} {Gf Hf : List F} {P Q : G} {Gs Hs : List G} {pr : IppProof F G} (h1 : Gs.length = 2 ^ k)
    (h2 : Hs.length = 2 ^ k) (h3 : Gf.length = 2 ^ k) (h4 : Hf.length = 2 ^ k) (hind : Independent F (Gs ++ Hs ++ [Q])) (g0 : ∀ x ∈ Gf, x ≠ 0) (h0 : ∀ x ∈ Hf, x ≠ 0)
    (hv : verifyIpp env (2 ^ k) (base.commitPoint l P) Gf Hf P Q Gs Hs pr.a pr.b pr.L pr.R = .ok T) :
    IppClaim (2 ^ k) Gf Hf Q Gs Hs P ∨ (ippBad base l k Gf Hf Q Gs Hs).Hit env.oracle T := by
  by_cases hl : Live (IppAcc (base.commitPoint l P) k Gf Hf P Q Gs Hs) (List.replicate k 7) [] []
  · exact .inl (live_claim h1 h2 h3 h4 hind g0 h0 hl)
  · obtain ⟨hL, hR, rfl⟩ := verifyIpp_inv h1 h2 h3 h4 hv
    obtain ⟨pre, l', hp, hc⟩ := hit_bad (O := env.oracle) (t0 := base.commitPoint l P) (msgs := roundMsgs [.domSep "ipp v1", .u64 "n" (2 ^ k)] (pr.L.zip pr.R)) hl (by rw [roundMsgs_length]; simp [hL, hR])
      (roundMsgs_isMsg _ _ (by simp [TEvent.isDraw])) ⟨pr, env, _, hL, hR, rfl, rfl, hb, hv⟩
    refine .inr ⟨pre, l', hp.trans ?_, P, hc⟩
    rw [Transcript.ippDomainSep, List.append_assoc, List.prefix_append_right_inj]
    exact roundMsgs_flatten _ _

theorem IppForger.game_asked (A : IppForger F G) (t : Transcript F G) (l : String) (n q : ℕ) {cs : List F} {D : ℕ} (hl : cs.length = q + D) (hD : (draws (ippLog (t.commitPoint l (A.com (cs.take q))) n (A.out (cs.take q)))).length ≤ D) :
    ∀ d ∈ draws (ippLog (t.commitPoint l (A.com (cs.take q))) n (A.out (cs.take q))), d ∈ askedBy (A.game t l n q) cs := by
  intro d hd
  obtain ⟨i, hi, rfl⟩ := List.getElem_of_mem hd
  refine List.mem_map.mpr ⟨q + i, List.mem_range.mpr (by omega), ?_⟩
  unfold IppForger.game
  have e1 : (cs.take (q + i)).length = q + i := by rw [List.length_take]; omega
  rw [e1, if_neg (by omega), List.take_take, Nat.min_eq_left (by omega), Nat.add_sub_cancel_left, List.getD_eq_getElem?_getD, List.getElem?_eq_getElem hi]
  rfl

theorem length_draws_ippLog (t : Transcript F G) (l : String) (P : G) (n : ℕ) (pr : IppProof F G) : (draws (ippLog (t.commitPoint l P) n pr)).length = (draws t).length + min pr.L.length pr.R.length := by
  unfold draws ippLog Transcript.ippDomainSep Transcript.commitPoint
  rw [drawsFrom_append, List.length_append, drawsFrom_rounds, List.length_zip, List.append_assoc, drawsFrom_append, List.length_append]
  simp [drawsFrom, TEvent.isChallenge]

end Bp
