import Verif.Lemmas.Cofactor
import Verif.Props.FiatShamir
import Verif.Props.Statements
import Verif.Props.Sizes

/-! # C93: points outside the group of prime order -/

set_option linter.unusedSectionVars false

namespace Bp
variable {F E G : Type} [Field F] [AddCommGroup E] [SMul F E] [DecidableEq E]

/-- **C93**, inside: for points that come from the group of prime order the verifier does what it does in that group (so that all other theorems apply). -/
theorem c93_inside [AddCommGroup G] [Module F G] [DecidableEq G] (ι : PointHom F G E) (hι : Function.Injective ι) (env : Env F E) (s : Verifier F G) (pr : R1CSProof F G) (g h : G) (Gs Hs : List G) (r : F) :
    (s.mapG ι).verify env (pr.mapG ι) (ι g) (ι h) (Gs.map ι) (Hs.map ι) r = (s.verify (env.pull ι) pr g h Gs Hs r).map (Transcript.mapG ι) :=
  verify_embed ι hι env s pr g h Gs Hs r

/-- **C93**, outside: what the verifier accepts, it would have accepted of the projections to the group of prime order, with the same challenges. -/
theorem c93_projected [AddCommGroup G] [Module F G] [DecidableEq G] (π : PointHom F E G) (env : Env F E) (s : Verifier F E) (pr : R1CSProof F E) (g h : E) (Gs Hs : List E) (r : F) (T : Transcript F E)
    (hv : s.verify env pr g h Gs Hs r = .ok T) :
    (s.mapG π).verify (env.seen (env.oracle.along T)) (pr.mapG π) (π g) (π h) (Gs.map π) (Hs.map π) r = .ok (T.mapG π) := verify_through π hv

/-- **C93**, the game: a prover asks the oracle `Q` questions and then chooses the commitments and the proof, all of them points of the curve, in or outside the group of prime order.  With all but `(Q + D) B + 1` in `|F|` of the answers, the
verifier rejects or all statements hold of the projections of the commitments. -/
theorem c93_game [Fintype F] [ByteRep F] [AddCommGroup G] [Module F G] [DecidableEq G] (π : PointHom F E G) (env : Env F E) (hb : env.batchInvert [] = .ok ([], 1)) (label : String) {stmts : List (Stmt F)}
    (hok : ∀ st ∈ stmts, st.Ok) (g h : E) (Gs Hs : List E) (hind : Independent F (Gs.map π ++ Hs.map π ++ [π g, π h])) (coms0 : List E) (hl : totalSize stmts ≤ coms0.length) (s0 : Verifier F E)
    (hs0 : verifyStmts env g h stmts coms0 (Verifier.new [.init label]) = (.ok (), s0)) (A : Forger F E) (Q : ℕ) :
    A.forging env label (verifyStmts env g h stmts) coms0.length (fun coms => AllHold (π g) (π h) stmts (coms.map π)) g h Gs Hs Q s0.numDraws ≤
      ((Q + s0.numDraws) * s0.badBound + 1) * Fintype.card F ^ (Q + s0.numDraws) := by
  have built : ∀ coms s, verifyStmts env g h stmts coms (Verifier.new [.init label]) = (.ok (), s) →
      verifyStmts (env.seen fun _ => 0) (π g) (π h) stmts (coms.map π) (Verifier.new [.init label]) = (.ok (), s.mapG π) := by
    intro coms s hs
    have := DrvNat.stmts π (env.seen fun _ => 0) g h stmts coms
    rw [verifyStmts_order (env := env) (env' := Env.pull (⇑π) (env.seen fun _ => 0 : Env F G)) rfl] at this
    exact this.built hs
  obtain ⟨bad, hbad⟩ := c58_game_rule (env.seen fun _ => 0) hb label coms0.length (verifyStmts (env.seen fun _ => 0) (π g) (π h) stmts) (Uniform.stmts _ _ _ _) (coms0.map π) (by simp) (s0.mapG π) (built _ _ hs0)
    (π g) (π h) (Gs.map π) (Hs.map π) hind
  refine game_count env label _ _ (Uniform.stmts env g h stmts) coms0 rfl s0 hs0 g h Gs Hs (bad.through π) _ (fun coms s hc hs O pr r r' T T' hr hv hv' => ?_) A Q
  have hd := OnePhase.new (OnePhase.stmts _ _ _ _ _) hs
  obtain ⟨eT, -, -⟩ := verify_proofLog hd hv
  obtain ⟨eT', -, -⟩ := verify_proofLog hd hv'
  obtain rfl : T = T' := eT.trans eT'.symm
  rcases hbad (coms.map π) (s.mapG π) (by simpa using hc) (built _ _ hs) (O.along T) (pr.mapG π) r r' _ _ hr (verify_through π hv) (verify_through π hv') with c | c
  · exact .inl (Convinced.allHold hok (by simpa [hc] using hl) c)
  · exact .inr (bad.through_hit π c)

/-- **C93**, with generators of which nothing is assumed: the prover says of each point it names which combination it is, up to what the projection forgets.  With all but `(Q + D) B + 1` in `|F|` of the answers, the verifier (which sees
the points of the curve only) rejects, or all statements hold of the combinations for the commitments, or a relation is found. -/
theorem c93_algebraic [Fintype F] [ByteRep F] [AddCommGroup G] [SMul F G] {M : Type} [AddCommGroup M] [Module F M] [DecidableEq M] (φ : PointHom F M G) (π : PointHom F E G) (env : Env F E) (hb : env.batchInvert [] = .ok ([], 1))
    (label : String) {stmts : List (Stmt F)} (hok : ∀ st ∈ stmts, st.Ok) (g h : Tagged φ π) (Gs Hs : List (Tagged φ π))
    (hind : Independent F (Gs.map (Tagged.rep φ π) ++ Hs.map (Tagged.rep φ π) ++ [Tagged.rep φ π g, Tagged.rep φ π h])) (coms0 : List (Tagged φ π)) (hl : totalSize stmts ≤ coms0.length) (s0 : Verifier F (Tagged φ π))
    (hs0 : verifyStmts (env.pull (Tagged.point φ π)) g h stmts coms0 (Verifier.new [.init label]) = (.ok (), s0)) (A : Forger F (Tagged φ π)) (Q : ℕ) :
    Nat.card {p : (Fin (Q + s0.numDraws) → F) × F // A.Fools (Tagged.point φ π) env label (verifyStmts env (Tagged.point φ π g) (Tagged.point φ π h) stmts) (verifyStmts (env.pull (Tagged.point φ π)) g h stmts) coms0.length
        (fun coms => AllHold (Tagged.rep φ π g) (Tagged.rep φ π h) stmts (coms.map (Tagged.rep φ π))) g h Gs Hs Q (List.ofFn p.1) p.2} ≤
      ((Q + s0.numDraws) * s0.badBound + 1) * Fintype.card F ^ (Q + s0.numDraws) :=
  (card_mono fun _ hp => hp.lift (fun a => DrvNat.stmts _ env g h stmts a) (fun a => OnePhase.stmts _ _ _ _ _)).trans
    (c93_game (Tagged.rep φ π) (env.pull (Tagged.point φ π)) hb label hok g h Gs Hs hind coms0 hl s0 hs0 A Q)

/-- **C93**, what such a relation is: a combination, not the trivial one, that is the identity of the group of prime order. -/
theorem c93_relation [AddCommGroup G] [SMul F G] {M : Type} [AddCommGroup M] [Module F M] {φ : PointHom F M G} {π : PointHom F E G} (ρ : Tagged φ π) (h0 : ρ ≠ 0) (h1 : Tagged.point φ π ρ = 0) :
    Tagged.rep φ π ρ ≠ 0 ∧ φ (Tagged.rep φ π ρ) = 0 := by
  refine ⟨fun h2 => h0 (Subtype.ext (Prod.ext h2 h1)), ?_⟩
  have : φ (Tagged.rep φ π ρ) = π (Tagged.point φ π ρ) := ρ.2
  rw [this, h1, map_zero]

omit [SMul F E] [DecidableEq E] in
/-- **C93**, curves: on every group of order dividing `q k`, `q` a prime that does not divide `k`, where points are multiplied by the integers that represent the scalars, there are such maps.  What the projection forgets are the points whose order
divides `k`. -/
theorem c93_curve (q k : ℕ) [Fact q.Prime] (hk : Nat.Coprime k q) (hE : ∀ P : E, (q * k) • P = 0) :
    letI := intSMul q E
    letI := primeModule q E
    ∃ (ι : PointHom (ZMod q) (primePart q E) E) (π : PointHom (ZMod q) E (primePart q E)), (∀ P, ι P = P.1) ∧ (∀ P, π (ι P) = P) ∧ ∀ P, π P = 0 ↔ k • P = 0 := by
  letI := intSMul q E
  letI := primeModule q E
  have hq : q ≠ 0 := (Fact.out : q.Prime).ne_zero
  haveI : NeZero q := ⟨hq⟩
  have hk0 : (k : ZMod q) ≠ 0 := fun h0 => by
    have h1 : q ∣ k := (ZMod.natCast_eq_zero_iff k q).mp h0
    have h2 : q ∣ 1 := by rw [← hk]; exact Nat.dvd_gcd h1 dvd_rfl
    exact (Fact.out : q.Prime).one_lt.ne' (Nat.dvd_one.mp h2)
  let u : ℕ := ((k : ZMod q)⁻¹).val
  have hu : (u : ZMod q) = (k : ZMod q)⁻¹ := ZMod.natCast_zmod_val _
  have act : ∀ (x : ZMod q) (P : primePart q E), x • P = x.val • P := fun x P => by
    conv_lhs => rw [← ZMod.natCast_zmod_val x]
    exact Nat.cast_smul_eq_nsmul _ _ _
  have mem : ∀ P : E, k • P ∈ primePart q E := fun P => by
    show q • k • P = 0
    rw [← mul_smul]; exact hE P
  refine ⟨⟨(primePart q E).subtype, fun x P => ?_⟩, ⟨⟨⟨fun P => u • ⟨k • P, mem P⟩, ?_⟩, fun P P' => ?_⟩, fun x P => ?_⟩, fun P => rfl, fun P => ?_, fun P => ?_⟩
  · show ((x • P : primePart q E) : E) = x.val • (P : E)
    rw [act]; rfl
  · apply Subtype.ext
    show u • k • (0 : E) = 0
    rw [smul_zero, smul_zero]
  · apply Subtype.ext
    show u • k • (P + P') = u • k • P + u • k • P'
    rw [smul_add, smul_add]
  · rw [act]
    apply Subtype.ext
    show u • k • x.val • P = x.val • u • k • P
    rw [← mul_smul, ← mul_smul, ← mul_smul, ← mul_smul]
    congr 1; ring
  · show u • (⟨k • (P : E), mem P⟩ : primePart q E) = P
    have : (⟨k • (P : E), mem P⟩ : primePart q E) = k • P := rfl
    rw [this, ← Nat.cast_smul_eq_nsmul (ZMod q) u, ← Nat.cast_smul_eq_nsmul (ZMod q) k, ← mul_smul, hu, inv_mul_cancel₀ hk0, one_smul]
  · show u • (⟨k • P, mem P⟩ : primePart q E) = 0 ↔ _
    rw [← Nat.cast_smul_eq_nsmul (ZMod q) u, hu]
    have h1 : (k : ZMod q)⁻¹ • (⟨k • P, mem P⟩ : primePart q E) = 0 ↔ (⟨k • P, mem P⟩ : primePart q E) = 0 := ⟨fun h2 => by rw [← one_smul (ZMod q) (⟨k • P, mem P⟩ : primePart q E), ← mul_inv_cancel₀ hk0, mul_smul, h2, smul_zero], fun h2 => by rw [h2, smul_zero]⟩
    rw [h1]
    exact Subtype.ext_iff

/-! ## The verdict on points outside the group is a matter of luck -/

/-- A group of order `303 ^ 4` in which the vectors of `V4` (four numbers modulo 101) are the points of order 101. -/
def Curve4 : Type := Fin 4 → ZMod 303

instance : AddCommGroup Curve4 := inferInstanceAs (AddCommGroup (Fin 4 → ZMod 303))
instance : DecidableEq Curve4 := inferInstanceAs (DecidableEq (Fin 4 → ZMod 303))
instance : SMul Z101 Curve4 := intSMul 101 Curve4

theorem Curve4.nsmul (n : ℕ) (P : Curve4) (i : Fin 4) : (n • P) i = (n : ZMod 303) * P i := nsmul_eq_mul n (P i)

/-- The projection. -/
def down4 : PointHom Z101 Curve4 V4 where
  toFun P i := ZMod.castHom (show 101 ∣ 303 by decide) Z101 (P i)
  map_zero' := funext fun i => map_zero _
  map_add' P Q := funext fun i => map_add _ _ _
  map_smul' x P := funext fun i => by
    show ZMod.castHom _ Z101 ((x.val • P) i) = x * ZMod.castHom _ Z101 (P i)
    rw [Curve4.nsmul, map_mul, map_natCast]
    congr 1
    exact ZMod.natCast_zmod_val x

theorem up_add : ∀ a b : Z101, (102 * ((a + b).val : ZMod 303)) = 102 * (a.val : ZMod 303) + 102 * (b.val : ZMod 303) := by decide +kernel
theorem up_mul : ∀ a b : Z101, (102 * ((a * b).val : ZMod 303)) = (a.val : ZMod 303) * (102 * (b.val : ZMod 303)) := by decide +kernel

/-- The inclusion. -/
def up4 : PointHom Z101 V4 Curve4 where
  toFun P i := 102 * ((P i).val : ZMod 303)
  map_zero' := funext fun i => by show (102 * (((0 : Z101)).val : ZMod 303)) = 0; decide
  map_add' P Q := funext fun i => up_add _ _
  map_smul' x P := funext fun i => by
    refine (up_mul x (P i)).trans (Curve4.nsmul x.val (fun i => 102 * ((P i).val : ZMod 303)) i).symm

theorem down4_up4 (P : V4) : down4 (up4 P) = P := funext fun i => (show ∀ a : Z101, ZMod.castHom (show 101 ∣ 303 by decide) Z101 (102 * (a.val : ZMod 303)) = a by decide +kernel) (P i)

/-- A point of order 3. -/
def odd4 : Curve4 := fun i => if i = 0 then 101 else 0

/-- A proof of a honest prover (see C55), and the same with a point of order 3 added to one of its points. -/
def evenProof : R1CSProof Z101 V4 := setTree.proof 0 0 0 0 ⟨[], [], 5, 5⟩
def oddProof : R1CSProof Z101 Curve4 := { evenProof.mapG up4 with T_1 := up4 evenProof.T_1 + odd4 }

def oddEnv : Env Z101 Curve4 := Env.pull down4 (Env.std (labelOracle (setTree.chals 0 0 0 0 0)))

theorem odd_run : verifyStmts oddEnv (up4 (unit4 0)) (up4 (unit4 1)) [.setMembership [(9 : Z101)]] (setComs.map up4) (Verifier.new [.init "set"]) = (.ok (), setV.mapG up4) := rfl

/-- **C93**, refuted: the verdict is a function of commitments and proof.  Of a proof with a point outside the group of prime order it depends on the random number that the verifier draws: one verifier accepts it, another (or the same one, asked
again) does not. -/
theorem c93_luck : ∃ (env : Env Z101 Curve4) (s : Verifier Z101 Curve4) (pr : R1CSProof Z101 Curve4) (T : Transcript Z101 Curve4),
    verifyStmts env (up4 (unit4 0)) (up4 (unit4 1)) [.setMembership [9]] (setComs.map up4) (Verifier.new [.init "set"]) = (.ok (), s) ∧
    s.verify env pr (up4 (unit4 0)) (up4 (unit4 1)) [up4 (unit4 2)] [up4 (unit4 3)] 3 = .ok T ∧
    s.verify env pr (up4 (unit4 0)) (up4 (unit4 1)) [up4 (unit4 2)] [up4 (unit4 3)] 1 = Res.err .verificationError := by
  have h3 : ((setV.mapG up4).verify oddEnv oddProof (up4 (unit4 0)) (up4 (unit4 1)) [up4 (unit4 2)] [up4 (unit4 3)] 3).isOk = true := by decide +kernel
  have h1 : (match (setV.mapG up4).verify oddEnv oddProof (up4 (unit4 0)) (up4 (unit4 1)) [up4 (unit4 2)] [up4 (unit4 3)] 1 with | .error e => some e | .ok _ => none) = some (.err .verificationError) := by decide +kernel
  obtain ⟨T, hT⟩ := isOk_elim h3
  refine ⟨oddEnv, _, oddProof, T, odd_run, hT, ?_⟩
  revert h1
  cases (setV.mapG up4).verify oddEnv oddProof (up4 (unit4 0)) (up4 (unit4 1)) [up4 (unit4 2)] [up4 (unit4 3)] 1 with
  | error e => intro h1; rw [Option.some.inj h1]; rfl
  | ok _ => intro h1; cases h1

/-! ## Examples -/

/-- Proofs with points of the group are treated as in the group. -/
example (r : Z101) : (setV.mapG up4).verify oddEnv (evenProof.mapG up4) (up4 (unit4 0)) (up4 (unit4 1)) [up4 (unit4 2)] [up4 (unit4 3)] r =
    (setV.verify (oddEnv.pull up4) evenProof (unit4 0) (unit4 1) [unit4 2] [unit4 3] r).map (Transcript.mapG up4) :=
  c93_inside up4 (fun P Q e => by rw [← down4_up4 P, e, down4_up4]) oddEnv setV evenProof _ _ [_] [_] r

theorem proj_gens : [up4 (unit4 2)].map down4 ++ [up4 (unit4 3)].map down4 ++ [down4 (up4 (unit4 0)), down4 (up4 (unit4 1))] = [unit4 2, unit4 3, unit4 0, unit4 1] := by
  simp only [List.map_cons, List.map_nil, down4_up4]; rfl

/-- The proof with a point outside the group, where it is accepted, is the honest one when projected. -/
example : ∃ T : Transcript Z101 Curve4, ((setV.mapG up4).mapG down4).verify (oddEnv.seen (oddEnv.oracle.along T)) (oddProof.mapG down4) (down4 (up4 (unit4 0))) (down4 (up4 (unit4 1))) ([up4 (unit4 2)].map down4) ([up4 (unit4 3)].map down4) 3 =
    .ok (T.mapG down4) := by
  have h3 : ((setV.mapG up4).verify oddEnv oddProof (up4 (unit4 0)) (up4 (unit4 1)) [up4 (unit4 2)] [up4 (unit4 3)] 3).isOk = true := by decide +kernel
  obtain ⟨T, hT⟩ := isOk_elim h3
  exact ⟨T, c93_projected down4 _ _ _ _ _ _ _ _ _ hT⟩
example : (oddProof.mapG down4).T_1 = evenProof.T_1 := by decide +kernel

/-- Provers that name points of the whole curve. -/
example (A : Forger Z101 Curve4) (Q : ℕ) :
    A.forging oddEnv "set" (verifyStmts oddEnv (up4 (unit4 0)) (up4 (unit4 1)) [.setMembership [9]]) 2 (fun coms => AllHold (down4 (up4 (unit4 0))) (down4 (up4 (unit4 1))) [.setMembership [(9 : Z101)]] (coms.map down4))
      (up4 (unit4 0)) (up4 (unit4 1)) [up4 (unit4 2)] [up4 (unit4 3)] Q 5 ≤ ((Q + 5) * 7 + 1) * Fintype.card Z101 ^ (Q + 5) :=
  c93_game down4 oddEnv (by simp [oddEnv, Env.pull, Env.std]) "set" (by simp [Stmt.Ok]) _ _ [_] [_] (proj_gens ▸ unit4_independent) (setComs.map up4) (by decide) _ odd_run A Q

/-- The same, with points that come with combinations. -/
def same4 : PointHom Z101 V4 V4 := ⟨AddMonoidHom.id V4, fun _ _ => rfl⟩
def tag4 (P : V4) : Tagged same4 down4 := Tagged.mk P (up4 P) (down4_up4 P).symm
def tagV : Verifier Z101 (Tagged same4 down4) := (verifyStmts (oddEnv.pull (Tagged.point same4 down4)) (tag4 (unit4 0)) (tag4 (unit4 1)) [.setMembership [9]] (setComs.map tag4) (Verifier.new [.init "set"])).2

example (A : Forger Z101 (Tagged same4 down4)) (Q : ℕ) :
    Nat.card {p : (Fin (Q + 5) → Z101) × Z101 // A.Fools (Tagged.point same4 down4) oddEnv "set" (verifyStmts oddEnv (up4 (unit4 0)) (up4 (unit4 1)) [.setMembership [9]])
        (verifyStmts (oddEnv.pull (Tagged.point same4 down4)) (tag4 (unit4 0)) (tag4 (unit4 1)) [.setMembership [9]]) 2 (fun coms => AllHold (unit4 0) (unit4 1) [.setMembership [(9 : Z101)]] (coms.map (Tagged.rep same4 down4)))
        (tag4 (unit4 0)) (tag4 (unit4 1)) [tag4 (unit4 2)] [tag4 (unit4 3)] Q (List.ofFn p.1) p.2} ≤ ((Q + 5) * 7 + 1) * Fintype.card Z101 ^ (Q + 5) :=
  c93_algebraic (stmts := [.setMembership [(9 : Z101)]]) same4 down4 oddEnv (by simp [oddEnv, Env.pull, Env.std]) "set" (by simp [Stmt.Ok]) (tag4 (unit4 0)) (tag4 (unit4 1)) [tag4 (unit4 2)] [tag4 (unit4 3)] unit4_independent
    (setComs.map tag4) (by decide) tagV rfl A Q

/-- The theorem about curves, for this one: it has `101 ^ 4` points of order 101, and the odd one is not among them. -/
example : (∀ P : Curve4, (101 * 3) • P = 0) ∧ 3 • odd4 = 0 ∧ 101 • odd4 ≠ 0 := ⟨fun P => funext fun i => by rw [Curve4.nsmul]; exact (show ∀ a : ZMod 303, ((101 * 3 : ℕ) : ZMod 303) * a = 0 by decide +kernel) (P i), by decide +kernel, by decide +kernel⟩

/-- A relation: two generators that are the same point. -/
def sum4 : PointHom Z101 V4 Z101 := ⟨⟨⟨fun v => v 0 + v 1, by simp⟩, fun v w => by show v 0 + w 0 + (v 1 + w 1) = _; ring⟩, fun x v => by show x * v 0 + x * v 1 = x * (v 0 + v 1); ring⟩
def same1 : PointHom Z101 Z101 Z101 := ⟨AddMonoidHom.id Z101, fun _ _ => rfl⟩

example : unit4 0 - unit4 1 ≠ 0 ∧ sum4 (unit4 0 - unit4 1) = 0 :=
  c93_relation (φ := sum4) (π := same1) (Tagged.mk (unit4 0 - unit4 1) 0 (by decide +kernel)) (fun e => absurd (congrArg (Tagged.rep sum4 same1) e) (show ¬ unit4 0 - unit4 1 = 0 by decide +kernel)) rfl

end Bp
