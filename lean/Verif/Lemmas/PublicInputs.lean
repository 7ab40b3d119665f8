import Verif.Spec.PublicInputs
import Verif.Lemmas.Complete
import Verif.Lemmas.Gadgets.Driver
import Verif.Lemmas.Gadgets.Simple
import Verif.Lemmas.Gadgets.MerkleGadget
import Verif.Lemmas.Sizes
import Verif.Props.Flatten
import Verif.Model.Gadgets.Merkle

namespace Bp
variable {F G : Type} [Field F] [AddCommGroup G] [Module F G]
variable {C : Type} {rnd : Bool}

/-! ## The constant of the last constraint -/

theorem comb_snoc (z : F) (lc : LC F) (σ : Assignment F) : ∀ (cs : List (LC F)) (e : F), Verifier.comb z e (cs ++ [lc]) σ = Verifier.comb z e cs σ + e * z ^ cs.length * lc.value σ
  | [], e => by simp [Verifier.comb]
  | c :: cs, e => by
    simp only [List.cons_append, Verifier.comb, comb_snoc z lc σ cs, List.length_cons, pow_succ]
    ring

theorem zCombination_snoc (z : F) (cs : List (LC F)) (lc : LC F) (σ : Assignment F) : zCombination z (cs ++ [lc]) σ = zCombination z cs σ + z ^ (cs.length + 1) * lc.value σ := by
  rw [← Verifier.comb_z, ← Verifier.comb_z, comb_snoc, pow_succ]
  ring

theorem LC.value_subScalar (lc : LC F) (a : F) (σ : Assignment F) : (lc.sub (LC.ofScalar a)).value σ = lc.value σ - a := by
  rw [LC.value_sub, LC.value_ofScalar]

/-- The prover's weights do not depend on the constant. -/
theorem flattenLoop_const (z a a' : F) (lc : LC F) : ∀ (pre : List (LC F)) (e : F) (w : Weights F),
    Prover.flattenLoop z e (pre ++ [lc.sub (LC.ofScalar a)]) w = Prover.flattenLoop z e (pre ++ [lc.sub (LC.ofScalar a')]) w
  | [], e, w => by
    simp only [List.nil_append, Prover.flattenLoop, LC.sub, LC.ofScalar, List.map_cons, List.map_nil, List.foldlM_append, List.foldlM_cons, List.foldlM_nil, Prover.flattenTerm]
  | c :: cs, e, w => by
    simp only [List.cons_append, Prover.flattenLoop]
    refine congrArg _ (funext fun w => ?_)
    exact flattenLoop_const z a a' lc cs _ w

/-- The proof does not depend on the constant. -/
theorem prove_const (env : Env F G) (p : Prover F G) (hd : p.deferred = []) (pre : List (LC F)) (lc : LC F) (a a' : F) (c : Coins F) (Gs Hs : List G) :
    Prover.prove env { p with constraints := pre ++ [lc.sub (LC.ofScalar a)] } c Gs Hs = Prover.prove env { p with constraints := pre ++ [lc.sub (LC.ofScalar a')] } c Gs Hs := by
  obtain ⟨g, h, t, cs, aL, aR, aO, v, vB, d, pd, sd⟩ := p
  obtain rfl : d = [] := hd
  have hf : ∀ z w, Prover.flattenLoop z z (pre ++ [lc.sub (LC.ofScalar a)]) w = Prover.flattenLoop z z (pre ++ [lc.sub (LC.ofScalar a')]) w := fun z w => flattenLoop_const z a a' lc pre z w
  simp only [Prover.prove, Prover.createRandomizedConstraints, List.length_nil, if_true, Prover.flattenedConstraints, bind, Except.bind, hf]
  rfl

/-! ## Proofs made by a prover of its own making -/

theorem madeUp_wf (s : Verifier F G) (g h : G) (openings : List (F × F)) (aL aR : List F) (hL : aL.length = s.numVars) (hR : aR.length = s.numVars) (hp : s.pending = none) : (s.madeUp g h openings aL aR).WF := by
  refine ⟨by simp [Verifier.madeUp, hL, hR], by simp [Verifier.madeUp, hL, hR], by simp [Verifier.madeUp], fun i hi => ?_, fun i => ?_⟩
  · simp [Verifier.madeUp, hp] at hi
  · simp only [Verifier.madeUp, List.getD_eq_getElem?_getD, List.getElem?_zipWith]
    rcases hl : aL[i]? with _ | x
    · simp
    · rcases hr : aR[i]? with _ | y <;> simp

theorem madeUp_inStep (s : Verifier F G) (g h : G) (openings : List (F × F)) (aL aR : List F) (hL : aL.length = s.numVars) (hR : aR.length = s.numVars) (hd : s.deferred = [])
    (hV : s.V = openings.map fun o => commitScalar g h o.1 o.2) : InStep (s.madeUp g h openings aL aR) s := by
  refine ⟨by simp [Verifier.madeUp, hL, hR], by simp [Verifier.madeUp, hL, hR], by simp [Verifier.madeUp], rfl, by simp [Verifier.madeUp, hL], rfl, ?_, ?_, ?_⟩
  · rw [hV]
    simp [Verifier.madeUp, List.zipWith_map]
  · exact List.forall₂_same.mpr fun lc _ => List.Perm.refl _
  · simp [Verifier.madeUp, hd]

/-- The parameter with which a made-up proof is accepted. -/
theorem made_accepted [DecidableEq G] (env : Env F G) (hb : env.batchInvert [] = .ok ([], 1)) (s : Verifier F G) (pre : List (LC F)) (lc : LC F) (a : F) (hc : s.constraints = pre ++ [lc.sub (LC.ofScalar a)])
    (hd : s.deferred = []) (hp : s.pending = none) (hin : ∀ lc ∈ s.constraints, ∀ t ∈ lc.terms, Var.InRange s.numVars s.V.length t.1) (g h : G) (openings : List (F × F))
    (hV : s.V = openings.map fun o => commitScalar g h o.1 o.2) (aL aR : List F) (hL : aL.length = s.numVars) (hR : aR.length = s.numVars) (c : Coins F) (Gs Hs : List G)
    (hsize : nextPowerOfTwo s.numVars < 2 ^ 32) (hG : nextPowerOfTwo s.numVars ≤ Gs.length) (hH : nextPowerOfTwo s.numVars ≤ Hs.length) :
    ∃ pr t', (s.madeUp g h openings aL aR).prove env c Gs Hs = .ok (pr, t') ∧
      ((drawn env.oracle (s.firstLog g h openings aL aR c Gs Hs) pr).y ≠ 0 → (∀ u ∈ ippRounds env.oracle (s.firstLog g h openings aL aR c Gs Hs) pr (nextPowerOfTwo s.numVars), u ≠ 0) →
        ∀ z, z = (drawn env.oracle (s.firstLog g h openings aL aR c Gs Hs) pr).z → z ≠ 0 → ∀ a', a' = fitting a z s.constraints (s.madeUp g h openings aL aR).assignment →
        ∀ r, ({ s with constraints := pre ++ [lc.sub (LC.ofScalar a')] } : Verifier F G).verify env pr g h Gs Hs r = .ok t') := by
  have hk : nextPowerOfTwo s.numVars = 2 ^ Nat.clog 2 s.numVars := rfl
  have key : ∀ a', ∃ pr t', (s.madeUp g h openings aL aR).prove env c Gs Hs = .ok (pr, t') ∧
      ((drawn env.oracle (s.firstLog g h openings aL aR c Gs Hs) pr).y ≠ 0 → (∀ u ∈ ippRounds env.oracle (s.firstLog g h openings aL aR c Gs Hs) pr (nextPowerOfTwo s.numVars), u ≠ 0) → ∀ r : F,
        ({ s with constraints := pre ++ [lc.sub (LC.ofScalar a')] } : Verifier F G).verify env pr g h Gs Hs r =
          if (r * ((drawn env.oracle (s.firstLog g h openings aL aR c Gs Hs) pr).x ^ 2 *
              zCombination (drawn env.oracle (s.firstLog g h openings aL aR c Gs Hs) pr).z (pre ++ [lc.sub (LC.ofScalar a')]) (s.madeUp g h openings aL aR).assignment)) • g = 0
          then .ok t' else Res.err .verificationError) := by
    intro a'
    let s' : Verifier F G := { s with constraints := pre ++ [lc.sub (LC.ofScalar a')] }
    have hs : s = { s with constraints := pre ++ [lc.sub (LC.ofScalar a)] } := by rw [← hc]
    have hprove : (s'.madeUp g h openings aL aR).prove env c Gs Hs = (s.madeUp g h openings aL aR).prove env c Gs Hs := by
      have h1 := prove_const env (s.madeUp g h openings aL aR) rfl pre lc a' a c Gs Hs
      rw [← hc] at h1
      exact h1
    have hin2 : ∀ l ∈ ({ ((s'.madeUp g h openings aL aR).start c Gs Hs) with pending := none, transcript := s.firstLog g h openings aL aR c Gs Hs } : Prover F G).constraints, ∀ t ∈ l.terms,
        Var.InRange ({ ((s'.madeUp g h openings aL aR).start c Gs Hs) with pending := none, transcript := s.firstLog g h openings aL aR c Gs Hs } : Prover F G).aL.length
          ({ ((s'.madeUp g h openings aL aR).start c Gs Hs) with pending := none, transcript := s.firstLog g h openings aL aR c Gs Hs } : Prover F G).v.length t.1 := by
      intro l hl t ht
      have hv : openings.length = s.V.length := by rw [hV]; simp
      have hm : l ∈ pre ++ [lc.sub (LC.ofScalar a')] := hl
      have hr : Var.InRange s.numVars s.V.length t.1 := by
        rcases List.mem_append.mp hm with hm | hm
        · exact hin l (by rw [hc]; exact List.mem_append_left _ hm) t ht
        · obtain rfl := List.mem_singleton.mp hm
          simp only [LC.sub, LC.ofScalar, List.map_cons, List.map_nil, List.mem_append, List.mem_singleton] at ht
          rcases ht with ht | rfl
          · exact hin (lc.sub (LC.ofScalar a)) (by rw [hc]; simp) t (by simp only [LC.sub, List.mem_append]; exact .inl ht)
          · trivial
      have e1 : ({ ((s'.madeUp g h openings aL aR).start c Gs Hs) with pending := none, transcript := s.firstLog g h openings aL aR c Gs Hs } : Prover F G).aL.length = s.numVars := hL
      have e2 : ({ ((s'.madeUp g h openings aL aR).start c Gs Hs) with pending := none, transcript := s.firstLog g h openings aL aR c Gs Hs } : Prover F G).v.length = s.V.length := by
        rw [← hv]; exact List.length_map _
      rw [e1, e2]
      exact hr
    obtain ⟨pr, t', h1, h2⟩ := honest_verify env env rfl (s'.madeUp g h openings aL aR) { ((s'.madeUp g h openings aL aR).start c Gs Hs) with pending := none, transcript := s.firstLog g h openings aL aR c Gs Hs } s'
      (madeUp_wf s' g h openings aL aR hL hR hp) (madeUp_inStep s' g h openings aL aR hL hR hd hV) c Gs Hs rfl hin2 (Nat.clog 2 s.numVars) (by rw [← hL]; rfl)
      ((Nat.pow_lt_pow_iff_right (by omega)).mp (hk ▸ hsize)) (hk ▸ hG) (hk ▸ hH) (.inr hb)
    exact ⟨pr, t', hprove ▸ h1, fun hy hu r => h2 hy hu r⟩
  obtain ⟨pr, t', h1, -⟩ := key a
  refine ⟨pr, t', h1, fun hy hu z hz h0 a' ha r => ?_⟩
  obtain ⟨pr', t'', h1', h2⟩ := key a'
  rw [h1] at h1'
  obtain ⟨rfl, rfl⟩ := Prod.mk.inj (Except.ok.inj h1')
  rw [h2 hy hu r, if_pos]
  have hlen : s.constraints.length = pre.length + 1 := by simp [hc]
  rw [← hz, zCombination_snoc, LC.value_subScalar, ha, fitting, hlen, hc, zCombination_snoc, LC.value_subScalar]
  have hne : z ^ (pre.length + 1) ≠ 0 := pow_ne_zero _ h0
  have : zCombination z pre (s.madeUp g h openings aL aR).assignment + z ^ (pre.length + 1) * (lc.value (s.madeUp g h openings aL aR).assignment -
      (a + (zCombination z pre (s.madeUp g h openings aL aR).assignment + z ^ (pre.length + 1) * (lc.value (s.madeUp g h openings aL aR).assignment - a)) / z ^ (pre.length + 1))) = 0 := by
    field_simp
    ring
  rw [this, mul_zero, mul_zero, zero_smul]

/-! ## Statements that end with their parameter -/

/-- The gadget compares its result with the parameter at the end. -/
theorem run_closes {env : Env F G} {onSpec : C → Verifier F G → Verifier F G} {c : Prog F C rnd (LC F)} {a : F} {s s' : Verifier F G} (h : Verifier.run env onSpec (c >>= fun lc => constrainLcWithScalar lc a) s = .ok ((), s')) :
    ∃ (pre : List (LC F)) (lc : LC F), s'.constraints = pre ++ [lc.sub (LC.ofScalar a)] ∧
      ∀ a', Verifier.run env onSpec (c >>= fun lc => constrainLcWithScalar lc a') s = .ok ((), { s' with constraints := pre ++ [lc.sub (LC.ofScalar a')] }) := by
  rw [Prog.bind_eq, Verifier.run_bind] at h
  cases hc : Verifier.run env onSpec c s with
  | error e => rw [hc] at h; simp at h
  | ok q =>
    obtain ⟨lc, s1⟩ := q
    rw [hc] at h
    simp only [constrainLcWithScalar, Prog.con, Verifier.run, Except.ok.injEq, Prod.mk.injEq, true_and] at h
    subst h
    refine ⟨s1.constraints, lc, rfl, fun a' => ?_⟩
    rw [Prog.bind_eq, Verifier.run_bind, hc]
    rfl

theorem gadget_closes {env : Env F G} {c : Prog1 F (LC F)} {a : F} {s s' : Verifier F G} (h : Verifier.gadget env (c >>= fun lc => constrainLcWithScalar lc a) s = (.ok (), s')) :
    ∃ (pre : List (LC F)) (lc : LC F), s'.constraints = pre ++ [lc.sub (LC.ofScalar a)] ∧
      ∀ a', Verifier.gadget env (c >>= fun lc => constrainLcWithScalar lc a') s = (.ok (), { s' with constraints := pre ++ [lc.sub (LC.ofScalar a')] }) := by
  rw [Verifier.gadget_ok] at h
  obtain ⟨pre, lc, h1, h2⟩ := run_closes h
  exact ⟨pre, lc, h1, fun a' => Verifier.gadget_ok.mpr (h2 a')⟩

theorem Closes.mimc (env : Env F G) (constants : List F) (rounds : ℕ) : Closes (fun a => verifyMimcPreimage env a constants rounds) := by
  intro a coms s s' h
  unfold verifyMimcPreimage at h
  obtain ⟨cs, s1, h1, h⟩ := Drv.bind_ok.mp h
  obtain ⟨vars, s2, h2, h⟩ := Drv.bind_ok.mp h
  match vars with
  | [vl, vr] =>
    obtain ⟨pre, lc, e, f⟩ := gadget_closes (c := enforceMimc2Inputs (LC.ofVar vl) (LC.ofVar vr) rounds constants) h
    exact ⟨pre, lc, e, fun a' => Drv.bind_ok.mpr ⟨cs, s1, h1, Drv.bind_ok.mpr ⟨_, s2, h2, f a'⟩⟩⟩
  | [] => simp [Drv.lift, Res.panic] at h
  | [_] => simp [Drv.lift, Res.panic] at h
  | _ :: _ :: _ :: _ => simp [Drv.lift, Res.panic] at h

/-- A gadget that compares its result with the parameter at the end. -/
def GadgetCloses (env : Env F G) (c : F → Prog1 F Unit) : Prop :=
  ∀ a s s', Verifier.gadget env (c a) s = (.ok (), s') → ∃ (pre : List (LC F)) (lc : LC F), s'.constraints = pre ++ [lc.sub (LC.ofScalar a)] ∧
    ∀ a', Verifier.gadget env (c a') s = (.ok (), { s' with constraints := pre ++ [lc.sub (LC.ofScalar a')] })

theorem GadgetCloses.of (env : Env F G) (c : Prog1 F (LC F)) : GadgetCloses env (fun a => c >>= fun lc => constrainLcWithScalar lc a) := fun _ _ _ h => gadget_closes h

theorem GadgetCloses.panic (env : Env F G) (m : String) : GadgetCloses env (fun _ => Prog.panic m) := by
  intro a s s' h
  rw [Verifier.gadget_ok] at h
  simp [Verifier.run1, Prog.panic, Verifier.run, Res.panic] at h

theorem Closes.preimage (env : Env F G) (k : ℕ) (g h : G) (gadget : F → List Var → List Var → Prog1 F Unit) (hg : ∀ vars statics, GadgetCloses env fun a => gadget a vars statics) :
    Closes (fun a => verifyPreimage env k g h (gadget a)) := by
  intro a coms s s' h
  obtain ⟨cs, s1, h1, h⟩ := Drv.bind_ok.mp h
  obtain ⟨vars, s2, h2, h⟩ := Drv.bind_ok.mp h
  obtain ⟨st, s3, h3, h⟩ := Drv.bind_ok.mp h
  obtain ⟨pre, lc, e, f⟩ := hg vars st a s3 s' h
  exact ⟨pre, lc, e, fun a' => Drv.bind_ok.mpr ⟨cs, s1, h1, Drv.bind_ok.mpr ⟨vars, s2, h2, Drv.bind_ok.mpr ⟨st, s3, h3, f a'⟩⟩⟩⟩

theorem Closes.poseidon2 (env : Env F G) (p : PoseidonParams F) (sbox : SboxType) (g h : G) : Closes (fun a => verifyPoseidon2 env a p sbox g h) :=
  .preimage env 2 g h _ fun vars statics => by
    match vars with
    | [xl, xr] => exact .of env _
    | [] => exact .panic env _
    | [_] => exact .panic env _
    | _ :: _ :: _ :: _ => exact .panic env _

theorem Closes.poseidon4 (env : Env F G) (p : PoseidonParams F) (sbox : SboxType) (g h : G) : Closes (fun a => verifyPoseidon4 env a p sbox g h) :=
  .preimage env 4 g h _ fun vars statics => by
    unfold hash4Call poseidonHash4Gadget
    split
    · exact .panic env _
    · exact .of env _

theorem Closes.poseidon8 (env : Env F G) (p : PoseidonParams F) (sbox : SboxType) (g h : G) : Closes (fun a => verifyPoseidon8 env a p sbox g h) :=
  .preimage env 8 g h _ fun vars statics => by
    match statics with
    | [zero] =>
      simp only [hash8Call, poseidonHash8Gadget]
      by_cases hv : vars.length ≠ 8
      · simp only [if_pos hv]
        exact .panic env _
      · simp only [if_neg hv]
        exact .of env _
    | [] => exact .panic env _
    | _ :: _ :: _ => exact .panic env _

theorem Prog.bind_assoc' {α β γ : Type} (c : Prog F C rnd α) (f : α → Prog F C rnd β) (k : β → Prog F C rnd γ) : ((c >>= f) >>= k) = c >>= fun x => f x >>= k := by
  simp only [Prog.bind_eq]
  induction c with
  | ret a => rfl
  | _ => simp_all [Prog.bind]

theorem Closes.inclusion (env : Env F G) (g h : G) (call : F → Var → Alloc F → List Var → List Var → Prog1 F Unit) (hc : ∀ l i ns st, GadgetCloses env fun a => call a l i ns st) :
    Closes (fun a => verifyInclusion env g h (call a)) := by
  intro a coms s s' hr
  match coms with
  | [] => simp [verifyInclusion, Drv.lift, Res.panic] at hr
  | [_] => simp [verifyInclusion, Drv.lift, Res.panic] at hr
  | cl :: ci :: nodes =>
    obtain ⟨vars, s1, h1, hr⟩ := Drv.bind_ok.mp hr
    obtain ⟨ns, s2, h2, hr⟩ := Drv.bind_ok.mp hr
    obtain ⟨st, s3, h3, hr⟩ := Drv.bind_ok.mp hr
    match vars with
    | [l, i] =>
      obtain ⟨pre, lc, e, f⟩ := hc l ⟨i, none⟩ ns st a s3 s' hr
      exact ⟨pre, lc, e, fun a' => Drv.bind_ok.mpr ⟨_, s1, h1, Drv.bind_ok.mpr ⟨ns, s2, h2, Drv.bind_ok.mpr ⟨st, s3, h3, f a'⟩⟩⟩⟩
    | [] => simp [Drv.lift, Res.panic] at hr
    | [_] => simp [Drv.lift, Res.panic] at hr
    | _ :: _ :: _ :: _ => simp [Drv.lift, Res.panic] at hr

theorem Closes.inclusion4 [ByteRep F] (env : Env F G) (depth : ℕ) (p : PoseidonParams F) (sbox : SboxType) (g h : G) : Closes (fun a => verifyInclusion4 env a depth p sbox g h) := by
  refine .inclusion env g h _ fun l i ns st => ?_
  unfold merkleCall4 merkleGadget4
  have := GadgetCloses.of env (do
    let st ← Prog.forN (getByteSize depth 4) ⟨ns, LC.ofVar l, [(i.var, (-1 : F))], (1 : F)⟩ fun i' st' => Prog.forN 4 st' fun j st' => if st'.nodes.isEmpty then pure st' else do
      let bits ← indexBits4 i.assignment i' j
      merkleLevel4 bits (st.map LC.ofVar) p sbox.synthesize st'
    Prog.con (LC.ofTerms st.terms)
    pure st.prev : Prog1 F (LC F))
  simp only [Prog.bind_assoc'] at this
  exact this

theorem Closes.inclusion8 [ByteRep F] (env : Env F G) (depth : ℕ) (p : PoseidonParams F) (sbox : SboxType) (g h : G) : Closes (fun a => verifyInclusion8 env a depth p sbox g h) := by
  refine .inclusion env g h _ fun l i ns st => ?_
  match st with
  | [] => exact .panic env _
  | zero :: _ =>
    have := GadgetCloses.of env (do
      let octets ← indexOctets i.assignment depth
      let st ← Prog.forN depth ⟨ns, LC.ofVar l, [(i.var, (-1 : F))], (1 : F)⟩ fun k st' => if st'.nodes.isEmpty then pure st' else do
        let bits ← octetBits octets k
        merkleLevel8 bits (LC.ofVar zero) p sbox.synthesize st'
      Prog.con (LC.ofTerms st.terms)
      pure st.prev : Prog1 F (LC F))
    simp only [Prog.bind_assoc'] at this
    exact this

/-! ## All wires zero -/

variable {env : Env F G} {σ : Assignment F}

/-- A fact that the first iteration enforces is enforced by the loop. -/
theorem vs_forN_first {β : Type} {body : ℕ → β → Prog F C rnd β} {P : Prop} {n : ℕ} (hn : n ≠ 0) (a : β) (h : VS env σ (body 0 a) fun _ => P) : VS env σ (Prog.forN n a body) fun _ => P := by
  refine (VS.forN (fun j x => (j = 0 → x = a) ∧ (j ≠ 0 → P)) n a ⟨fun _ => rfl, fun h => absurd rfl h⟩ fun j _ x hx => ?_).mono fun _ hx => hx.2 hn
  by_cases hj : j = 0
  · subst hj
    rw [hx.1 rfl]
    exact h.mono fun _ hp => ⟨fun h => absurd h (by omega), fun _ => hp⟩
  · intro _ _ _ _ _ _ _
    exact ⟨fun h => absurd h (by omega), fun _ => hx.2 hj⟩

/-- If all wires are zero, MiMC says that the first input and the first constant cancel. -/
theorem vs_mimc_zero (hσ : ∀ i, σ.left i = 0) (l r : Alloc F) {rounds : ℕ} (hr : rounds ≠ 0) (constants : List F) (image : F) :
    VS env σ (mimcGadget l r rounds constants image : Prog F C rnd _) (fun _ => ∀ c, constants[0]? = some c → σ.val l.var + c = 0) := by
  unfold mimcGadget
  refine VS.bind (Q := fun _ => ∀ c, constants[0]? = some c → σ.val l.var + c = 0) ?_ fun _ hP => fun _ _ _ _ _ _ _ => hP
  unfold enforceMimc2Inputs
  refine VS.bind (vs_forN_first hr _ (P := ∀ c, constants[0]? = some c → σ.val l.var + c = 0) ?_) fun _ hP => VS.pure hP
  unfold mimcBody
  refine VS.bind (VS.index _ _) fun c hc => VS.bind (Q := fun _ => σ.val l.var + c = 0) ?_ fun _ hP => fun _ _ _ _ _ _ _ c' hc' => by
    rw [hc] at hc'
    rw [← Option.some.inj hc']
    exact hP
  intro onSpec ho s a s' hr hs
  simp only [Prog.mul, Verifier.run, Except.ok.injEq, Prod.mk.injEq] at hr
  obtain ⟨rfl, rfl⟩ := hr
  have h1 : (⟨((LC.ofVar l.var).add (LC.ofTerms [(.one, c)])).terms ++ [(.left s.numVars, -1)]⟩ : LC F).value σ = 0 :=
    hs _ (by simp [Verifier.multiply, Verifier.constrain, Verifier.allocateVars])
  have e1 : σ.val (.left s.numVars) = 0 := hσ _
  have e2 : σ.val .one = 1 := rfl
  simp only [LC.value_def, LC.termsVal_append, LC.termsVal_cons, LC.termsVal_nil, LC.add, LC.ofVar, LC.ofTerms, e1, e2] at h1
  rw [← h1]
  ring

/-- If all wires are zero, no bit is there. -/
theorem vs_allocBit_zero (hl : ∀ i, σ.left i = 0) (hr : ∀ i, σ.right i = 0) (b : Option ℕ) : VS env σ (allocBit b : Prog F C rnd _) fun _ => False := by
  unfold allocBit
  refine VS.bind (Q := fun q => σ.val q.1 = 0 ∧ σ.val q.2.1 = 0) ?_ ?_
  · intro onSpec ho s a s' hr' hs
    simp only [Prog.allocMul, Verifier.run, Verifier.allocateMultiplier, Prog.ofExcept, Except.ok.injEq, Prod.mk.injEq] at hr'
    rw [← hr'.1]
    exact ⟨hl _, hr _⟩
  · rintro ⟨v, w, o⟩ ⟨h1, h2⟩
    refine VS.bind (VS.con _) fun _ _ => VS.bind (VS.con _) fun _ h3 => VS.pure ?_
    simp only [LC.value_varAdd, LC.value_varSub, LC.value_ofScalar] at h3
    rw [h1, h2] at h3
    simp at h3

theorem vs_merkle4_zero [ByteRep F] (hl : ∀ i, σ.left i = 0) (hr : ∀ i, σ.right i = 0) {depth : ℕ} (hd : depth ≠ 0) (root : F) (leaf : Var) (index : Alloc F) (nodes statics : List Var) (hn : nodes ≠ [])
    (p : PoseidonParams F) (synth : LC F → F → Prog F C rnd Var) : VS env σ (merkleGadget4 depth root leaf index nodes statics p synth) fun _ => False := by
  unfold merkleGadget4
  have hb : getByteSize depth 4 ≠ 0 := by
    have := le_getByteSize4 depth
    omega
  refine VS.bind (vs_forN_first hb _ (vs_forN_first (by decide) _ (P := False) ?_)) fun _ h => h.elim
  rw [if_neg (by simpa using hn)]
  refine VS.bind (Q := fun _ => True) (fun _ _ _ _ _ _ _ => trivial) fun bits _ => ?_
  unfold merkleLevel4
  exact VS.bind (vs_allocBit_zero hl hr _) fun _ h => h.elim

theorem vs_merkle8_zero [ByteRep F] (hl : ∀ i, σ.left i = 0) (hr : ∀ i, σ.right i = 0) {depth : ℕ} (hd : depth ≠ 0) (root : F) (leaf : Var) (index : Alloc F) (nodes : List Var) (zero : Var) (hn : nodes ≠ [])
    (p : PoseidonParams F) (synth : LC F → F → Prog F C rnd Var) : VS env σ (merkleGadget8 depth root leaf index nodes zero p synth) fun _ => False := by
  unfold merkleGadget8
  refine VS.bind (Q := fun _ => True) (fun _ _ _ _ _ _ _ => trivial) fun octets _ => ?_
  refine VS.bind (vs_forN_first hd _ (P := False) ?_) fun _ h => h.elim
  rw [if_neg (by simpa using hn)]
  refine VS.bind (Q := fun _ => True) (fun _ _ _ _ _ _ _ => trivial) fun bits _ => ?_
  unfold merkleLevel8
  exact VS.bind (vs_allocBit_zero hl hr _) fun _ h => h.elim

/-! ## What an honest run leaves -/

theorem honest_shape {env : Env F G} {m : ℕ} {openings statics : List (F × F)} {dp : Drv (Prover F G) (List G)} {dv : List G → Drv (Verifier F G) Unit} (H : HonestPair env env none m openings dp dv statics) (label : String) (g h : G) :
    ∃ s : Verifier F G, dv (openings.map fun o => commitScalar g h o.1 o.2) (Verifier.new [.init label]) = (.ok (), s) ∧ s.deferred = [] ∧ s.pending = none ∧ s.numVars = m ∧
      s.V = (openings ++ statics).map (fun o => commitScalar g h o.1 o.2) ∧ ∀ lc ∈ s.constraints, ∀ t ∈ lc.terms, Var.InRange s.numVars s.V.length t.1 := by
  obtain ⟨coms, p, s, -, h2, J, h4, h5, o⟩ := H _ _ (Joint.new env env g h [.init label] 0 0) rfl
  have hi := (J.session.inStep rfl).2
  have hV : s.V = (openings ++ statics).map (fun o => commitScalar g h o.1 o.2) := by
    rw [hi.V, o.values, o.blindings, o.g, o.h]
    simp only [Prover.new, List.nil_append, List.zipWith_map, List.zipWith_self]
  have hn : s.numVars = m := by
    rw [hi.num, h5]
    simp [Prover.new]
  refine ⟨s, ?_, ?_, by rw [hi.pending, h4], hn, hV, fun lc hlc t ht => ?_⟩
  · rw [← h2, o.points]
    rfl
  · have := hi.deferred
    rw [J.deferred] at this
    exact List.forall₂_nil_left_iff.mp this
  · obtain ⟨i, hlt, rfl⟩ := List.getElem_of_mem hlc
    have hl := hi.cons.length_eq
    have he := List.Forall₂.get hi.cons (i := i) (by omega) hlt
    have hr := ((J.good.sat _ (List.getElem_mem (l := p.constraints) (by omega : i < p.constraints.length))).1 t ((List.Perm.mem_iff he).mpr ht)).inRange
    have e2 : s.V.length = p.v.length := by
      rw [hi.V, List.length_zipWith, hi.lenB, Nat.min_self]
    rw [hi.num, e2]
    exact hr

theorem madeUp_zero (s : Verifier F G) (g h : G) (openings : List (F × F)) (n : ℕ) : (∀ i, (s.madeUp g h openings (List.replicate n 0) (List.replicate n 0)).assignment.left i = 0) ∧
    ∀ i, (s.madeUp g h openings (List.replicate n 0) (List.replicate n 0)).assignment.right i = 0 := by
  constructor <;> intro i <;> simp [Verifier.madeUp, Prover.assignment, List.getElem?_replicate] <;> split <;> rfl

end Bp
