import Verif.Lemmas.Gadgets.Zip
import Verif.Lemmas.Bls

set_option linter.unusedSectionVars false
set_option linter.unusedSimpArgs false

/-! # C31, C53: Hamming distance -/

namespace Bp
variable {F G : Type} [Field F] [AddCommGroup G] [Module F G]

/-- Number of positions in which two vectors differ (specification). -/
def diffCount [DecidableEq F] (xs ys : List F) : ℕ := ((xs.zip ys).filter fun q => q.1 ≠ q.2).length

theorem differs_sum [DecidableEq F] : ∀ xs ys : List F, (differs xs ys).sum = (diffCount xs ys : F)
  | [], _ => by simp [differs, diffCount]
  | _ :: _, [] => by simp [differs, diffCount]
  | x :: xs, y :: ys => by
    have := differs_sum xs ys
    unfold differs diffCount at *
    rw [List.zipWith_cons_cons, List.sum_cons, this, List.zip_cons_cons, List.filter_cons]
    by_cases h : x = y <;> simp [h, add_comm]

theorem diffCount_self [DecidableEq F] (xs : List F) : diffCount xs xs = 0 := by
  unfold diffCount
  rw [List.length_eq_zero_iff, List.filter_eq_nil_iff]
  intro q hq
  obtain ⟨i, hi, rfl⟩ := List.getElem_of_mem hq
  simp

theorem diffCount_shift [DecidableEq F] : ∀ xs : List F, diffCount (xs.map (· + 1)) xs = xs.length
  | [] => rfl
  | x :: xs => by
    have := diffCount_shift xs
    unfold diffCount at *
    rw [List.map_cons, List.zip_cons_cons, List.filter_cons, if_pos (by simp), List.length_cons, this, List.length_cons]

/-- C31, completeness: with the true number of differences the honest prover succeeds. -/
theorem c31_complete [DecidableEq F] (env env' : Env F G) (hO : env.oracle = env'.oracle) (original new : List F) (count : ℕ) (hlen : original.length = new.length)
    (hc : diffCount original new = count) (sys : ℕ → F) :
    HonestPair env env' none (2 * new.length) (original.zip ((List.range original.length).map sys)) (proveHammingDistance env original new count sys)
      (verifyHammingDistance env' new count) := by
  intro p s J hp
  obtain ⟨cs, p1, s1, c1, c2, J1, hp1, hl1, e1, o1, hf⟩ := J.commitAll hO (original.zip ((List.range original.length).map sys))
  rw [zip_map_fst (by simp)] at hf
  have hcl : cs.length = original.length := by simpa using hf.length_eq
  have hpn : p1.pending = none := by rw [hp1, hp]
  obtain ⟨⟨⟩, ⟨⟩, p2, s2, g1, g2, J2, -, -, n2, hp2, hl2⟩ := J1.gadget hO
    (PS.hamming (env := env) (onSpec := fun cb p => p.specify cb) (rnd := false) (count := count) J1.good hpn (hasA_zip hf) hlen (by rw [differs_sum, hc]))
    (fun _ _ h => h) (Prog.Same.hamming (pair_zip hcl) new count) (by rw [hpn]; exact PC.hamming _ _ _)
  refine ⟨cs.map Prod.fst, p2, s2, ?_, ?_, J2, by rw [hp2, hpn], by rw [hl2, hl1], o1.next n2⟩
  · unfold proveHammingDistance
    rw [if_neg (by simp [hlen])]
    exact Drv.bind_ok.mpr ⟨cs, p1, c1, Drv.bind_ok.mpr ⟨(), p2, g1, rfl⟩⟩
  · unfold verifyHammingDistance
    exact Drv.bind_ok.mpr ⟨_, s1, c2, g2⟩

/-- C31, end to end. -/
theorem c31_end_to_end [DecidableEq F] [DecidableEq G] (env env' : Env F G) (hO : env.oracle = env'.oracle) (h0 : ∀ l, env.oracle l ≠ 0) (original new : List F) (count : ℕ)
    (hlen : original.length = new.length) (hc : diffCount original new = count) (hsz : nextPowerOfTwo (2 * new.length) < 2 ^ 32)
    (hb : 1 < 2 * new.length ∨ env'.batchInvert [] = .ok ([], 1)) (sys : ℕ → F) :
    EndToEnd env env' (2 * new.length) (original.zip ((List.range original.length).map sys)) (proveHammingDistance env original new count sys)
      (verifyHammingDistance env' new count) :=
  (c31_complete env env' hO original new count hlen hc sys).endToEnd hO h0 hsz hb

example : EndToEnd demoEnv demoEnv 6 [(1, 0), (2, 1), (3, 2)] (proveHammingDistance demoEnv [1, 2, 3] [1, 7, 8] 2 (fun i => (i : Fr))) (verifyHammingDistance demoEnv [1, 7, 8] 2) :=
  c31_end_to_end demoEnv demoEnv rfl demoEnv_ne_zero [1, 2, 3] [1, 7, 8] 2 rfl (by decide +kernel) (by decide +kernel) (.inl (by simp)) _

/-- C31, partial: acceptance only implies that there are as many commitments as entries of the public vector, and that `count` is (in the field) a number
of positions.  Missing: that `count` is the number of *differing* positions, which is false (`c31_unsound`). -/
theorem c31_sound_partial (env : Env F G) (new : List F) (count : ℕ) :
    SoundFor new.length (verifyHammingDistance env new count) (fun _ => ∃ k : ℕ, k ≤ new.length ∧ (count : F) = k) := by
  intro coms s s' h
  unfold verifyHammingDistance at h
  obtain ⟨vars, s2, h2, h⟩ := Drv.bind_ok.mp h
  rw [Verifier.commits_ok] at h2
  obtain ⟨rfl, rfl⟩ := h2
  obtain ⟨a1, a2, a3⟩ := Verifier.gadget_sound h
  have hl : coms.length = new.length := by
    by_contra hne
    rw [Verifier.gadget_ok] at h
    unfold hammingDistanceGadget at h
    rw [if_pos (by simpa using hne)] at h
    simp [Verifier.run1, Verifier.run, Res.err] at h
  refine ⟨by omega, a1, by rw [a2, List.take_of_length_le (by omega)], fun σ hg hs => ?_⟩
  exact (a3 (VS.hamming hg _ _ _) hs).2

/-- A prover that claims `count` differences for an arbitrary vector: nothing ties the wires of the gadget to the committed vector. -/
def forgeHamming (env : Env F G) (original new : List F) (count : ℕ) (sys : ℕ → F) : Drv (Prover F G) (List G) := do
  let cs ← Prover.commits (original.zip ((List.range original.length).map sys))
  Prover.gadget env (hammingForged (fun i => if i < count then 1 else 0) (List.zipWith (fun d x => ⟨d.2, some x⟩) cs original) new count)
  return cs.map Prod.fst

theorem sum_range_ite (count : ℕ) : ∀ n : ℕ, ((List.range n).map fun i => if i < count then (1 : F) else 0).sum = ((min count n : ℕ) : F)
  | 0 => by simp
  | n + 1 => by
    rw [List.range_succ, List.map_append, List.sum_append, sum_range_ite count n]
    by_cases h : n < count
    · rw [min_eq_right h.le, min_eq_right h]; simp [h]
    · rw [min_eq_left (by omega), min_eq_left (by omega)]; simp [h]

/-- C31: for **every** committed vector and every `count` up to the length, the statement "exactly `count` positions differ" is accepted. -/
theorem c31_anything_accepted [DecidableEq F] (env env' : Env F G) (hO : env.oracle = env'.oracle) (original new : List F) (count : ℕ) (hlen : original.length = new.length)
    (hc : count ≤ new.length) (sys : ℕ → F) :
    HonestPair env env' none (2 * new.length) (original.zip ((List.range original.length).map sys)) (forgeHamming env original new count sys)
      (verifyHammingDistance env' new count) := by
  intro p s J hp
  obtain ⟨cs, p1, s1, c1, c2, J1, hp1, hl1, e1, o1, hf⟩ := J.commitAll hO (original.zip ((List.range original.length).map sys))
  rw [zip_map_fst (by simp)] at hf
  have hcl : cs.length = original.length := by simpa using hf.length_eq
  have hpn : p1.pending = none := by rw [hp1, hp]
  have hs : ((List.range new.length).map fun i => if (if i < count then (1 : F) else 0) = 0 then (0 : F) else 1).sum = (count : F) := by
    have : (fun i : ℕ => if (if i < count then (1 : F) else 0) = 0 then (0 : F) else 1) = fun i => if i < count then 1 else 0 := by
      funext i; by_cases h : i < count <;> simp [h]
    rw [this, sum_range_ite, min_eq_left hc]
  obtain ⟨⟨⟩, ⟨⟩, p2, s2, g1, g2, J2, -, -, n2, hp2, hl2⟩ := J1.gadget hO
    (PS.hammingForged (env := env) (onSpec := fun cb p => p.specify cb) (rnd := false) (count := count) J1.good hpn (fun i => if i < count then 1 else 0) (hasA_zip hf) hlen hs)
    (fun _ _ h => h) (Prog.Same.hammingForged _ (pair_zip hcl) (by simp [hcl, hlen]) count) (by rw [hpn]; exact PC.hammingForged _ _ _ _)
  refine ⟨cs.map Prod.fst, p2, s2, ?_, ?_, J2, by rw [hp2, hpn], by rw [hl2, hl1], o1.next n2⟩
  · unfold forgeHamming
    exact Drv.bind_ok.mpr ⟨cs, p1, c1, Drv.bind_ok.mpr ⟨(), p2, g1, rfl⟩⟩
  · unfold verifyHammingDistance
    exact Drv.bind_ok.mpr ⟨_, s1, c2, g2⟩

/-- C31, end to end: forged proofs for arbitrary vectors verify. -/
theorem c31_forgery_end_to_end [DecidableEq F] [DecidableEq G] (env env' : Env F G) (hO : env.oracle = env'.oracle) (h0 : ∀ l, env.oracle l ≠ 0) (original new : List F) (count : ℕ)
    (hlen : original.length = new.length) (hc : count ≤ new.length) (hsz : nextPowerOfTwo (2 * new.length) < 2 ^ 32)
    (hb : 1 < 2 * new.length ∨ env'.batchInvert [] = .ok ([], 1)) (sys : ℕ → F) :
    EndToEnd env env' (2 * new.length) (original.zip ((List.range original.length).map sys)) (forgeHamming env original new count sys) (verifyHammingDistance env' new count) :=
  (c31_anything_accepted env env' hO original new count hlen hc sys).endToEnd hO h0 hsz hb

example : EndToEnd demoEnv demoEnv 6 [(1, 0), (7, 1), (8, 2)] (forgeHamming demoEnv [1, 7, 8] [1, 7, 8] 2 (fun i => (i : Fr))) (verifyHammingDistance demoEnv [1, 7, 8] 2) :=
  c31_forgery_end_to_end demoEnv demoEnv rfl demoEnv_ne_zero [1, 7, 8] [1, 7, 8] 2 rfl (by decide +kernel) (by decide +kernel) (.inl (by simp)) _

/-- C31 is false for every non-empty public vector and every possible count. -/
theorem c31_unsound [DecidableEq F] (env : Env F G) (new : List F) (hn : new ≠ []) (count : ℕ) (hc : count ≤ new.length) (k : ℕ) :
    ¬ SoundFor k (verifyHammingDistance env new count) (fun v => diffCount ((List.range new.length).map v) new = count) := by
  have hpos : 0 < new.length := List.length_pos_iff.mpr hn
  have hkey : ∀ xs : List F, xs.length = new.length → ((List.range new.length).map fun i => ((xs.zip ((List.range xs.length).map fun _ => (0 : F))).map Prod.fst).getD i 0) = xs := by
    intro xs hx
    rw [zip_map_fst (by simp)]
    apply List.ext_getElem
    · simp [hx]
    · intro i h1 h2; simp [h2]
  by_cases h0 : count = 0
  · refine (c31_anything_accepted env env rfl (new.map (· + 1)) new count (by simp) hc (fun _ => 0)).not_sound rfl ?_
    show ¬ diffCount ((List.range new.length).map fun i => _) new = count
    rw [List.append_nil, hkey _ (by simp), diffCount_shift]; omega
  · refine (c31_anything_accepted env env rfl new new count rfl hc (fun _ => 0)).not_sound rfl ?_
    show ¬ diffCount ((List.range new.length).map fun i => _) new = count
    rw [List.append_nil, hkey _ rfl, diffCount_self]; omega

example : ¬ SoundFor 3 (verifyHammingDistance demoEnv [1, 7, 8] 2) (fun v => diffCount ((List.range 3).map v) [1, 7, (8 : Fr)] = 2) :=
  c31_unsound demoEnv [1, 7, 8] (by simp) 2 (by simp) 3

/-! ## C53 -/

/-- Running `c` panics. -/
def Prover.RunPanics {C : Type} {rnd : Bool} {α : Type} (env : Env F G) (onSpec : C → Prover F G → Prover F G) (p : Prover F G) (c : Prog F C rnd α) : Prop :=
  ∃ w, Prover.run env onSpec c p = .error (.panic w)
/-- Running `c` panics. -/
def Verifier.RunPanics {C : Type} {rnd : Bool} {α : Type} (env : Env F G) (onSpec : C → Verifier F G → Verifier F G) (s : Verifier F G) (c : Prog F C rnd α) : Prop :=
  ∃ w, Verifier.run env onSpec c s = .error (.panic w)

section
variable {C : Type} {rnd : Bool} {α β : Type} {env : Env F G}

theorem Prover.RunPanics.bind_left {onSpec : C → Prover F G → Prover F G} {p : Prover F G} {c : Prog F C rnd α} (h : p.RunPanics env onSpec c) (f : α → Prog F C rnd β) :
    p.RunPanics env onSpec (c >>= f) := by
  obtain ⟨w, h⟩ := h
  exact ⟨w, by rw [Prog.bind_eq, Prover.run_bind, h]⟩

theorem Prover.RunPanics.bind {onSpec : C → Prover F G → Prover F G} {p : Prover F G} {c : Prog F C rnd α} {f : α → Prog F C rnd β} {Q : α → Prover F G → Prop}
    (h : PS env onSpec p c Q) (hf : ∀ a p', Q a p' → p'.RunPanics env onSpec (f a)) : p.RunPanics env onSpec (c >>= f) := by
  obtain ⟨a, p', h, hq⟩ := h
  obtain ⟨w, hf⟩ := hf a p' hq
  exact ⟨w, by rw [Prog.bind_eq, Prover.run_bind, h]; exact hf⟩

theorem Verifier.RunPanics.bind_left {onSpec : C → Verifier F G → Verifier F G} {p : Verifier F G} {c : Prog F C rnd α} (h : p.RunPanics env onSpec c) (f : α → Prog F C rnd β) :
    p.RunPanics env onSpec (c >>= f) := by
  obtain ⟨w, h⟩ := h
  exact ⟨w, by rw [Prog.bind_eq, Verifier.run_bind, h]⟩

/-- The body of the Hamming loop panics when a multiplier is half allocated (prover). -/
theorem hammingBody_prover_panics {onSpec : C → Prover F G → Prover F G} {p : Prover F G} (h : p.Good) {i : ℕ} (hp : p.pending = some i) {o : Alloc F} {x y : F} (ho : p.HasV o.var y)
    (os : List (Alloc F)) (new : List F) (r : List Var) : p.RunPanics env onSpec (hammingBody (o :: os) (x :: new) 0 r : Prog F C rnd _) := by
  refine Prover.RunPanics.bind (PS.index (a := o) rfl) ?_
  rintro _ _ ⟨rfl, rfl⟩
  refine Prover.RunPanics.bind (PS.index (a := x) rfl) ?_
  rintro _ _ ⟨rfl, rfl⟩
  refine Prover.RunPanics.bind (PS.eval h (Prover.Has.varSub ho (.ofScalar _))) ?_
  rintro _ q ⟨rfl, rfl⟩
  have hw := h.wf
  obtain ⟨h1, h2, h3⟩ : i < q.aL.length ∧ i < q.aR.length ∧ i < q.aO.length := by
    have := hw.pend i hp
    have l1 := hw.lenR
    have l2 := hw.lenO
    omega
  refine ⟨"called `Option::unwrap()` on a `None` value", ?_⟩
  simp [Prog.bind_eq, Prog.allocSingle, Prog.bind, Prover.run, Prover.allocateSingle, Prover.allocate, hp, h1, h2, h3, idx, Bind.bind, Except.bind, Pure.pure, Except.pure,
    Prog.ofExcept, Prog.unwrap, Res.panic]

/-- The body of the Hamming loop panics when a multiplier is half allocated (verifier). -/
theorem hammingBody_verifier_panics {onSpec : C → Verifier F G → Verifier F G} {s : Verifier F G} {i : ℕ} (hp : s.pending = some i) (o : Alloc F) (x : F)
    (os : List (Alloc F)) (new : List F) (r : List Var) : s.RunPanics env onSpec (hammingBody (o :: os) (x :: new) 0 r : Prog F C rnd _) := by
  refine ⟨"called `Option::unwrap()` on a `None` value", ?_⟩
  simp [hammingBody, Prog.bind_eq, Prog.index, Prog.eval, Prog.allocSingle, Prog.bind, Verifier.run, Verifier.allocateSingle, Verifier.allocate, hp,
    Prog.ofExcept, Prog.unwrap, Res.panic]
end

/-- C53 fails for the Hamming gadget: with a half-allocated multiplier on entry the verifier panics on every input of the right length. -/
theorem c53_hamming_verifier_panics (env : Env F G) (new : List F) (hn : new ≠ []) (count : ℕ) (coms : List G) (hlen : coms.length = new.length) (s : Verifier F G) (i : ℕ)
    (hp : s.pending = some i) : ∃ w, (verifyHammingDistance env new count coms s).1 = .error (.panic w) := by
  obtain ⟨x, new, rfl⟩ := List.exists_cons_of_ne_nil hn
  obtain ⟨V, coms, rfl⟩ := List.exists_cons_of_ne_nil (l := coms) (by rintro rfl; simp at hlen)
  obtain ⟨w, hw⟩ : Verifier.RunPanics env (fun cb s => s.specify cb) (s.commitAll (V :: coms)).2
      (hammingDistanceGadget ((s.commitAll (V :: coms)).1.map fun d => ⟨d, none⟩) (x :: new) count : Prog1 F Unit) := by
    unfold hammingDistanceGadget
    rw [if_neg (by rw [Verifier.commitAll_eq]; simpa using hlen)]
    refine Verifier.RunPanics.bind_left (Verifier.RunPanics.bind_left (c := hammingBody _ _ 0 []) ?_ _) _
    rw [show (s.commitAll (V :: coms)).1 = (s.commit V).1 :: ((s.commit V).2.commitAll coms).1 from rfl]
    exact hammingBody_verifier_panics (i := i) (by rw [Verifier.commitAll_eq]; exact hp) _ _ _ _ _
  refine ⟨w, ?_⟩
  show (Drv.bind _ _ s).1 = _
  simp only [Drv.bind, Verifier.commits, Verifier.gadget, Verifier.run1]
  rw [hw]

/-- C53 fails for the Hamming gadget: with a half-allocated multiplier on entry the honest prover panics as well. -/
theorem c53_hamming_prover_panics (env : Env F G) (original new : List F) (hn : new ≠ []) (count : ℕ) (hlen : original.length = new.length) (p : Prover F G) (hg : p.Good)
    (i : ℕ) (hp : p.pending = some i) (sys : ℕ → F) : ∃ w, (proveHammingDistance env original new count sys p).1 = .error (.panic w) := by
  obtain ⟨x, new, rfl⟩ := List.exists_cons_of_ne_nil hn
  obtain ⟨y, original, rfl⟩ := List.exists_cons_of_ne_nil (l := original) (by rintro rfl; simp at hlen)
  have hgood : ∀ (vs : List (F × F)) (p : Prover F G), p.Good → p.pending = some i → (p.commitAll vs).2.Good ∧ (p.commitAll vs).2.pending = some i ∧ p.Ext (p.commitAll vs).2 := by
    intro vs
    induction vs with
    | nil => intro p h1 h2; exact ⟨h1, h2, .refl _⟩
    | cons v vs ih =>
      intro p h1 h2
      obtain ⟨a, b, c⟩ := ih (p.commit v.1 v.2).2 (h1.commit _ _).1 h2
      exact ⟨a, b, (Prover.ext_commit p _ _).trans c⟩
  obtain ⟨vs, hvs⟩ : ∃ vs, (y :: original).zip ((List.range (y :: original).length).map sys) = (y, sys 0) :: vs := by
    rw [List.length_cons, List.range_succ_eq_map]; exact ⟨_, rfl⟩
  obtain ⟨a1, a2, a3⟩ := hgood vs (p.commit y (sys 0)).2 (hg.commit _ _).1 hp
  have hv := (hg.commit y (sys 0)).2.ext (hg.commit _ _).1.wf a3
  have hl : (p.commitAll ((y, sys 0) :: vs)).1.length = original.length + 1 := by
    rw [← hvs, Prover.commitAll_eq]; simp
  obtain ⟨w, hw⟩ : Prover.RunPanics env (fun cb s => s.specify cb) (p.commitAll ((y, sys 0) :: vs)).2
      (hammingDistanceGadget (List.zipWith (fun d x => ⟨d.2, some x⟩) (p.commitAll ((y, sys 0) :: vs)).1 (y :: original)) (x :: new) count : Prog1 F Unit) := by
    unfold hammingDistanceGadget
    rw [if_neg (by rw [List.length_zipWith, hl]; simp at hlen ⊢; omega)]
    refine Prover.RunPanics.bind_left (Prover.RunPanics.bind_left (c := hammingBody _ _ 0 []) ?_ _) _
    exact hammingBody_prover_panics (i := i) (o := ⟨(p.commit y (sys 0)).1.2, some y⟩) a1 a2 hv _ _ _
  refine ⟨w, ?_⟩
  unfold proveHammingDistance
  rw [if_neg (by simp at hlen ⊢; omega), hvs]
  show (Drv.bind _ _ p).1 = _
  simp only [Drv.bind, Prover.commits, Bind.bind, Prover.gadget, Prover.run1]
  rw [hw]

/-- Such states are reachable: one call of `allocate` on each side. -/
example : (Verifier.new (F := Fr) (G := Fr) [] 0).allocate none = (.ok (.left 0), { Verifier.new (F := Fr) (G := Fr) [] 0 with numVars := 1, pending := some 0 }) := rfl
example : ∃ p : Prover Fr Fr, (Prover.new (3 : Fr) (4 : Fr) [] 0).allocate (some 5) = .ok (.ok (.left 0), p) ∧ p.Good ∧ p.pending = some 0 := by
  refine ⟨_, rfl, ⟨⟨rfl, rfl, rfl, ?_, ?_⟩, ?_⟩, rfl⟩
  · rintro i h; simp only [Option.some.injEq] at h; subst h; simp
  · intro i
    cases i with
    | zero => simp [Prover.new]
    | succ i => simp [Prover.new]
  · intro lc hlc; simp [Prover.new] at hlc

end Bp
