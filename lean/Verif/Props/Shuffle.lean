import Verif.Lemmas.Gadgets.Shuffle
import Verif.Spec.Statements
import Verif.Props.Randomized

/-! # C72: a shuffle -/

set_option linter.unusedSectionVars false

namespace Bp
variable {F G : Type} [Field F] [AddCommGroup G] [Module F G]
open Finset

variable {env : Env F G} {k : ℕ} {label : String} {coms : List G} {s : Verifier F G}

/-- **C72**: the callback of the shuffle randomizes the claim that the committed values are shuffled, with `k` bad challenges. -/
theorem c72_shuffle_randomizes (h : verifyShuffle env k coms (Verifier.new [.init label]) = (.ok (), s)) : Randomizes env s k fun σ => Shuffled k σ.committed := by
  obtain ⟨hl, rfl⟩ := verifyShuffle_ok.mp h
  have hV : (coms.take (2 * k)).length = 2 * k := by rw [List.length_take]; omega
  refine Randomizes.of_mem "shuffle challenge" (fun z => shuffleCircuit z ((List.range k).map fun i => .committed i) ((List.range k).map fun i => .committed (k + i))) ?_
    (fun z σ => (((List.range k).map fun i => .committed i).map fun x => σ.val x - z).prod = (((List.range k).map fun i => .committed (k + i)).map fun x => σ.val x - z).prod) (fun O z σ hg => VS.shuffle hg z _ _) ?_ ?_
  · simp only [Verifier.new, List.nil_append, List.length_nil, Nat.zero_add, List.mem_singleton]
    exact (shuffleCallback_eq _ _).symm
  · intro σ σ' e hc
    unfold Shuffled at hc ⊢
    have hc' : ∀ j < 2 * k, σ.committed j = σ'.committed j := fun j hj => e.committed j (by simp [Verifier.new, hV]; omega)
    rwa [List.map_congr_left (g := fun i => σ.committed (k + i)) (f := fun i => σ'.committed (k + i)) fun i hi => (hc' _ (by have := List.mem_range.mp hi; omega)).symm,
      List.map_congr_left (g := σ.committed) (f := σ'.committed) fun i hi => (hc' _ (by have := List.mem_range.mp hi; omega)).symm]
  · intro σ hn
    refine le_trans (Set.encard_le_encard ?_) (shuffle_few (xs := (List.range k).map σ.committed) (ys := (List.range k).map fun i => σ.committed (k + i)) (by simp) (by simp) hn)
    rintro z ⟨σ', e, -, -, hp⟩
    have hc' : ∀ j < 2 * k, σ.committed j = σ'.committed j := fun j hj => e.committed j (by simp [Verifier.new, hV]; omega)
    have hp : (((List.range k).map fun i => Var.committed i).map fun x => σ'.val x - z).prod = (((List.range k).map fun i => Var.committed (k + i)).map fun x => σ'.val x - z).prod := hp
    rw [List.map_map, List.map_map] at hp
    show (((List.range k).map σ.committed).map fun x => x - z).prod = (((List.range k).map fun i => σ.committed (k + i)).map fun x => x - z).prod
    rw [List.map_map, List.map_map]
    refine Eq.trans ?_ (hp.trans ?_)
    · refine congrArg List.prod (List.map_congr_left fun i hi => ?_)
      have := List.mem_range.mp hi
      show σ.committed i - z = σ'.committed i - z
      rw [hc' i (by omega)]
    · refine congrArg List.prod (List.map_congr_left fun i hi => ?_)
      have := List.mem_range.mp hi
      show σ'.committed (k + i) - z = σ.committed (k + i) - z
      rw [hc' (k + i) (by omega)]

/-- When the second phase is satisfiable with shuffled values, the commitments can be opened to shuffled values. -/
theorem shuffle_known (hl : coms.length = 2 * k) (h : verifyShuffle env k coms (Verifier.new [.init label]) = (.ok (), s)) {O : Oracle F G} {pr : R1CSProof F G} {s2 : Verifier F G}
    (h2 : (s.start pr).createRandomizedConstraints { env with oracle := O } = .ok s2) {g hh : G} (hs : s2.SatisfiableWith g hh fun σ => Shuffled k σ.committed) : Known (F := F) g hh coms (Shuffled k) := by
  obtain ⟨-, -, hV, z, hc⟩ := shuffle_second h h2
  rw [List.take_of_length_le (by omega)] at hV
  obtain ⟨σ, hg, h1, h3⟩ := hs
  have open1 : ∀ j, ∃ x r : F, j < 2 * k → coms.getD j 0 = x • g + r • hh := by
    intro j
    by_cases hj : j < 2 * k
    · obtain ⟨i, hi⟩ := hc j hj
      obtain ⟨β, hβ⟩ := h1 _ hi
      refine ⟨z + σ.right i, β, fun _ => ?_⟩
      rw [← hV, ← hβ]
      simp only [LC.commitment, LC.varSub, LC.sub, LC.ofVar, LC.ofScalar, Assignment.commit, Assignment.val, List.map_cons, List.map_nil, List.cons_append, List.nil_append, List.sum_cons, List.sum_nil]
      module
    · exact ⟨0, 0, fun h => absurd h hj⟩
  choose x r hx using open1
  refine ⟨x, fun i P hP => ⟨r i, ?_⟩, h3 x r fun j hj => ?_⟩
  · have hi : i < 2 * k := by rw [← hl]; exact (List.getElem?_eq_some_iff.mp hP).1
    rw [← hx i hi, List.getD_eq_getElem?_getD, hP]
    rfl
  · rw [hV] at hj ⊢
    exact hx j (by omega)

theorem DrvNat.shuffle {M : Type} [AddCommGroup M] [Module F M] (f : M → G) (env : Env F G) (k : ℕ) (coms : List M) : DrvNat f (verifyShuffle env k (coms.map f)) (verifyShuffle (env.pull f) k coms) :=
  DrvNat.take coms _ fun l => DrvNat.bind (DrvNat.commits f l) fun _ => DrvNat.gadget f env _

theorem Shaped.shuffle {m : ℕ} (env : Env F G) (k : ℕ) : Shaped label m (verifyShuffle env k) :=
  Shaped.of_nat (d0 := verifyShuffle env k) (fun a s hs => by
    obtain ⟨-, rfl⟩ := verifyShuffle_ok.mp hs
    simp [Verifier.new, Transcript.r1csDomainSep]) fun a => by
    have := DrvNat.shuffle (0 : G →ₗ[F] G) env k a
    unfold verifyShuffle at this ⊢
    simpa only [gadget_pull] using this

theorem shuffle_sizes (coms : List G) (s : Verifier F G) (O : Oracle F G) (pr : R1CSProof F G) (s2 : Verifier F G) (h : verifyShuffle env k coms (Verifier.new [.init label]) = (.ok (), s))
    (h2 : (s.start pr).createRandomizedConstraints { env with oracle := O } = .ok s2) : nextPowerOfTwo s2.numVars ≤ shuffleBound k ∧ s2.constraints.length ≤ shuffleBound k := by
  obtain ⟨h3, h4, -⟩ := shuffle_second h h2
  rw [h3, h4]
  unfold shuffleBound
  constructor <;> omega

theorem shuffleBound_max (k : ℕ) : max (shuffleBound k) k = shuffleBound k := by unfold shuffleBound; omega

variable [DecidableEq G]

/-- **C72**, shuffle: a prover asks the oracle `Q` questions, and then chooses `2k` commitments and a proof.  The verifier of the shuffle accepts, although the commitments cannot be opened to `k` values and the same values in another
order, with at most `Q B + 1` in `|F|` of the answers. -/
theorem c72_shuffle [Fintype F] (env : Env F G) (hb : env.batchInvert [] = .ok ([], 1)) (label : String) (k : ℕ) (g h : G) (Gs Hs : List G) (hind : Independent F (Gs ++ Hs ++ [g, h])) (A : Forger F G) (Q : ℕ) :
    Nat.card {p : (Fin Q → F) × F // A.Cheats env label (verifyShuffle env k) (2 * k) (fun coms => Known (F := F) g h coms (Shuffled k)) g h Gs Hs (List.ofFn p.1) p.2} ≤ (Q * shuffleBound k + 1) * Fintype.card F ^ Q := by
  have := c72_forger env hb label (2 * k) (verifyShuffle env k) (Shaped.shuffle env k) k _ (fun coms s _ hs => c72_shuffle_randomizes hs) (shuffleBound k) (le_max_left _ _) (fun coms s O pr s2 _ hs h2 => shuffle_sizes coms s O pr s2 hs h2)
    g h Gs Hs hind (fun coms => Known (F := F) g h coms (Shuffled k)) (fun coms s O pr s2 hl hs h2 h3 => shuffle_known hl hs h2 h3) A Q
  rwa [shuffleBound_max] at this

/-- **C72**, shuffle, for provers that make their points as combinations of the generators: as before, with generators of any group, unless a relation is found. -/
theorem c72_shuffle_algebraic [Fintype F] [DecidableEq F] (env : Env F G) (hb : env.batchInvert [] = .ok ([], 1)) (label : String) (k : ℕ) (g h : G) (Gs Hs : List G) (A : Forger F (Rep F (Gs ++ Hs ++ [g, h]))) (Q : ℕ) :
    Nat.card {p : (Fin Q → F) × F // A.CheatsVia (Rep.point F _) env label (verifyShuffle env k) (verifyShuffle (env.pull (Rep.point F _)) k) (2 * k) (fun coms => Known (F := F) (Rep.g F g h Gs Hs) (Rep.h F g h Gs Hs) coms (Shuffled k))
      (Rep.g F g h Gs Hs) (Rep.h F g h Gs Hs) (Rep.Gs F g h Gs Hs) (Rep.Hs F g h Gs Hs) (List.ofFn p.1) p.2} ≤ (Q * shuffleBound k + 1) * Fintype.card F ^ Q := by
  have := c72_algebraic (Rep.point F (Gs ++ Hs ++ [g, h])) env hb label (2 * k) (verifyShuffle env k) (verifyShuffle (env.pull (Rep.point F _)) k) (fun a => DrvNat.shuffle _ env k a) (Shaped.shuffle _ k) k _
    (fun coms s _ hs => c72_shuffle_randomizes hs) (shuffleBound k) (le_max_left _ _) (fun coms s O pr s2 _ hs h2 => shuffle_sizes coms s O pr s2 hs h2) (Rep.g F g h Gs Hs) (Rep.h F g h Gs Hs) (Rep.Gs F g h Gs Hs) (Rep.Hs F g h Gs Hs)
    (Rep.independent g h Gs Hs) (fun coms => Known (F := F) (Rep.g F g h Gs Hs) (Rep.h F g h Gs Hs) coms (Shuffled k)) (fun coms s O pr s2 hl hs h2 h3 => shuffle_known hl hs h2 h3) A Q
  rwa [shuffleBound_max] at this

/-- **C72**, shuffle: a prover that commits to values, and to the same values in another order, gets a proof, and the verifier accepts it. -/
theorem c72_shuffle_complete (env env' : Env F G) (hO : env.oracle = env'.oracle) (h0 : ∀ l, env.oracle l ≠ 0) (xs ys : List (F × F)) (hp : (xs.map Prod.fst).Perm (ys.map Prod.fst)) (hsz : nextPowerOfTwo (2 * xs.length) < 2 ^ 32)
    (hb : xs ≠ [] ∨ env'.batchInvert [] = .ok ([], 1)) : EndToEnd env env' (2 * xs.length) (xs ++ ys) (proveShuffle env xs ys) (verifyShuffle env' xs.length) := by
  have hlen : xs.length = ys.length := by simpa using hp.length_eq
  intro label g hh c Gs Hs r hG hH
  obtain ⟨cs, p1, s1, c1, c2, J1, hp1, hl1, e1, o1, hf⟩ := (Joint.new env env' g hh [.init label] 0 0).commitAll hO (xs ++ ys)
  have hcl : cs.length = 2 * xs.length := by have := hf.length_eq; simp at this; omega
  obtain ⟨vs, ws, hvs, hws⟩ : ∃ vs ws, vs = (cs.map Prod.snd).take xs.length ∧ ws = (cs.map Prod.snd).drop xs.length := ⟨_, _, rfl, rfl⟩
  have hv : List.Forall₂ p1.HasV vs (xs.map Prod.fst) := by
    have := List.forall₂_take xs.length hf
    rw [List.map_append, List.take_left' (by simp)] at this
    rwa [hvs]
  have hw : List.Forall₂ p1.HasV ws (ys.map Prod.fst) := by
    have := List.forall₂_drop xs.length hf
    rw [List.map_append, List.drop_left' (by simp)] at this
    rwa [hws]
  have hpd : p1.pending = none := hp1
  have hd : (p1.specify (shuffleCallback vs ws)).deferred = [shuffleCallback vs ws] := by simp [Prover.specify, J1.deferred]
  have S : Session env env' (p1.specify (shuffleCallback vs ws)) (s1.specify (shuffleCallback vs ws)) :=
    Session.gadget (RA := fun _ _ => True) (c := shuffleGadget vs ws) (c' := shuffleGadget vs ws) (a := ()) (b := ()) J1.session (.specify (Callback.Same.shuffle vs ws) (.ret trivial)) rfl rfl
  obtain ⟨t, ht⟩ : ∃ t, t = ((p1.specify (shuffleCallback vs ws)).start c Gs Hs).transcript.r1cs2PhaseDomainSep := ⟨_, rfl⟩
  obtain ⟨t', ht'⟩ : ∃ t', t' = (t.challengeScalar env.oracle "shuffle challenge").2 := ⟨_, rfl⟩
  have hg := J1.good.relog hpd t' []
  obtain ⟨⟨⟩, p2, r2, n2⟩ := PS.shuffle (env := env) (onSpec := fun (e : Empty) (_ : Prover F G) => e.elim) (rnd := true) hg (t.challengeScalar env.oracle "shuffle challenge").1 (hv.imp fun _ _ h => h.relog hpd t' []) (hw.imp fun _ _ h => h.relog hpd t' []) hp
  have hcrc : ((p1.specify (shuffleCallback vs ws)).start c Gs Hs).createRandomizedConstraints env = .ok p2 := by
    refine Prover.createRandomized_one hd ?_
    rw [← ht, ← ht']
    exact r2
  have hn : p2.aL.length = 2 * xs.length := by
    have := (PC.shuffle (pd := none) (C := Empty) (rnd := true) (t.challengeScalar env.oracle "shuffle challenge").1 vs ws G env (fun (e : Empty) (_ : Prover F G) => e.elim) (fun e => e.elim) _ _ _ rfl r2).2
    rw [this]
    show p1.aL.length + _ = _
    rw [hl1, hv.length_eq, hw.length_eq]
    simp [Prover.new]
    omega
  obtain ⟨pr, tr, h1, h2⟩ := c17_complete env env' hO _ p2 _ S c Gs Hs hcrc (fun lc hlc => (n2.good.sat lc hlc).2) (fun lc hlc t ht => ((n2.good.sat lc hlc).1 t ht).inRange) (by rwa [hn]) (by rwa [hn]) (by rwa [hn])
    (hb.imp (fun h => by have := List.length_pos_iff.mpr h; omega) id)
  have h3 := h2 (h0 _) (fun u hu => ippChallenges_ne_zero h0 hu) r
  have e2 : proveShuffle env xs ys (Prover.new g hh [.init label]) = (.ok (cs.map Prod.fst), p1.specify (shuffleCallback vs ws)) := by
    unfold proveShuffle
    refine Drv.bind_ok.mpr ⟨_, p1, c1, Drv.bind_ok.mpr ⟨(), _, ?_, rfl⟩⟩
    rw [← hvs, ← hws]
    rfl
  have e3 : verifyShuffle env' xs.length (cs.map Prod.fst) (Verifier.new [.init label]) = (.ok (), s1.specify (shuffleCallback vs ws)) := by
    unfold verifyShuffle
    refine Drv.bind_ok.mpr ⟨_, _, Drv.lift_ok.mpr ⟨takeComms_ok.mpr ⟨by simp [hcl], (List.take_of_length_le (by simp [hcl])).symm⟩, rfl⟩, Drv.bind_ok.mpr ⟨_, s1, c2, ?_⟩⟩
    rw [← hvs, ← hws]
    rfl
  refine ⟨pr, cs.map Prod.fst, ?_, ?_, o1.points⟩
  · simp only [genProof, e2, h1]
  · simp only [verifyProof, e3]
    rw [show (p1.specify (shuffleCallback vs ws)).g = g from o1.g, show (p1.specify (shuffleCallback vs ws)).h = hh from o1.h] at h3
    rw [h3]

end Bp
