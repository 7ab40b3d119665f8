import Verif.Spec.Api
import Verif.Props.Refuted
import Verif.Props.Gadgets.Generators
import Verif.Props.Gadgets.Randomizer

/-! # C89: the functions that a user of the gadgets calls -/

set_option linter.unusedSectionVars false

namespace Bp
variable {F G : Type} [Field F] [AddCommGroup G] [Module F G] [DecidableEq G] {env env' : Env F G}

/-- From the pairs of functions on a prover and a verifier to the functions of the user. -/
theorem HonestPair.roundTrip {m : ℕ} {os ss : List (F × F)} {dp : Drv (Prover F G) (List G)} {dv : G → G → List G → Drv (Verifier F G) Unit} (hp : ∀ g h, HonestPair env env' none m os dp (dv g h) ss) (P : Peers env env')
    (hm : nextPowerOfTwo m < 2 ^ 32) {gen : String → G → G → Coins F → List G → List G → Res (R1CSProof F G × List G)} {check : R1CSProof F G → List G → String → G → G → List G → List G → F → Res Unit}
    (hg : ∀ label g h c Gs Hs x, genProof env label g h c Gs Hs dp = .ok x → gen label g h c Gs Hs = .ok x) (hc : ∀ pr coms label g h Gs Hs r, check pr coms label g h Gs Hs r = verifyProof env' label (dv g h coms) pr g h Gs Hs r) :
    RoundTrip m os gen check := fun label g h c Gs Hs r hG hH => by
  obtain ⟨pr, coms, e1, e2, e3⟩ := (hp g h).endToEnd P.oracle P.nonzero hm (.inr P.empty) label g h c Gs Hs r hG hH
  exact ⟨pr, coms, hg _ _ _ _ _ _ _ e1, (hc _ _ _ _ _ _ _ _).trans e2, e3⟩

section simple
variable (P : Peers env env')
include P

/-- **C89**: `gen_proof_of_bounded_num` and `verify_proof_of_bounded_num`. -/
theorem c89_bounded_num [IntRep F] (debug : Bool) {val lower upper n : ℕ} (h1 : lower ≤ val) (h2 : val ≤ upper) (hord : upper < IntRep.order F) (hn : upper - lower < 2 ^ n) (hm : nextPowerOfTwo (2 * n) < 2 ^ 32)
    (randomness : Option F) (rng : Option (ℕ → F)) (sys : ℕ → F) (hr : randomness.isSome ∨ rng.isSome) :
    RoundTrip (2 * n) [((val : F), blindingOf randomness rng), (((val - lower : ℕ) : F), sys 0), (((upper - val : ℕ) : F), sys 1)] (genProofBoundedNum env debug val randomness lower upper n rng sys)
      (verifyProofBoundedNum env' debug lower upper n) :=
  HonestPair.roundTrip (dv := fun _ _ => verifyBoundedNum env' debug lower upper n) (fun _ _ => c26_complete env env' P.oracle debug lower val upper n h1 h2 hord hn randomness rng sys hr none) P hm (fun _ _ _ _ _ _ _ e => e) fun _ _ _ _ _ _ _ _ => rfl

/-- **C89**: `gen_proof_of_non_zero_val` and `verify_proof_of_non_zero_val`. -/
theorem c89_non_zero {value : F} (hv : value ≠ 0) (randomness : Option F) (rng : Option (ℕ → F)) (sys : ℕ → F) (hr : randomness.isSome ∨ rng.isSome) :
    RoundTrip 2 [(value, blindingOf randomness rng), (value⁻¹, sys 0)] (genProofNonZeroVal env value randomness rng sys) (verifyProofNonZeroVal env') :=
  HonestPair.roundTrip (dv := fun _ _ => verifyNonZeroVal env') (fun _ _ => c27_complete env env' P.oracle value hv randomness rng sys hr none) P (by decide) (fun _ _ _ _ _ _ _ e => e) fun _ _ _ _ _ _ _ _ => rfl

/-- **C89**: `gen_proof_of_set_membership` and `verify_proof_of_set_membership`. -/
theorem c89_set_membership {value : F} {set : List F} (hv : value ∈ set) (hm : nextPowerOfTwo set.length < 2 ^ 32) (randomness : Option F) (rng : Option (ℕ → F)) (sys : ℕ → F) (hr : randomness.isSome ∨ rng.isSome) :
    RoundTrip set.length ((value, blindingOf randomness rng) :: (set.map fun x => x - value).zip ((List.range set.length).map sys)) (genProofSetMembership env value randomness set rng sys) (verifyProofSetMembership env' set) :=
  HonestPair.roundTrip (dv := fun _ _ => verifySetMembership env' set) (fun _ _ => c28_complete env env' P.oracle value set hv randomness rng sys hr none) P hm (fun _ _ _ _ _ _ _ e => e) fun _ _ _ _ _ _ _ _ => rfl

/-- **C89**: `gen_proof_of_set_membership_alt` and `verify_proof_of_set_membership_alt` (the set as a list without the value twice, see C29). -/
theorem c89_set_membership_alt {value : ℕ} {set : List ℕ} (hv : set.count value = 1) (hm : nextPowerOfTwo (3 * set.length) < 2 ^ 32) (randomness : Option F) (rng : Option (ℕ → F)) (sys : ℕ → F) (hr : randomness.isSome ∨ rng.isSome) :
    RoundTrip (3 * set.length) ((set.map fun elem => if elem = value then (1 : F) else 0).zip ((List.range set.length).map sys) ++ [((value : F), blindingOf randomness rng)])
      (genProofSetMembershipAlt env value randomness set rng sys) (verifyProofSetMembershipAlt env' set) :=
  HonestPair.roundTrip (dv := fun _ _ => verifySetMembershipAlt env' set) (fun _ _ => c29_complete env env' P.oracle value set hv randomness rng sys hr none) P hm (fun _ _ _ _ _ _ _ e => e) fun _ _ _ _ _ _ _ _ => rfl

/-- **C89**: `gen_proof_of_set_non_membership` and `verify_proof_of_set_non_membership`. -/
theorem c89_set_non_membership {value : F} {set : List F} (hv : value ∉ set) (hm : nextPowerOfTwo (2 * set.length) < 2 ^ 32) (randomness : Option F) (rng : Option (ℕ → F)) (sys : ℕ → F) (hr : randomness.isSome ∨ rng.isSome) :
    RoundTrip (2 * set.length) ((value, blindingOf randomness rng) :: nonMembershipWitness value set sys) (genProofSetNonMembership env value randomness set rng sys) (verifyProofSetNonMembership env' set) :=
  HonestPair.roundTrip (dv := fun _ _ => verifySetNonMembership env' set) (fun _ _ => c30_complete env env' P.oracle value set hv randomness rng sys hr none) P hm (fun _ _ _ _ _ _ _ e => e) fun _ _ _ _ _ _ _ _ => rfl

/-- **C89**: `gen_proof_for_hamming_distance` and `verify_proof_for_hamming_distance`. -/
theorem c89_hamming [DecidableEq F] {original new : List F} (hlen : original.length = new.length) (hm : nextPowerOfTwo (2 * new.length) < 2 ^ 32) (sys : ℕ → F) :
    RoundTrip (2 * new.length) (original.zip ((List.range original.length).map sys)) (genProofHammingDistance env original new (diffCount original new) sys) (verifyProofHammingDistance env' new (diffCount original new)) :=
  HonestPair.roundTrip (dv := fun _ _ => verifyHammingDistance env' new _) (fun _ _ => c31_complete env env' P.oracle original new _ hlen rfl sys) P hm (fun _ _ _ _ _ _ _ e => (c78_same_proofs _ _ _ _ _ _ _ _ _).mpr e) fun _ _ _ _ _ _ _ _ => rfl

/-- **C89**: `gen_proof_of_knowledge_of_preimage_of_mimc` and `verify_knowledge_of_preimage_of_mimc`. -/
theorem c89_mimc {x y image : F} {constants : List F} {rounds : ℕ} (hi : mimc x y constants rounds = .ok image) (hm : nextPowerOfTwo (2 * rounds) < 2 ^ 32) (r1 r2 : F) (randomness : Option (List F)) (rng : Option (ℕ → F))
    (hr : RandsFrom 2 randomness rng [r1, r2]) : RoundTrip (2 * rounds) [(x, r1), (y, r2)] (genProofMimc env [x, y] randomness image constants rounds rng) (verifyProofMimc env' image constants rounds) :=
  HonestPair.roundTrip (dv := fun _ _ => verifyMimcPreimage env' image constants rounds)
    (fun _ _ => c32_complete env env' P.oracle x y image constants rounds hi r1 r2 randomness rng (by
      rcases hr with hr | ⟨g, h1, h2, h3⟩
      · exact .inl hr
      · simp [List.range_succ] at h3
        exact .inr ⟨g, h1, h2, h3.1.symm, h3.2.symm⟩) none) P hm (fun _ _ _ _ _ _ _ e => e) fun _ _ _ _ _ _ _ _ => rfl

/-- **C89**: the 2:1 functions for preimages of Poseidon. -/
theorem c89_poseidon_2 {x y output : F} {p : PoseidonParams F} {sbox : SboxType} (hs : sbox ≠ .inverse) (hh : poseidonHash2 x y p sbox = .ok output) (hm : nextPowerOfTwo (permGates sbox.gates p) < 2 ^ 32) (r1 r2 : F)
    (randomness : Option (List F)) (rng : Option (ℕ → F)) (hr : RandsFrom 2 randomness rng [r1, r2]) :
    RoundTrip (permGates sbox.gates p) [(x, r1), (y, r2)] (genProofPoseidon2 env [x, y] randomness output p sbox rng) (verifyProofPoseidon2 env' output p sbox) :=
  HonestPair.roundTrip (dv := verifyPoseidon2 env' output p sbox) (fun g h => c35_complete_2 P.oracle x y output p sbox hs hh g h r1 r2 randomness rng hr none) P hm (fun _ _ _ _ _ _ _ e => e) fun _ _ _ _ _ _ _ _ => rfl

/-- **C89**: the 4:1 functions. -/
theorem c89_poseidon_4 {inputs : List F} {output : F} {p : PoseidonParams F} {sbox : SboxType} (hs : sbox ≠ .inverse) (hh : poseidonHash4 inputs p sbox = .ok output) (hm : nextPowerOfTwo (permGates sbox.gates p) < 2 ^ 32)
    {rands : List F} (hl : rands.length = 4) (randomness : Option (List F)) (rng : Option (ℕ → F)) (hr : RandsFrom 4 randomness rng rands) :
    RoundTrip (permGates sbox.gates p) (inputs.zip rands) (genProofPoseidon4 env inputs randomness output p sbox rng) (verifyProofPoseidon4 env' output p sbox) :=
  HonestPair.roundTrip (dv := verifyPoseidon4 env' output p sbox) (fun g h => c35_complete_4 P.oracle inputs output p sbox hs hh g h rands hl randomness rng hr none) P hm (fun _ _ _ _ _ _ _ e => e) fun _ _ _ _ _ _ _ _ => rfl

/-- **C89**: the 8:1 functions. -/
theorem c89_poseidon_8 {inputs : List F} {output : F} {p : PoseidonParams F} {sbox : SboxType} (hs : sbox ≠ .inverse) (hh : poseidonHash8 inputs p sbox = .ok output) (hm : nextPowerOfTwo (permGates sbox.gates p) < 2 ^ 32)
    {rands : List F} (hl : rands.length = 8) (randomness : Option (List F)) (rng : Option (ℕ → F)) (hr : RandsFrom 8 randomness rng rands) :
    RoundTrip (permGates sbox.gates p) (inputs.zip rands) (genProofPoseidon8 env inputs randomness output p sbox rng) (verifyProofPoseidon8 env' output p sbox) :=
  HonestPair.roundTrip (dv := verifyPoseidon8 env' output p sbox) (fun g h => c35_complete_8 P.oracle inputs output p sbox hs hh g h rands hl randomness rng hr none) P hm (fun _ _ _ _ _ _ _ e => e) fun _ _ _ _ _ _ _ _ => rfl

/-- **C89**: the functions for a leaf of a 4-ary tree. -/
theorem c89_inclusion_4 [ByteRep F] {leaf leafIndex root : F} {merkleProof : List (List F)} {depth : ℕ} (hd : depth ≤ 4 * ByteRep.modBytes F) (hl : merkleProof.length = depth) (hn : ∀ s ∈ merkleProof, s.length = 3) {p : PoseidonParams F}
    (hp : p.Valid) (hw : p.width = 5) {sbox : SboxType} (hs : sbox ≠ .inverse) (hi : IntRep.rep leafIndex < 4 ^ depth)
    (hr : merkleRoot (hasher4 p sbox).digest ((digitsOf 4 depth (IntRep.rep leafIndex)).zip merkleProof) leaf = root) (hm : nextPowerOfTwo (depth * gates4 p sbox) < 2 ^ 32) (r0 r1 : F) (coins : ℕ → F)
    (randomness : Option (List F)) (rng : Option (ℕ → F)) (hrand : RandsFrom 2 randomness rng [r0, r1]) :
    RoundTrip (depth * gates4 p sbox) ([(leaf, r0), (leafIndex, r1)] ++ merkleProof.flatten.mapIdx fun i x => (x, coins i)) (genProofInclusion4 env leaf leafIndex randomness merkleProof root depth p sbox rng coins)
      (verifyProofInclusion4 env' root depth p sbox) :=
  HonestPair.roundTrip (dv := verifyInclusion4 env' root depth p sbox) (fun g h => c41_complete P.oracle leaf leafIndex root merkleProof depth hd hl hn p hp hw sbox hs hi hr g h r0 r1 coins randomness rng hrand none) P hm
    (fun _ _ _ _ _ _ _ e => (c78_same_proofs _ _ _ _ _ _ _ _ _).mpr e) fun _ _ _ _ _ _ _ _ => rfl

/-- **C89**: the functions for a leaf of an 8-ary tree. -/
theorem c89_inclusion_8 [ByteRep F] {leaf leafIndex root : F} {merkleProof : List (List F)} {depth : ℕ} (hd : 3 * depth ≤ 8 * ByteRep.modBytes F) (hl : merkleProof.length = depth) (hn : ∀ s ∈ merkleProof, s.length = 7) {p : PoseidonParams F}
    (hp : p.Valid) (hw : p.width = 9) {sbox : SboxType} (hs : sbox ≠ .inverse) (hi : IntRep.rep leafIndex < 8 ^ depth)
    (hr : merkleRoot (hasher8 p sbox).digest ((digitsOf 8 depth (IntRep.rep leafIndex)).zip merkleProof) leaf = root) (hm : nextPowerOfTwo (depth * gates8 p sbox) < 2 ^ 32) (r0 r1 : F) (coins : ℕ → F)
    (randomness : Option (List F)) (rng : Option (ℕ → F)) (hrand : RandsFrom 2 randomness rng [r0, r1]) :
    RoundTrip (depth * gates8 p sbox) ([(leaf, r0), (leafIndex, r1)] ++ merkleProof.flatten.mapIdx fun i x => (x, coins i)) (genProofInclusion8 env leaf leafIndex randomness merkleProof root depth p sbox rng coins)
      (verifyProofInclusion8 env' root depth p sbox) :=
  HonestPair.roundTrip (dv := verifyInclusion8 env' root depth p sbox) (fun g h => c42_complete P.oracle leaf leafIndex root merkleProof depth hd hl hn p hp hw sbox hs hi hr g h r0 r1 coins randomness rng hrand none) P hm
    (fun _ _ _ _ _ _ _ e => e) fun _ _ _ _ _ _ _ _ => rfl

/-- **C89**: `gen_proof_for_randomizer` and `verify_proof_for_randomizer`, on the trees that come out of any two histories of updates of which the second changes no more than the given indices. -/
theorem c89_randomizer [ByteRep F] [DecidableEq F] {p : PoseidonParams F} (hp : p.Valid) (hw : p.width = 5) {depth : ℕ} (h0 : depth ≠ 0) (hd : depth ≤ 4 * ByteRep.modBytes F) (db0 db0' : HashDb (List F)) {hist hist' : History F}
    (hc : (tree4 p).CollisionFree depth hist) (hc' : (tree4 p).CollisionFree depth hist') {t t' : SparseTree F} {db db' : HashDb (List F)} (hrun : runHistory (tree4 p) depth db0 hist = .ok (t, db))
    (hrun' : runHistory (tree4 p) depth db0' hist' = .ok (t', db')) (indices : List F)
    (hsame : ∀ i < 4 ^ depth, (∀ x ∈ indices, IntRep.rep x % 4 ^ depth ≠ i) → written (4 ^ depth) hist' i = written (4 ^ depth) hist i) (sys : ℕ → F)
    (hm : nextPowerOfTwo (2 * (indices.length * (depth * permGates SboxType.quint.gates p))) < 2 ^ 32) :
    ∃ openings, RoundTrip (2 * (indices.length * (depth * permGates SboxType.quint.gates p))) openings
      (genProofRandomizer env t db t' db' indices (indices.map fun x => written (4 ^ depth) hist (IntRep.rep x % 4 ^ depth)) depth p .quint sys) (verifyProofRandomizer env' t' db' indices depth p .quint) := by
  obtain ⟨data, hf, e, -⟩ := c46_complete P.oracle p hp hw depth h0 hd db0 db0' hist hist' hc hc' t t' db db' hrun hrun' indices hsame (0 : G) (0 : G) sys none
  refine ⟨_, HonestPair.roundTrip (os := (t.root :: data.flatMap fun e => e.1 :: e.2.flatten).mapIdx fun j x => (x, sys j)) (ss := [(0, 0)]) (dv := verifyRandomizer env' t' db' indices depth p .quint) (fun g h => ?_) P hm
    (fun _ _ _ _ _ _ _ e => (c78_same_proofs _ _ _ _ _ _ _ _ _).mpr e) fun _ _ _ _ _ _ _ _ => rfl⟩
  · obtain ⟨data', hf', -, H⟩ := c46_complete P.oracle p hp hw depth h0 hd db0 db0' hist hist' hc hc' t t' db db' hrun hrun' indices hsame g h sys none
    have same : ∀ {l : List F} {d d' : List (F × List (List F))}, List.Forall₂ (fun x e => t.get (tree4 p) x (some []) db = .ok (e.1, some e.2)) l d →
        List.Forall₂ (fun x e => t.get (tree4 p) x (some []) db = .ok (e.1, some e.2)) l d' → d' = d := by
      intro l d d' k k'
      induction k generalizing d' with
      | nil => cases k'; rfl
      | cons h1 _ ih =>
        cases k' with
        | cons h1' h2' =>
          rw [h1] at h1'
          simp only [Except.ok.injEq, Prod.mk.injEq, Option.some.injEq] at h1'
          exact congrArg₂ _ (Prod.ext h1'.1.symm h1'.2.symm) (ih h2')
    rw [same hf hf'] at H
    rw [← e]
    exact H

end simple

section statements
variable [ByteRep F]

theorem Stmt.check_eq (st : Stmt F) (env : Env F G) (pr : R1CSProof F G) (coms : List G) (label : String) (g h : G) (Gs Hs : List G) (r : F) :
    st.check env pr coms label g h Gs Hs r = verifyProof env label (st.verify env g h coms) pr g h Gs Hs r := by
  cases st <;> rfl

/-- **C89**: the verifying functions are the calls of which the theorems about lists of statements (C61, C63, C65, C74, C80, C83 and others) speak. -/
theorem c89_check (st : Stmt F) (env : Env F G) (pr : R1CSProof F G) {coms : List G} (hl : coms.length = st.size) (label : String) (g h : G) (Gs Hs : List G) (r : F) :
    st.check env pr coms label g h Gs Hs r = verifyProof env label (verifyStmts env g h [st] coms) pr g h Gs Hs r := by
  rw [st.check_eq]
  have e : verifyStmts env g h [st] coms (Verifier.new [.init label]) = st.verify env g h coms (Verifier.new [.init label]) := by
    show Drv.bind (st.verify env g h (coms.take st.size)) (fun _ => pure ()) _ = _
    rw [← hl, List.take_length]
    unfold Drv.bind
    rcases st.verify env g h coms (Verifier.new [.init label]) with ⟨e | a, s⟩ <;> rfl
  unfold verifyProof
  rw [e]

/-- A call of a generating function comes down to a call of the function on the prover. -/
theorem Called.attempt {st : Stmt F} {gen : Env F G → String → G → G → Coins F → List G → List G → Res (R1CSProof F G × List G)} {T : Prop} (hc : Called st gen T) :
    ∃ dp : Env F G → Drv (Prover F G) (List G), Attempt st dp T ∧ ∀ env label g h c Gs Hs x, gen env label g h c Gs Hs = .ok x → genProof env label g h c Gs Hs (dp env) = .ok x := by
  cases hc with
  | boundedNum debug val lower upper n hval randomness rng sys => exact ⟨_, .boundedNum debug val lower upper n hval randomness rng sys, fun _ _ _ _ _ _ _ _ e => e⟩
  | nonZero value randomness rng sys => exact ⟨_, .nonZero value randomness rng sys, fun _ _ _ _ _ _ _ _ e => e⟩
  | setMembership value set randomness rng sys => exact ⟨_, .setMembership value set randomness rng sys, fun _ _ _ _ _ _ _ _ e => e⟩
  | setMembershipAlt value set randomness rng sys => exact ⟨_, .setMembershipAlt value set randomness rng sys, fun _ _ _ _ _ _ _ _ e => e⟩
  | setNonMembership value set randomness rng sys => exact ⟨_, .setNonMembership value set randomness rng sys, fun _ _ _ _ _ _ _ _ e => e⟩
  | mimc x y image constants rounds randomness rng => exact ⟨_, .mimc x y image constants rounds randomness rng, fun _ _ _ _ _ _ _ _ e => e⟩
  | poseidon2 a b output p sbox randomness rng => exact ⟨_, .poseidon2 a b output p sbox randomness rng, fun _ _ _ _ _ _ _ _ e => e⟩
  | poseidon4 a b c d output p sbox randomness rng => exact ⟨_, .poseidon4 a b c d output p sbox randomness rng, fun _ _ _ _ _ _ _ _ e => e⟩
  | poseidon8 a b c d a' b' c' d' output p sbox randomness rng => exact ⟨_, .poseidon8 a b c d a' b' c' d' output p sbox randomness rng, fun _ _ _ _ _ _ _ _ e => e⟩
  | inclusion4 leaf leafIndex root siblings p sbox hs hd randomness rng coins => exact ⟨_, .inclusion4 leaf leafIndex root siblings p sbox hs hd randomness rng coins, fun _ _ _ _ _ _ _ _ e => (c78_same_proofs _ _ _ _ _ _ _ _ _).mp e⟩
  | inclusion8 leaf leafIndex root siblings p sbox hs hd randomness rng coins => exact ⟨_, .inclusion8 leaf leafIndex root siblings p sbox hs hd randomness rng coins, fun _ _ _ _ _ _ _ _ e => e⟩

/-- **C89**: a generating function is called on inputs of which the statement is false.  If a proof comes out, the verifying function refuses it, but for at most as many values of one challenge as there are constraints. -/
theorem c89_rejected (env : Env F G) (hb : env.batchInvert [] = .ok ([], 1)) {st : Stmt F} (hok : st.Ok) {gen : Env F G → String → G → G → Coins F → List G → List G → Res (R1CSProof F G × List G)} {T : Prop} (hc : Called st gen T) (hT : ¬ T)
    (label : String) (g h : G) (hg : g ≠ 0) (c : Coins F) (Gs Hs : List G) (hsize : nextPowerOfTwo st.gates < 2 ^ 32) :
    ∃ (log : Transcript F G) (bad : Finset F), bad.card ≤ st.constraints ∧ ∀ O : Oracle F G, (∀ l, O l ≠ 0) → ∀ pr coms, gen (env.withOracle O) label g h c Gs Hs = .ok (pr, coms) → O log ∉ bad → ∀ r : F, r ≠ 0 →
      st.check (env.withOracle O) pr coms label g h Gs Hs r = Res.err .verificationError := by
  obtain ⟨dp, ha, hgen⟩ := hc.attempt
  have hA : Attempts [st] (fun env => do let cs ← dp env; let cs' ← (pure [] : Drv (Prover F G) (List G)); return cs ++ cs') _ := .cons ha .nil
  obtain ⟨log, bad, h1, h2⟩ := c83_rejected env hb label g h hg (fun s hs => by rw [List.mem_singleton] at hs; rw [hs]; exact hok) (by simpa [totalGates] using hsize) hA (fun h => hT h.1) c Gs Hs
  refine ⟨log, bad, by simpa [totalConstraints] using h1, fun O hO pr coms e hlog r hr => ?_⟩
  have e := hgen _ _ _ _ _ _ _ _ e
  have e' : genProof (env.withOracle O) label g h c Gs Hs (do let cs ← dp (env.withOracle O); let cs' ← (pure [] : Drv (Prover F G) (List G)); return cs ++ cs') = .ok (pr, coms) := by
    unfold genProof at e ⊢
    have hd : (do let cs ← dp (env.withOracle O); let cs' ← (pure [] : Drv (Prover F G) (List G)); return cs ++ cs' : Drv (Prover F G) (List G)) (Prover.new g h [.init label]) = dp (env.withOracle O) (Prover.new g h [.init label]) := by
      show Drv.bind (dp (env.withOracle O)) (fun cs => Drv.bind (pure []) fun cs' => pure (cs ++ cs')) _ = _
      unfold Drv.bind
      rcases dp (env.withOracle O) (Prover.new g h [.init label]) with ⟨e | a, s⟩
      · rfl
      · show (Except.ok (a ++ []), s) = _
        rw [List.append_nil]
    rw [hd]
    exact e
  rw [c89_check]
  · exact h2 O hO pr coms e' hlog r hr
  · rcases hd : dp (env.withOracle O) (Prover.new g h [.init label]) with ⟨e0 | coms0, p⟩
    · rw [genProof, hd] at e; cases e
    · have hl := (ha.follows (env' := env.withOracle O) rfl g h hok _ _ _ _ (.new _ _ g h [.init label] 0 0) hd).1
      rw [genProof, hd] at e
      simp only at e
      split at e <;> cases e
      exact hl

end statements

/-! ## The hypotheses are met -/

theorem demo_peers : Peers demoEnv demoEnv := ⟨rfl, demoEnv_ne_zero, by simp [demoEnv, Env.std]⟩

example : RoundTrip 128 [(21, 7), (3, 0), (44, 1)] (genProofBoundedNum demoEnv true 21 (some 7) 18 65 64 none (fun i => (i : Fr))) (verifyProofBoundedNum demoEnv true 18 65 64) :=
  c89_bounded_num demo_peers true (val := 21) (lower := 18) (upper := 65) (n := 64) (by omega) (by omega) (by decide +kernel) (by norm_num) (by decide +kernel) _ _ _ (.inl rfl)
example : RoundTrip 2 [(5, 0), (5⁻¹, 0)] (genProofNonZeroVal demoEnv 5 none (some fun i => i) (fun i => (i : Fr))) (verifyProofNonZeroVal demoEnv) := c89_non_zero demo_peers (value := 5) (by decide +kernel) _ _ _ (.inr rfl)
example : RoundTrip 4 [(5, 1), (2 - 5, 0), (0, 1), (0, 2), (1, 3)] (genProofSetMembership demoEnv 5 (some 1) [2, 5, 5, 6] none (fun i => (i : Fr))) (verifyProofSetMembership demoEnv [2, 5, 5, 6]) :=
  c89_set_membership demo_peers (value := 5) (set := [2, 5, 5, 6]) (by simp) (by decide +kernel) _ _ _ (.inl rfl)
example : RoundTrip 12 [(0, 0), (1, 1), (0, 2), (0, 3), (5, 1)] (genProofSetMembershipAlt demoEnv 5 (some 1) [2, 5, 6, 6] none (fun i => (i : Fr))) (verifyProofSetMembershipAlt demoEnv [2, 5, 6, 6]) :=
  c89_set_membership_alt demo_peers (value := 5) (set := [2, 5, 6, 6]) (by decide) (by decide +kernel) _ _ _ (.inl rfl)
example : RoundTrip 6 [(4, 1), (2 - 4, 0), ((2 - 4)⁻¹, 1), (1, 2), (1⁻¹, 3), (2, 4), (2⁻¹, 5)] (genProofSetNonMembership demoEnv 4 (some 1) [2, 5, 6] none (fun i => (i : Fr))) (verifyProofSetNonMembership demoEnv [2, 5, 6]) :=
  c89_set_non_membership demo_peers (value := 4) (set := [2, 5, 6]) (by decide +kernel) (by decide +kernel) _ _ _ (.inl rfl)
example : RoundTrip 6 [(1, 0), (2, 1), (3, 2)] (genProofHammingDistance demoEnv [1, 2, 3] [1, 7, 8] 2 (fun i => (i : Fr))) (verifyProofHammingDistance demoEnv [1, 7, 8] 2) :=
  c89_hamming demo_peers (original := [1, 2, 3]) (new := [1, 7, 8]) rfl (by decide +kernel) _
example : RoundTrip 6 [(1, 3), (2, 4)] (genProofMimc demoEnv [1, 2] (some [3, 4]) (mimcLoop 1 2 [5, 6, 7]) [5, 6, 7] 3 none) (verifyProofMimc demoEnv (mimcLoop 1 2 [5, 6, 7]) [5, 6, 7] 3) :=
  c89_mimc demo_peers (x := 1) (y := 2) (constants := [5, 6, 7]) (rounds := 3) rfl (by decide +kernel) 3 4 _ _ (.inl rfl)
example : ∃ output, RoundTrip (permGates 3 demoParams) [(1, 3), (2, 4)] (genProofPoseidon2 demoEnv [1, 2] (some [3, 4]) output demoParams .quint none) (verifyProofPoseidon2 demoEnv output demoParams .quint) := by
  obtain ⟨o, ho⟩ := (c35_defined demoParams demoParams_valid .quint).1 rfl 1 2
  exact ⟨o, c89_poseidon_2 demo_peers (sbox := .quint) (by decide) ho (by decide +kernel) 3 4 _ _ (.inl rfl)⟩
example : ∃ output, RoundTrip (permGates 2 demoParams5) [(1, 0), (2, 1), (3, 2), (4, 3)] (genProofPoseidon4 demoEnv [1, 2, 3, 4] none output demoParams5 .cube (some fun i => (i : Fr))) (verifyProofPoseidon4 demoEnv output demoParams5 .cube) := by
  obtain ⟨o, ho⟩ := (c35_defined demoParams5 demoParams5_valid .cube).2.1 rfl [1, 2, 3, 4] rfl
  exact ⟨o, c89_poseidon_4 demo_peers (sbox := .cube) (by decide) ho (by decide +kernel) (rands := [0, 1, 2, 3]) rfl _ _ (.inr ⟨_, rfl, rfl, by decide +kernel⟩)⟩
example : ∃ output, RoundTrip (permGates 2 demoParams9) [(1, 0), (2, 1), (3, 2), (4, 3), (5, 4), (6, 5), (7, 6), (8, 7)] (genProofPoseidon8 demoEnv [1, 2, 3, 4, 5, 6, 7, 8] none output demoParams9 .cube (some fun i => (i : Fr)))
    (verifyProofPoseidon8 demoEnv output demoParams9 .cube) := by
  obtain ⟨o, ho⟩ := (c35_defined demoParams9 demoParams9_valid .cube).2.2 rfl [1, 2, 3, 4, 5, 6, 7, 8] rfl
  exact ⟨o, c89_poseidon_8 demo_peers (sbox := .cube) (by decide) ho (by decide +kernel) (rands := [0, 1, 2, 3, 4, 5, 6, 7]) rfl _ _ (.inr ⟨_, rfl, rfl, by decide +kernel⟩)⟩
example : RoundTrip (2 * gates4 demoParams5 .quint) ([(7, 1), (14, 2)] ++ ([[1, 2, 3], [4, 5, 6]].flatten.mapIdx fun i x => (x, (i : Fr))))
    (genProofInclusion4 demoEnv 7 14 (some [1, 2]) [[1, 2, 3], [4, 5, 6]] (merkleRoot (hasher4 demoParams5 .quint).digest ((digitsOf 4 2 14).zip [[1, 2, 3], [4, 5, 6]]) 7) 2 demoParams5 .quint none fun i => (i : Fr))
    (verifyProofInclusion4 demoEnv (merkleRoot (hasher4 demoParams5 .quint).digest ((digitsOf 4 2 14).zip [[1, 2, 3], [4, 5, 6]]) 7) 2 demoParams5 .quint) :=
  c89_inclusion_4 demo_peers (leaf := 7) (leafIndex := 14) (merkleProof := [[1, 2, 3], [4, 5, 6]]) (depth := 2) (p := demoParams5) (sbox := .quint) (by decide) rfl (by simp) demoParams5_valid rfl (by decide) (by decide +kernel) (by rw [show IntRep.rep (14 : Fr) = 14 by decide +kernel]) (by decide +kernel) 1 2 _ _ _ (.inl rfl)
example : RoundTrip (1 * gates8 demoParams9 .quint) ([(7, 1), (3, 2)] ++ ([[1, 2, 3, 4, 5, 6, 7]].flatten.mapIdx fun i x => (x, (i : Fr))))
    (genProofInclusion8 demoEnv 7 3 (some [1, 2]) [[1, 2, 3, 4, 5, 6, 7]] (merkleRoot (hasher8 demoParams9 .quint).digest ((digitsOf 8 1 3).zip [[1, 2, 3, 4, 5, 6, 7]]) 7) 1 demoParams9 .quint none fun i => (i : Fr))
    (verifyProofInclusion8 demoEnv (merkleRoot (hasher8 demoParams9 .quint).digest ((digitsOf 8 1 3).zip [[1, 2, 3, 4, 5, 6, 7]]) 7) 1 demoParams9 .quint) :=
  c89_inclusion_8 demo_peers (leaf := 7) (leafIndex := 3) (merkleProof := [[1, 2, 3, 4, 5, 6, 7]]) (depth := 1) (p := demoParams9) (sbox := .quint) (by decide) rfl (by simp) demoParams9_valid rfl (by decide) (by decide +kernel) (by rw [show IntRep.rep (3 : Fr) = 3 by decide +kernel]) (by decide +kernel) 1 2 _ _ _ (.inl rfl)
example : ∃ t t' db db' openings, runHistory (tree4 demoParams5) 2 HashDb.new demoHistory = .ok (t, db) ∧ runHistory (tree4 demoParams5) 2 HashDb.new demoHistory' = .ok (t', db') ∧
    RoundTrip (2 * (2 * (2 * permGates SboxType.quint.gates demoParams5))) openings
      (genProofRandomizer demoEnv t db t' db' [14, 1] (([14, 1] : List Fr).map fun x => written (4 ^ 2) demoHistory (IntRep.rep x % 4 ^ 2)) 2 demoParams5 .quint fun j => (j : Fr)) (verifyProofRandomizer demoEnv t' db' [14, 1] 2 demoParams5 .quint) := by
  have hT : (tree4 demoParams5).IsTree demoParams5 2 := .inl ⟨rfl, rfl, by decide⟩
  obtain ⟨db, e, -⟩ := run_ok demoParams5_valid hT HashDb.new demoHistory demo_collisionFree
  obtain ⟨db', e', -⟩ := run_ok demoParams5_valid hT HashDb.new demoHistory' demo_collisionFree'
  obtain ⟨openings, h1⟩ := c89_randomizer demo_peers demoParams5_valid rfl (depth := 2) (by decide) (by decide) HashDb.new HashDb.new demo_collisionFree demo_collisionFree' e e' [14, 1] demo_same (fun j => (j : Fr)) (by decide +kernel)
  exact ⟨_, _, db, db', openings, e, e', h1⟩

/-- The hypotheses of `c89_rejected` are met, and a proof comes out: of `7 ∈ {2, 3, 5}`. -/
example : ∃ (log : Transcript Z101 Z101) (bad : Finset Z101), bad.card ≤ (Stmt.setMembership ([2, 3, 5] : List Z101)).constraints ∧ ∀ O : Oracle Z101 Z101, (∀ l, O l ≠ 0) → ∀ pr coms,
    genProofSetMembership ((Env.std fun _ => 2).withOracle O) (7 : Z101) (some 3) [2, 3, 5] none (fun i => i + 1) "set" 1 5 refutedCoins [2, 3, 4, 5] [11, 12, 13, 14] = .ok (pr, coms) → O log ∉ bad → ∀ r : Z101, r ≠ 0 →
      verifyProofSetMembership ((Env.std fun _ => 2).withOracle O) [2, 3, 5] pr coms "set" 1 5 [2, 3, 4, 5] [11, 12, 13, 14] r = Res.err .verificationError :=
  c89_rejected (Env.std fun _ => 2) (by simp [Env.std]) (st := .setMembership [2, 3, 5]) trivial (.setMembership (7 : Z101) [2, 3, 5] (some 3) none fun i => i + 1) (by decide) "set" 1 5 (by decide) refutedCoins _ _ (by decide +kernel)
example : (genProofSetMembership (Env.std fun _ => 2) (7 : Z101) (some 3) [2, 3, 5] none (fun i => i + 1) "set" (1 : Z101) 5 refutedCoins [2, 3, 4, 5] [11, 12, 13, 14]).isOk = true := by decide +kernel

end Bp
