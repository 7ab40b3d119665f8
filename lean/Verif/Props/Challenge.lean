import Verif.Lemmas.ChallengeZK
import Verif.Model.Gadgets.Curves
import Verif.Props.Gadgets.Curves
import Verif.Props.RandomOracle
import Verif.Props.Interactive
import Verif.Props.Algebraic

set_option linter.unusedSectionVars false

/-! # C70: challenges that are made from bytes

A challenge is `MODBYTES` bytes of output of the hash, read as a number and reduced modulo the group order.  If the bytes are uniformly random, how far are the challenges from uniform, and what becomes of soundness (C59, C62) and
zero knowledge (C66), whose bounds are for uniform challenges? -/

namespace Bp

section
variable {n : ℕ} [NeZero n] {m : ℕ}

/-- C70: the distribution of a challenge, exactly: each scalar `x` has the probability `⌊N / n⌋ / N` or `(⌊N / n⌋ + 1) / N`, for `N = 256 ^ m`. -/
theorem c70_distribution (x : ZMod n) : prob (fun b : Bytes m => challengeOf n b = x) = (256 ^ m / n + if x.val < 256 ^ m % n then 1 else 0 : ℕ) / (256 ^ m : ℕ) := by
  classical
  have h := avg_bytes_eq (n := n) (m := m) fun y => if y = x then (1 : ℚ) else 0
  have e : prob (fun b : Bytes m => challengeOf n b = x) = avg fun b : Bytes m => if challengeOf n b = x then (1 : ℚ) else 0 := by
    unfold prob
    refine congrArg avg (funext fun b => ?_)
    by_cases hz : challengeOf n b = x <;> simp only [hz, if_true, if_false]
  rw [e, h, sum_range_split (fun y => if y = x then (1 : ℚ) else 0)]
  congr 1
  rw [Finset.sum_ite_eq' Finset.univ x, if_pos (Finset.mem_univ x), mul_one, Nat.cast_add]
  congr 1
  have ht : 256 ^ m % n < n := Nat.mod_lt _ (Nat.pos_of_ne_zero (NeZero.ne n))
  have hi : ∀ i ∈ Finset.range (256 ^ m % n), (if (i : ZMod n) = x then (1 : ℚ) else 0) = if i = x.val then 1 else 0 := by
    intro i hi
    have hi : i < n := (Finset.mem_range.mp hi).trans ht
    have : (i : ZMod n) = x ↔ i = x.val := by
      constructor
      · rintro rfl
        exact (ZMod.val_cast_of_lt hi).symm
      · rintro rfl
        exact ZMod.natCast_zmod_val x
    simp only [this]
  rw [Finset.sum_congr rfl hi, Finset.sum_ite_eq']
  simp only [Finset.mem_range]
  split <;> simp

/-- C70: whatever is decided by `d` challenges (and by something else, `c`), the probability for challenges made from bytes differs from that for uniform challenges by at most `d * bias`. -/
theorem c70_distance {d : ℕ} {C : Type} [Finite C] (E : (Fin d → ZMod n) → C → Prop) :
    |prob (fun x : (Fin d → Bytes m) × C => E (challengesOf n x.1) x.2) - prob (fun x : (Fin d → ZMod n) × C => E x.1 x.2)| ≤ d * bias n (256 ^ m) := by
  classical
  exact avg_bytes_prod (m := m) (fun x : (Fin d → ZMod n) × C => if E x.1 x.2 then (1 : ℚ) else 0) (fun x => by split <;> simp) (fun x => by split <;> simp)

/-- C70: for one challenge this difference is attained, by the event that the challenge is one of the more likely ones. -/
theorem c70_attained : prob (fun b : Bytes m => (challengeOf n b).val < 256 ^ m % n) - prob (fun x : ZMod n => x.val < 256 ^ m % n) = bias n (256 ^ m) := by
  classical
  have ht : 256 ^ m % n < n := Nat.mod_lt _ (Nat.pos_of_ne_zero (NeZero.ne n))
  have h := avg_bytes_sub (n := n) (m := m) fun y => if y.val < 256 ^ m % n then (1 : ℚ) else 0
  have e1 : ∀ i ∈ Finset.range (256 ^ m % n), (if (i : ZMod n).val < 256 ^ m % n then (1 : ℚ) else 0) = 1 := by
    intro i hi
    have hi := Finset.mem_range.mp hi
    rw [ZMod.val_cast_of_lt (hi.trans ht), if_pos hi]
  have e2 : ∀ i ∈ Finset.range (n - 256 ^ m % n), (if ((256 ^ m % n + i : ℕ) : ZMod n).val < 256 ^ m % n then (1 : ℚ) else 0) = 0 := by
    intro i hi
    have hi := Finset.mem_range.mp hi
    rw [ZMod.val_cast_of_lt (by omega), if_neg (by omega)]
  rw [Finset.sum_congr rfl e1, Finset.sum_congr rfl e2] at h
  rw [bias]
  refine Eq.trans ?_ (h.trans ?_)
  · unfold prob
    congr 1 <;> refine congrArg avg (funext fun b => ?_)
    · by_cases hz : (challengeOf n b).val < 256 ^ m % n <;> simp only [hz, if_true, if_false]
    · by_cases hz : b.val < 256 ^ m % n <;> simp only [hz, if_true, if_false]
  · rw [Finset.sum_const, Finset.sum_const, Finset.card_range, smul_zero, mul_zero, _root_.sub_zero, nsmul_eq_mul, mul_one, ← Nat.cast_mul, Nat.mul_comm (n - _)]

/-- C70: nothing becomes more likely by more than the factor `((⌊N / n⌋ + 1) n / N) ^ d`. -/
theorem c70_likelihood {d : ℕ} {C : Type} [Finite C] (E : (Fin d → ZMod n) → C → Prop) :
    prob (fun x : (Fin d → Bytes m) × C => E (challengesOf n x.1) x.2) ≤ (((256 ^ m / n + 1) * n : ℕ) / (256 ^ m : ℕ) : ℚ) ^ d * prob (fun x : (Fin d → ZMod n) × C => E x.1 x.2) := by
  classical
  unfold prob
  rw [avg_prod, avg_prod fun x : (Fin d → ZMod n) × C => if E x.1 x.2 then (1 : ℚ) else 0]
  exact avg_bytes_ratio (m := m) (fun cs => avg fun c => if E cs c then (1 : ℚ) else 0) fun cs => avg_nonneg fun c => by split <;> simp

end

/-! ## The curves -/

/-- C70: with bls381, ed25519 and secp256k1 the challenges are as good as uniform. -/
theorem c70_curves (c : Curve) (hc : c ∈ Curve.all) (hb : c ≠ .bn254) : bias c.order (256 ^ c.modBytes) ≤ 1 / 2 ^ 127 := by
  simp only [Curve.all, List.mem_cons, List.not_mem_nil, or_false] at hc
  rcases hc with rfl | rfl | rfl | rfl
  · show bias 0x73eda753299d7d483339d80809a1d80553bda402fffe5bfeffffffff00000001 (256 ^ 48) ≤ _
    unfold bias
    norm_num
  · exact absurd rfl hb
  · show bias (2 ^ 252 + 27742317777372353535851937790883648493) (256 ^ 32) ≤ _
    unfold bias
    norm_num
  · show bias 0xfffffffffffffffffffffffffffffffebaaedce6af48a03bbfd25e8cd0364141 (256 ^ 32) ≤ _
    unfold bias
    norm_num

/-- C70 is false for bn254: some set of challenges is more likely than it should be by more than one in a hundred, because 32 bytes are hardly more than the order. -/
theorem c70_bn254_biased : ∃ E : ZMod Curve.bn254.order → Prop, 1 / 100 < prob (fun b : Bytes Curve.bn254.modBytes => E (challengeOf Curve.bn254.order b)) - prob E := by
  have : NeZero Curve.bn254.order := ⟨by decide +kernel⟩
  refine ⟨fun x => x.val < 256 ^ Curve.bn254.modBytes % Curve.bn254.order, ?_⟩
  rw [c70_attained]
  show _ < bias 0x2523648240000001ba344d8000000007ff9f800000000010a10000000000000d (256 ^ 32)
  unfold bias
  norm_num

/-- C70: with every curve but secp256k1, `d` challenges make nothing more likely than `(51 / 50) ^ d` times (for secp256k1 it is `2 ^ d`, but see `c70_curves`); with the default curve, `(1 + 2 ^ -129) ^ d` times. -/
theorem c70_factor (c : Curve) (hc : c ∈ Curve.all) (hs : c ≠ .secp256k1) : (((256 ^ c.modBytes / c.order + 1) * c.order : ℕ) / (256 ^ c.modBytes : ℕ) : ℚ) ≤ if c.modBytes = 48 then 1 + 1 / 2 ^ 129 else 51 / 50 := by
  simp only [Curve.all, List.mem_cons, List.not_mem_nil, or_false] at hc
  rcases hc with rfl | rfl | rfl | rfl
  · show (((256 ^ 48 / 0x73eda753299d7d483339d80809a1d80553bda402fffe5bfeffffffff00000001 + 1) * 0x73eda753299d7d483339d80809a1d80553bda402fffe5bfeffffffff00000001 : ℕ) / (256 ^ 48 : ℕ) : ℚ) ≤ if 48 = 48 then _ else _
    norm_num
  · show (((256 ^ 32 / 0x2523648240000001ba344d8000000007ff9f800000000010a10000000000000d + 1) * 0x2523648240000001ba344d8000000007ff9f800000000010a10000000000000d : ℕ) / (256 ^ 32 : ℕ) : ℚ) ≤ if 32 = 48 then _ else _
    norm_num
  · show (((256 ^ 32 / (2 ^ 252 + 27742317777372353535851937790883648493) + 1) * (2 ^ 252 + 27742317777372353535851937790883648493) : ℕ) / (256 ^ 32 : ℕ) : ℚ) ≤ if 32 = 48 then _ else _
    norm_num
  · exact absurd rfl hs

/-! ## What becomes of the security theorems -/

section
variable {n : ℕ} [Fact n.Prime] {G : Type} [AddCommGroup G] [Module (ZMod n) G]

/-- C70: a bound for uniform challenges (`D` of them, and a random scalar of the verifier) becomes a bound for challenges made from bytes. -/
theorem c70_transfer {D B : ℕ} {E : (Fin D → ZMod n) → ZMod n → Prop} (hB : Nat.card {p : (Fin D → ZMod n) × ZMod n // E p.1 p.2} ≤ B * n ^ D) (m : ℕ) :
    prob (fun x : (Fin D → Bytes m) × ZMod n => E (challengesOf n x.1) x.2) ≤ B / n + D * bias n (256 ^ m) ∧
      prob (fun x : (Fin D → Bytes m) × ZMod n => E (challengesOf n x.1) x.2) ≤ (((256 ^ m / n + 1) * n : ℕ) / (256 ^ m : ℕ) : ℚ) ^ D * (B / n) := by
  have hn : (0 : ℚ) < n := by exact_mod_cast (Fact.out : n.Prime).pos
  have h : prob (fun x : (Fin D → ZMod n) × ZMod n => E x.1 x.2) ≤ B / n := by
    rw [prob_card, Nat.card_prod, Nat.card_fun, Nat.card_zmod, Nat.card_fin, div_le_div_iff₀ (by exact_mod_cast Nat.mul_pos (Nat.pow_pos (Fact.out : n.Prime).pos) (Fact.out : n.Prime).pos) hn]
    have : (Nat.card {p : (Fin D → ZMod n) × ZMod n // E p.1 p.2} : ℚ) ≤ B * n ^ D := by exact_mod_cast hB
    have := mul_le_mul_of_nonneg_right this hn.le
    push_cast
    linarith
  refine ⟨?_, (c70_likelihood E).trans (mul_le_mul_of_nonneg_left h (by positivity))⟩
  have := (abs_le.mp (c70_distance (m := m) E)).2
  linarith

variable [DecidableEq G] {g h : G} {Gs Hs : List G}

/-- C70: soundness against algebraic provers (C59) in the random-oracle model, with challenges made from bytes. -/
theorem c70_sound (m : ℕ) (env : Env (ZMod n) G) (hb : env.batchInvert [] = .ok ([], 1)) (label : String) (dv : List G → Drv (Verifier (ZMod n) G) Unit)
    (dv' : List (Rep (ZMod n) (Gs ++ Hs ++ [g, h])) → Drv (Verifier (ZMod n) (Rep (ZMod n) (Gs ++ Hs ++ [g, h]))) Unit) (hn : ∀ a, DrvNat (Rep.point (ZMod n) _) (dv (a.map (Rep.point (ZMod n) _))) (dv' a))
    (coms0 : List (Rep (ZMod n) (Gs ++ Hs ++ [g, h]))) (hu : Uniform label coms0.length dv') (s0 : Verifier (ZMod n) (Rep (ZMod n) (Gs ++ Hs ++ [g, h]))) (hs0 : dv' coms0 (Verifier.new [.init label]) = (.ok (), s0))
    (claim : List (Rep (ZMod n) (Gs ++ Hs ++ [g, h])) → Prop)
    (hc : ∀ coms, coms.length = coms0.length → Convinced label (dv' coms) (Rep.g (ZMod n) g h Gs Hs) (Rep.h (ZMod n) g h Gs Hs) (Rep.Gs (ZMod n) g h Gs Hs) (Rep.Hs (ZMod n) g h Gs Hs) → claim coms)
    (A : Forger (ZMod n) (Rep (ZMod n) (Gs ++ Hs ++ [g, h]))) (Q : ℕ) :
    prob (fun x : (Fin (Q + s0.numDraws) → Bytes m) × ZMod n => A.Fools (Rep.point (ZMod n) _) env label dv dv' coms0.length claim (Rep.g (ZMod n) g h Gs Hs) (Rep.h (ZMod n) g h Gs Hs) (Rep.Gs (ZMod n) g h Gs Hs)
        (Rep.Hs (ZMod n) g h Gs Hs) Q (List.ofFn (challengesOf n x.1)) x.2) ≤
      ((Q + s0.numDraws) * s0.badBound + 1 : ℕ) / n + (Q + s0.numDraws : ℕ) * bias n (256 ^ m) := by
  have hf := c59_statement env hb label dv dv' hn coms0 hu s0 hs0 claim hc A Q
  rw [ZMod.card, Forger.fooling] at hf
  exact (c70_transfer (E := fun cs r => A.Fools (Rep.point (ZMod n) _) env label dv dv' coms0.length claim (Rep.g (ZMod n) g _ Gs Hs) (Rep.h (ZMod n) g _ Gs Hs) (Rep.Gs (ZMod n) g _ Gs Hs)
    (Rep.Hs (ZMod n) g _ Gs Hs) Q (List.ofFn cs) r) hf m).1

/-- C70: rewinding (C62), with challenges made from bytes. -/
theorem c70_rewind (m : ℕ) {env : Env (ZMod n) G} (hb : env.batchInvert [] = .ok ([], 1)) (P : Interactive (ZMod n) G) {s s2 : Verifier (ZMod n) G} {k : ℕ} (pre : List (ZMod n))
    (hd : (draws s2.transcript).length = pre.length) (hcrc : (s.start (P.proof 0 0 [])).createRandomizedConstraints { env with oracle := publicCoins pre } = .ok s2) (hN : nextPowerOfTwo s2.numVars = 2 ^ k)
    (hc : knowledgeError k s2.constraints.length / n + (5 + k : ℕ) * bias n (256 ^ m) <
      prob fun x : (Fin (5 + k) → Bytes m) × ZMod n => P.Convinces env s g h Gs Hs pre.length k (pre ++ List.ofFn (challengesOf n x.1)) x.2) :
    ∃ t : R1CSTree (ZMod n) G k s2.constraints.length, t.Full ∧ t.Accepted s s2 g h Gs Hs ∧ t.AnswersOf P pre := by
  refine c62_tree hb P pre hd hcrc hN ?_
  by_contra hcon
  rw [ZMod.card, not_lt] at hcon
  exact absurd (c70_transfer (E := fun cs r => P.Convinces env s g h Gs Hs pre.length k (pre ++ List.ofFn cs) r) hcon m).1 (not_le.mpr hc)

/-- C70: zero knowledge (C66) in the random-oracle model, with challenges made from bytes. -/
theorem c70_zero_knowledge (m : ℕ) (hb : Function.Bijective fun a : ZMod n => a • h) (env env' : Env (ZMod n) G) (A : Distinguisher (ZMod n) G) (Q P D : ℕ) (hA : A.Within g h Gs Hs D Q P) :
    |A.realBytes m env Gs Hs (fun _ => none) - A.simulatedBytes m env' g h Gs Hs (fun _ => none)| ≤ (P * (Q + P * D) : ℕ) / n + 2 * P * ((256 ^ m / n + 1 : ℕ) / (256 ^ m : ℕ)) := by
  have h1 := A.real_simulated_bytes m hb env env' Q P (fun _ => none) [] hA (fun _ h => absurd rfl h)
  have h2 : zeroBytes n m ≤ (256 ^ m / n + 1 : ℕ) / (256 ^ m : ℕ) := by
    rw [zeroBytes, c70_distribution]
    refine div_le_div_of_nonneg_right ?_ (Nat.cast_nonneg _)
    exact_mod_cast Nat.add_le_add_left (by split <;> omega) _
  refine h1.trans ?_
  rw [List.length_nil, Nat.zero_add]
  have := mul_le_mul_of_nonneg_left h2 (show (0 : ℚ) ≤ 2 * P by positivity)
  linarith

/-- C70, witness indistinguishability, with challenges made from bytes. -/
theorem c70_witness (m : ℕ) (hb : Function.Bijective fun a : ZMod n => a • h) (env : Env (ZMod n) G) (A A' : Distinguisher (ZMod n) G) (hs : A.SameStatements A') (Q P D : ℕ) (hA : A.Within g h Gs Hs D Q P)
    (hA' : A'.Within g h Gs Hs D Q P) :
    |A.realBytes m env Gs Hs (fun _ => none) - A'.realBytes m env Gs Hs (fun _ => none)| ≤ 2 * ((P * (Q + P * D) : ℕ) / n + 2 * P * ((256 ^ m / n + 1 : ℕ) / (256 ^ m : ℕ))) := by
  have h1 := c70_zero_knowledge m hb env env A Q P D hA
  have h2 := c70_zero_knowledge m hb env env A' Q P D hA'
  rw [Distinguisher.simulatedBytes_same m env hs] at h1
  rw [abs_le] at h1 h2 ⊢
  constructor
  · linarith [h1.1, h2.2]
  · linarith [h1.2, h2.1]

end

/-! ## The hypotheses are met -/

/-- One byte, modulo 101: 0 to 53 are more likely. -/
example : prob (fun b : Bytes 1 => challengeOf 101 b = 7) = 3 / 256 ∧ prob (fun b : Bytes 1 => challengeOf 101 b = 99) = 2 / 256 := by
  rw [c70_distribution, c70_distribution]
  have e1 : (7 : ZMod 101).val = 7 := rfl
  have e2 : (99 : ZMod 101).val = 99 := rfl
  rw [e1, e2]
  norm_num

/-- With two bytes the distinguisher of C66 has hardly any advantage. -/
example : |(demoDistinguisher (3, 7) (16, 8)).realBytes 2 (Env.std fun _ => 0) [2] [3] (fun _ => none) - (demoDistinguisher (3, 7) (16, 8)).simulatedBytes 2 (Env.std fun _ => 0) 1 5 [2] [3] (fun _ => none)| ≤ 29 / 101 := by
  refine (c70_zero_knowledge (n := 101) 2 five_bijective (Env.std fun _ => 0) (Env.std fun _ => 0) _ 2 2 5 (demoDistinguisher_within (3, 7) (16, 8) (by decide) (by decide) (by decide))).trans ?_
  norm_num

end Bp
