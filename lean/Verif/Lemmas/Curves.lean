import Verif.Lemmas.Bls
import Mathlib.Data.List.Prime

/-! # The group orders of the other curves are prime

Certificates: the factors of `p - 1`, and an element of order `p - 1`. -/

namespace Bp

/-- `a ^ e` modulo `n`, for exponents below `2 ^ k`. -/
def powMod (n a : ℕ) : ℕ → ℕ → ℕ
  | 0, _ => 1 % n
  | k + 1, e => if e % 2 = 1 then a * powMod n (a * a % n) k (e / 2) % n else powMod n (a * a % n) k (e / 2)

theorem powMod_eq (n : ℕ) : ∀ (k a e : ℕ), e < 2 ^ k → powMod n a k e = a ^ e % n
  | 0, a, e, h => by
    obtain rfl : e = 0 := by simpa using h
    simp [powMod]
  | k + 1, a, e, h => by
    have ih := powMod_eq n k (a * a % n) (e / 2) (by rw [pow_succ] at h; omega)
    have he := Nat.div_add_mod e 2
    rw [powMod, ih]
    have hp : (a * a % n) ^ (e / 2) % n = a ^ (2 * (e / 2)) % n := by rw [← Nat.pow_mod, pow_mul, sq]
    split
    · rename_i h1
      conv_rhs => rw [← he, h1, pow_succ, mul_comm]
      rw [Nat.mul_mod, hp, Nat.mod_mod, ← Nat.mul_mod]
    · conv_rhs => rw [← he, show e % 2 = 0 by omega, add_zero]
      rw [← Nat.pow_mod] at hp ⊢
      exact hp

theorem pratt {p : ℕ} (a : ℕ) (fs : List ℕ) (hp : 1 < p ∧ p < 2 ^ 256 ∧ fs.prod = p - 1) (hf : ∀ f ∈ fs, f.Prime) (h1 : powMod p a 256 (p - 1) = 1) (h2 : fs.all (fun f => powMod p a 256 ((p - 1) / f) != 1) = true) : p.Prime := by
  have hc : ∀ e < 2 ^ 256, ((a : ZMod p) ^ e = 1 ↔ powMod p a 256 e = 1) := by
    intro e he
    rw [powMod_eq p 256 a e he]
    have : ((a : ZMod p) ^ e = 1) ↔ ((a ^ e : ℕ) : ZMod p) = ((1 : ℕ) : ZMod p) := by push_cast; rfl
    rw [this, ZMod.natCast_eq_natCast_iff]
    unfold Nat.ModEq
    rw [Nat.mod_eq_of_lt hp.1]
  refine lucas_primality p (a : ZMod p) ((hc _ (by omega)).mpr h1) fun q hq hd => ?_
  rw [← hp.2.2] at hd
  obtain ⟨f, hf1, hf2⟩ := (Prime.dvd_prod_iff hq.prime).mp hd
  obtain rfl := (Nat.prime_dvd_prime_iff_eq hq (hf f hf1)).mp hf2
  rw [ne_eq, hc _ (lt_of_le_of_lt (Nat.div_le_self _ _) (by omega))]
  have := List.all_eq_true.mp h2 q hf1
  simpa using this

theorem prime_15698303 : Nat.Prime 15698303 :=
  pratt 5 [2, 269, 29179] (by decide +kernel) (by
    simp only [List.forall_mem_cons, List.not_mem_nil, false_imp_iff, implies_true, and_true]
    exact ⟨(by norm_num), (by norm_num), (by norm_num)⟩) (by decide +kernel) (by decide +kernel)

theorem prime_2749283 : Nat.Prime 2749283 :=
  pratt 2 [2, 23, 59, 1013] (by decide +kernel) (by
    simp only [List.forall_mem_cons, List.not_mem_nil, false_imp_iff, implies_true, and_true]
    exact ⟨(by norm_num), (by norm_num), (by norm_num), (by norm_num)⟩) (by decide +kernel) (by decide +kernel)

theorem prime_65982793 : Nat.Prime 65982793 :=
  pratt 5 [2, 2, 2, 3, 2749283] (by decide +kernel) (by
    simp only [List.forall_mem_cons, List.not_mem_nil, false_imp_iff, implies_true, and_true]
    exact ⟨(by norm_num), (by norm_num), (by norm_num), (by norm_num), prime_2749283⟩) (by decide +kernel) (by decide +kernel)

theorem prime_1176035613847 : Nat.Prime 1176035613847 :=
  pratt 3 [2, 3, 73, 25969, 103393] (by decide +kernel) (by
    simp only [List.forall_mem_cons, List.not_mem_nil, false_imp_iff, implies_true, and_true]
    exact ⟨(by norm_num), (by norm_num), (by norm_num), (by norm_num), (by norm_num)⟩) (by decide +kernel) (by decide +kernel)

theorem prime_101148471075752777 : Nat.Prime 101148471075752777 :=
  pratt 3 [2, 2, 2, 13, 827, 1176035613847] (by decide +kernel) (by
    simp only [List.forall_mem_cons, List.not_mem_nil, false_imp_iff, implies_true, and_true]
    exact ⟨(by norm_num), (by norm_num), (by norm_num), (by norm_num), (by norm_num), prime_1176035613847⟩) (by decide +kernel) (by decide +kernel)

theorem prime_1545857 : Nat.Prime 1545857 :=
  pratt 3 [2, 2, 2, 2, 2, 2, 2, 13, 929] (by decide +kernel) (by
    simp only [List.forall_mem_cons, List.not_mem_nil, false_imp_iff, implies_true, and_true]
    exact ⟨(by norm_num), (by norm_num), (by norm_num), (by norm_num), (by norm_num), (by norm_num), (by norm_num), (by norm_num), (by norm_num)⟩) (by decide +kernel) (by decide +kernel)

theorem prime_14334859726775219 : Nat.Prime 14334859726775219 :=
  pratt 2 [2, 19, 41, 61, 883, 1069, 159793] (by decide +kernel) (by
    simp only [List.forall_mem_cons, List.not_mem_nil, false_imp_iff, implies_true, and_true]
    exact ⟨(by norm_num), (by norm_num), (by norm_num), (by norm_num), (by norm_num), (by norm_num), (by norm_num)⟩) (by decide +kernel) (by decide +kernel)

theorem prime_1254043595354617963043866617659 : Nat.Prime 0xfd4088ca3c01f8fb1a325273b :=
  pratt 2 [2, 11, 641, 4013, 1545857, 14334859726775219] (by decide +kernel) (by
    simp only [List.forall_mem_cons, List.not_mem_nil, false_imp_iff, implies_true, and_true]
    exact ⟨(by norm_num), (by norm_num), (by norm_num), (by norm_num), prime_1545857, prime_14334859726775219⟩) (by decide +kernel) (by decide +kernel)

theorem bn254Order_prime : Nat.Prime 0x2523648240000001ba344d8000000007ff9f800000000010a10000000000000d :=
  pratt 2 [2, 2, 3, 7, 641, 16843, 140977, 15698303, 65982793, 101148471075752777, 1254043595354617963043866617659] (by decide +kernel) (by
    simp only [List.forall_mem_cons, List.not_mem_nil, false_imp_iff, implies_true, and_true]
    exact ⟨(by norm_num), (by norm_num), (by norm_num), (by norm_num), (by norm_num), (by norm_num), (by norm_num), prime_15698303, prime_65982793, prime_101148471075752777, prime_1254043595354617963043866617659⟩) (by decide +kernel) (by decide +kernel)

theorem prime_14741173 : Nat.Prime 14741173 :=
  pratt 2 [2, 2, 3, 3, 409477] (by decide +kernel) (by
    simp only [List.forall_mem_cons, List.not_mem_nil, false_imp_iff, implies_true, and_true]
    exact ⟨(by norm_num), (by norm_num), (by norm_num), (by norm_num), (by norm_num)⟩) (by decide +kernel) (by decide +kernel)

theorem prime_58964693 : Nat.Prime 58964693 :=
  pratt 2 [2, 2, 14741173] (by decide +kernel) (by
    simp only [List.forall_mem_cons, List.not_mem_nil, false_imp_iff, implies_true, and_true]
    exact ⟨(by norm_num), (by norm_num), prime_14741173⟩) (by decide +kernel) (by decide +kernel)

theorem prime_3044861653679985063343 : Nat.Prime 0xa50ff1a5a74bfaf5af :=
  pratt 5 [2, 3, 11, 30703, 82163, 132667, 137849] (by decide +kernel) (by
    simp only [List.forall_mem_cons, List.not_mem_nil, false_imp_iff, implies_true, and_true]
    exact ⟨(by norm_num), (by norm_num), (by norm_num), (by norm_num), (by norm_num), (by norm_num), (by norm_num)⟩) (by decide +kernel) (by decide +kernel)

theorem prime_198211423230930754013084525763697 : Nat.Prime 0x9c5c7a67bb0f1fef559a72f9c71 :=
  pratt 5 [2, 2, 2, 2, 3, 23, 58964693, 3044861653679985063343] (by decide +kernel) (by
    simp only [List.forall_mem_cons, List.not_mem_nil, false_imp_iff, implies_true, and_true]
    exact ⟨(by norm_num), (by norm_num), (by norm_num), (by norm_num), (by norm_num), (by norm_num), prime_58964693, prime_3044861653679985063343⟩) (by decide +kernel) (by decide +kernel)

theorem prime_292386187 : Nat.Prime 292386187 :=
  pratt 2 [2, 3, 3, 3, 3, 307, 5879] (by decide +kernel) (by
    simp only [List.forall_mem_cons, List.not_mem_nil, false_imp_iff, implies_true, and_true]
    exact ⟨(by norm_num), (by norm_num), (by norm_num), (by norm_num), (by norm_num), (by norm_num), (by norm_num)⟩) (by decide +kernel) (by decide +kernel)

theorem prime_213441916511 : Nat.Prime 213441916511 :=
  pratt 13 [2, 5, 73, 292386187] (by decide +kernel) (by
    simp only [List.forall_mem_cons, List.not_mem_nil, false_imp_iff, implies_true, and_true]
    exact ⟨(by norm_num), (by norm_num), (by norm_num), prime_292386187⟩) (by decide +kernel) (by decide +kernel)

theorem prime_1224481 : Nat.Prime 1224481 :=
  pratt 13 [2, 2, 2, 2, 2, 3, 5, 2551] (by decide +kernel) (by
    simp only [List.forall_mem_cons, List.not_mem_nil, false_imp_iff, implies_true, and_true]
    exact ⟨(by norm_num), (by norm_num), (by norm_num), (by norm_num), (by norm_num), (by norm_num), (by norm_num), (by norm_num)⟩) (by decide +kernel) (by decide +kernel)

theorem prime_1257559732178653 : Nat.Prime 1257559732178653 :=
  pratt 2 [2, 2, 3, 7, 23, 531581, 1224481] (by decide +kernel) (by
    simp only [List.forall_mem_cons, List.not_mem_nil, false_imp_iff, implies_true, and_true]
    exact ⟨(by norm_num), (by norm_num), (by norm_num), (by norm_num), (by norm_num), (by norm_num), prime_1224481⟩) (by decide +kernel) (by decide +kernel)

theorem prime_4434155615661930479 : Nat.Prime 4434155615661930479 :=
  pratt 17 [2, 41, 43, 1257559732178653] (by decide +kernel) (by
    simp only [List.forall_mem_cons, List.not_mem_nil, false_imp_iff, implies_true, and_true]
    exact ⟨(by norm_num), (by norm_num), (by norm_num), prime_1257559732178653⟩) (by decide +kernel) (by decide +kernel)

theorem prime_172054593956031949258510691 : Nat.Prime 0x8e51fa3a480f89f9de5163 :=
  pratt 2 [2, 5, 1361, 2851, 4434155615661930479] (by decide +kernel) (by
    simp only [List.forall_mem_cons, List.not_mem_nil, false_imp_iff, implies_true, and_true]
    exact ⟨(by norm_num), (by norm_num), (by norm_num), (by norm_num), prime_4434155615661930479⟩) (by decide +kernel) (by decide +kernel)

theorem prime_19757330305831588566944191468367130476339 : Nat.Prime 0x3a0fc367dcf0ff0a5a1db0b1b7c3093f33 :=
  pratt 2 [2, 269, 213441916511, 172054593956031949258510691] (by decide +kernel) (by
    simp only [List.forall_mem_cons, List.not_mem_nil, false_imp_iff, implies_true, and_true]
    exact ⟨(by norm_num), (by norm_num), prime_213441916511, prime_172054593956031949258510691⟩) (by decide +kernel) (by decide +kernel)

theorem prime_276602624281642239937218680557139826668747 : Nat.Prime 0x32cdcafae152df290ed9fa9b80caa8174cb :=
  pratt 2 [2, 7, 19757330305831588566944191468367130476339] (by decide +kernel) (by
    simp only [List.forall_mem_cons, List.not_mem_nil, false_imp_iff, implies_true, and_true]
    exact ⟨(by norm_num), (by norm_num), prime_19757330305831588566944191468367130476339⟩) (by decide +kernel) (by decide +kernel)

theorem ed25519Order_prime : Nat.Prime 0x1000000000000000000000000000000014def9dea2f79cd65812631a5cf5d3ed :=
  pratt 2 [2, 2, 3, 11, 198211423230930754013084525763697, 276602624281642239937218680557139826668747] (by decide +kernel) (by
    simp only [List.forall_mem_cons, List.not_mem_nil, false_imp_iff, implies_true, and_true]
    exact ⟨(by norm_num), (by norm_num), (by norm_num), (by norm_num), prime_198211423230930754013084525763697, prime_276602624281642239937218680557139826668747⟩) (by decide +kernel) (by decide +kernel)

theorem prime_4681609 : Nat.Prime 4681609 :=
  pratt 23 [2, 2, 2, 3, 97, 2011] (by decide +kernel) (by
    simp only [List.forall_mem_cons, List.not_mem_nil, false_imp_iff, implies_true, and_true]
    exact ⟨(by norm_num), (by norm_num), (by norm_num), (by norm_num), (by norm_num), (by norm_num)⟩) (by decide +kernel) (by decide +kernel)

theorem prime_107361793816595537 : Nat.Prime 107361793816595537 :=
  pratt 3 [2, 2, 2, 2, 16699, 85831, 4681609] (by decide +kernel) (by
    simp only [List.forall_mem_cons, List.not_mem_nil, false_imp_iff, implies_true, and_true]
    exact ⟨(by norm_num), (by norm_num), (by norm_num), (by norm_num), (by norm_num), (by norm_num), prime_4681609⟩) (by decide +kernel) (by decide +kernel)

theorem prime_44706919 : Nat.Prime 44706919 :=
  pratt 6 [2, 3, 797, 9349] (by decide +kernel) (by
    simp only [List.forall_mem_cons, List.not_mem_nil, false_imp_iff, implies_true, and_true]
    exact ⟨(by norm_num), (by norm_num), (by norm_num), (by norm_num)⟩) (by decide +kernel) (by decide +kernel)

theorem prime_174723607534414371449 : Nat.Prime 0x978c6f353c3889a79 :=
  pratt 3 [2, 2, 2, 17, 59, 4051, 120233, 44706919] (by decide +kernel) (by
    simp only [List.forall_mem_cons, List.not_mem_nil, false_imp_iff, implies_true, and_true]
    exact ⟨(by norm_num), (by norm_num), (by norm_num), (by norm_num), (by norm_num), (by norm_num), (by norm_num), prime_44706919⟩) (by decide +kernel) (by decide +kernel)

theorem prime_545358713 : Nat.Prime 545358713 :=
  pratt 5 [2, 2, 2, 41, 59, 28181] (by decide +kernel) (by
    simp only [List.forall_mem_cons, List.not_mem_nil, false_imp_iff, implies_true, and_true]
    exact ⟨(by norm_num), (by norm_num), (by norm_num), (by norm_num), (by norm_num), (by norm_num)⟩) (by decide +kernel) (by decide +kernel)

theorem prime_1627771 : Nat.Prime 1627771 :=
  pratt 3 [2, 3, 5, 29, 1871] (by decide +kernel) (by
    simp only [List.forall_mem_cons, List.not_mem_nil, false_imp_iff, implies_true, and_true]
    exact ⟨(by norm_num), (by norm_num), (by norm_num), (by norm_num), (by norm_num)⟩) (by decide +kernel) (by decide +kernel)

theorem prime_297159362677 : Nat.Prime 297159362677 :=
  pratt 2 [2, 2, 3, 3, 11, 461, 1627771] (by decide +kernel) (by
    simp only [List.forall_mem_cons, List.not_mem_nil, false_imp_iff, implies_true, and_true]
    exact ⟨(by norm_num), (by norm_num), (by norm_num), (by norm_num), (by norm_num), (by norm_num), prime_1627771⟩) (by decide +kernel) (by decide +kernel)

theorem prime_29047611873442575647497758179 : Nat.Prime 0x5ddb9f12ef6348a3e23ba5e3 :=
  pratt 2 [2, 293, 305873, 545358713, 297159362677] (by decide +kernel) (by
    simp only [List.forall_mem_cons, List.not_mem_nil, false_imp_iff, implies_true, and_true]
    exact ⟨(by norm_num), (by norm_num), (by norm_num), prime_545358713, prime_297159362677⟩) (by decide +kernel) (by decide +kernel)

theorem prime_341948486974166000522343609283189 : Nat.Prime 0x10dbff26eab8198050172ee03275 :=
  pratt 2 [2, 2, 3, 3, 3, 109, 29047611873442575647497758179] (by decide +kernel) (by
    simp only [List.forall_mem_cons, List.not_mem_nil, false_imp_iff, implies_true, and_true]
    exact ⟨(by norm_num), (by norm_num), (by norm_num), (by norm_num), (by norm_num), (by norm_num), prime_29047611873442575647497758179⟩) (by decide +kernel) (by decide +kernel)

theorem secp256k1Order_prime : Nat.Prime 0xfffffffffffffffffffffffffffffffebaaedce6af48a03bbfd25e8cd0364141 :=
  pratt 7 [2, 2, 2, 2, 2, 2, 3, 149, 631, 107361793816595537, 174723607534414371449, 341948486974166000522343609283189] (by decide +kernel) (by
    simp only [List.forall_mem_cons, List.not_mem_nil, false_imp_iff, implies_true, and_true]
    exact ⟨(by norm_num), (by norm_num), (by norm_num), (by norm_num), (by norm_num), (by norm_num), (by norm_num), (by norm_num), (by norm_num), prime_107361793816595537, prime_174723607534414371449, prime_341948486974166000522343609283189⟩) (by decide +kernel) (by decide +kernel)

end Bp
