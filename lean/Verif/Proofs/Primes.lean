import Mathlib.NumberTheory.LucasPrimality
import Mathlib.Tactic.NormNum.Prime
/-!
# Primality certificates (generated)

For each prime `p`, the factorisation of `p - 1` into primes and an element whose order is `p - 1`.
-/

namespace Verif.Primes

/-- `g ^ e % p` by square and multiply over the bits of `e` below `n`.  The match makes the kernel compute each
intermediate value once. -/
def powMod (p g e : ℕ) : ℕ → ℕ → ℕ
  | 0, acc => acc
  | n + 1, acc =>
    match (acc * acc * (if e.testBit n then g else 1)) % p with
    | 0 => 0
    | k + 1 => powMod p g e n (k + 1)

theorem powMod_zero (p g e n : ℕ) : powMod p g e n 0 = 0 := by
  cases n with
  | zero => rfl
  | succ n => rw [powMod]; simp

theorem powMod_eq (p g e : ℕ) : ∀ n acc, acc = g ^ (e >>> n) % p → powMod p g e n acc = g ^ e % p := by
  intro n
  induction n with
  | zero => intro acc h; rw [powMod, h, Nat.shiftRight_zero]
  | succ n ih =>
    intro acc h
    rw [powMod]
    have key : (acc * acc * (if e.testBit n then g else 1)) % p = g ^ (e >>> n) % p := by
      have hs : e >>> n = 2 * (e >>> (n + 1)) + (e.testBit n).toNat := by
        rw [Nat.shiftRight_succ, Nat.testBit, Nat.one_and_eq_mod_two]
        rcases Nat.mod_two_eq_zero_or_one (e >>> n) with h | h <;> simp [h] <;> omega
      rw [hs, Nat.pow_add, Nat.two_mul, Nat.pow_add, h]
      have hb : (if e.testBit n then g else 1) = g ^ (e.testBit n).toNat := by cases e.testBit n <;> simp
      rw [hb, Nat.mul_mod, ← Nat.mul_mod (g ^ (e >>> (n + 1))), ← Nat.mul_mod]
    rw [key]
    split
    · rename_i h0
      have := ih 0 (by rw [h0])
      rw [powMod_zero] at this
      exact this
    · rename_i k hk
      exact ih (k + 1) hk.symm

theorem forall_nil {p : ℕ × ℕ → Prop} : ∀ x ∈ ([] : List (ℕ × ℕ)), p x := fun _ h => absurd h (List.not_mem_nil)
theorem forall_cons {p : ℕ × ℕ → Prop} {a : ℕ × ℕ} {l : List (ℕ × ℕ)} (h : p a) (hl : ∀ x ∈ l, p x) : ∀ x ∈ a :: l, p x :=
  List.forall_mem_cons.mpr ⟨h, hl⟩

/-- What is checked by computation. -/
def check (p g : ℕ) (l : List (ℕ × ℕ)) : Bool :=
  decide (1 < p) && decide (p < 2 ^ 256) && decide ((l.map fun x => x.1 ^ x.2).prod = p - 1) &&
    l.all (fun x => decide (powMod p g ((p - 1) / x.1) 256 1 ≠ 1)) && decide (powMod p g (p - 1) 256 1 = 1)

theorem pratt {p : ℕ} (g : ℕ) (l : List (ℕ × ℕ)) (hc : check p g l = true) (hl : ∀ x ∈ l, x.1.Prime) :
    p.Prime ∧ orderOf ((g : ℕ) : ZMod p) = p - 1 := by
  unfold check at hc
  simp only [Bool.and_eq_true, decide_eq_true_eq, List.all_eq_true] at hc
  obtain ⟨⟨⟨⟨hp, hlt⟩, hprod⟩, hne⟩, h1⟩ := hc
  have pm : ∀ e, e < 2 ^ 256 → powMod p g e 256 1 = g ^ e % p := by
    intro e he
    apply powMod_eq
    rw [Nat.shiftRight_eq_div_pow, Nat.div_eq_of_lt he, Nat.pow_zero, Nat.mod_eq_of_lt hp]
  have cast : ∀ e, ((g : ZMod p) ^ e = 1 ↔ g ^ e % p = 1) := by
    intro e
    rw [← Nat.cast_pow, show (1 : ZMod p) = ((1 : ℕ) : ZMod p) by simp, ZMod.natCast_eq_natCast_iff', Nat.mod_eq_of_lt hp]
  have hd : ∀ q : ℕ, q.Prime → q ∣ p - 1 → (g : ZMod p) ^ ((p - 1) / q) ≠ 1 := by
    intro q hq hdvd
    rw [← hprod] at hdvd
    obtain ⟨y, hy, hdy⟩ := (Prime.dvd_prod_iff hq.prime).mp hdvd
    obtain ⟨x, hx, rfl⟩ := List.mem_map.mp hy
    have : q = x.1 := (Nat.prime_dvd_prime_iff_eq hq (hl x hx)).mp (hq.dvd_of_dvd_pow hdy)
    rw [Ne, cast, this, ← pm _ (Nat.lt_of_le_of_lt (Nat.div_le_self _ _) (by omega))]
    exact hne x hx
  have h1' : (g : ZMod p) ^ (p - 1) = 1 := (cast _).mpr (by rw [← pm _ (by omega)]; exact h1)
  exact ⟨lucas_primality p g h1' hd, orderOf_eq_of_pow_and_pow_div_prime (by omega) h1' hd⟩

theorem pratt_4129989133 : Nat.Prime 4129989133 ∧ orderOf (((5 : ℕ)) : ZMod 4129989133) = 4129989133 - 1 :=
  pratt 5 [(2, 2), (3, 1), (359, 1), (958679, 1)] (by decide +kernel)
    (forall_cons (by norm_num) (forall_cons (by norm_num) (forall_cons (by norm_num) (forall_cons (by norm_num) forall_nil))))
theorem prime_4129989133 : Nat.Prime 4129989133 := pratt_4129989133.1

theorem pratt_2012849 : Nat.Prime 2012849 ∧ orderOf (((3 : ℕ)) : ZMod 2012849) = 2012849 - 1 :=
  pratt 3 [(2, 4), (125803, 1)] (by decide +kernel)
    (forall_cons (by norm_num) (forall_cons (by norm_num) forall_nil))
theorem prime_2012849 : Nat.Prime 2012849 := pratt_2012849.1

theorem pratt_4025699 : Nat.Prime 4025699 ∧ orderOf (((2 : ℕ)) : ZMod 4025699) = 4025699 - 1 :=
  pratt 2 [(2, 1), (2012849, 1)] (by decide +kernel)
    (forall_cons (by norm_num) (forall_cons prime_2012849 forall_nil))
theorem prime_4025699 : Nat.Prime 4025699 := pratt_4025699.1

theorem pratt_80513981 : Nat.Prime 80513981 ∧ orderOf (((2 : ℕ)) : ZMod 80513981) = 80513981 - 1 :=
  pratt 2 [(2, 2), (5, 1), (4025699, 1)] (by decide +kernel)
    (forall_cons (by norm_num) (forall_cons (by norm_num) (forall_cons prime_4025699 forall_nil)))
theorem prime_80513981 : Nat.Prime 80513981 := pratt_80513981.1

theorem pratt_5247740253619 : Nat.Prime 5247740253619 ∧ orderOf (((2 : ℕ)) : ZMod 5247740253619) = 5247740253619 - 1 :=
  pratt 2 [(2, 1), (3, 3), (17, 1), (71, 1), (80513981, 1)] (by decide +kernel)
    (forall_cons (by norm_num) (forall_cons (by norm_num) (forall_cons (by norm_num) (forall_cons (by norm_num) (forall_cons prime_80513981 forall_nil)))))
theorem prime_5247740253619 : Nat.Prime 5247740253619 := pratt_5247740253619.1

theorem pratt_1690502597179744445941507 : Nat.Prime 1690502597179744445941507 ∧ orderOf (((2 : ℕ)) : ZMod 1690502597179744445941507) = 1690502597179744445941507 - 1 :=
  pratt 2 [(2, 1), (3, 1), (13, 1), (4129989133, 1), (5247740253619, 1)] (by decide +kernel)
    (forall_cons (by norm_num) (forall_cons (by norm_num) (forall_cons (by norm_num) (forall_cons prime_4129989133 (forall_cons prime_5247740253619 forall_nil)))))
theorem prime_1690502597179744445941507 : Nat.Prime 1690502597179744445941507 := pratt_1690502597179744445941507.1

theorem pratt_4229279 : Nat.Prime 4229279 ∧ orderOf (((13 : ℕ)) : ZMod 4229279) = 4229279 - 1 :=
  pratt 13 [(2, 1), (827, 1), (2557, 1)] (by decide +kernel)
    (forall_cons (by norm_num) (forall_cons (by norm_num) (forall_cons (by norm_num) forall_nil)))
theorem prime_4229279 : Nat.Prime 4229279 := pratt_4229279.1

theorem pratt_5701177 : Nat.Prime 5701177 ∧ orderOf (((7 : ℕ)) : ZMod 5701177) = 5701177 - 1 :=
  pratt 7 [(2, 3), (3, 2), (13, 1), (6091, 1)] (by decide +kernel)
    (forall_cons (by norm_num) (forall_cons (by norm_num) (forall_cons (by norm_num) (forall_cons (by norm_num) forall_nil))))
theorem prime_5701177 : Nat.Prime 5701177 := pratt_5701177.1

theorem pratt_399082391 : Nat.Prime 399082391 ∧ orderOf (((7 : ℕ)) : ZMod 399082391) = 399082391 - 1 :=
  pratt 7 [(2, 1), (5, 1), (7, 1), (5701177, 1)] (by decide +kernel)
    (forall_cons (by norm_num) (forall_cons (by norm_num) (forall_cons (by norm_num) (forall_cons prime_5701177 forall_nil))))
theorem prime_399082391 : Nat.Prime 399082391 := pratt_399082391.1

theorem pratt_5239247429827 : Nat.Prime 5239247429827 ∧ orderOf (((2 : ℕ)) : ZMod 5239247429827) = 5239247429827 - 1 :=
  pratt 2 [(2, 1), (3, 2), (757, 1), (12149, 1), (31649, 1)] (by decide +kernel)
    (forall_cons (by norm_num) (forall_cons (by norm_num) (forall_cons (by norm_num) (forall_cons (by norm_num) (forall_cons (by norm_num) forall_nil)))))
theorem prime_5239247429827 : Nat.Prime 5239247429827 := pratt_5239247429827.1

theorem pratt_10427374428728808478656897599072717 : Nat.Prime 10427374428728808478656897599072717 ∧ orderOf (((2 : ℕ)) : ZMod 10427374428728808478656897599072717) = 10427374428728808478656897599072717 - 1 :=
  pratt 2 [(2, 2), (294793, 1), (4229279, 1), (399082391, 1), (5239247429827, 1)] (by decide +kernel)
    (forall_cons (by norm_num) (forall_cons (by norm_num) (forall_cons prime_4229279 (forall_cons prime_399082391 (forall_cons prime_5239247429827 forall_nil)))))
theorem prime_10427374428728808478656897599072717 : Nat.Prime 10427374428728808478656897599072717 := pratt_10427374428728808478656897599072717.1

theorem pratt_28948022309329048855892746252171976963363056481941647379679742748393362948097 : Nat.Prime 28948022309329048855892746252171976963363056481941647379679742748393362948097 ∧ orderOf (((5 : ℕ)) : ZMod 28948022309329048855892746252171976963363056481941647379679742748393362948097) = 28948022309329048855892746252171976963363056481941647379679742748393362948097 - 1 :=
  pratt 5 [(2, 32), (3, 2), (1709, 1), (24859, 1), (1690502597179744445941507, 1), (10427374428728808478656897599072717, 1)] (by decide +kernel)
    (forall_cons (by norm_num) (forall_cons (by norm_num) (forall_cons (by norm_num) (forall_cons (by norm_num) (forall_cons prime_1690502597179744445941507 (forall_cons prime_10427374428728808478656897599072717 forall_nil))))))
theorem prime_28948022309329048855892746252171976963363056481941647379679742748393362948097 : Nat.Prime 28948022309329048855892746252171976963363056481941647379679742748393362948097 := pratt_28948022309329048855892746252171976963363056481941647379679742748393362948097.1

theorem pratt_417677162933 : Nat.Prime 417677162933 ∧ orderOf (((2 : ℕ)) : ZMod 417677162933) = 417677162933 - 1 :=
  pratt 2 [(2, 2), (59, 1), (1973, 1), (897019, 1)] (by decide +kernel)
    (forall_cons (by norm_num) (forall_cons (by norm_num) (forall_cons (by norm_num) (forall_cons (by norm_num) forall_nil))))
theorem prime_417677162933 : Nat.Prime 417677162933 := pratt_417677162933.1

theorem pratt_539204044132271846773 : Nat.Prime 539204044132271846773 ∧ orderOf (((5 : ℕ)) : ZMod 539204044132271846773) = 539204044132271846773 - 1 :=
  pratt 5 [(2, 2), (3, 5), (89, 1), (14923, 1), (417677162933, 1)] (by decide +kernel)
    (forall_cons (by norm_num) (forall_cons (by norm_num) (forall_cons (by norm_num) (forall_cons (by norm_num) (forall_cons prime_417677162933 forall_nil)))))
theorem prime_539204044132271846773 : Nat.Prime 539204044132271846773 := pratt_539204044132271846773.1

theorem pratt_1197907 : Nat.Prime 1197907 ∧ orderOf (((3 : ℕ)) : ZMod 1197907) = 1197907 - 1 :=
  pratt 3 [(2, 1), (3, 1), (53, 1), (3767, 1)] (by decide +kernel)
    (forall_cons (by norm_num) (forall_cons (by norm_num) (forall_cons (by norm_num) (forall_cons (by norm_num) forall_nil))))
theorem prime_1197907 : Nat.Prime 1197907 := pratt_1197907.1

theorem pratt_6942563 : Nat.Prime 6942563 ∧ orderOf (((2 : ℕ)) : ZMod 6942563) = 6942563 - 1 :=
  pratt 2 [(2, 1), (11, 1), (17, 1), (19, 1), (977, 1)] (by decide +kernel)
    (forall_cons (by norm_num) (forall_cons (by norm_num) (forall_cons (by norm_num) (forall_cons (by norm_num) (forall_cons (by norm_num) forall_nil)))))
theorem prime_6942563 : Nat.Prime 6942563 := pratt_6942563.1

theorem pratt_41655379 : Nat.Prime 41655379 ∧ orderOf (((2 : ℕ)) : ZMod 41655379) = 41655379 - 1 :=
  pratt 2 [(2, 1), (3, 1), (6942563, 1)] (by decide +kernel)
    (forall_cons (by norm_num) (forall_cons (by norm_num) (forall_cons prime_6942563 forall_nil)))
theorem prime_41655379 : Nat.Prime 41655379 := pratt_41655379.1

theorem pratt_22160661629 : Nat.Prime 22160661629 ∧ orderOf (((3 : ℕ)) : ZMod 22160661629) = 22160661629 - 1 :=
  pratt 3 [(2, 2), (7, 1), (19, 1), (41655379, 1)] (by decide +kernel)
    (forall_cons (by norm_num) (forall_cons (by norm_num) (forall_cons (by norm_num) (forall_cons prime_41655379 forall_nil))))
theorem prime_22160661629 : Nat.Prime 22160661629 := pratt_22160661629.1

theorem pratt_325086459374267 : Nat.Prime 325086459374267 ∧ orderOf (((2 : ℕ)) : ZMod 325086459374267) = 325086459374267 - 1 :=
  pratt 2 [(2, 1), (509, 1), (413527, 1), (772231, 1)] (by decide +kernel)
    (forall_cons (by norm_num) (forall_cons (by norm_num) (forall_cons (by norm_num) (forall_cons (by norm_num) forall_nil))))
theorem prime_325086459374267 : Nat.Prime 325086459374267 := pratt_325086459374267.1

theorem pratt_8999194758858563409123804352480028797519453 : Nat.Prime 8999194758858563409123804352480028797519453 ∧ orderOf (((2 : ℕ)) : ZMod 8999194758858563409123804352480028797519453) = 8999194758858563409123804352480028797519453 - 1 :=
  pratt 2 [(2, 2), (3, 4), (11, 1), (2531, 1), (115603, 1), (1197907, 1), (22160661629, 1), (325086459374267, 1)] (by decide +kernel)
    (forall_cons (by norm_num) (forall_cons (by norm_num) (forall_cons (by norm_num) (forall_cons (by norm_num) (forall_cons (by norm_num) (forall_cons prime_1197907 (forall_cons prime_22160661629 (forall_cons prime_325086459374267 forall_nil))))))))
theorem prime_8999194758858563409123804352480028797519453 : Nat.Prime 8999194758858563409123804352480028797519453 := pratt_8999194758858563409123804352480028797519453.1

theorem pratt_28948022309329048855892746252171976963363056481941560715954676764349967630337 : Nat.Prime 28948022309329048855892746252171976963363056481941560715954676764349967630337 ∧ orderOf (((5 : ℕ)) : ZMod 28948022309329048855892746252171976963363056481941560715954676764349967630337) = 28948022309329048855892746252171976963363056481941560715954676764349967630337 - 1 :=
  pratt 5 [(2, 32), (3, 1), (463, 1), (539204044132271846773, 1), (8999194758858563409123804352480028797519453, 1)] (by decide +kernel)
    (forall_cons (by norm_num) (forall_cons (by norm_num) (forall_cons (by norm_num) (forall_cons prime_539204044132271846773 (forall_cons prime_8999194758858563409123804352480028797519453 forall_nil)))))
theorem prime_28948022309329048855892746252171976963363056481941560715954676764349967630337 : Nat.Prime 28948022309329048855892746252171976963363056481941560715954676764349967630337 := pratt_28948022309329048855892746252171976963363056481941560715954676764349967630337.1

theorem pratt_2508409 : Nat.Prime 2508409 ∧ orderOf (((11 : ℕ)) : ZMod 2508409) = 2508409 - 1 :=
  pratt 11 [(2, 3), (3, 4), (7, 2), (79, 1)] (by decide +kernel)
    (forall_cons (by norm_num) (forall_cons (by norm_num) (forall_cons (by norm_num) (forall_cons (by norm_num) forall_nil))))
theorem prime_2508409 : Nat.Prime 2508409 := pratt_2508409.1

theorem pratt_2529403 : Nat.Prime 2529403 ∧ orderOf (((2 : ℕ)) : ZMod 2529403) = 2529403 - 1 :=
  pratt 2 [(2, 1), (3, 1), (23, 1), (18329, 1)] (by decide +kernel)
    (forall_cons (by norm_num) (forall_cons (by norm_num) (forall_cons (by norm_num) (forall_cons (by norm_num) forall_nil))))
theorem prime_2529403 : Nat.Prime 2529403 := pratt_2529403.1

theorem pratt_52437899 : Nat.Prime 52437899 ∧ orderOf (((2 : ℕ)) : ZMod 52437899) = 52437899 - 1 :=
  pratt 2 [(2, 1), (43, 1), (609743, 1)] (by decide +kernel)
    (forall_cons (by norm_num) (forall_cons (by norm_num) (forall_cons (by norm_num) forall_nil)))
theorem prime_52437899 : Nat.Prime 52437899 := pratt_52437899.1

theorem pratt_2653753 : Nat.Prime 2653753 ∧ orderOf (((5 : ℕ)) : ZMod 2653753) = 2653753 - 1 :=
  pratt 5 [(2, 3), (3, 1), (110573, 1)] (by decide +kernel)
    (forall_cons (by norm_num) (forall_cons (by norm_num) (forall_cons (by norm_num) forall_nil)))
theorem prime_2653753 : Nat.Prime 2653753 := pratt_2653753.1

theorem pratt_63690073 : Nat.Prime 63690073 ∧ orderOf (((7 : ℕ)) : ZMod 63690073) = 63690073 - 1 :=
  pratt 7 [(2, 3), (3, 1), (2653753, 1)] (by decide +kernel)
    (forall_cons (by norm_num) (forall_cons (by norm_num) (forall_cons prime_2653753 forall_nil)))
theorem prime_63690073 : Nat.Prime 63690073 := pratt_63690073.1

theorem pratt_254760293 : Nat.Prime 254760293 ∧ orderOf (((2 : ℕ)) : ZMod 254760293) = 254760293 - 1 :=
  pratt 2 [(2, 2), (63690073, 1)] (by decide +kernel)
    (forall_cons (by norm_num) (forall_cons prime_63690073 forall_nil))
theorem prime_254760293 : Nat.Prime 254760293 := pratt_254760293.1

theorem pratt_52435875175126190479447740508185965837690552500527637822603658699938581184513 : Nat.Prime 52435875175126190479447740508185965837690552500527637822603658699938581184513 ∧ orderOf (((7 : ℕ)) : ZMod 52435875175126190479447740508185965837690552500527637822603658699938581184513) = 52435875175126190479447740508185965837690552500527637822603658699938581184513 - 1 :=
  pratt 7 [(2, 32), (3, 1), (11, 1), (19, 1), (10177, 1), (125527, 1), (859267, 1), (906349, 2), (2508409, 1), (2529403, 1), (52437899, 1), (254760293, 2)] (by decide +kernel)
    (forall_cons (by norm_num) (forall_cons (by norm_num) (forall_cons (by norm_num) (forall_cons (by norm_num) (forall_cons (by norm_num) (forall_cons (by norm_num) (forall_cons (by norm_num) (forall_cons (by norm_num) (forall_cons prime_2508409 (forall_cons prime_2529403 (forall_cons prime_52437899 (forall_cons prime_254760293 forall_nil))))))))))))
theorem prime_52435875175126190479447740508185965837690552500527637822603658699938581184513 : Nat.Prime 52435875175126190479447740508185965837690552500527637822603658699938581184513 := pratt_52435875175126190479447740508185965837690552500527637822603658699938581184513.1

theorem pratt_405928799 : Nat.Prime 405928799 ∧ orderOf (((22 : ℕ)) : ZMod 405928799) = 405928799 - 1 :=
  pratt 22 [(2, 1), (11, 1), (3691, 1), (4999, 1)] (by decide +kernel)
    (forall_cons (by norm_num) (forall_cons (by norm_num) (forall_cons (by norm_num) (forall_cons (by norm_num) forall_nil))))
theorem prime_405928799 : Nat.Prime 405928799 := pratt_405928799.1

theorem pratt_12048837557 : Nat.Prime 12048837557 ∧ orderOf (((2 : ℕ)) : ZMod 12048837557) = 12048837557 - 1 :=
  pratt 2 [(2, 2), (7, 2), (661, 1), (93001, 1)] (by decide +kernel)
    (forall_cons (by norm_num) (forall_cons (by norm_num) (forall_cons (by norm_num) (forall_cons (by norm_num) forall_nil))))
theorem prime_12048837557 : Nat.Prime 12048837557 := pratt_12048837557.1

theorem pratt_5156902474397 : Nat.Prime 5156902474397 ∧ orderOf (((2 : ℕ)) : ZMod 5156902474397) = 5156902474397 - 1 :=
  pratt 2 [(2, 2), (107, 1), (12048837557, 1)] (by decide +kernel)
    (forall_cons (by norm_num) (forall_cons (by norm_num) (forall_cons prime_12048837557 forall_nil)))
theorem prime_5156902474397 : Nat.Prime 5156902474397 := pratt_5156902474397.1

theorem pratt_1670836401704629 : Nat.Prime 1670836401704629 ∧ orderOf (((2 : ℕ)) : ZMod 1670836401704629) = 1670836401704629 - 1 :=
  pratt 2 [(2, 2), (3, 4), (5156902474397, 1)] (by decide +kernel)
    (forall_cons (by norm_num) (forall_cons (by norm_num) (forall_cons prime_5156902474397 forall_nil)))
theorem prime_1670836401704629 : Nat.Prime 1670836401704629 := pratt_1670836401704629.1

theorem pratt_1593227 : Nat.Prime 1593227 ∧ orderOf (((2 : ℕ)) : ZMod 1593227) = 1593227 - 1 :=
  pratt 2 [(2, 1), (19, 1), (41927, 1)] (by decide +kernel)
    (forall_cons (by norm_num) (forall_cons (by norm_num) (forall_cons (by norm_num) forall_nil)))
theorem prime_1593227 : Nat.Prime 1593227 := pratt_1593227.1

theorem pratt_639533339 : Nat.Prime 639533339 ∧ orderOf (((2 : ℕ)) : ZMod 639533339) = 639533339 - 1 :=
  pratt 2 [(2, 1), (229, 1), (853, 1), (1637, 1)] (by decide +kernel)
    (forall_cons (by norm_num) (forall_cons (by norm_num) (forall_cons (by norm_num) (forall_cons (by norm_num) forall_nil))))
theorem prime_639533339 : Nat.Prime 639533339 := pratt_639533339.1

theorem pratt_65865678001877903 : Nat.Prime 65865678001877903 ∧ orderOf (((5 : ℕ)) : ZMod 65865678001877903) = 65865678001877903 - 1 :=
  pratt 5 [(2, 1), (83, 1), (379, 1), (1637, 1), (639533339, 1)] (by decide +kernel)
    (forall_cons (by norm_num) (forall_cons (by norm_num) (forall_cons (by norm_num) (forall_cons (by norm_num) (forall_cons prime_639533339 forall_nil)))))
theorem prime_65865678001877903 : Nat.Prime 65865678001877903 := pratt_65865678001877903.1

theorem pratt_13818364434197438864469338081 : Nat.Prime 13818364434197438864469338081 ∧ orderOf (((3 : ℕ)) : ZMod 13818364434197438864469338081) = 13818364434197438864469338081 - 1 :=
  pratt 3 [(2, 5), (5, 1), (823, 1), (1593227, 1), (65865678001877903, 1)] (by decide +kernel)
    (forall_cons (by norm_num) (forall_cons (by norm_num) (forall_cons (by norm_num) (forall_cons prime_1593227 (forall_cons prime_65865678001877903 forall_nil)))))
theorem prime_13818364434197438864469338081 : Nat.Prime 13818364434197438864469338081 := pratt_13818364434197438864469338081.1

theorem pratt_21888242871839275222246405745257275088548364400416034343698204186575808495617 : Nat.Prime 21888242871839275222246405745257275088548364400416034343698204186575808495617 ∧ orderOf (((7 : ℕ)) : ZMod 21888242871839275222246405745257275088548364400416034343698204186575808495617) = 21888242871839275222246405745257275088548364400416034343698204186575808495617 - 1 :=
  pratt 7 [(2, 28), (3, 2), (13, 1), (29, 1), (983, 1), (11003, 1), (237073, 1), (405928799, 1), (1670836401704629, 1), (13818364434197438864469338081, 1)] (by decide +kernel)
    (forall_cons (by norm_num) (forall_cons (by norm_num) (forall_cons (by norm_num) (forall_cons (by norm_num) (forall_cons (by norm_num) (forall_cons (by norm_num) (forall_cons (by norm_num) (forall_cons prime_405928799 (forall_cons prime_1670836401704629 (forall_cons prime_13818364434197438864469338081 forall_nil))))))))))
theorem prime_21888242871839275222246405745257275088548364400416034343698204186575808495617 : Nat.Prime 21888242871839275222246405745257275088548364400416034343698204186575808495617 := pratt_21888242871839275222246405745257275088548364400416034343698204186575808495617.1

theorem pratt_18446744069414584321 : Nat.Prime 18446744069414584321 ∧ orderOf (((7 : ℕ)) : ZMod 18446744069414584321) = 18446744069414584321 - 1 :=
  pratt 7 [(2, 32), (3, 1), (5, 1), (17, 1), (257, 1), (65537, 1)] (by decide +kernel)
    (forall_cons (by norm_num) (forall_cons (by norm_num) (forall_cons (by norm_num) (forall_cons (by norm_num) (forall_cons (by norm_num) (forall_cons (by norm_num) forall_nil))))))
theorem prime_18446744069414584321 : Nat.Prime 18446744069414584321 := pratt_18446744069414584321.1

theorem pratt_2013265921 : Nat.Prime 2013265921 ∧ orderOf (((31 : ℕ)) : ZMod 2013265921) = 2013265921 - 1 :=
  pratt 31 [(2, 27), (3, 1), (5, 1)] (by decide +kernel)
    (forall_cons (by norm_num) (forall_cons (by norm_num) (forall_cons (by norm_num) forall_nil)))
theorem prime_2013265921 : Nat.Prime 2013265921 := pratt_2013265921.1

end Verif.Primes
