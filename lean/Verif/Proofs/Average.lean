import Verif.Model.Math
/-! # `average` computes the floor of the mean -/

namespace Verif.Math

theorem and_add_xor (x y : Nat) : 2 * (x &&& y) + (x ^^^ y) = x + y := by
  induction x using Nat.strongRecOn generalizing y with
  | _ x ih =>
    rcases Nat.eq_zero_or_pos x with rfl | hx
    · simp
    · have h := ih (x / 2) (by omega) (y / 2)
      have e1 : x &&& y = 2 * (x / 2 &&& y / 2) + (x % 2 &&& y % 2) := by
        apply Nat.eq_of_testBit_eq
        intro i
        cases i with
        | zero =>
          simp only [Nat.testBit_and, Nat.testBit_zero]
          rcases Nat.mod_two_eq_zero_or_one x with h1 | h1 <;>
          rcases Nat.mod_two_eq_zero_or_one y with h2 | h2 <;> simp [h1, h2, Nat.add_mod]
        | succ i =>
          rw [Nat.testBit_and, Nat.testBit_succ, Nat.testBit_succ, Nat.testBit_succ]
          have : (2 * (x / 2 &&& y / 2) + (x % 2 &&& y % 2)) / 2 = (x / 2 &&& y / 2) := by
            rcases Nat.mod_two_eq_zero_or_one x with h1 | h1 <;>
            rcases Nat.mod_two_eq_zero_or_one y with h2 | h2 <;> simp [h1, h2] <;> omega
          rw [this, Nat.testBit_and]
      have e2 : x ^^^ y = 2 * (x / 2 ^^^ y / 2) + (x % 2 ^^^ y % 2) := by
        apply Nat.eq_of_testBit_eq
        intro i
        cases i with
        | zero =>
          simp only [Nat.testBit_xor, Nat.testBit_zero]
          rcases Nat.mod_two_eq_zero_or_one x with h1 | h1 <;>
          rcases Nat.mod_two_eq_zero_or_one y with h2 | h2 <;> simp [h1, h2, Nat.add_mod]
        | succ i =>
          rw [Nat.testBit_xor, Nat.testBit_succ, Nat.testBit_succ, Nat.testBit_succ]
          have : (2 * (x / 2 ^^^ y / 2) + (x % 2 ^^^ y % 2)) / 2 = (x / 2 ^^^ y / 2) := by
            rcases Nat.mod_two_eq_zero_or_one x with h1 | h1 <;>
            rcases Nat.mod_two_eq_zero_or_one y with h2 | h2 <;> simp [h1, h2] <;> omega
          rw [this, Nat.testBit_xor]
      have e3 : 2 * (x % 2 &&& y % 2) + (x % 2 ^^^ y % 2) = x % 2 + y % 2 := by
        rcases Nat.mod_two_eq_zero_or_one x with h1 | h1 <;>
        rcases Nat.mod_two_eq_zero_or_one y with h2 | h2 <;> simp [h1, h2]
      omega

theorem average_toNat (a b : U256) : (average a b).toNat = (a.toNat + b.toNat) / 2 := by
  unfold average
  have h := and_add_xor a.toNat b.toNat
  have ha := a.isLt
  have hb := b.isLt
  have hsh : ((a ^^^ b) >>> 1).toNat = (a.toNat ^^^ b.toNat) / 2 := by
    rw [BitVec.toNat_ushiftRight, BitVec.toNat_xor, Nat.shiftRight_eq_div_pow]
  rw [toNat_add_of_lt, hsh, BitVec.toNat_and]
  · omega
  · rw [hsh, BitVec.toNat_and]; omega

end Verif.Math
