import Verif.Proofs.Limb
/-!
# C60: limb arithmetic

Every statement is about the integers: `toNat` of a limb is its unsigned value.
-/

namespace Verif.Props.Limb
open Verif.Limb

/-- The full product of two limbs. -/
theorem C60_widening_mul (a b : L) : (wideningMul a b).toNat = a.toNat * b.toNat := wideningMul_toNat a b

/-- The multiplication written for wasm is the same function. -/
theorem C60_wasm_equals_native (a b : L) :
    wideningMulWasm a b = wideningMul a b ∧ (wideningMulWasm a b).toNat = a.toNat * b.toNat := by
  rw [wasm_eq]; exact ⟨rfl, wideningMul_toNat a b⟩

/-- `mac(a, b, c)`: `a + b·c` split into limb and carry. -/
theorem C60_mac (a b c : L) :
    (mac a b c).1.toNat + 2 ^ 64 * (mac a b c).2.toNat = a.toNat + b.toNat * c.toNat := mac_exact a b c

/-- `carrying_mac(a, b, c, carry)`: `a + b·c + carry` split into limb and carry. -/
theorem C60_carrying_mac (a b c k : L) :
    (carryingMac a b c k).1.toNat + 2 ^ 64 * (carryingMac a b c k).2.toNat =
      a.toNat + b.toNat * c.toNat + k.toNat := carryingMac_exact a b c k

/-- `adc(a, b, carry)`: `a + b + carry` split into limb and carry. -/
theorem C60_adc (a b k : L) :
    (adc a b k).1.toNat + 2 ^ 64 * (adc a b k).2.toNat = a.toNat + b.toNat + k.toNat := adc_exact a b k

/-- `adc_assign`. -/
theorem C60_adc_assign (a b : L) (k : Bool) :
    (adcAssign a b k).1.toNat + 2 ^ 64 * (adcAssign a b k).2.toNat = a.toNat + b.toNat + k.toNat := adcAssign_exact a b k

/-- `sbb(a, b, borrow)` with a borrow of 0 or 1 (all a borrow can be): `a - b - borrow`, with `2^64` borrowed
exactly when that is negative. -/
theorem C60_sbb (a b k : L) (hk : k.toNat ≤ 1) :
    (sbb a b k).1.toNat + b.toNat + k.toNat = a.toNat + 2 ^ 64 * (sbb a b k).2.toNat ∧
    (sbb a b k).2.toNat = (if a.toNat < b.toNat + k.toNat then 1 else 0) := by
  obtain ⟨h1, h2⟩ := sbb_exact a b k hk
  have := (sbb a b k).1.isLt
  have ha := a.isLt
  refine ⟨h1, ?_⟩
  split <;> omega

/-- `sbb_assign`. -/
theorem C60_sbb_assign (a b : L) (k : Bool) :
    (sbbAssign a b k).1.toNat + b.toNat + k.toNat = a.toNat + 2 ^ 64 * (sbbAssign a b k).2.toNat ∧
    (sbbAssign a b k).2 = decide (a.toNat < b.toNat + k.toNat) := by
  have h := sbbAssign_exact a b k
  have := (sbbAssign a b k).1.isLt
  have ha := a.isLt
  refine ⟨h, ?_⟩
  cases hb : (sbbAssign a b k).2
  · rw [hb, Bool.toNat_false] at h
    exact (decide_eq_false (by omega)).symm
  · rw [hb, Bool.toNat_true] at h
    exact (decide_eq_true (by omega)).symm

/-- The 128-bit intermediate sums never overflow (debug builds do not panic, release builds do not wrap), and the
subtraction in `sbb` never goes below zero. -/
theorem C60_no_overflow (a b c k : L) :
    a.toNat + b.toNat * c.toNat + k.toNat < 2 ^ 128 ∧ a.toNat + b.toNat + k.toNat < 2 ^ 128 ∧
    (k.toNat ≤ 1 → b.toNat + k.toNat ≤ 2 ^ 64 + a.toNat) ∧
    (a.toNat % 2 ^ 32) * (b.toNat / 2 ^ 32) < 2 ^ 64 ∧ (a.toNat / 2 ^ 32) * (b.toNat / 2 ^ 32) < 2 ^ 64 := by
  have h := mul_lt b c
  have ha := a.isLt
  have hb := b.isLt
  have hk := k.isLt
  refine ⟨by omega, by omega, by omega, ?_, ?_⟩
  · have h1 : a.toNat % 2 ^ 32 ≤ 2 ^ 32 - 1 := by omega
    have h2 : b.toNat / 2 ^ 32 ≤ 2 ^ 32 - 1 := by omega
    have := Nat.mul_le_mul h1 h2
    omega
  · have h1 : a.toNat / 2 ^ 32 ≤ 2 ^ 32 - 1 := by omega
    have h2 : b.toNat / 2 ^ 32 ≤ 2 ^ 32 - 1 := by omega
    have := Nat.mul_le_mul h1 h2
    omega

/-! Concrete cases: the largest operands. -/
example : carryingMac (-1) (-1) (-1) (-1) = (-1, -1) := by decide
example : mac (-1) (-1) (-1) = (0, -1) := by decide
example : adc (-1) (-1) (-1) = (-3, 2) := by decide
example : sbb 0 (-1) 1 = (0, 1) := by decide
example : sbb 5 3 1 = (1, 0) := by decide
example : (1 : L).toNat ≤ 1 := by decide
example : wideningMulWasm (-1) (-1) = 0xFFFFFFFFFFFFFFFE0000000000000001#128 := by decide

end Verif.Props.Limb
