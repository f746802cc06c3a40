import Verif.Proofs.Sqrt
import Verif.Proofs.Average
/-! # C27 mul_div, C28 sqrt, C29 average -/

namespace Verif.Props.Math
open Verif.Math

/-! ## C27 -/

theorem two_pow_512 : (2 : Nat) ^ 512 = 2 ^ 256 * 2 ^ 256 := by rw [← pow_add]

theorem widen_toNat (x : U256) : (widen x).toNat = x.toNat := by
  unfold widen
  rw [BitVec.toNat_setWidth]
  have := x.isLt
  exact Nat.mod_eq_of_lt (by rw [two_pow_512]; omega)

theorem mulDiv_eq (x y d : U256) (r : Rounding) :
    mulDiv x y d r =
      if d.toNat = 0 then .error .divisionByZero
      else
        let q := (x.toNat * y.toNat + (match r with | .floor => 0 | .ceil => d.toNat - 1)) / d.toNat
        if 2 ^ 256 ≤ q then .error .doesNotFit else .ok (BitVec.ofNat 256 q) := by
  have hx := x.isLt
  have hy := y.isLt
  have hd := d.isLt
  have hxy : x.toNat * y.toNat ≤ (2 ^ 256 - 1) * (2 ^ 256 - 1) :=
    Nat.mul_le_mul (by omega) (by omega)
  by_cases h0 : d.toNat = 0
  · have : d = 0#256 := by apply BitVec.eq_of_toNat_eq; simpa using h0
    subst this
    simp [mulDiv]
  · have h0' : d ≠ 0#256 := fun h => h0 (by rw [h]; rfl)
    have hmul : checkedMul (widen x) (widen y) = some (widen x * widen y) := by
      unfold checkedMul
      rw [if_pos]
      rw [widen_toNat, widen_toNat, two_pow_512]; omega
    have hprod : (widen x * widen y).toNat = x.toNat * y.toNat := by
      rw [BitVec.toNat_mul, widen_toNat, widen_toNat, Nat.mod_eq_of_lt (by rw [two_pow_512]; omega)]
    have h1 : (1#512).toNat = 1 := by
      rw [BitVec.toNat_ofNat]; exact Nat.mod_eq_of_lt (by rw [two_pow_512]; omega)
    have hdm : (widen d - 1#512).toNat = d.toNat - 1 := by
      rw [toNat_sub_of_ge, widen_toNat, h1]
      rw [widen_toNat, h1]; omega
    -- the common tail
    have tail : ∀ (p : BitVec 512), 
        (if widen maxU256 < p / widen d then (.error .doesNotFit : Except Panic U256)
          else .ok ((p / widen d).setWidth 256))
        = if 2 ^ 256 ≤ p.toNat / d.toNat then .error .doesNotFit
          else .ok (BitVec.ofNat 256 (p.toNat / d.toNat)) := by
      intro p
      have hq : (p / widen d).toNat = p.toNat / d.toNat := by rw [BitVec.toNat_udiv, widen_toNat]
      by_cases hc : 2 ^ 256 ≤ p.toNat / d.toNat
      · rw [if_pos hc, if_pos]
        rw [BitVec.lt_def, hq, widen_toNat, maxU256_toNat]; omega
      · rw [if_neg hc, if_neg]
        · refine congrArg Except.ok ?_
          apply BitVec.eq_of_toNat_eq
          rw [BitVec.toNat_setWidth, hq, BitVec.toNat_ofNat]
        · rw [BitVec.lt_def, hq, widen_toNat, maxU256_toNat]; omega
    unfold mulDiv
    cases r with
    | floor =>
      simp only [h0', if_false, hmul, orPanic_some, except_bind_ok, except_pure, except_throw, h0]
      have := tail (widen x * widen y)
      rw [hprod] at this
      simp only [Nat.add_zero]
      rw [← this]
      split <;> rfl
    | ceil =>
      have hadd : (widen x * widen y).toNat + (widen d - 1#512).toNat < 2 ^ 512 := by
        rw [hprod, hdm, two_pow_512]; omega
      have hadd' : checkedAdd (widen x * widen y) (widen d - 1#512)
          = some (widen x * widen y + (widen d - 1#512)) := by
        unfold checkedAdd; rw [if_pos hadd]
      have hs := toNat_add_of_lt hadd
      rw [hprod, hdm] at hs
      simp only [h0', if_false, hmul, orPanic_some, except_bind_ok, except_pure, except_throw, h0,
        hadd']
      have := tail (widen x * widen y + (widen d - 1#512))
      rw [hs] at this
      rw [← this]
      split <;> rfl

/-- **C27** Rounding down: the result, if any, is the integer `r` with `r*d ≤ x*y < (r+1)*d`. -/
theorem C27_floor (x y d r : U256) :
    mulDiv x y d .floor = .ok r ↔
      d.toNat ≠ 0 ∧ r.toNat * d.toNat ≤ x.toNat * y.toNat ∧
        x.toNat * y.toNat < (r.toNat + 1) * d.toNat := by
  rw [mulDiv_eq]
  by_cases h0 : d.toNat = 0
  · simp [h0]
  · have hpos : 0 < d.toNat := by omega
    simp only [h0, if_false, Nat.add_zero, ne_eq, not_false_eq_true, true_and]
    have key : (r.toNat * d.toNat ≤ x.toNat * y.toNat ∧
        x.toNat * y.toNat < (r.toNat + 1) * d.toNat) ↔ x.toNat * y.toNat / d.toNat = r.toNat := by
      rw [← Nat.le_div_iff_mul_le hpos, ← Nat.div_lt_iff_lt_mul hpos]; omega
    rw [key]
    have hr := r.isLt
    split
    · rename_i h; simp; omega
    · rename_i h
      simp only [Except.ok.injEq]
      constructor
      · rintro rfl; rw [BitVec.toNat_ofNat, Nat.mod_eq_of_lt (by omega)]
      · intro h; apply BitVec.eq_of_toNat_eq
        rw [BitVec.toNat_ofNat, Nat.mod_eq_of_lt (by omega), h]

theorem ceil_char {n d r : Nat} (hd : 0 < d) :
    (n + (d - 1)) / d = r ↔ n ≤ r * d ∧ ∀ q, n ≤ q * d → r ≤ q := by
  have hfits : ∀ q, n ≤ q * d ↔ (n + (d - 1)) / d ≤ q := by
    intro q
    have : (n + (d - 1)) / d ≤ q ↔ n + (d - 1) < (q + 1) * d := by
      rw [← Nat.div_lt_iff_lt_mul hd]; omega
    rw [this, Nat.add_mul]
    omega
  constructor
  · rintro rfl
    exact ⟨(hfits _).mpr le_rfl, fun q hq => (hfits q).mp hq⟩
  · rintro ⟨h1, h2⟩
    exact le_antisymm ((hfits r).mp h1) (h2 _ ((hfits _).mpr le_rfl))

/-- **C27** Rounding up: the result, if any, is the least `r` with `x*y ≤ r*d`. -/
theorem C27_ceil (x y d r : U256) :
    mulDiv x y d .ceil = .ok r ↔
      d.toNat ≠ 0 ∧ x.toNat * y.toNat ≤ r.toNat * d.toNat ∧
        ∀ q, x.toNat * y.toNat ≤ q * d.toNat → r.toNat ≤ q := by
  rw [mulDiv_eq]
  by_cases h0 : d.toNat = 0
  · simp [h0]
  · have hpos : 0 < d.toNat := by omega
    simp only [h0, if_false, ne_eq, not_false_eq_true, true_and]
    rw [← ceil_char hpos]
    have hr := r.isLt
    split
    · rename_i h; simp; omega
    · rename_i h
      simp only [Except.ok.injEq]
      constructor
      · rintro rfl; rw [BitVec.toNat_ofNat, Nat.mod_eq_of_lt (by omega)]
      · intro h; apply BitVec.eq_of_toNat_eq
        rw [BitVec.toNat_ofNat, Nat.mod_eq_of_lt (by omega), h]

/-- **C27** It panics exactly when the divisor is zero or the exact quotient does not fit; the two
internal 512-bit overflow checks never fire. -/
theorem C27_panics_iff (x y d : U256) (p : Panic) :
    (mulDiv x y d .floor = .error p ↔
      (p = .divisionByZero ∧ d.toNat = 0) ∨
      (p = .doesNotFit ∧ d.toNat ≠ 0 ∧ 2 ^ 256 * d.toNat ≤ x.toNat * y.toNat)) ∧
    (mulDiv x y d .ceil = .error p ↔
      (p = .divisionByZero ∧ d.toNat = 0) ∨
      (p = .doesNotFit ∧ d.toNat ≠ 0 ∧ (2 ^ 256 - 1) * d.toNat < x.toNat * y.toNat)) := by
  rw [mulDiv_eq, mulDiv_eq]
  by_cases h0 : d.toNat = 0
  · simp [h0, eq_comm]
  · have hpos : 0 < d.toNat := by omega
    have e1 : 2 ^ 256 ≤ x.toNat * y.toNat / d.toNat ↔ 2 ^ 256 * d.toNat ≤ x.toNat * y.toNat :=
      Nat.le_div_iff_mul_le hpos
    have e2 : 2 ^ 256 ≤ (x.toNat * y.toNat + (d.toNat - 1)) / d.toNat ↔
        (2 ^ 256 - 1) * d.toNat < x.toNat * y.toNat := by
      rw [Nat.le_div_iff_mul_le hpos, Nat.sub_mul]; omega
    simp only [h0, if_false, Nat.add_zero, and_false, false_or, not_false_eq_true, true_and, ne_eq,
      e1, e2]
    constructor
    · split
      · rename_i h; simp only [h, and_true, Except.error.injEq]; exact eq_comm
      · rename_i h; simp only [h, and_false, reduceCtorEq]
    · split
      · rename_i h; simp only [h, and_true, Except.error.injEq]; exact eq_comm
      · rename_i h; simp only [h, and_false, reduceCtorEq]

/-- A case needing more than 256 bits in the middle: `MAX * MAX / MAX = MAX`. -/
example : mulDiv maxU256 maxU256 maxU256 .floor = .ok maxU256 := by
  rw [C27_floor, maxU256_toNat]; decide
example : mulDiv 7#256 3#256 4#256 .ceil = .ok 6#256 := by decide +kernel
example : mulDiv maxU256 2#256 1#256 .floor = .error .doesNotFit := by
  rw [(C27_panics_iff _ _ _ _).1, maxU256_toNat]; decide

/-! ## C28 -/

/-- **C28** `sqrt` is the exact integer square root of every 256-bit number. -/
theorem C28_sqrt_exact (a : U256) :
    (sqrt a).toNat * (sqrt a).toNat ≤ a.toNat ∧
      a.toNat < ((sqrt a).toNat + 1) * ((sqrt a).toNat + 1) := by
  suffices h : (sqrt a).toNat = Nat.sqrt a.toNat by
    rw [h]; exact ⟨Nat.sqrt_le a.toNat, Nat.lt_succ_sqrt a.toNat⟩
  unfold sqrt
  by_cases h1 : a ≤ 1#256
  · rw [if_pos h1]
    have : a.toNat ≤ 1 := BitVec.le_def.mp h1
    rcases (by omega : a.toNat = 0 ∨ a.toNat = 1) with h | h <;> rw [h] <;> simp
  · rw [if_neg h1]
    have h2 : 2 ≤ a.toNat := by
      by_contra hc
      exact h1 (BitVec.le_def.mpr (show a.toNat ≤ 1 by omega))
    have hs1 : Nat.sqrt a.toNat * Nat.sqrt a.toNat ≤ a.toNat := Nat.sqrt_le a.toNat
    have hs2 : a.toNat < (Nat.sqrt a.toNat + 1) * (Nat.sqrt a.toNat + 1) := Nat.lt_succ_sqrt a.toNat
    obtain ⟨l, u⟩ := six_steps h2 hs1 hs2
    generalize newton a (newton a (newton a (newton a (newton a (newton a (sqrtInit a)))))) = y at *
    have hs0 : 0 < Nat.sqrt a.toNat := Nat.sqrt_pos.mpr (by omega)
    generalize Nat.sqrt a.toNat = s at *
    have hy : 0 < y.toNat := by omega
    have hdiv : (a / y).toNat = a.toNat / y.toNat := BitVec.toNat_udiv
    rcases (by omega : y.toNat = s ∨ y.toNat = s + 1) with h | h
    · have : ¬ (a / y < y) := by
        rw [BitVec.lt_def, hdiv, h, Nat.not_lt, Nat.le_div_iff_mul_le hs0]; exact hs1
      simp [this, h]
    · have : a / y < y := by
        rw [BitVec.lt_def, hdiv, h, Nat.div_lt_iff_lt_mul (by omega)]; exact hs2
      simp only [this, if_true]
      rw [toNat_sub_of_ge (by rw [h]; show 1 ≤ _; omega), h]; rfl

/-- **C28** Equivalent statement: the result is the largest integer whose square is at most `a`. -/
theorem C28_sqrt_largest (a : U256) (r : Nat) : r * r ≤ a.toNat ↔ r ≤ (sqrt a).toNat := by
  obtain ⟨h1, h2⟩ := C28_sqrt_exact a
  constructor
  · intro h
    by_contra hc
    have : ((sqrt a).toNat + 1) * ((sqrt a).toNat + 1) ≤ r * r := Nat.mul_le_mul (by omega) (by omega)
    omega
  · intro h
    exact le_trans (Nat.mul_le_mul h h) h1

/-- **C28** No division by zero and no overflow in any of the Newton steps (`a > 1`; step `i` divides by
the `i`-th iterate and adds the quotient to it). -/
theorem C28_no_overflow (a : U256) (ha : 2 ≤ a.toNat) (i : Nat) :
    let x := (newton a)^[i] (sqrtInit a)
    x ≠ 0#256 ∧ x.toNat + (a / x).toNat < 2 ^ 256 := by
  intro x
  obtain ⟨h1, h2, h3⟩ := iterate_bounds ha (Nat.sqrt_le a.toNat) (Nat.lt_succ_sqrt a.toNat) i
  refine ⟨?_, ?_⟩
  · intro h
    have : x.toNat = 0 := by rw [h]; rfl
    have : 0 < x.toNat := h1
    omega
  · rw [BitVec.toNat_udiv]
    have h2' : x.toNat ≤ 2 ^ 130 := h2
    have h3' : a.toNat / x.toNat ≤ 2 ^ 130 := h3
    omega

example : sqrt (99#256) = 9#256 ∧ sqrt (100#256) = 10#256 := by decide +kernel
example : sqrt maxU256 = BitVec.ofNat 256 (2 ^ 128 - 1) := by decide +kernel

/-! ## C29 -/

/-- **C29** `average` is the floor of the mean. -/
theorem C29_average (a b : U256) : (average a b).toNat = (a.toNat + b.toNat) / 2 :=
  average_toNat a b

example : average maxU256 (maxU256 - 2#256) = maxU256 - 1#256 := by decide +kernel

end Verif.Props.Math
