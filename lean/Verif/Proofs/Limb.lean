import Verif.Model.Limb
/-! # Exactness of the limb primitives -/

namespace Verif.Limb

theorem wide_toNat (a : L) : (wide a).toNat = a.toNat := by
  unfold wide
  rw [BitVec.toNat_setWidth, Nat.mod_eq_of_lt (Nat.lt_of_lt_of_le a.isLt (by decide))]

theorem low_toNat (a : W) : (low a).toNat = a.toNat % 2 ^ 64 := by
  unfold low; rw [BitVec.toNat_setWidth]

theorem high_toNat (a : W) : (high a).toNat = a.toNat / 2 ^ 64 := by
  unfold high
  rw [BitVec.toNat_setWidth, BitVec.toNat_ushiftRight, Nat.shiftRight_eq_div_pow]
  apply Nat.mod_eq_of_lt
  have := a.isLt
  exact Nat.div_lt_of_lt_mul (by rw [← Nat.pow_add]; exact this)

theorem split (a : W) : (low a).toNat + 2 ^ 64 * (high a).toNat = a.toNat := by
  rw [low_toNat, high_toNat]; exact Nat.mod_add_div _ _

theorem mul_lt (a b : L) : a.toNat * b.toNat ≤ (2 ^ 64 - 1) * (2 ^ 64 - 1) :=
  Nat.mul_le_mul (Nat.le_sub_one_of_lt a.isLt) (Nat.le_sub_one_of_lt b.isLt)

theorem wideningMul_toNat (a b : L) : (wideningMul a b).toNat = a.toNat * b.toNat := by
  unfold wideningMul
  rw [BitVec.toNat_mul, wide_toNat, wide_toNat]
  have := mul_lt a b
  exact Nat.mod_eq_of_lt (by omega)

theorem carryingMac_tmp (a b c k : L) :
    (wide a + wideningMul b c + wide k).toNat = a.toNat + b.toNat * c.toNat + k.toNat := by
  have := mul_lt b c
  have ha := a.isLt
  have hk := k.isLt
  rw [BitVec.toNat_add, BitVec.toNat_add, wide_toNat, wide_toNat, wideningMul_toNat]
  generalize b.toNat * c.toNat = m at *
  omega

theorem carryingMac_exact (a b c k : L) :
    (carryingMac a b c k).1.toNat + 2 ^ 64 * (carryingMac a b c k).2.toNat =
      a.toNat + b.toNat * c.toNat + k.toNat := by
  unfold carryingMac
  rw [split, carryingMac_tmp]

theorem mac_exact (a b c : L) :
    (mac a b c).1.toNat + 2 ^ 64 * (mac a b c).2.toNat = a.toNat + b.toNat * c.toNat := by
  have h : mac a b c = carryingMac a b c 0#64 := by
    unfold mac carryingMac
    have : wide 0#64 = 0#128 := by decide
    rw [this, BitVec.add_zero]
  rw [h, carryingMac_exact]
  simp

theorem adc_exact (a b k : L) :
    (adc a b k).1.toNat + 2 ^ 64 * (adc a b k).2.toNat = a.toNat + b.toNat + k.toNat := by
  unfold adc
  rw [split, BitVec.toNat_add, BitVec.toNat_add, wide_toNat, wide_toNat, wide_toNat]
  have ha := a.isLt
  have hb := b.isLt
  have hk := k.isLt
  omega

/-- A carry in as a number. -/
theorem adcAssign_exact (a b : L) (k : Bool) :
    (adcAssign a b k).1.toNat + 2 ^ 64 * (adcAssign a b k).2.toNat = a.toNat + b.toNat + k.toNat := by
  unfold adcAssign
  have ha := a.isLt
  have hb := b.isLt
  have ht : (wide a + wide b + (if k then 1#128 else 0#128)).toNat = a.toNat + b.toNat + k.toNat := by
    rw [BitVec.toNat_add, BitVec.toNat_add, wide_toNat, wide_toNat]
    cases k
    · simp; omega
    · simp; omega
  generalize (wide a + wide b + (if k then 1#128 else 0#128)) = t at *
  dsimp only
  rw [low_toNat]
  have hc : (t >>> 64 != 0#128).toNat = t.toNat / 2 ^ 64 := by
    have hk : k.toNat ≤ 1 := Bool.toNat_le k
    have e : (t >>> 64).toNat = t.toNat / 2 ^ 64 := by
      rw [BitVec.toNat_ushiftRight, Nat.shiftRight_eq_div_pow]
    have hle : t.toNat / 2 ^ 64 ≤ 1 := by omega
    by_cases h0 : t >>> 64 = 0#128
    · rw [h0] at e ⊢
      simp at e ⊢
      omega
    · have : (t >>> 64).toNat ≠ 0 := fun h => h0 (BitVec.eq_of_toNat_eq (by rw [h]; rfl))
      rw [show (t >>> 64 != 0#128) = true from by simpa using h0]
      simp
      omega
  rw [hc, ← ht]
  exact Nat.mod_add_div _ _

theorem sbb_exact (a b k : L) (hk : k.toNat ≤ 1) :
    (sbb a b k).1.toNat + b.toNat + k.toNat = a.toNat + 2 ^ 64 * (sbb a b k).2.toNat ∧ (sbb a b k).2.toNat ≤ 1 := by
  unfold sbb
  have ha := a.isLt
  have hb := b.isLt
  have hp : (1#128 <<< 64).toNat = 2 ^ 64 := by decide
  have h1 : ((1#128 <<< 64) + wide a - wide b - wide k).toNat = 2 ^ 64 + a.toNat - b.toNat - k.toNat := by
    rw [BitVec.toNat_sub, BitVec.toNat_sub, BitVec.toNat_add, wide_toNat, wide_toNat, wide_toNat, hp]
    omega
  dsimp only
  generalize ((1#128 <<< 64) + wide a - wide b - wide k) = t at *
  rw [low_toNat]
  have e : (t >>> 64).toNat = t.toNat / 2 ^ 64 := by
    rw [BitVec.toNat_ushiftRight, Nat.shiftRight_eq_div_pow]
  by_cases h0 : t >>> 64 = 0#128
  · rw [if_pos h0]
    rw [h0] at e
    have e1 : (1#64).toNat = 1 := rfl
    have e0 : (0#128).toNat = 0 := rfl
    rw [e0] at e
    rw [e1]
    omega
  · rw [if_neg h0]
    have : (t >>> 64).toNat ≠ 0 := fun h => h0 (BitVec.eq_of_toNat_eq (by rw [h]; rfl))
    have e0 : (0#64).toNat = 0 := rfl
    rw [e0]
    omega

theorem overflowingSub_exact (a b : L) :
    (overflowingSub a b).1.toNat + b.toNat = a.toNat + 2 ^ 64 * (overflowingSub a b).2.toNat := by
  unfold overflowingSub
  have ha := a.isLt
  have hb := b.isLt
  dsimp only
  rw [BitVec.toNat_sub]
  by_cases h : a < b
  · rw [BitVec.lt_def] at h
    rw [decide_eq_true (by rw [BitVec.lt_def]; exact h)]
    simp
    omega
  · rw [decide_eq_false h]
    rw [BitVec.lt_def] at h
    simp
    omega

theorem sbbAssign_exact (a b : L) (k : Bool) :
    (sbbAssign a b k).1.toNat + b.toNat + k.toNat = a.toNat + 2 ^ 64 * (sbbAssign a b k).2.toNat := by
  unfold sbbAssign
  dsimp only
  have h1 := overflowingSub_exact a b
  have h2 := overflowingSub_exact (overflowingSub a b).1 (if k then 1#64 else 0#64)
  have hk : (if k then 1#64 else 0#64).toNat = k.toNat := by cases k <;> rfl
  rw [hk] at h2
  have hl := (overflowingSub (overflowingSub a b).1 (if k then 1#64 else 0#64)).1.isLt
  have ha := a.isLt
  have hb := b.isLt
  have hk1 : k.toNat ≤ 1 := Bool.toNat_le k
  cases hx : (overflowingSub a b).2 <;>
    cases hy : (overflowingSub (overflowingSub a b).1 (if k then 1#64 else 0#64)).2 <;>
    rw [hx] at h1 <;> rw [hy] at h2 <;> simp only [Bool.toNat_true, Bool.toNat_false, Bool.or_true, Bool.or_false] at h1 h2 ⊢ <;> omega

theorem or_eq_add (x y : W) (hx : x.toNat < 2 ^ 64) : (x ||| (y <<< 64)).toNat = x.toNat + (y <<< 64).toNat := by
  rw [BitVec.toNat_or, BitVec.toNat_shiftLeft, Nat.shiftLeft_eq]
  have e : y.toNat * 2 ^ 64 % 2 ^ 128 = 2 ^ 64 * (y.toNat % 2 ^ 64) := by omega
  rw [e, Nat.or_comm, ← Nat.two_pow_add_eq_or_of_lt hx]
  omega

theorem wasm_eq (a b : L) : wideningMulWasm a b = wideningMul a b := by
  apply BitVec.eq_of_toNat_eq
  rw [wideningMul_toNat]
  unfold wideningMulWasm
  dsimp only
  have ea : ((a.setWidth 32).setWidth 64 : L).toNat = a.toNat % 2 ^ 32 := by
    rw [BitVec.toNat_setWidth, BitVec.toNat_setWidth]
    omega
  have eb : ((b.setWidth 32).setWidth 64 : L).toNat = b.toNat % 2 ^ 32 := by
    rw [BitVec.toNat_setWidth, BitVec.toNat_setWidth]
    omega
  have ea' : (a >>> 32).toNat = a.toNat / 2 ^ 32 := by
    rw [BitVec.toNat_ushiftRight, Nat.shiftRight_eq_div_pow]
  have eb' : (b >>> 32).toNat = b.toNat / 2 ^ 32 := by
    rw [BitVec.toNat_ushiftRight, Nat.shiftRight_eq_div_pow]
  have ha := a.isLt
  have hb := b.isLt
  have l1 : a.toNat % 2 ^ 32 < 2 ^ 32 := Nat.mod_lt _ (by decide)
  have l2 : b.toNat % 2 ^ 32 < 2 ^ 32 := Nat.mod_lt _ (by decide)
  have l3 : a.toNat / 2 ^ 32 < 2 ^ 32 := by omega
  have l4 : b.toNat / 2 ^ 32 < 2 ^ 32 := by omega
  have mul64 : ∀ {x y : L} {m n : Nat}, x.toNat = m → y.toNat = n → m < 2 ^ 32 → n < 2 ^ 32 →
      (wide (x * y)).toNat = m * n ∧ m * n ≤ (2 ^ 32 - 1) * (2 ^ 32 - 1) := by
    intro x y m n hx hy hm hn
    have hle : m * n ≤ (2 ^ 32 - 1) * (2 ^ 32 - 1) := Nat.mul_le_mul (by omega) (by omega)
    rw [wide_toNat, BitVec.toNat_mul, hx, hy, Nat.mod_eq_of_lt (by omega)]
    exact ⟨rfl, hle⟩
  obtain ⟨m1, b1⟩ := mul64 ea eb l1 l2
  obtain ⟨m2, b2⟩ := mul64 ea eb' l1 l4
  obtain ⟨m3, b3⟩ := mul64 ea' eb l3 l2
  obtain ⟨m4, b4⟩ := mul64 ea' eb' l3 l4
  have sh : ∀ (y : W) (n : Nat), (y <<< n).toNat = y.toNat * 2 ^ n % 2 ^ 128 := by
    intro y n; rw [BitVec.toNat_shiftLeft, Nat.shiftLeft_eq]
  have e1 : a.toNat = a.toNat % 2 ^ 32 + 2 ^ 32 * (a.toNat / 2 ^ 32) := (Nat.mod_add_div _ _).symm
  have e2 : b.toNat = b.toNat % 2 ^ 32 + 2 ^ 32 * (b.toNat / 2 ^ 32) := (Nat.mod_add_div _ _).symm
  have expand : a.toNat * b.toNat = (a.toNat % 2 ^ 32) * (b.toNat % 2 ^ 32) +
      2 ^ 32 * ((a.toNat % 2 ^ 32) * (b.toNat / 2 ^ 32)) + 2 ^ 32 * ((a.toNat / 2 ^ 32) * (b.toNat % 2 ^ 32)) +
      2 ^ 64 * ((a.toNat / 2 ^ 32) * (b.toNat / 2 ^ 32)) := by
    conv_lhs => rw [e1, e2]
    ring
  rw [BitVec.toNat_add, BitVec.toNat_add, or_eq_add _ _ (by rw [m1]; omega), sh, sh, sh, m1, m2, m3, m4, expand]
  generalize (a.toNat % 2 ^ 32) * (b.toNat % 2 ^ 32) = p1 at *
  generalize (a.toNat % 2 ^ 32) * (b.toNat / 2 ^ 32) = p2 at *
  generalize (a.toNat / 2 ^ 32) * (b.toNat % 2 ^ 32) = p3 at *
  generalize (a.toNat / 2 ^ 32) * (b.toNat / 2 ^ 32) = p4 at *
  have hprod := mul_lt a b
  rw [expand] at hprod
  omega

end Verif.Limb
