import Verif.Spec.Fp
import Verif.Proofs.UintText
import Mathlib.Data.ZMod.Basic
import Mathlib.FieldTheory.Finite.Basic
import Mathlib.NumberTheory.LegendreSymbol.Basic
/-! # Lemmas about Montgomery arithmetic -/

namespace Verif.Fp
open Verif.Limb Verif.Uint
open Verif.Spec.Uint Verif.Spec.Fp

variable {N : Nat} {P : FpParams N}

/-! ## Loops over permuted indices -/

theorem scanIx {κ : Type} (ix : Nat → Nat) (F : Nat → L → κ → L × κ) (G : Nat → L → ℤ) (w : κ → ℤ)
    (hF : ∀ j x k, ((F j x k).1.toNat : ℤ) + 2 ^ 64 * w (F j x k).2 = G j x + w k)
    (T : Arr) (c : κ) (n : Nat) (hix : ∀ i j, i < n → j < n → ix i = ix j → i = j) :
    let r := forLoop n (T, c) (fun j s => (upd s.1 (ix j) (F j (s.1 (ix j)) s.2).1, (F j (s.1 (ix j)) s.2).2))
    S n (fun j => ((r.1 (ix j)).toNat : ℤ)) + 2 ^ (64 * n) * w r.2 = S n (fun j => G j (T (ix j))) + w c ∧
    (∀ k, (∀ j, j < n → ix j ≠ k) → r.1 k = T k) := by
  induction n with
  | zero => simp [forLoop, S_zero]
  | succ n ih =>
    have ih := ih fun i j hi hj => hix i j (by omega) (by omega)
    dsimp only at ih ⊢
    rw [forLoop]
    generalize forLoop n (T, c) (fun j s => (upd s.1 (ix j) (F j (s.1 (ix j)) s.2).1, (F j (s.1 (ix j)) s.2).2)) = r at *
    obtain ⟨h1, h2⟩ := ih
    have hT : r.1 (ix n) = T (ix n) := h2 _ fun j hj e => by
      have := hix j n (by omega) (by omega) e; omega
    have e1 := hF n (r.1 (ix n)) r.2
    dsimp only
    refine ⟨?_, fun k hk => ?_⟩
    · rw [S_succ, S_succ, upd_same]
      have hcong : S n (fun j => ((upd r.1 (ix n) (F n (r.1 (ix n)) r.2).1 (ix j)).toNat : ℤ)) =
          S n (fun j => ((r.1 (ix j)).toNat : ℤ)) :=
        S_congr fun i hi => by
          rw [upd_ne _ _ (fun e => by have := hix i n (by omega) (by omega) e; omega)]
      rw [hcong]
      have hp : (2 : ℤ) ^ (64 * (n + 1)) = 2 ^ 64 * 2 ^ (64 * n) := by
        rw [Nat.mul_add, Nat.mul_one, pow_add, mul_comm]
      rw [hp]
      rw [hT] at e1 ⊢
      linear_combination h1 + 2 ^ (64 * n) * e1
    · rw [upd_ne _ _ (fun e => hk n (by omega) e.symm)]
      exact h2 k fun j hj => hk j (by omega)

/-! ## `INV` -/

theorem inv_loop (m : L) (k : Nat) :
    (forLoop k 1#64 fun _ x => (x * x) * m).toNat ≡ m.toNat ^ (2 ^ k - 1) [MOD 2 ^ 64] := by
  induction k with
  | zero => exact Nat.ModEq.refl _
  | succ k ih =>
    rw [forLoop]
    generalize (forLoop k 1#64 fun _ x => (x * x) * m) = x at *
    have h1 : ((x * x) * m).toNat ≡ x.toNat * x.toNat * m.toNat [MOD 2 ^ 64] := by
      rw [BitVec.toNat_mul, BitVec.toNat_mul]
      exact (Nat.mod_modEq _ _).trans ((Nat.mod_modEq _ _).mul_right _)
    have h2 : x.toNat * x.toNat * m.toNat ≡ m.toNat ^ (2 ^ k - 1) * m.toNat ^ (2 ^ k - 1) * m.toNat [MOD 2 ^ 64] :=
      (ih.mul ih).mul_right _
    have h3 : m.toNat ^ (2 ^ k - 1) * m.toNat ^ (2 ^ k - 1) * m.toNat = m.toNat ^ (2 ^ (k + 1) - 1) := by
      rw [← Nat.pow_add, ← Nat.pow_succ]
      congr 1
      have := Nat.one_le_two_pow (n := k)
      rw [Nat.pow_succ]
      omega
    rw [← h3]
    exact h1.trans h2

theorem odd_pow (m : Nat) (hm : m % 2 = 1) (k : Nat) : m ^ (2 ^ k) ≡ 1 [MOD 2 ^ (k + 1)] := by
  have hc : Nat.Coprime m (2 ^ (k + 1)) := by
    apply Nat.Coprime.pow_right
    exact Nat.coprime_two_right.mpr (Nat.odd_iff.mpr hm)
  have h := Nat.ModEq.pow_totient hc
  rw [Nat.totient_prime_pow_succ Nat.prime_two] at h
  simpa using h

theorem inv_spec (hP : Valid P) : P.inv.toNat * (P.modulus.get 0).toNat + 1 ≡ 0 [MOD 2 ^ 64] := by
  have hodd : (P.modulus.get 0).toNat % 2 = 1 := by
    rw [← value_mod_two hP.1, ← val_eq]; exact hP.2.1
  have h1 := inv_loop (P.modulus.get 0) 63
  unfold FpParams.inv
  generalize P.modulus.get 0 = m at *
  generalize (forLoop 63 1#64 fun _ x => (x * x) * m) = x at *
  have h2 : x.toNat * m.toNat ≡ 1 [MOD 2 ^ 64] := by
    refine (h1.mul_right _).trans ?_
    rw [← Nat.pow_succ]
    have : (2 ^ 63 - 1).succ = 2 ^ 63 := by norm_num
    rw [this]
    exact odd_pow m.toNat hodd 63
  have h3 : (-x).toNat + x.toNat ≡ 0 [MOD 2 ^ 64] := by
    have : (-x + x) = 0#64 := by rw [BitVec.add_comm, ← BitVec.sub_eq_add_neg, BitVec.sub_self]
    have h := congrArg BitVec.toNat this
    rw [BitVec.toNat_add] at h
    exact h
  have h4 : ((-x).toNat + x.toNat) * m.toNat ≡ 0 * m.toNat [MOD 2 ^ 64] := h3.mul_right _
  rw [Nat.add_mul, Nat.zero_mul] at h4
  exact (Nat.ModEq.add_left _ h2.symm).trans h4

/-- The multiple of the modulus added in a round clears the low limb. -/
theorem clear_low (hP : Valid P) (x : L) :
    x.toNat + (x * P.inv).toNat * (P.modulus.get 0).toNat = 2 ^ 64 * (mac x (x * P.inv) (P.modulus.get 0)).2.toNat := by
  have h := mac_exact x (x * P.inv) (P.modulus.get 0)
  have h1 : x.toNat + (x * P.inv).toNat * (P.modulus.get 0).toNat ≡ 0 [MOD 2 ^ 64] := by
    have h2 : (x * P.inv).toNat ≡ x.toNat * P.inv.toNat [MOD 2 ^ 64] := by
      rw [BitVec.toNat_mul]; exact Nat.mod_modEq _ _
    have h3 := (inv_spec hP).mul_left x.toNat
    refine ((h2.mul_right _).add_left _).trans ?_
    rw [show x.toNat + x.toNat * P.inv.toNat * (P.modulus.get 0).toNat = x.toNat * (P.inv.toNat * (P.modulus.get 0).toNat + 1) by ring]
    exact h3
  rw [← h] at h1 ⊢
  have hl := (mac x (x * P.inv) (P.modulus.get 0)).1.isLt
  have h5 : (mac x (x * P.inv) (P.modulus.get 0)).1.toNat = 0 := by
    have h6 : ((mac x (x * P.inv) (P.modulus.get 0)).1.toNat + 2 ^ 64 * (mac x (x * P.inv) (P.modulus.get 0)).2.toNat) % 2 ^ 64 = 0 := h1
    rw [Nat.add_mul_mod_self_left, Nat.mod_eq_of_lt hl] at h6
    exact h6
  omega

/-! ## Montgomery reduction of a wide number -/

/-- One row on a single array. -/
def redT (P : FpParams N) (i : Nat) (T : Arr) : Arr × L :=
  forLoop (N - 1) (T, (mac (T i) (T i * P.inv) (P.modulus.get 0)).2) fun j s =>
    (upd s.1 (i + 1 + j) (carryingMac (s.1 (i + 1 + j)) (T i * P.inv) (P.modulus.get (j + 1)) s.2).1,
      (carryingMac (s.1 (i + 1 + j)) (T i * P.inv) (P.modulus.get (j + 1)) s.2).2)

theorem value_one_split {n : Nat} (hn : 0 < n) (f : Arr) :
    value n f = (f 0).toNat + 2 ^ 64 * value (n - 1) (fun j => f (j + 1)) := by
  obtain ⟨m, rfl⟩ : ∃ m, n = 1 + m := ⟨n - 1, by omega⟩
  rw [value_split]
  have h : value 1 f = (f 0).toNat := by rw [value_succ, value_zero]; simp
  rw [h, Nat.add_sub_cancel_left, Nat.mul_one]
  congr 2
  exact value_congr fun i _ => by rw [Nat.add_comm]

theorem redT_exact (hP : Valid P) (i : Nat) (T : Arr) :
    2 ^ 64 * value (N - 1) (fun j => (redT P i T).1 (i + 1 + j)) + 2 ^ (64 * N) * (redT P i T).2.toNat =
      value N (fun j => T (i + j)) + (T i * P.inv).toNat * order P ∧
    ∀ k, k ≤ i ∨ i + N ≤ k → (redT P i T).1 k = T k := by
  have hN := hP.1
  have h := scan (fun j y k => carryingMac y (T i * P.inv) (P.modulus.get (j + 1)) k)
    (fun j y => (y.toNat : ℤ) + (T i * P.inv).toNat * (P.modulus.get (j + 1)).toNat) (fun k => (k.toNat : ℤ)) (fun _ => True)
    (fun j y k _ => ⟨by exact_mod_cast carryingMac_exact y (T i * P.inv) (P.modulus.get (j + 1)) k, trivial⟩) (i + 1) T
    (mac (T i) (T i * P.inv) (P.modulus.get 0)).2 trivial (N - 1)
  dsimp only at h
  obtain ⟨h1, h2, -⟩ := h
  refine ⟨?_, fun k hk => h2 k (by omega)⟩
  have hc := clear_low hP (T i)
  rw [S_add, S_mul] at h1
  have g1 := value_cast (N - 1) (fun j => (redT P i T).1 (i + 1 + j))
  have g2 := value_cast (N - 1) (fun j => T (i + 1 + j))
  have g3 := value_cast (N - 1) (fun j => P.modulus.get (j + 1))
  have e1 : value N (fun j => T (i + j)) = (T i).toNat + 2 ^ 64 * value (N - 1) (fun j => T (i + 1 + j)) := by
    rw [value_one_split hN, Nat.add_zero]
    congr 2
    exact value_congr fun j _ => by rw [show i + (j + 1) = i + 1 + j by omega]
  have e2 : order P = (P.modulus.get 0).toNat + 2 ^ 64 * value (N - 1) (fun j => P.modulus.get (j + 1)) := by
    unfold order; rw [val_eq, value_one_split hN]
  have e3 : (2 : ℤ) ^ (64 * N) = 2 ^ 64 * 2 ^ (64 * (N - 1)) := by
    rw [← pow_add]; congr 1; omega
  rw [e1, e2]
  zify at hc ⊢
  rw [g1, g2, g3, e3]
  have h1' : S (N - 1) (fun j => (((redT P i T).1 (i + 1 + j)).toNat : ℤ)) + 2 ^ (64 * (N - 1)) * ((redT P i T).2.toNat : ℤ) =
    S (N - 1) (fun j => ((T (i + 1 + j)).toNat : ℤ)) + ((T i * P.inv).toNat : ℤ) * S (N - 1) (fun j => ((P.modulus.get (j + 1)).toNat : ℤ)) +
      ((mac (T i) (T i * P.inv) (P.modulus.get 0)).2.toNat : ℤ) := h1
  linear_combination 2 ^ 64 * h1' - hc

theorem redRow_sim (i : Nat) (hi : i < N) (s : RedState) :
    cat N (redRow P i s).lo (redRow P i s).hi = (redT P i (cat N s.lo s.hi)).1 ∧
    (redRow P i s).carry = (redT P i (cat N s.lo s.hi)).2 := by
  unfold redRow redT
  dsimp only
  rw [cat_lo hi]
  apply forLoop_sim (R := fun (s : MulState) (t : Arr × L) => cat N s.lo s.hi = t.1 ∧ s.carry = t.2)
  · rintro j s ⟨T, c⟩ _ ⟨h1, h2⟩
    dsimp only at h1 h2 ⊢
    have hidx : i + (j + 1) = i + 1 + j := by omega
    rw [hidx]
    by_cases hk : N ≤ i + 1 + j
    · rw [if_pos hk]
      dsimp only
      rw [cat_upd_hi hk, ← h1, ← h2, cat_hi hk]
      exact ⟨rfl, rfl⟩
    · rw [if_neg hk]
      dsimp only
      rw [cat_upd_lo (by omega), ← h1, ← h2, cat_lo (by omega)]
      exact ⟨rfl, rfl⟩
  · exact ⟨rfl, rfl⟩

theorem wideningReduction_exact (hP : Valid P) (lo hi : Uint N) :
    ∃ (c : L) (M : Nat), (wideningReduction P lo hi).1 = (c != 0#64) ∧ M < 2 ^ (64 * N) ∧
      2 ^ (64 * N) * (val (wideningReduction P lo hi).2 + 2 ^ (64 * N) * c.toNat) =
        val lo + 2 ^ (64 * N) * val hi + M * order P := by
  have hN := hP.1
  have key : ∀ n, n ≤ N →
      let r := forLoop n (RedState.mk lo.get hi.get 0#64) fun i s =>
        let t := redRow P i s
        let u := adc (t.hi i) t.carry s.carry2
        (⟨t.lo, upd t.hi i u.1, u.2⟩ : RedState)
      ∃ M, M < 2 ^ (64 * n) ∧
        2 ^ (64 * n) * (value (N + (N - n)) (fun j => cat N r.lo r.hi (n + j)) + 2 ^ (64 * N) * r.carry2.toNat) =
          val lo + 2 ^ (64 * N) * val hi + M * order P := by
    intro n
    induction n with
    | zero =>
      intro _
      refine ⟨0, by simp, ?_⟩
      simp only [forLoop, Nat.mul_zero, Nat.pow_zero, Nat.one_mul, Nat.zero_mul, Nat.add_zero, Nat.zero_add, Nat.sub_zero]
      rw [value_cat, val_eq lo, val_eq hi]
      simp
    | succ n ih =>
      intro hn
      obtain ⟨M, hM, ih⟩ := ih (by omega)
      dsimp only at ih ⊢
      rw [forLoop]
      generalize forLoop n (RedState.mk lo.get hi.get 0#64) (fun i s =>
        (⟨(redRow P i s).lo, upd (redRow P i s).hi i (adc ((redRow P i s).hi i) (redRow P i s).carry s.carry2).1,
          (adc ((redRow P i s).hi i) (redRow P i s).carry s.carry2).2⟩ : RedState)) = r at *
      dsimp only
      obtain ⟨s1, s2⟩ := redRow_sim (P := P) n (by omega) r
      obtain ⟨e1, e2⟩ := redT_exact hP n (cat N r.lo r.hi)
      have hhi : (redRow P n r).hi n = cat N r.lo r.hi (N + n) := by
        have : cat N (redRow P n r).lo (redRow P n r).hi (N + n) = (redRow P n r).hi n := by
          rw [cat_hi (by omega), Nat.add_sub_cancel_left]
        rw [← this, s1, e2 _ (Or.inr (by omega))]
      have hu : ∀ v, cat N (redRow P n r).lo (upd (redRow P n r).hi n v) = upd (redT P n (cat N r.lo r.hi)).1 (N + n) v := by
        intro v
        have := cat_upd_hi (N := N) (lo := (redRow P n r).lo) (hi := (redRow P n r).hi) (k := N + n) (v := v) (by omega)
        rw [Nat.add_sub_cancel_left] at this
        rw [this, s1]
      rw [hu, hhi, s2]
      have hadc := adc_exact (cat N r.lo r.hi (N + n)) (redT P n (cat N r.lo r.hi)).2 r.carry2
      generalize adc (cat N r.lo r.hi (N + n)) (redT P n (cat N r.lo r.hi)).2 r.carry2 = u at *
      generalize cat N r.lo r.hi = T at *
      generalize redT P n T = t at *
      generalize htmp : (T n * P.inv).toNat = tmp at *
      have htl : tmp < 2 ^ 64 := by rw [← htmp]; exact (T n * P.inv).isLt
      refine ⟨M + 2 ^ (64 * n) * tmp, ?_, ?_⟩
      · rw [pow_succ64]
        have : 2 ^ (64 * n) * (tmp + 1) ≤ 2 ^ (64 * n) * 2 ^ 64 := Nat.mul_le_mul_left _ htl
        rw [Nat.mul_add, Nat.mul_one] at this
        rw [Nat.mul_comm (2 ^ 64)]
        omega
      · -- the old array from `n`
        have a1 : value (N + (N - n)) (fun j => T (n + j)) =
            value N (fun j => T (n + j)) + 2 ^ (64 * N) * ((T (N + n)).toNat + 2 ^ 64 * value (N - n - 1) (fun j => T (N + n + 1 + j))) := by
          rw [value_split, value_one_split (by omega : 0 < N - n)]
          congr 2
          · congr 1
            · rw [Nat.add_zero, Nat.add_comm]
            · congr 1
              exact value_congr fun j _ => by rw [show n + (N + (j + 1)) = N + n + 1 + j by omega]
        -- the new array from `n + 1`
        have a2 : value (N + (N - (n + 1))) (fun j => upd t.1 (N + n) u.1 (n + 1 + j)) =
            value (N - 1) (fun j => t.1 (n + 1 + j)) + 2 ^ (64 * (N - 1)) * (u.1.toNat + 2 ^ 64 * value (N - n - 1) (fun j => T (N + n + 1 + j))) := by
          rw [show N + (N - (n + 1)) = (N - 1) + (N - n) by omega, value_split, value_one_split (by omega : 0 < N - n)]
          congr 1
          · exact value_congr fun j hj => upd_ne _ _ (by omega)
          · congr 2
            · rw [show n + 1 + (N - 1 + 0) = N + n by omega, upd_same]
            · congr 1
              refine value_congr fun j _ => ?_
              rw [show n + 1 + (N - 1 + (j + 1)) = N + n + 1 + j by omega, upd_ne _ _ (by omega)]
              exact e2 _ (Or.inr (by omega))
        rw [a1] at ih
        rw [a2, pow_succ64]
        have hB : 2 ^ (64 * N) = 2 ^ 64 * 2 ^ (64 * (N - 1)) := by
          rw [← Nat.pow_add]; congr 1; omega
        generalize value (N - n - 1) (fun j => T (N + n + 1 + j)) = Z at *
        generalize value (N - 1) (fun j => t.1 (n + 1 + j)) = X at *
        generalize value N (fun j => T (n + j)) = Y at *
        generalize 2 ^ (64 * n) = C at *
        generalize 2 ^ (64 * (N - 1)) = D at *
        generalize val lo + 2 ^ (64 * N) * val hi = W at *
        rw [hB] at e1 ih ⊢
        clear hB
        zify at e1 ih hadc ⊢
        linear_combination ih + C * e1 + C * (2 ^ 64 * D) * hadc
  obtain ⟨M, hM, h⟩ := key N (Nat.le_refl N)
  dsimp only at h
  unfold wideningReduction
  dsimp only
  generalize forLoop N (RedState.mk lo.get hi.get 0#64) (fun i s =>
        (⟨(redRow P i s).lo, upd (redRow P i s).hi i (adc ((redRow P i s).hi i) (redRow P i s).carry s.carry2).1,
          (adc ((redRow P i s).hi i) (redRow P i s).carry s.carry2).2⟩ : RedState)) = r at *
  refine ⟨r.carry2, M, rfl, hM, ?_⟩
  rw [Nat.sub_self, Nat.add_zero] at h
  have hv : value N (fun j => cat N r.lo r.hi (N + j)) = val (mk r.hi : Uint N) := by
    rw [val_mk]
    exact value_congr fun j _ => by rw [cat_hi (by omega), Nat.add_sub_cancel_left]
  rw [hv] at h
  exact h

/-! ## One conditional subtraction -/

theorem order_lt : order P < 2 ^ (64 * N) := val_lt P.modulus

theorem top_limb (hN : 0 < N) (a : Uint N) : a.get (N - 1) >>> 63 = 0#64 ↔ 2 * val a < 2 ^ (64 * N) := by
  have h : (a.get (N - 1) >>> 63).toNat = (a.get (N - 1)).toNat / 2 ^ 63 := by
    rw [BitVec.toNat_ushiftRight, Nat.shiftRight_eq_div_pow]
  have h1 : a.get (N - 1) >>> 63 = 0#64 ↔ (a.get (N - 1)).toNat < 2 ^ 63 := by
    constructor
    · intro e; rw [e] at h; simp at h; omega
    · intro e; apply BitVec.eq_of_toNat_eq; rw [h, Nat.div_eq_of_lt e]; rfl
  rw [h1]
  have hv : val a = value (N - 1) a.get + (a.get (N - 1)).toNat * 2 ^ (64 * (N - 1)) := by
    rw [val_eq]
    generalize a.get = f
    obtain ⟨m, rfl⟩ : ∃ m, N = m + 1 := ⟨N - 1, by omega⟩
    rw [value_succ]
    rfl
  have hl := value_lt (N - 1) a.get
  have hB : 2 ^ (64 * N) = 2 ^ 64 * 2 ^ (64 * (N - 1)) := by
    rw [← Nat.pow_add]; congr 1; omega
  rw [hv, hB]
  generalize 2 ^ (64 * (N - 1)) = D at *
  constructor
  · intro e
    have := Nat.mul_le_mul_right D (Nat.succ_le_of_lt e)
    rw [Nat.succ_mul] at this
    omega
  · intro e
    by_contra hc
    have := Nat.mul_le_mul_right D (Nat.not_lt.mp hc)
    omega

theorem spare_iff (hP : Valid P) : P.hasSpareBit = true ↔ 2 * order P < 2 ^ (64 * N) := by
  unfold FpParams.hasSpareBit
  rw [beq_iff_eq]
  exact top_limb hP.1 P.modulus

theorem wrappingSub_val {a b : Uint N} {k : Bool} (h : val b ≤ val a + 2 ^ (64 * N) * k.toNat)
    (h2 : val a + 2 ^ (64 * N) * k.toNat - val b < 2 ^ (64 * N)) :
    val (ctWrappingSub a b) = val a + 2 ^ (64 * N) * k.toNat - val b := by
  unfold ctWrappingSub
  have e := ctCheckedSub_exact a b
  have hl := val_lt (ctCheckedSub a b).1
  have ha := val_lt a
  have hb := val_lt b
  cases k <;> cases hc : (ctCheckedSub a b).2 <;> rw [hc] at e <;> simp at * <;> omega

theorem reduceOnce_val (hP : Valid P) (a : Fp P) (c : Bool) (h : val a.mont + 2 ^ (64 * N) * c.toNat < 2 * order P) :
    val (reduceOnce a c).mont = (val a.mont + 2 ^ (64 * N) * c.toNat) % order P ∧ Reduced (reduceOnce a c) := by
  have hp := hP.2.2
  have hol := order_lt (P := P)
  have goal : val (reduceOnce a c).mont = (val a.mont + 2 ^ (64 * N) * c.toNat) % order P := by
    have hge : isGeModulus a = decide (order P ≤ val a.mont) := ctGe_iff
    have hsub : order P ≤ val a.mont + 2 ^ (64 * N) * c.toNat →
        val (ctWrappingSub a.mont P.modulus) = (val a.mont + 2 ^ (64 * N) * c.toNat) % order P := by
      intro hle
      rw [wrappingSub_val (k := c) hle (by unfold order at *; omega), Nat.mod_eq_sub_mod hle, Nat.mod_eq_of_lt (by omega)]
      rfl
    unfold reduceOnce
    by_cases hs : P.hasSpareBit = true
    · rw [if_pos hs]
      have hsp := (spare_iff hP).mp hs
      have hc : c = false := by
        cases c
        · rfl
        · rw [Bool.toNat_true] at h; omega
      subst hc
      unfold subtractModulus
      rw [hge]
      by_cases hle : order P ≤ val a.mont
      · rw [decide_eq_true hle, if_pos rfl]
        exact hsub (by omega)
      · rw [decide_eq_false hle, if_neg (by decide)]
        simp only [Bool.toNat_false, Nat.mul_zero, Nat.add_zero]
        rw [Nat.mod_eq_of_lt (by omega)]
    · rw [if_neg hs]
      unfold carryingSubModulus
      rw [hge]
      cases c
      · rw [Bool.false_or]
        by_cases hle : order P ≤ val a.mont
        · rw [decide_eq_true hle, if_pos rfl]
          exact hsub (by omega)
        · rw [decide_eq_false hle, if_neg (by decide)]
          simp only [Bool.toNat_false, Nat.mul_zero, Nat.add_zero]
          rw [Nat.mod_eq_of_lt (by omega)]
      · rw [Bool.true_or, if_pos rfl]
        exact hsub (by rw [Bool.toNat_true]; omega)
  refine ⟨goal, ?_⟩
  unfold Reduced
  rw [goal]
  exact Nat.mod_lt _ (by omega)

/-! ## Operations on Montgomery forms -/

theorem add_mont (hP : Valid P) {a b : Fp P} (ha : Reduced a) (hb : Reduced b) :
    val (add a b).mont = (val a.mont + val b.mont) % order P ∧ Reduced (add a b) := by
  unfold Reduced at ha hb
  have e := checkedAddAssign_exact a.mont b.mont
  have h := reduceOnce_val hP (⟨(checkedAddAssign a.mont b.mont).1⟩ : Fp P) (checkedAddAssign a.mont b.mont).2 (by dsimp only; omega)
  dsimp only at h
  rw [e] at h
  exact h

theorem double_mont (hP : Valid P) {a : Fp P} (ha : Reduced a) :
    val (double a).mont = (2 * val a.mont) % order P ∧ Reduced (double a) := by
  unfold Reduced at ha
  have e := checkedMul2_exact a.mont
  have h := reduceOnce_val hP (⟨(checkedMul2 a.mont).1⟩ : Fp P) (checkedMul2 a.mont).2 (by dsimp only; omega)
  dsimp only at h
  rw [e] at h
  exact h

theorem sub_mont (hP : Valid P) {a b : Fp P} (ha : Reduced a) (hb : Reduced b) :
    val (sub a b).mont = (val a.mont + order P - val b.mont) % order P ∧ Reduced (sub a b) := by
  unfold Reduced at *
  have hp := hP.2.2
  have hol := order_lt (P := P)
  have goal : val (sub a b).mont = (val a.mont + order P - val b.mont) % order P := by
    unfold sub
    dsimp only
    rw [cmp_eq]
    by_cases h : val a.mont < val b.mont
    · rw [if_pos (Nat.compare_eq_gt.mpr h)]
      have e := checkedAddAssign_exact a.mont P.modulus
      have e2 := checkedSubAssign_exact (checkedAddAssign a.mont P.modulus).1 b.mont
      have hl1 := val_lt (checkedAddAssign a.mont P.modulus).1
      have hl := val_lt (checkedSubAssign (checkedAddAssign a.mont P.modulus).1 b.mont).1
      rw [Nat.mod_eq_of_lt (by omega)]
      unfold order at *
      cases h1 : (checkedAddAssign a.mont P.modulus).2 <;> cases h2 : (checkedSubAssign (checkedAddAssign a.mont P.modulus).1 b.mont).2 <;>
        rw [h1] at e <;> rw [h2] at e2 <;> simp at e e2 <;> omega
    · rw [if_neg (fun e => h (Nat.compare_eq_gt.mp e)), subAssign_of_le (by omega),
        show val a.mont + order P - val b.mont = (val a.mont - val b.mont) + order P by omega, Nat.add_mod_right, Nat.mod_eq_of_lt (by omega)]
  rw [goal]
  exact ⟨rfl, Nat.mod_lt _ (by omega)⟩

theorem isZero_iff (a : Fp P) : isZero a = true ↔ val a.mont = 0 := by
  unfold isZero zero
  rw [decide_eq_true_iff]
  constructor
  · intro h; rw [h]; exact val_ZERO
  · intro h
    cases a with
    | mk m => rw [show m = Uint.ZERO from val_inj (h.trans val_ZERO.symm)]

theorem neg_mont (hP : Valid P) {a : Fp P} (ha : Reduced a) :
    val (neg a).mont = (order P - val a.mont) % order P ∧ Reduced (neg a) := by
  unfold Reduced at *
  have hp := hP.2.2
  have goal : val (neg a).mont = (order P - val a.mont) % order P := by
    unfold neg
    by_cases h : isZero a = true
    · rw [if_pos h, (isZero_iff a).mp h, Nat.sub_zero, Nat.mod_self]
    · rw [if_neg h]
      have hz : val a.mont ≠ 0 := fun e => h ((isZero_iff a).mpr e)
      rw [Nat.mod_eq_of_lt (by omega)]
      exact subAssign_of_le (by unfold order at *; omega)
  rw [goal]
  exact ⟨rfl, Nat.mod_lt _ (by omega)⟩

theorem mul_mont (hP : Valid P) {a b : Fp P} (h : val a.mont * val b.mont < order P * 2 ^ (64 * N)) :
    2 ^ (64 * N) * val (mul a b).mont ≡ val a.mont * val b.mont [MOD order P] ∧ Reduced (mul a b) := by
  have hw := ctWideningMul_exact a.mont b.mont
  obtain ⟨c, M, hc, hM, he⟩ := wideningReduction_exact hP (ctWideningMul a.mont b.mont).1 (ctWideningMul a.mont b.mont).2
  unfold mul
  dsimp only
  rw [hw] at he
  generalize wideningReduction P (ctWideningMul a.mont b.mont).1 (ctWideningMul a.mont b.mont).2 = r at *
  have hBpos : 0 < 2 ^ (64 * N) := Nat.two_pow_pos _
  have hol := order_lt (P := P)
  have hu : val r.2 + 2 ^ (64 * N) * c.toNat < 2 * order P := by
    have h1 : M * order P ≤ 2 ^ (64 * N) * order P := Nat.mul_le_mul_right _ (Nat.le_of_lt hM)
    have h2 : 2 ^ (64 * N) * (val r.2 + 2 ^ (64 * N) * c.toNat) < 2 ^ (64 * N) * (2 * order P) := by
      rw [he]
      have : 2 ^ (64 * N) * (2 * order P) = order P * 2 ^ (64 * N) + 2 ^ (64 * N) * order P := by ring
      omega
    exact Nat.lt_of_mul_lt_mul_left h2
  have hc1 : c.toNat ≤ 1 := by
    by_contra hn
    have : 2 ^ (64 * N) * 2 ≤ 2 ^ (64 * N) * c.toNat := Nat.mul_le_mul_left _ (by omega)
    omega
  have hcb : r.1.toNat = c.toNat := by rw [hc]; exact bool_ne_zero hc1
  obtain ⟨g1, g2⟩ := reduceOnce_val hP (⟨r.2⟩ : Fp P) r.1 (by dsimp only; rw [hcb]; exact hu)
  refine ⟨?_, g2⟩
  rw [g1]
  dsimp only
  rw [hcb]
  have : (val r.2 + 2 ^ (64 * N) * c.toNat) % order P ≡ val r.2 + 2 ^ (64 * N) * c.toNat [MOD order P] := Nat.mod_modEq _ _
  refine (this.mul_left _).trans ?_
  rw [he]
  have h0 : M * order P ≡ 0 [MOD order P] := (Nat.modEq_zero_iff_dvd).mpr (Dvd.intro_left _ rfl)
  simpa using h0.add_left (val a.mont * val b.mont)

theorem mul_lt_of_reduced_right {a b : Fp P} (hb : Reduced b) :
    val a.mont * val b.mont < order P * 2 ^ (64 * N) := by
  unfold Reduced at hb
  have ha := val_lt a.mont
  rw [Nat.mul_comm]
  exact Nat.mul_lt_mul_of_lt_of_le hb (Nat.le_of_lt ha) (by have := Nat.two_pow_pos (64 * N); omega)

/-! ## `into_bigint` -/

theorem intRow_exact (hP : Valid P) (i : Nat) (hi : i < N) (T : Arr) :
    2 ^ 64 * value (N - 1) (fun j => (intRow P i T).1 ((j + 1 + i) % N)) + 2 ^ (64 * N) * (intRow P i T).2.toNat =
      value N (fun j => T ((j + i) % N)) + (T i * P.inv).toNat * order P := by
  have hN := hP.1
  have h := scanIx (fun j => (j + 1 + i) % N) (fun j y k => carryingMac y (T i * P.inv) (P.modulus.get (j + 1)) k)
    (fun j y => (y.toNat : ℤ) + (T i * P.inv).toNat * (P.modulus.get (j + 1)).toNat) (fun k => (k.toNat : ℤ))
    (fun j y k => by exact_mod_cast carryingMac_exact y (T i * P.inv) (P.modulus.get (j + 1)) k) T
    (mac (T i) (T i * P.inv) (P.modulus.get 0)).2 (N - 1)
    (fun a b ha hb e => by
      have h1 : ∀ x, x < N → i < N → (x + i) % N = if x + i < N then x + i else x + i - N := by
        intro x hx hi
        split
        · exact Nat.mod_eq_of_lt ‹_›
        · rw [Nat.mod_eq_sub_mod (by omega), Nat.mod_eq_of_lt (by omega)]
      rw [h1 (a + 1) (by omega) hi, h1 (b + 1) (by omega) hi] at e
      split at e <;> split at e <;> omega)
  dsimp only at h
  obtain ⟨h1, -⟩ := h
  have hc := clear_low hP (T i)
  rw [S_add, S_mul] at h1
  have g1 := value_cast (N - 1) (fun j => (intRow P i T).1 ((j + 1 + i) % N))
  have g2 := value_cast (N - 1) (fun j => T ((j + 1 + i) % N))
  have g3 := value_cast (N - 1) (fun j => P.modulus.get (j + 1))
  have e1 : value N (fun j => T ((j + i) % N)) = (T i).toNat + 2 ^ 64 * value (N - 1) (fun j => T ((j + 1 + i) % N)) := by
    rw [value_one_split hN, Nat.zero_add, Nat.mod_eq_of_lt hi]
  have e2 : order P = (P.modulus.get 0).toNat + 2 ^ 64 * value (N - 1) (fun j => P.modulus.get (j + 1)) := by
    unfold order; rw [val_eq, value_one_split hN]
  have e3 : (2 : ℤ) ^ (64 * N) = 2 ^ 64 * 2 ^ (64 * (N - 1)) := by
    rw [← pow_add]; congr 1; omega
  rw [e1, e2]
  zify at hc ⊢
  rw [g1, g2, g3, e3]
  have h1' : S (N - 1) (fun j => (((intRow P i T).1 ((j + 1 + i) % N)).toNat : ℤ)) + 2 ^ (64 * (N - 1)) * ((intRow P i T).2.toNat : ℤ) =
    S (N - 1) (fun j => ((T ((j + 1 + i) % N)).toNat : ℤ)) + ((T i * P.inv).toNat : ℤ) * S (N - 1) (fun j => ((P.modulus.get (j + 1)).toNat : ℤ)) +
      ((mac (T i) (T i * P.inv) (P.modulus.get 0)).2.toNat : ℤ) := h1
  linear_combination 2 ^ 64 * h1' - hc

theorem intoBigint_exact (hP : Valid P) (a : Fp P) :
    ∃ M, M < 2 ^ (64 * N) ∧ 2 ^ (64 * N) * num a = val a.mont + M * order P := by
  have hN := hP.1
  have key : ∀ n, n ≤ N →
      ∃ M, M < 2 ^ (64 * n) ∧
        2 ^ (64 * n) * value N (fun j => (forLoop n a.mont.get fun i limbs =>
          upd (intRow P i limbs).1 (i % N) (intRow P i limbs).2) ((j + n) % N)) = val a.mont + M * order P := by
    intro n
    induction n with
    | zero =>
      intro _
      refine ⟨0, by simp, ?_⟩
      simp only [forLoop, Nat.mul_zero, Nat.pow_zero, Nat.one_mul, Nat.zero_mul, Nat.add_zero]
      rw [val_eq]
      exact value_congr fun j hj => by rw [Nat.mod_eq_of_lt hj]
    | succ n ih =>
      intro hn
      obtain ⟨M, hM, ih⟩ := ih (by omega)
      rw [forLoop]
      generalize (forLoop n a.mont.get fun i limbs => upd (intRow P i limbs).1 (i % N) (intRow P i limbs).2) = T at *
      have e1 := intRow_exact hP n (by omega) T
      generalize htmp : (T n * P.inv).toNat = tmp at *
      have htl : tmp < 2 ^ 64 := by rw [← htmp]; exact (T n * P.inv).isLt
      generalize intRow P n T = t at *
      refine ⟨M + 2 ^ (64 * n) * tmp, ?_, ?_⟩
      · rw [pow_succ64]
        have : 2 ^ (64 * n) * (tmp + 1) ≤ 2 ^ (64 * n) * 2 ^ 64 := Nat.mul_le_mul_left _ htl
        rw [Nat.mul_add, Nat.mul_one] at this
        rw [Nat.mul_comm (2 ^ 64)]
        omega
      · have a2 : value N (fun j => upd t.1 (n % N) t.2 ((j + (n + 1)) % N)) =
            value (N - 1) (fun j => t.1 ((j + 1 + n) % N)) + 2 ^ (64 * (N - 1)) * t.2.toNat := by
          conv_lhs => rw [show N = (N - 1) + 1 by omega]
          rw [value_succ, show N - 1 + 1 = N by omega, show N - 1 + (n + 1) = n + N by omega, Nat.add_mod_right, upd_same, Nat.mul_comm]
          congr 1
          refine value_congr fun j hj => ?_
          have h1 : (j + (n + 1)) % N ≠ n % N := by
            rw [Nat.mod_eq_of_lt (by omega : n < N)]
            by_cases hl : j + (n + 1) < N
            · rw [Nat.mod_eq_of_lt hl]; omega
            · rw [Nat.mod_eq_sub_mod (by omega), Nat.mod_eq_of_lt (by omega)]; omega
          rw [upd_ne _ _ h1, show j + (n + 1) = j + 1 + n by omega]
        rw [a2, pow_succ64]
        have hB : 2 ^ (64 * N) = 2 ^ 64 * 2 ^ (64 * (N - 1)) := by
          rw [← Nat.pow_add]; congr 1; omega
        rw [hB] at e1
        generalize 2 ^ (64 * n) = C at *
        generalize 2 ^ (64 * (N - 1)) = D at *
        zify at *
        linear_combination ih + C * e1
  obtain ⟨M, hM, h⟩ := key N (Nat.le_refl N)
  refine ⟨M, hM, ?_⟩
  unfold num intoBigint
  rw [val_mk, ← h]
  congr 1
  exact value_congr fun j hj => by rw [Nat.add_mod_right, Nat.mod_eq_of_lt hj]

theorem num_lt (hP : Valid P) {a : Fp P} (ha : Reduced a) : num a < order P := by
  obtain ⟨M, hM, h⟩ := intoBigint_exact hP a
  unfold Reduced at ha
  have h1 : (M + 1) * order P ≤ 2 ^ (64 * N) * order P := Nat.mul_le_mul_right _ hM
  rw [Nat.succ_mul] at h1
  exact Nat.lt_of_mul_lt_mul_left (a := 2 ^ (64 * N)) (by omega)

/-! ## In `ZMod` -/

/-- The Montgomery radix. -/
def radix (P : FpParams N) : ZMod (order P) := ((2 ^ (64 * N) : ℕ) : ZMod (order P))

theorem radix_unit (hP : Valid P) : IsUnit (radix P) := by
  unfold radix
  rw [ZMod.isUnit_iff_coprime]
  apply Nat.Coprime.pow_left
  exact Nat.coprime_two_left.mpr (Nat.odd_iff.mpr hP.2.1)

theorem two_unit (hP : Valid P) : IsUnit ((2 : ℕ) : ZMod (order P)) := by
  rw [ZMod.isUnit_iff_coprime]
  exact Nat.coprime_two_left.mpr (Nat.odd_iff.mpr hP.2.1)

theorem num_radix (hP : Valid P) (a : Fp P) : (num a : ZMod (order P)) * radix P = (val a.mont : ZMod (order P)) := by
  obtain ⟨M, hM, h⟩ := intoBigint_exact hP a
  have := congrArg (Nat.cast : ℕ → ZMod (order P)) h
  push_cast at this
  rw [ZMod.natCast_self, mul_zero, add_zero] at this
  unfold radix
  push_cast
  rw [mul_comm]
  exact this

theorem num_eq_of (hP : Valid P) {a : Fp P} (ha : Reduced a) {x : ℕ}
    (h : (x : ZMod (order P)) * radix P = (val a.mont : ZMod (order P))) : num a = x % order P := by
  rw [← num_radix hP a] at h
  have h2 := (radix_unit hP).mul_right_cancel h
  rw [ZMod.natCast_eq_natCast_iff'] at h2
  rw [h2, Nat.mod_eq_of_lt (num_lt hP ha)]

theorem cast_mod (P : FpParams N) (x : ℕ) : ((x % order P : ℕ) : ZMod (order P)) = (x : ZMod (order P)) :=
  ZMod.natCast_mod x _

theorem num_add (hP : Valid P) {a b : Fp P} (ha : Reduced a) (hb : Reduced b) :
    num (add a b) = (num a + num b) % order P ∧ Reduced (add a b) := by
  obtain ⟨h1, h2⟩ := add_mont hP ha hb
  refine ⟨num_eq_of hP h2 ?_, h2⟩
  rw [h1, cast_mod]
  push_cast
  rw [add_mul, num_radix hP, num_radix hP]

theorem num_double (hP : Valid P) {a : Fp P} (ha : Reduced a) :
    num (double a) = (2 * num a) % order P ∧ Reduced (double a) := by
  obtain ⟨h1, h2⟩ := double_mont hP ha
  refine ⟨num_eq_of hP h2 ?_, h2⟩
  rw [h1, cast_mod]
  push_cast
  rw [mul_assoc, num_radix hP]

theorem cast_sub_mod {p x y : ℕ} (h : y ≤ p) : ((x + p - y : ℕ) : ZMod p) = (x : ZMod p) - (y : ZMod p) := by
  rw [Nat.cast_sub (by omega)]
  push_cast
  rw [ZMod.natCast_self, add_zero]

theorem num_sub (hP : Valid P) {a b : Fp P} (ha : Reduced a) (hb : Reduced b) :
    num (sub a b) = (num a + (order P - num b)) % order P ∧ Reduced (sub a b) := by
  obtain ⟨h1, h2⟩ := sub_mont hP ha hb
  have hnb := num_lt hP hb
  refine ⟨?_, h2⟩
  rw [show num a + (order P - num b) = num a + order P - num b by omega]
  refine num_eq_of hP h2 ?_
  unfold Reduced at hb
  rw [h1, cast_mod, cast_sub_mod (by omega), cast_sub_mod (by omega), sub_mul, num_radix hP, num_radix hP]

theorem num_neg (hP : Valid P) {a : Fp P} (ha : Reduced a) :
    num (neg a) = (order P - num a) % order P ∧ Reduced (neg a) := by
  obtain ⟨h1, h2⟩ := neg_mont hP ha
  have hna := num_lt hP ha
  refine ⟨?_, h2⟩
  refine num_eq_of hP h2 ?_
  unfold Reduced at ha
  have e : ∀ y, y ≤ order P → ((order P - y : ℕ) : ZMod (order P)) = -(y : ZMod (order P)) := by
    intro y hy
    have := cast_sub_mod (p := order P) (x := 0) hy
    rw [Nat.zero_add, Nat.cast_zero, zero_sub] at this
    exact this
  rw [h1, cast_mod, e _ (by omega), e _ (by omega), neg_mul, num_radix hP]

theorem num_mul_gen (hP : Valid P) {a b : Fp P} (h : val a.mont * val b.mont < order P * 2 ^ (64 * N)) :
    num (mul a b) = (num a * num b) % order P ∧ Reduced (mul a b) := by
  obtain ⟨h1, h2⟩ := mul_mont hP h
  refine ⟨num_eq_of hP h2 ?_, h2⟩
  have h3 := (ZMod.natCast_eq_natCast_iff _ _ _).mpr h1
  push_cast at h3 ⊢
  have h4 : radix P * (val (mul a b).mont : ZMod (order P)) = (val a.mont : ZMod (order P)) * val b.mont := by
    unfold radix; push_cast; exact h3
  rw [← num_radix hP a, ← num_radix hP b] at h4
  apply (radix_unit hP).mul_left_cancel
  rw [h4]
  ring

theorem num_mul (hP : Valid P) {a b : Fp P} (hb : Reduced b) :
    num (mul a b) = (num a * num b) % order P ∧ Reduced (mul a b) :=
  num_mul_gen hP (mul_lt_of_reduced_right hb)

theorem num_inj (hP : Valid P) {a b : Fp P} (ha : Reduced a) (hb : Reduced b) (h : num a = num b) : a = b := by
  have e : (val a.mont : ZMod (order P)) = val b.mont := by rw [← num_radix hP, ← num_radix hP, h]
  rw [ZMod.natCast_eq_natCast_iff'] at e
  unfold Reduced at ha hb
  rw [Nat.mod_eq_of_lt ha, Nat.mod_eq_of_lt hb] at e
  cases a; cases b
  exact congrArg Fp.mk (val_inj e)

/-! ## Constants and conversions -/

theorem wval_max_zero : wval (WideUint.mk (MAX : Uint N) Uint.ZERO) + 1 = 2 ^ (64 * N) := by
  unfold wval
  rw [val_ZERO, Nat.mul_zero, Nat.add_zero]
  exact val_MAX

theorem wval_max_max : wval (WideUint.mk (MAX : Uint N) MAX) + 1 = 2 ^ (64 * N) * 2 ^ (64 * N) := by
  unfold wval
  have h := val_MAX (N := N)
  dsimp only
  generalize val (MAX : Uint N) = m at *
  rw [← h]
  ring

/-- `(w % m) + 1` for `w + 1` coprime to `m`: no wrap at the end. -/
theorem rem_add_one (hP : Valid P) (x : WideUint N) (k : Nat) (hk : 0 < k) (hx : wval x + 1 = 2 ^ k) :
    ∃ r, (x.rem P.modulus).map (fun r => ctWrappingAdd r ONE) = some r ∧ val r = 2 ^ k % order P := by
  have hp := hP.2.2
  have hw : wval x ≠ 0 := by
    have : 2 ^ 1 ≤ 2 ^ k := Nat.pow_le_pow_right (by omega) hk
    omega
  obtain ⟨r, hr, hv⟩ := wide_rem_ok hP.1 (m := P.modulus) (x := x) (by unfold order at hp; omega) hw
  refine ⟨ctWrappingAdd r ONE, by rw [hr]; rfl, ?_⟩
  rw [ctWrappingAdd_val, hv, val_ONE hP.1]
  have hlt := Nat.mod_lt (wval x) (by unfold order at hp; omega : val P.modulus > 0)
  have hol := order_lt (P := P)
  unfold order at *
  rw [Nat.mod_eq_of_lt (by omega : wval x % val P.modulus + 1 < 2 ^ (64 * N)), ← hx]
  -- the sum does not reach the modulus
  have hne : wval x % val P.modulus + 1 ≠ val P.modulus := by
    intro e
    have hd : val P.modulus ∣ 2 ^ k := by
      rw [← hx]
      have h1 := Nat.div_add_mod (wval x) (val P.modulus)
      refine ⟨wval x / val P.modulus + 1, ?_⟩
      rw [Nat.mul_add, Nat.mul_one]
      omega
    have hc : Nat.Coprime (val P.modulus) (2 ^ k) := by
      apply Nat.Coprime.pow_right
      exact Nat.coprime_two_right.mpr (Nat.odd_iff.mpr hP.2.1)
    have := Nat.Coprime.eq_one_of_dvd hc hd
    omega
  rw [Nat.add_mod, Nat.mod_eq_of_lt (by omega : 1 < val P.modulus),
    Nat.mod_eq_of_lt (by omega : wval x % val P.modulus + 1 < val P.modulus)]

theorem r_spec (hP : Valid P) : P.rOpt = some P.r ∧ val P.r = 2 ^ (64 * N) % order P := by
  obtain ⟨r, h1, h2⟩ := rem_add_one hP (WideUint.mk MAX Uint.ZERO) (64 * N) (by have := hP.1; omega) wval_max_zero
  have e : P.rOpt = some r := h1
  unfold FpParams.r
  rw [e]
  exact ⟨rfl, h2⟩

theorem r2_spec (hP : Valid P) : P.r2Opt = some P.r2 ∧ val P.r2 = 2 ^ (128 * N) % order P := by
  obtain ⟨r, h1, h2⟩ := rem_add_one hP (WideUint.mk MAX MAX) (128 * N) (by have := hP.1; omega)
    (by rw [wval_max_max, ← Nat.pow_add]; congr 1; omega)
  have e : P.r2Opt = some r := h1
  unfold FpParams.r2
  rw [e]
  exact ⟨rfl, h2⟩

theorem reduced_one (hP : Valid P) : Reduced (one P) := by
  unfold Reduced one
  rw [(r_spec hP).2]
  exact Nat.mod_lt _ (by have := hP.2.2; omega)

theorem reduced_r2 (hP : Valid P) : Reduced (⟨P.r2⟩ : Fp P) := by
  unfold Reduced
  rw [(r2_spec hP).2]
  exact Nat.mod_lt _ (by have := hP.2.2; omega)

theorem reduced_zero (hP : Valid P) : Reduced (zero P) := by
  unfold Reduced zero
  rw [val_ZERO]
  have := hP.2.2; omega

theorem num_zero (hP : Valid P) : num (zero P) = 0 := by
  have := num_eq_of hP (reduced_zero hP) (x := 0) (by unfold zero; rw [val_ZERO]; simp)
  rw [this, Nat.zero_mod]

theorem num_one (hP : Valid P) : num (one P) = 1 := by
  have := num_eq_of hP (reduced_one hP) (x := 1) (by
    unfold one; rw [(r_spec hP).2, cast_mod, Nat.cast_one, one_mul]; rfl)
  rw [this, Nat.mod_eq_of_lt hP.2.2]

theorem r2_cast (hP : Valid P) : (val P.r2 : ZMod (order P)) = radix P * radix P := by
  rw [(r2_spec hP).2, cast_mod]
  unfold radix
  rw [← Nat.cast_mul, ← Nat.pow_add]
  congr 2
  omega

theorem num_r2 (hP : Valid P) : (num (⟨P.r2⟩ : Fp P) : ZMod (order P)) = radix P := by
  apply (radix_unit hP).mul_right_cancel
  rw [num_radix hP]
  exact r2_cast hP

/-- Multiplying an arbitrary number by `R2` puts it in Montgomery form. -/
theorem num_mul_r2 (hP : Valid P) (n : Uint N) :
    num (mul (⟨n⟩ : Fp P) ⟨P.r2⟩) = val n % order P ∧ Reduced (mul (⟨n⟩ : Fp P) ⟨P.r2⟩) := by
  obtain ⟨h1, h2⟩ := num_mul hP (a := (⟨n⟩ : Fp P)) (reduced_r2 hP)
  refine ⟨?_, h2⟩
  rw [h1]
  have : ((num (⟨n⟩ : Fp P) * num (⟨P.r2⟩ : Fp P) : ℕ) : ZMod (order P)) = (val n : ZMod (order P)) := by
    push_cast
    rw [num_r2 hP, num_radix hP]
  rwa [ZMod.natCast_eq_natCast_iff'] at this

theorem num_fromBigint (hP : Valid P) (n : Uint N) :
    num (fromBigint n : Fp P) = val n % order P ∧ Reduced (fromBigint n : Fp P) := by
  unfold fromBigint
  by_cases h : isZero (⟨n⟩ : Fp P) = true
  · rw [if_pos h]
    have hz := (isZero_iff _).mp h
    dsimp only at hz
    have e : (⟨n⟩ : Fp P) = zero P := by
      unfold zero; rw [show n = Uint.ZERO from val_inj (hz.trans val_ZERO.symm)]
    rw [e, num_zero hP, hz, Nat.zero_mod]
    exact ⟨rfl, reduced_zero hP⟩
  · rw [if_neg h]
    exact num_mul_r2 hP n

theorem new_eq (n : Uint N) : (new n : Fp P) = fromBigint n := by
  unfold new fromBigint
  have : ctIsZero n = isZero (⟨n⟩ : Fp P) := by
    rw [Bool.eq_iff_iff, ctIsZero_iff, isZero_iff]
  rw [this]

end Verif.Fp
