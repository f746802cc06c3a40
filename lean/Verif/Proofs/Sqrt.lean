import Verif.Model.Math
import Mathlib.Analysis.Real.Sqrt
import Mathlib.Data.Nat.Cast.Order.Field
import Mathlib.Tactic.NormNum
import Mathlib.Tactic.FieldSimp
import Mathlib.Tactic.Positivity
/-! # The Newton iteration of `sqrt` converges -/

namespace Verif.Math

/-- The Newton step on naturals. -/
def nstep (a x : Nat) : Nat := (x + a / x) / 2

theorem nstep_ge {a x s : Nat} (hx : 0 < x) (hs : s * s ≤ a) : s ≤ nstep a x := by
  unfold nstep
  rw [Nat.le_div_iff_mul_le (by decide)]
  -- 2 s - x ≤ a / x
  by_cases h : 2 * s ≤ x
  · exact le_trans (by omega) (Nat.le_add_right _ _)
  · have h2 : (2 * s - x) * x ≤ a := by
      obtain ⟨d, hd⟩ : ∃ d, 2 * s = x + d := ⟨2 * s - x, by omega⟩
      have : 2 * s - x = d := by omega
      rw [this]
      have : d * x ≤ s * s := by nlinarith [sq_nonneg ((x : Int) - d), mul_self_nonneg ((x:Int) - d), this, hd]
      omega
    have := (Nat.le_div_iff_mul_le hx).mpr h2
    omega

/-- Once at the root or one above, the iteration stays there. -/
theorem nstep_stable {a x s : Nat} (hs0 : 0 < s) (hs2 : a < (s + 1) * (s + 1))
    (h1 : s ≤ x) (h2 : x ≤ s + 1) : nstep a x ≤ s + 1 := by
  unfold nstep
  have hx : 0 < x := by omega
  have : a / x < s + 3 := by
    rw [Nat.div_lt_iff_lt_mul hx]
    nlinarith
  rcases Nat.lt_or_ge x (s + 1) with h | h
  · have hxs : x = s := by omega
    omega
  · have hxs : x = s + 1 := by omega
    have : a / x < s + 1 := by
      rw [Nat.div_lt_iff_lt_mul hx, hxs]; exact hs2
    omega

theorem nstep_real {a x : Nat} (hx : 0 < x) :
    (nstep a x : ℝ) ≤ √a + (x - √a) ^ 2 / (2 * x) := by
  have hxr : (0 : ℝ) < x := by exact_mod_cast hx
  have h1 : (nstep a x : ℝ) ≤ ((x : ℝ) + (a : ℝ) / x) / 2 := by
    have e1 : ((nstep a x : ℕ) : ℝ) ≤ ((x + a / x : ℕ) : ℝ) / 2 := by
      unfold nstep; exact Nat.cast_div_le
    have e2 : ((a / x : ℕ) : ℝ) ≤ (a : ℝ) / x := Nat.cast_div_le
    push_cast at e1
    linarith
  have h2 : √(a:ℝ) + (x - √a) ^ 2 / (2 * x) = ((x : ℝ) + (a : ℝ) / x) / 2 := by
    have hs : √(a:ℝ) ^ 2 = a := Real.sq_sqrt (by positivity)
    have hx0 : (x:ℝ) ≠ 0 := ne_of_gt hxr
    field_simp
    nlinarith [hs]
  rw [h2]; exact h1

/-- Error bound: at or above the integer root and within `E / K` of the real root (or already at the
root up to one). -/
def Near (a s E : Nat) (K : ℝ) (x : Nat) : Prop :=
  s ≤ x ∧ (x ≤ s + 1 ∨ (x : ℝ) ≤ √a + E / K)

theorem near_step {a s E x : Nat} {K : ℝ} (hK : 0 < K) (hE : 0 < E) (hEs : E ≤ s)
    (hs1 : s * s ≤ a) (hs2 : a < (s + 1) * (s + 1)) (h : Near a s E K x) :
    Near a s E (2 * K ^ 2) (nstep a x) := by
  obtain ⟨h1, h2⟩ := h
  have hx : 0 < x := by omega
  refine ⟨nstep_ge hx hs1, ?_⟩
  by_cases hle : x ≤ s + 1
  · exact .inl (nstep_stable (by omega) hs2 h1 hle)
  · right
    have h3 : (x : ℝ) ≤ √a + E / K := h2.resolve_left hle
    have h4 : √(a : ℝ) ≤ x := by
      apply Real.sqrt_le_iff.mpr
      refine ⟨by positivity, ?_⟩
      have : a ≤ x ^ 2 := by nlinarith
      exact_mod_cast this
    have hxr : (0 : ℝ) < x := by exact_mod_cast hx
    have hEr : (0 : ℝ) < E := by exact_mod_cast hE
    have hEx : (E : ℝ) ≤ x := by
      have : E ≤ x := by omega
      exact_mod_cast this
    have h5 := nstep_real (a := a) hx
    have h6 : ((x : ℝ) - √a) ^ 2 ≤ (E / K) ^ 2 := by
      apply pow_le_pow_left₀ <;> linarith
    have h7 : ((x : ℝ) - √a) ^ 2 / (2 * x) ≤ (E / K) ^ 2 / (2 * E) := by
      apply div_le_div₀ <;> first | positivity | linarith
    have h8 : ((E : ℝ) / K) ^ 2 / (2 * E) = E / (2 * K ^ 2) := by
      field_simp
    linarith

theorem near_first {a s E x : Nat} (hE : 0 < E) (hx : 2 * x = 3 * E)
    (ha1 : E * E ≤ a) (ha2 : a < 4 * (E * E)) (hs1 : s * s ≤ a) :
    Near a s E 12 (nstep a x) := by
  have hx0 : 0 < x := by omega
  refine ⟨nstep_ge hx0 hs1, .inr ?_⟩
  have h5 := nstep_real (a := a) hx0
  have hEr : (0 : ℝ) < E := by exact_mod_cast hE
  have hxr : (x : ℝ) = 3 / 2 * E := by
    have : (2 * x : ℝ) = 3 * E := by exact_mod_cast hx
    linarith
  have g1 : (E : ℝ) ≤ √a := by
    apply Real.le_sqrt_of_sq_le
    have : E ^ 2 ≤ a := by nlinarith
    exact_mod_cast this
  have g2 : √(a : ℝ) ≤ 2 * E := by
    apply Real.sqrt_le_iff.mpr
    refine ⟨by positivity, ?_⟩
    have : a ≤ (2 * E) ^ 2 := by nlinarith
    exact_mod_cast this
  have h6 : ((x : ℝ) - √a) ^ 2 ≤ (E / 2) ^ 2 := by
    apply sq_le_sq'
    · rw [hxr]; linarith
    · rw [hxr]; linarith
  have h7 : ((x : ℝ) - √a) ^ 2 / (2 * x) ≤ (E / 2) ^ 2 / (2 * x) := by
    have : (0:ℝ) < 2 * x := by rw [hxr]; positivity
    exact div_le_div_of_nonneg_right h6 this.le
  have h8 : ((E : ℝ) / 2) ^ 2 / (2 * x) = E / 12 := by
    rw [hxr]; field_simp; norm_num
  linarith

theorem near_mono {a s E x : Nat} {K K' : ℝ} (hK : 0 < K') (hKK : K' ≤ K) (h : Near a s E K x) :
    Near a s E K' x := by
  refine ⟨h.1, h.2.imp id (fun h2 => le_trans h2 ?_)⟩
  have : (E : ℝ) / K ≤ E / K' := div_le_div_of_nonneg_left (by positivity) hK hKK
  linarith

/-- Five further steps from error `E / 12` leave an error below one. -/
theorem near_five {a s E x : Nat} (hE : 0 < E) (hE2 : E ≤ 2 ^ 127) (hEs : E ≤ s)
    (hs1 : s * s ≤ a) (hs2 : a < (s + 1) * (s + 1)) (h : Near a s E 12 x) :
    let y := nstep a (nstep a (nstep a (nstep a (nstep a x))))
    s ≤ y ∧ y ≤ s + 1 := by
  intro y
  have n1 := near_step (by norm_num) hE hEs hs1 hs2 h
  have n2 := near_step (by norm_num) hE hEs hs1 hs2 n1
  have n3 := near_step (by norm_num) hE hEs hs1 hs2 n2
  have n4 := near_step (by norm_num) hE hEs hs1 hs2 n3
  have n5 := near_step (by norm_num) hE hEs hs1 hs2 n4
  obtain ⟨g1, g2⟩ := n5
  refine ⟨g1, ?_⟩
  rcases g2 with g2 | g2
  · exact g2
  · have hEr : (E : ℝ) ≤ 2 ^ 127 := by exact_mod_cast hE2
    have hlt : (E : ℝ) / (2 * (2 * (2 * (2 * (2 * 12 ^ 2) ^ 2) ^ 2) ^ 2) ^ 2) < 1 := by
      rw [div_lt_one (by norm_num)]
      refine lt_of_le_of_lt hEr (by norm_num)
    have hsr : √(a : ℝ) < s + 1 := by
      rw [Real.sqrt_lt' (by positivity)]
      have : a < (s + 1) ^ 2 := by nlinarith
      exact_mod_cast this
    have : (y : ℝ) < s + 2 := by linarith
    have : y < s + 2 := by exact_mod_cast this
    omega

/-! ## From naturals to words -/

theorem newton_toNat {a x : U256} (hx : 0 < x.toNat) (hov : x.toNat + a.toNat / x.toNat < 2 ^ 256) :
    (newton a x).toNat = nstep a.toNat x.toNat := by
  unfold newton nstep
  rw [BitVec.toNat_ushiftRight, toNat_add_of_lt (by rw [BitVec.toNat_udiv]; exact hov),
    BitVec.toNat_udiv, Nat.shiftRight_eq_div_pow]

theorem div_le_of_ge {a x s : Nat} (hs0 : 0 < s) (hs2 : a < (s + 1) * (s + 1)) (h : s ≤ x) :
    a / x ≤ s + 2 := by
  have : a / x < s + 3 := by
    rw [Nat.div_lt_iff_lt_mul (by omega)]
    nlinarith
  omega

theorem newton_toNat_of_ge {a x : U256} {s : Nat} (hs0 : 0 < s) (hsb : s < 2 ^ 128)
    (hs2 : a.toNat < (s + 1) * (s + 1)) (h : s ≤ x.toNat) (hxb : x.toNat ≤ 2 ^ 130) :
    (newton a x).toNat = nstep a.toNat x.toNat ∧ nstep a.toNat x.toNat ≤ 2 ^ 130 := by
  have hd := div_le_of_ge hs0 hs2 h
  refine ⟨newton_toNat (by omega) (by omega), ?_⟩
  unfold nstep; omega

/-- Stage invariant. -/
theorem sqrtStage_spec {a : Nat} {m k : Nat} {p : U256 × U256} (hm : 2 ≤ m) (hm2 : m ≤ 128)
    (hmev : m = 2 * (m / 2))
    (hk : k + m ≤ 128) (hx : p.2.toNat = 2 ^ k) (ha : a / 4 ^ k = p.1.toNat) (h1 : 1 ≤ p.1.toNat)
    (hb : p.1.toNat < 2 ^ (2 * m)) :
    ∃ k', k' + m / 2 ≤ 128 ∧ (sqrtStage m p).2.toNat = 2 ^ k' ∧
      a / 4 ^ k' = (sqrtStage m p).1.toNat ∧ 1 ≤ (sqrtStage m p).1.toNat ∧
      (sqrtStage m p).1.toNat < 2 ^ m := by
  have hone : (1#256 <<< m).toNat = 2 ^ m := by
    rw [BitVec.toNat_shiftLeft, Nat.shiftLeft_eq]
    have : 2 ^ m < 2 ^ 256 := Nat.pow_lt_pow_right (by decide) (by omega)
    simpa using Nat.mod_eq_of_lt this
  unfold sqrtStage
  by_cases hc : 1#256 <<< m ≤ p.1
  · rw [if_pos hc]
    have hge : 2 ^ m ≤ p.1.toNat := by rw [← hone]; exact BitVec.le_def.mp hc
    have hshr : (p.1 >>> m).toNat = p.1.toNat / 2 ^ m := by
      rw [BitVec.toNat_ushiftRight, Nat.shiftRight_eq_div_pow]
    refine ⟨k + m / 2, by omega, ?_, ?_, ?_, ?_⟩
    · show (p.2 <<< (m / 2)).toNat = _
      rw [BitVec.toNat_shiftLeft, Nat.shiftLeft_eq, hx, ← pow_add]
      apply Nat.mod_eq_of_lt
      exact Nat.pow_lt_pow_right (by decide) (by omega)
    · show _ = (p.1 >>> m).toNat
      rw [hshr, ← ha, Nat.div_div_eq_div_mul]
      congr 1
      rw [pow_add]
      congr 1
      conv_rhs => rw [hmev]
      rw [pow_mul]; norm_num
    · show 1 ≤ (p.1 >>> m).toNat
      rw [hshr]
      exact (Nat.one_le_div_iff (by positivity)).mpr hge
    · show (p.1 >>> m).toNat < _
      rw [hshr, Nat.div_lt_iff_lt_mul (by positivity), ← pow_add, ← two_mul]
      exact hb
  · rw [if_neg hc]
    have hlt : p.1.toNat < 2 ^ m := by
      rw [← hone]; exact Nat.lt_of_not_le (fun h => hc (BitVec.le_def.mpr h))
    exact ⟨k, by omega, hx, ha, h1, hlt⟩

/-- The initial estimate is `3/2 * 2^e` where `4^e ≤ a < 4^(e+1)`. -/
theorem sqrtInit_spec {a : U256} (ha : 1 ≤ a.toNat) :
    ∃ e, e ≤ 127 ∧ 4 ^ e ≤ a.toNat ∧ a.toNat < 4 ^ (e + 1) ∧
      (sqrtInit a).toNat = (3 * 2 ^ e) / 2 := by
  obtain ⟨k1, c1, x1, a1, o1, b1⟩ := sqrtStage_spec (a := a.toNat) (m := 128) (k := 0)
    (p := (a, 1#256)) (by omega) (by omega) (by omega) (by omega) (by simp) (by simp) ha
    (by have := a.isLt; simpa using this)
  obtain ⟨k2, c2, x2, a2, o2, b2⟩ := sqrtStage_spec (m := 64) (by omega) (by omega) (by omega)
    (by omega) x1 a1 o1 b1
  obtain ⟨k3, c3, x3, a3, o3, b3⟩ := sqrtStage_spec (m := 32) (by omega) (by omega) (by omega)
    (by omega) x2 a2 o2 b2
  obtain ⟨k4, c4, x4, a4, o4, b4⟩ := sqrtStage_spec (m := 16) (by omega) (by omega) (by omega)
    (by omega) x3 a3 o3 b3
  obtain ⟨k5, c5, x5, a5, o5, b5⟩ := sqrtStage_spec (m := 8) (by omega) (by omega) (by omega)
    (by omega) x4 a4 o4 b4
  obtain ⟨k6, c6, x6, a6, o6, b6⟩ := sqrtStage_spec (m := 4) (by omega) (by omega) (by omega)
    (by omega) x5 a5 o5 b5
  unfold sqrtInit
  generalize sqrtStage 4 (sqrtStage 8 (sqrtStage 16 (sqrtStage 32 (sqrtStage 64 (sqrtStage 128
    (a, 1#256)))))) = p at *
  have hlow : 4 ^ k6 * p.1.toNat ≤ a.toNat := by rw [← a6]; exact Nat.mul_div_le _ _
  have hhigh : a.toNat < 4 ^ k6 * (p.1.toNat + 1) := by
    rw [← a6]; exact Nat.lt_mul_div_succ _ (by positivity)
  have h4 : (1#256 <<< 2).toNat = 4 := by decide
  have hfin : ∀ (e : Nat) (x : U256), e ≤ 127 → x.toNat = 2 ^ e →
      ((3#256 * x) >>> 1).toNat = (3 * 2 ^ e) / 2 := by
    intro e x he hx
    rw [BitVec.toNat_ushiftRight, BitVec.toNat_mul, hx, Nat.shiftRight_eq_div_pow]
    have : 2 ^ e ≤ 2 ^ 127 := Nat.pow_le_pow_right (by decide) he
    have h3 : (3#256).toNat = 3 := rfl
    rw [h3, Nat.mod_eq_of_lt (by omega)]
  have hp4 : 0 < 4 ^ k6 := by positivity
  by_cases hc : 1#256 <<< 2 ≤ p.1
  · have hge : 4 ≤ p.1.toNat := by rw [← h4]; exact BitVec.le_def.mp hc
    have hx : (p.2 <<< 1).toNat = 2 ^ (k6 + 1) := by
      rw [BitVec.toNat_shiftLeft, Nat.shiftLeft_eq, x6, ← pow_add]
      apply Nat.mod_eq_of_lt
      exact Nat.pow_lt_pow_right (by decide) (by omega)
    refine ⟨k6 + 1, by omega, ?_, ?_, ?_⟩
    · rw [pow_succ]
      exact le_trans (Nat.mul_le_mul_left _ hge) hlow
    · rw [pow_succ, pow_succ, mul_assoc]
      exact lt_of_lt_of_le hhigh (Nat.mul_le_mul_left _ (by omega))
    · simp only [hc, if_true]
      exact hfin _ _ (by omega) hx
  · have hlt : p.1.toNat < 4 := by
      rw [← h4]; exact Nat.lt_of_not_le (fun h => hc (BitVec.le_def.mpr h))
    refine ⟨k6, by omega, ?_, ?_, ?_⟩
    · exact le_trans (Nat.le_mul_of_pos_right _ o6) hlow
    · rw [pow_succ]
      exact lt_of_lt_of_le hhigh (Nat.mul_le_mul_left _ (by omega))
    · simp only [hc, if_false]
      exact hfin _ _ (by omega) x6

theorem six_steps {a : U256} {s : Nat} (ha : 2 ≤ a.toNat) (hs1 : s * s ≤ a.toNat)
    (hs2 : a.toNat < (s + 1) * (s + 1)) :
    let y := newton a (newton a (newton a (newton a (newton a (newton a (sqrtInit a))))))
    s ≤ y.toNat ∧ y.toNat ≤ s + 1 := by
  intro y
  have hyd : y = newton a (newton a (newton a (newton a (newton a (newton a (sqrtInit a)))))) := rfl
  clear_value y
  subst hyd
  have hs0 : 0 < s := by
    rcases Nat.eq_zero_or_pos s with h | h
    · subst h; omega
    · exact h
  have hsb : s < 2 ^ 128 := by
    have := a.isLt
    by_contra hc
    have : 2 ^ 128 * 2 ^ 128 ≤ s * s := Nat.mul_le_mul (by omega) (by omega)
    omega
  obtain ⟨e, he, he1, he2, hx0⟩ := sqrtInit_spec (a := a) (by omega)
  have hpe : (4 : Nat) ^ e = 2 ^ e * 2 ^ e := by
    rw [← mul_pow]; norm_num
  have hpos : 0 < 2 ^ e := by positivity
  have hEb : 2 ^ e ≤ 2 ^ 127 := Nat.pow_le_pow_right (by decide) he
  have ha1 : 2 ^ e * 2 ^ e ≤ a.toNat := by rw [← hpe]; exact he1
  have ha2 : a.toNat < 4 * (2 ^ e * 2 ^ e) := by rw [← hpe]; rw [pow_succ] at he2; omega
  have hEs : 2 ^ e ≤ s := by
    by_contra hc
    have : (s + 1) * (s + 1) ≤ 2 ^ e * 2 ^ e := Nat.mul_le_mul (by omega) (by omega)
    omega
  generalize hE : 2 ^ e = E at *
  -- the first step
  have hfirst : (newton a (sqrtInit a)).toNat = nstep a.toNat (sqrtInit a).toNat ∧
      Near a.toNat s E 12 (nstep a.toNat (sqrtInit a).toNat) ∧
      nstep a.toNat (sqrtInit a).toNat ≤ 2 ^ 130 := by
    have hx1 : 1 ≤ (sqrtInit a).toNat := by omega
    have hxE : E ≤ (sqrtInit a).toNat := by omega
    have hd : a.toNat / (sqrtInit a).toNat < 4 * E := by
      rw [Nat.div_lt_iff_lt_mul (by omega)]
      have : E * E ≤ E * (sqrtInit a).toNat := Nat.mul_le_mul_left _ hxE
      nlinarith
    refine ⟨newton_toNat (by omega) (by omega), ?_, ?_⟩
    · rcases Nat.eq_zero_or_pos e with h0 | h0
      · -- a is 2 or 3
        subst h0
        have hE1 : E = 1 := by simpa using hE.symm
        subst hE1
        have hs : s = 1 := by
          have : s < 2 := by
            by_contra hc
            have : 2 * 2 ≤ s * s := Nat.mul_le_mul (by omega) (by omega)
            omega
          omega
        subst hs
        refine ⟨nstep_ge (by omega) hs1, .inl ?_⟩
        exact nstep_stable (by omega) hs2 (by omega) (by omega)
      · apply near_first (by omega) _ ha1 ha2 hs1
        have : ∃ f, E = 2 * f := ⟨2 ^ (e - 1), by rw [← hE, ← pow_succ']; congr 1; omega⟩
        omega
    · unfold nstep; omega
  obtain ⟨f1, f2, f3⟩ := hfirst
  rw [← f1] at f2 f3
  -- the remaining five steps
  generalize newton a (sqrtInit a) = x1 at *
  have hy := near_five hpos hEb hEs hs1 hs2 f2
  obtain ⟨q2, b2⟩ := newton_toNat_of_ge hs0 hsb hs2 f2.1 f3
  have l2 : s ≤ nstep a.toNat x1.toNat := nstep_ge (by have := f2.1; omega) hs1
  rw [← q2] at b2 l2
  obtain ⟨q3, b3⟩ := newton_toNat_of_ge hs0 hsb hs2 l2 b2
  have l3 : s ≤ nstep a.toNat (newton a x1).toNat := nstep_ge (by omega) hs1
  rw [← q3] at b3 l3
  obtain ⟨q4, b4⟩ := newton_toNat_of_ge hs0 hsb hs2 l3 b3
  have l4 := nstep_ge (a := a.toNat) (x := (newton a (newton a x1)).toNat) (by omega) hs1
  rw [← q4] at b4 l4
  obtain ⟨q5, b5⟩ := newton_toNat_of_ge hs0 hsb hs2 l4 b4
  have l5 := nstep_ge (a := a.toNat) (x := (newton a (newton a (newton a x1))).toNat) (by omega) hs1
  rw [← q5] at b5 l5
  obtain ⟨q6, b6⟩ := newton_toNat_of_ge hs0 hsb hs2 l5 b5
  show s ≤ (newton a (newton a (newton a (newton a (newton a x1))))).toNat ∧ _
  rw [q6, q5, q4, q3, q2]
  exact hy

end Verif.Math

namespace Verif.Math

theorem iterate_bounds {a : U256} {s : Nat} (ha : 2 ≤ a.toNat) (hs1 : s * s ≤ a.toNat)
    (hs2 : a.toNat < (s + 1) * (s + 1)) (i : Nat) :
    0 < ((newton a)^[i] (sqrtInit a)).toNat ∧
    ((newton a)^[i] (sqrtInit a)).toNat ≤ 2 ^ 130 ∧
    a.toNat / ((newton a)^[i] (sqrtInit a)).toNat ≤ 2 ^ 130 := by
  have hs0 : 0 < s := by
    rcases Nat.eq_zero_or_pos s with h | h
    · subst h; omega
    · exact h
  have hsb : s < 2 ^ 128 := by
    have := a.isLt
    by_contra hc
    have : 2 ^ 128 * 2 ^ 128 ≤ s * s := Nat.mul_le_mul (by omega) (by omega)
    omega
  obtain ⟨e, he, he1, he2, hx0⟩ := sqrtInit_spec (a := a) (by omega)
  have hpe : (4 : Nat) ^ e = 2 ^ e * 2 ^ e := by
    rw [← mul_pow]; norm_num
  have hpos : 0 < 2 ^ e := by positivity
  have hEb : 2 ^ e ≤ 2 ^ 127 := Nat.pow_le_pow_right (by decide) he
  have hd : a.toNat / (sqrtInit a).toNat < 4 * 2 ^ e := by
    rw [Nat.div_lt_iff_lt_mul (by omega)]
    have : 2 ^ e * 2 ^ e ≤ 2 ^ e * (sqrtInit a).toNat := Nat.mul_le_mul_left _ (by omega)
    rw [pow_succ] at he2
    nlinarith
  have hge : ∀ i, s ≤ ((newton a)^[i + 1] (sqrtInit a)).toNat ∧
      ((newton a)^[i + 1] (sqrtInit a)).toNat ≤ 2 ^ 130 := by
    intro i
    induction i with
    | zero =>
      simp only [Function.iterate_succ, Function.iterate_zero, Function.comp, id]
      rw [newton_toNat (by omega) (by omega)]
      exact ⟨nstep_ge (by omega) hs1, by unfold nstep; omega⟩
    | succ i ih =>
      rw [Function.iterate_succ_apply']
      obtain ⟨h1, h2⟩ := newton_toNat_of_ge hs0 hsb hs2 ih.1 ih.2
      rw [h1]
      exact ⟨nstep_ge (by omega) hs1, h2⟩
  cases i with
  | zero => simp only [Function.iterate_zero, id]; omega
  | succ i =>
    obtain ⟨h1, h2⟩ := hge i
    have := div_le_of_ge hs0 hs2 h1
    exact ⟨by omega, h2, by omega⟩

end Verif.Math
