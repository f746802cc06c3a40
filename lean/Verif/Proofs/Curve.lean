import Verif.Spec.Curve
import Verif.Proofs.UintText
import Mathlib.Tactic.FieldSimp
import Mathlib.Tactic.Ring
import Mathlib.Tactic.LinearCombination
/-! # Proofs about curve points -/

namespace Verif.Proofs.Curve
open Verif.Curve Verif.Uint
open Verif.Spec.Curve Verif.Spec.Uint
open WeierstrassCurve.Affine (Point)

variable {F : Type} [Field F] [DecidableEq F] {c : Config F}

theorem equation {x y : F} (h : (curve c).Nonsingular x y) : y ^ 2 = x ^ 3 + c.a * x + c.b := by
  have := ((curve c).equation_iff x y).mp h.1
  simpa [curve] using this

theorem negY (x y : F) : (curve c).negY x y = -y := by simp [WeierstrassCurve.Affine.negY, curve]

theorem neg_some {x y : F} (h : (curve c).Nonsingular x y) :
    ∃ h', -(Point.some x y h : Spec.Curve.Point c) = Point.some x (-y) h' := by
  refine ⟨?_, ?_⟩
  · have := (WeierstrassCurve.Affine.nonsingular_neg x y).mpr h
    rwa [negY] at this
  · rw [Point.neg_some]; simp only [Point.some.injEq, true_and]; exact negY x y

theorem point_double {x y : F} (h2 : (2 : F) ≠ 0) (h : (curve c).Nonsingular x y) (hy : y ≠ 0) :
    ∃ h', (Point.some x y h + Point.some x y h : Spec.Curve.Point c) =
      Point.some (((3 * x ^ 2 + c.a) / (2 * y)) ^ 2 - 2 * x)
        ((3 * x ^ 2 + c.a) / (2 * y) * (x - (((3 * x ^ 2 + c.a) / (2 * y)) ^ 2 - 2 * x)) - y) h' := by
  have hne : y ≠ (curve c).negY x y := by
    rw [negY]; intro e
    have : (2 : F) * y = 0 := by linear_combination e
    rcases mul_eq_zero.mp this with h' | h'
    · exact h2 h'
    · exact hy h'
  have hs : (curve c).slope x x y y = (3 * x ^ 2 + c.a) / (2 * y) := by
    rw [WeierstrassCurve.Affine.slope_of_Y_ne rfl hne, negY]
    simp [curve]; ring
  have e := Point.add_self_of_Y_ne (h₁ := h) hne
  have hX : (curve c).addX x x ((curve c).slope x x y y) = ((3 * x ^ 2 + c.a) / (2 * y)) ^ 2 - 2 * x := by
    rw [hs]; simp [WeierstrassCurve.Affine.addX, curve]; ring
  have hY : (curve c).addY x x y ((curve c).slope x x y y) =
      (3 * x ^ 2 + c.a) / (2 * y) * (x - (((3 * x ^ 2 + c.a) / (2 * y)) ^ 2 - 2 * x)) - y := by
    rw [WeierstrassCurve.Affine.addY, negY, WeierstrassCurve.Affine.negAddY, hX, hs]; ring
  refine ⟨?_, ?_⟩
  · have := WeierstrassCurve.Affine.nonsingular_add h h (fun hxy => hne hxy.2)
    rwa [hX, hY] at this
  · rw [e]; simp only [Point.some.injEq]; exact ⟨hX, hY⟩

theorem point_double_zero {x y : F} (h : (curve c).Nonsingular x y) (hy : y = 0) :
    (Point.some x y h + Point.some x y h : Spec.Curve.Point c) = 0 :=
  Point.add_self_of_Y_eq (by rw [negY, hy, neg_zero])

theorem point_add {x₁ y₁ x₂ y₂ : F} (h₁ : (curve c).Nonsingular x₁ y₁) (h₂ : (curve c).Nonsingular x₂ y₂)
    (hx : x₁ ≠ x₂) :
    ∃ h', (Point.some x₁ y₁ h₁ + Point.some x₂ y₂ h₂ : Spec.Curve.Point c) =
      Point.some (((y₁ - y₂) / (x₁ - x₂)) ^ 2 - x₁ - x₂)
        ((y₁ - y₂) / (x₁ - x₂) * (x₁ - (((y₁ - y₂) / (x₁ - x₂)) ^ 2 - x₁ - x₂)) - y₁) h' := by
  have hs : (curve c).slope x₁ x₂ y₁ y₂ = (y₁ - y₂) / (x₁ - x₂) := WeierstrassCurve.Affine.slope_of_X_ne hx
  have hX : (curve c).addX x₁ x₂ ((curve c).slope x₁ x₂ y₁ y₂) = ((y₁ - y₂) / (x₁ - x₂)) ^ 2 - x₁ - x₂ := by
    rw [hs]; simp [WeierstrassCurve.Affine.addX, curve]
  have hY : (curve c).addY x₁ x₂ y₁ ((curve c).slope x₁ x₂ y₁ y₂) =
      (y₁ - y₂) / (x₁ - x₂) * (x₁ - (((y₁ - y₂) / (x₁ - x₂)) ^ 2 - x₁ - x₂)) - y₁ := by
    rw [WeierstrassCurve.Affine.addY, negY, WeierstrassCurve.Affine.negAddY, hX, hs]; ring
  refine ⟨?_, ?_⟩
  · have := WeierstrassCurve.Affine.nonsingular_add h₁ h₂ (fun hxy => hx hxy.1)
    rwa [hX, hY] at this
  · rw [Point.add_of_X_ne hx]; simp only [Point.some.injEq]; exact ⟨hX, hY⟩

theorem point_add_zero {x y₁ y₂ : F} (h₁ : (curve c).Nonsingular x y₁) (h₂ : (curve c).Nonsingular x y₂)
    (hy : y₁ ≠ y₂) : (Point.some x y₁ h₁ + Point.some x y₂ h₂ : Spec.Curve.Point c) = 0 := by
  refine Point.add_of_Y_eq rfl ?_
  rw [negY]
  have e1 := equation h₁
  have e2 := equation h₂
  have : (y₁ - y₂) * (y₁ + y₂) = 0 := by linear_combination e1 - e2
  rcases mul_eq_zero.mp this with h | h
  · exact absurd (sub_eq_zero.mp h) hy
  · linear_combination h

/-- Working form of the Jacobian relation. -/
theorem jac_some {p : Projective F} {x y : F} {h : (curve c).Nonsingular x y} :
    IsJacobian p (Point.some x y h : Spec.Curve.Point c) ↔ p.z ≠ 0 ∧ p.x = x * p.z ^ 2 ∧ p.y = y * p.z ^ 3 := by
  unfold IsJacobian
  constructor
  · rintro ⟨h1, h2, h3⟩
    refine ⟨h1, ?_, ?_⟩
    · rw [← h2]; field_simp
    · rw [← h3]; field_simp
  · rintro ⟨h1, h2, h3⟩
    refine ⟨h1, ?_, ?_⟩
    · rw [h2]; field_simp
    · rw [h3]; field_simp

theorem jac_zero {p : Projective F} : IsJacobian p (0 : Spec.Curve.Point c) ↔ p.z = 0 := Iff.rfl

theorem zero_ok : IsJacobian (Projective.zero : Projective F) (0 : Spec.Curve.Point c) := rfl

theorem double_ok (h2 : (2 : F) ≠ 0) {p : Projective F} {P : Spec.Curve.Point c} (hp : IsJacobian p P) :
    IsJacobian (p.double c) (P + P) := by
  rcases P with _ | ⟨x, y, h⟩
  · have hz : p.z = 0 := hp
    have e : p.double c = p := by unfold Projective.double; rw [if_pos (by simp [Projective.isZero, hz])]
    rw [e]
    exact jac_zero.mpr hz
  · obtain ⟨hz, hx, hy⟩ := jac_some.mp hp
    obtain ⟨X, Y, Z⟩ := p
    simp only at hz hx hy
    have hform : Projective.double c ⟨X, Y, Z⟩ =
        ⟨(3 * X ^ 2 + c.a * Z ^ 4) ^ 2 - 8 * (X * Y ^ 2),
         (4 * (X * Y ^ 2) - ((3 * X ^ 2 + c.a * Z ^ 4) ^ 2 - 8 * (X * Y ^ 2))) * (3 * X ^ 2 + c.a * Z ^ 4) - 8 * Y ^ 4,
         2 * (Z * Y)⟩ := by
      unfold Projective.double
      rw [if_neg (by simp [Projective.isZero, hz])]
      by_cases ha : c.a = 0
      · rw [if_pos ha, ha]
        dsimp only
        by_cases he : c.extDegree = 1 ∨ c.extDegree = 2
        · rw [if_pos he]; simp only [sqr, dbl, Projective.mk.injEq]
          refine ⟨?_, ?_, ?_⟩ <;> ring
        · rw [if_neg he]; simp only [sqr, dbl, Projective.mk.injEq]
          refine ⟨?_, ?_, ?_⟩ <;> ring
      · rw [if_neg ha]
        simp only [sqr, dbl, Projective.mk.injEq, Config.mulByA, if_neg ha]
        refine ⟨?_, ?_, ?_⟩ <;> ring
    rw [hform]
    by_cases hy0 : y = 0
    · rw [point_double_zero h hy0, jac_zero]
      simp only [hy, hy0]; ring
    · obtain ⟨h', e⟩ := point_double h2 h hy0
      rw [e, jac_some]
      simp only [hx, hy]
      refine ⟨?_, ?_, ?_⟩
      · exact mul_ne_zero h2 (mul_ne_zero hz (mul_ne_zero hy0 (pow_ne_zero _ hz)))
      · field_simp; ring
      · field_simp; ring

theorem add_ok (h2 : (2 : F) ≠ 0) {p q : Projective F} {P Q : Spec.Curve.Point c} (hp : IsJacobian p P)
    (hq : IsJacobian q Q) : IsJacobian (p.add c q) (P + Q) := by
  rcases P with _ | ⟨x₁, y₁, h₁⟩
  · have hz : p.z = 0 := hp
    have e : p.add c q = q := by unfold Projective.add; rw [if_pos (by simp [Projective.isZero, hz])]
    rw [e]
    have : (Point.zero : Spec.Curve.Point c) + Q = Q := zero_add Q
    rwa [this]
  rcases Q with _ | ⟨x₂, y₂, h₂⟩
  · have hz1 : p.z ≠ 0 := (jac_some.mp hp).1
    have hz : q.z = 0 := hq
    have e : p.add c q = p := by
      unfold Projective.add
      rw [if_neg (by simp [Projective.isZero, hz1]), if_pos (by simp [Projective.isZero, hz])]
    rw [e]
    have : (Point.some x₁ y₁ h₁ : Spec.Curve.Point c) + Point.zero = Point.some x₁ y₁ h₁ := add_zero _
    rwa [this]
  obtain ⟨hz1, hx1, hy1⟩ := jac_some.mp hp
  obtain ⟨hz2, hx2, hy2⟩ := jac_some.mp hq
  have hu : p.x * sqr q.z = q.x * sqr p.z ↔ x₁ = x₂ := by
    rw [hx1, hx2]; unfold sqr
    constructor
    · intro e
      have : p.z ^ 2 * q.z ^ 2 ≠ 0 := mul_ne_zero (pow_ne_zero _ hz1) (pow_ne_zero _ hz2)
      exact mul_right_cancel₀ this (by linear_combination e)
    · rintro rfl; ring
  have hs : p.y * q.z * sqr q.z = q.y * p.z * sqr p.z ↔ y₁ = y₂ := by
    rw [hy1, hy2]; unfold sqr
    constructor
    · intro e
      have : p.z ^ 3 * q.z ^ 3 ≠ 0 := mul_ne_zero (pow_ne_zero _ hz1) (pow_ne_zero _ hz2)
      exact mul_right_cancel₀ this (by linear_combination e)
    · rintro rfl; ring
  unfold Projective.add
  rw [if_neg (by simp [Projective.isZero, hz1]), if_neg (by simp [Projective.isZero, hz2])]
  dsimp only
  by_cases hx : x₁ = x₂
  · rw [if_pos (hu.mpr hx)]
    by_cases hy : y₁ = y₂
    · rw [if_pos (hs.mpr hy)]
      subst hx; subst hy
      exact double_ok h2 hp
    · rw [if_neg (fun e => hy (hs.mp e))]
      subst hx
      rw [point_add_zero h₁ h₂ hy]
      exact zero_ok
  · rw [if_neg (fun e => hx (hu.mp e))]
    obtain ⟨h', e⟩ := point_add h₁ h₂ hx
    have hx' : x₁ - x₂ ≠ 0 := sub_ne_zero.mpr hx
    rw [e, jac_some]
    obtain ⟨X, Y, Z⟩ := p
    obtain ⟨X', Y', Z'⟩ := q
    simp only at hz1 hx1 hy1 hz2 hx2 hy2
    simp only [sqr, dbl, hx1, hx2, hy1, hy2]
    refine ⟨?_, ?_, ?_⟩
    · have : (Z * Z' + Z * Z') * (x₂ * Z' ^ 2 * (Z * Z) - x₁ * Z ^ 2 * (Z' * Z')) ≠ 0 := by
        have e' : (Z * Z' + Z * Z') * (x₂ * Z' ^ 2 * (Z * Z) - x₁ * Z ^ 2 * (Z' * Z')) =
          -(2 * (x₁ - x₂) * (Z * Z') ^ 3) := by ring
        rw [e']
        exact neg_ne_zero.mpr (mul_ne_zero (mul_ne_zero h2 hx') (pow_ne_zero _ (mul_ne_zero hz1 hz2)))
      exact this
    · field_simp; ring
    · field_simp; ring

theorem ofAffine_ok {p : Affine F} {P : Spec.Curve.Point c} (hp : IsAffine p P) : IsJacobian (.ofAffine p) P := by
  rcases P with _ | ⟨x, y, h⟩
  · have : p.infinity = true := hp
    unfold Projective.ofAffine Affine.xy
    rw [if_pos this]
    exact zero_ok
  · obtain ⟨h1, h2, h3⟩ := hp
    unfold Projective.ofAffine Affine.xy
    rw [if_neg (by simp [h1])]
    rw [jac_some]
    simp [h2, h3]

/-- Adding an affine point gives a triple that stands for the same point as adding its Jacobian form. -/
theorem addAffine_ok (h2 : (2 : F) ≠ 0) {p : Projective F} {q : Affine F} {P Q : Spec.Curve.Point c}
    (hp : IsJacobian p P) (hq : IsAffine q Q) : IsJacobian (p.addAffine c q) (P + Q) := by
  have hq' := ofAffine_ok hq
  rcases Q with _ | ⟨x₂, y₂, h₂⟩
  · have hi : q.infinity = true := hq
    have e : p.addAffine c q = p := by unfold Projective.addAffine Affine.xy; rw [if_pos hi]
    rw [e]
    have : P + (Point.zero : Spec.Curve.Point c) = P := add_zero P
    rwa [this]
  obtain ⟨hi, hqx, hqy⟩ := hq
  have hxy : q.xy = some (x₂, y₂) := by unfold Affine.xy; rw [if_neg (by simp [hi]), hqx, hqy]
  have hof : Projective.ofAffine q = ⟨x₂, y₂, 1⟩ := by unfold Projective.ofAffine; rw [hxy]
  rw [hof] at hq'
  rcases P with _ | ⟨x₁, y₁, h₁⟩
  · have hz : p.z = 0 := hp
    have e : p.addAffine c q = ⟨x₂, y₂, 1⟩ := by
      unfold Projective.addAffine; rw [hxy]
      dsimp only
      rw [if_pos (by simp [Projective.isZero, hz])]
    rw [e]
    have : (Point.zero : Spec.Curve.Point c) + Point.some x₂ y₂ h₂ = Point.some x₂ y₂ h₂ := zero_add _
    rwa [this]
  · have hz1 : p.z ≠ 0 := (jac_some.mp hp).1
    have e : p.addAffine c q = p.add c ⟨x₂, y₂, 1⟩ := by
      unfold Projective.addAffine Projective.add
      rw [hxy]
      dsimp only
      have hp0 : ¬ (p.isZero = true) := by simp [Projective.isZero, hz1]
      have hq0 : ¬ ((⟨x₂, y₂, 1⟩ : Projective F).isZero = true) := by simp [Projective.isZero]
      simp only [if_neg hp0, if_neg hq0]
      have e1 : p.x * sqr 1 = p.x := by simp [sqr]
      have e2 : p.y * 1 * sqr 1 = p.y := by simp [sqr]
      have e3 : y₂ * p.z * sqr p.z = p.z * y₂ * sqr p.z := by ring
      rw [e1, e2, e3]
      have e4 : ∀ h : F, sqr (dbl h) = dbl (dbl (sqr h)) := by intro h; simp only [sqr, dbl]; ring
      have e5 : ∀ h : F, dbl (p.z * 1) * h = dbl (p.z * h) := by intro h; simp only [dbl]; ring
      simp only [e4, e5]
    rw [e]
    exact add_ok h2 hp hq'

theorem neg_ok {p : Projective F} {P : Spec.Curve.Point c} (hp : IsJacobian p P) : IsJacobian p.neg (-P) := by
  rcases P with _ | ⟨x, y, h⟩
  · exact hp
  · obtain ⟨h', e⟩ := neg_some h
    rw [e, jac_some]
    obtain ⟨h1, h2, h3⟩ := jac_some.mp hp
    refine ⟨h1, h2, ?_⟩
    show -p.y = _
    rw [h3]; unfold Projective.neg; ring

theorem negAffine_ok {p : Affine F} {P : Spec.Curve.Point c} (hp : IsAffine p P) : IsAffine p.neg (-P) := by
  rcases P with _ | ⟨x, y, h⟩
  · exact hp
  · obtain ⟨h', e⟩ := neg_some h
    rw [e]
    obtain ⟨h1, h2, h3⟩ := hp
    exact ⟨h1, h2, by show -p.y = _; rw [h3]⟩

theorem eq_ok {p q : Projective F} {P Q : Spec.Curve.Point c} (hp : IsJacobian p P) (hq : IsJacobian q Q) :
    p.eq q = true ↔ P = Q := by
  rcases P with _ | ⟨x₁, y₁, h₁⟩
  · have hz : p.z = 0 := hp
    rcases Q with _ | ⟨x₂, y₂, h₂⟩
    · have hz' : q.z = 0 := hq
      simp [Projective.eq, Projective.isZero, hz, hz']
    · have hz' := (jac_some.mp hq).1
      simp [Projective.eq, Projective.isZero, hz, hz']
  · obtain ⟨hz1, hx1, hy1⟩ := jac_some.mp hp
    rcases Q with _ | ⟨x₂, y₂, h₂⟩
    · have hz' : q.z = 0 := hq
      simp [Projective.eq, Projective.isZero, hz1, hz']
    · obtain ⟨hz2, hx2, hy2⟩ := jac_some.mp hq
      have hu : p.x * sqr q.z = q.x * sqr p.z ↔ x₁ = x₂ := by
        rw [hx1, hx2]; unfold sqr
        constructor
        · intro e
          have : p.z ^ 2 * q.z ^ 2 ≠ 0 := mul_ne_zero (pow_ne_zero _ hz1) (pow_ne_zero _ hz2)
          exact mul_right_cancel₀ this (by linear_combination e)
        · rintro rfl; ring
      have hs : p.y * (sqr q.z * q.z) = q.y * (sqr p.z * p.z) ↔ y₁ = y₂ := by
        rw [hy1, hy2]; unfold sqr
        constructor
        · intro e
          have : p.z ^ 3 * q.z ^ 3 ≠ 0 := mul_ne_zero (pow_ne_zero _ hz1) (pow_ne_zero _ hz2)
          exact mul_right_cancel₀ this (by linear_combination e)
        · rintro rfl; ring
      unfold Projective.eq
      rw [if_neg (by simp [Projective.isZero, hz1]), if_neg (by simp [Projective.isZero, hz2])]
      dsimp only
      simp only [hu, hs, Point.some.injEq]
      by_cases hx : x₁ = x₂ <;> simp [hx]

theorem toAffine_ok {p : Projective F} {P : Spec.Curve.Point c} (hp : IsJacobian p P) :
    ∃ q, p.toAffine = some q ∧ IsAffine q P := by
  rcases P with _ | ⟨x, y, h⟩
  · have hz : p.z = 0 := hp
    refine ⟨.identity, ?_, rfl⟩
    unfold Projective.toAffine
    rw [if_pos (by simp [Projective.isZero, hz])]
  · obtain ⟨hz, hx, hy⟩ := jac_some.mp hp
    unfold Projective.toAffine
    rw [if_neg (by simp [Projective.isZero, hz])]
    by_cases h1 : p.z = 1
    · rw [if_pos h1]
      refine ⟨_, rfl, rfl, ?_, ?_⟩
      · show p.x = x; rw [hx, h1]; ring
      · show p.y = y; rw [hy, h1]; ring
    · rw [if_neg h1]
      unfold inv?
      rw [if_neg hz]
      refine ⟨_, rfl, rfl, ?_, ?_⟩
      · show p.x * sqr p.z⁻¹ = x; rw [hx]; unfold sqr; field_simp
      · show p.y * sqr p.z⁻¹ * p.z⁻¹ = y; rw [hy]; unfold sqr; field_simp

theorem mulBits_aux (h2 : (2 : F) ≠ 0) (P : Spec.Curve.Point c) (step : Projective F → Bool → Projective F)
    (hstep : ∀ r R b, IsJacobian r R → IsJacobian (step r b) (R + R + (if b then P else 0)))
    (bits : List Bool) (r : Projective F) (n : Nat) (hr : IsJacobian r (n • P)) :
    IsJacobian (bits.foldl step r) ((bits.foldl (fun acc b => 2 * acc + b.toNat) n) • P) := by
  induction bits generalizing r n with
  | nil => exact hr
  | cons b t ih =>
    rw [List.foldl_cons, List.foldl_cons]
    refine ih _ _ ?_
    have := hstep r _ b hr
    have e : (2 * n + b.toNat) • P = n • P + n • P + (if b then P else 0) := by
      cases b
      · simp [add_smul, mul_smul, two_smul]
      · simp [add_smul, mul_smul, two_smul]
    rw [e]; exact this

theorem mulBits_ok (h2 : (2 : F) ≠ 0) {p : Projective F} {P : Spec.Curve.Point c} (hp : IsJacobian p P)
    (bits : List Bool) : IsJacobian (p.mulBits c bits) (bitsValue bits • P) := by
  rw [← (trimmed_value bits).1]
  refine mulBits_aux h2 P _ ?_ (trimmed bits) _ 0 (by rw [zero_smul]; exact zero_ok)
  intro r R b hr
  cases b
  · simpa using double_ok h2 hr
  · simpa using add_ok h2 (double_ok h2 hr) hp

theorem mulBitsAffine_ok (h2 : (2 : F) ≠ 0) {p : Affine F} {P : Spec.Curve.Point c} (hp : IsAffine p P)
    (bits : List Bool) : IsJacobian (p.mulBits c bits) (bitsValue bits • P) := by
  rw [← (trimmed_value bits).1]
  refine mulBits_aux h2 P _ ?_ (trimmed bits) _ 0 (by rw [zero_smul]; exact zero_ok)
  intro r R b hr
  cases b
  · simpa using double_ok h2 hr
  · simpa using addAffine_ok h2 (double_ok h2 hr) hp

theorem sum_ok (h2 : (2 : F) ≠ 0) (l : List (Affine F × Spec.Curve.Point c)) (hl : ∀ e ∈ l, IsAffine e.1 e.2) :
    IsJacobian (Projective.sum c (l.map (·.1))) (l.map (·.2)).sum := by
  have key : ∀ (l : List (Affine F × Spec.Curve.Point c)) (r : Projective F) (R : Spec.Curve.Point c),
      (∀ e ∈ l, IsAffine e.1 e.2) → IsJacobian r R →
      IsJacobian ((l.map (·.1)).foldl (fun s x => s.addAffine c x) r) (R + (l.map (·.2)).sum) := by
    intro l
    induction l with
    | nil => intro r R _ hr; simpa using hr
    | cons e t ih =>
      intro r R hl hr
      simp only [List.map_cons, List.foldl_cons, List.sum_cons]
      rw [← add_assoc]
      exact ih _ _ (fun e he => hl e (List.mem_cons_of_mem _ he)) (addAffine_ok h2 hr (hl e List.mem_cons_self))
  have := key l Projective.zero 0 hl zero_ok
  rwa [zero_add] at this

theorem sumProjective_ok (h2 : (2 : F) ≠ 0) (l : List (Projective F × Spec.Curve.Point c))
    (hl : ∀ e ∈ l, IsJacobian e.1 e.2) :
    IsJacobian (Projective.sumProjective c (l.map (·.1))) (l.map (·.2)).sum := by
  have key : ∀ (l : List (Projective F × Spec.Curve.Point c)) (r : Projective F) (R : Spec.Curve.Point c),
      (∀ e ∈ l, IsJacobian e.1 e.2) → IsJacobian r R →
      IsJacobian ((l.map (·.1)).foldl (fun s x => s.add c x) r) (R + (l.map (·.2)).sum) := by
    intro l
    induction l with
    | nil => intro r R _ hr; simpa using hr
    | cons e t ih =>
      intro r R hl hr
      simp only [List.map_cons, List.foldl_cons, List.sum_cons]
      rw [← add_assoc]
      exact ih _ _ (fun e he => hl e (List.mem_cons_of_mem _ he)) (add_ok h2 hr (hl e List.mem_cons_self))
  have := key l Projective.zero 0 hl zero_ok
  rwa [zero_add] at this

theorem isZero_ok {p : Projective F} {P : Spec.Curve.Point c} (hp : IsJacobian p P) : p.isZero = true ↔ P = 0 := by
  rcases P with _ | ⟨x, y, h⟩
  · have hz : p.z = 0 := hp
    simp [Projective.isZero, hz]
    rfl
  · have hz := (jac_some.mp hp).1
    simp [Projective.isZero, hz]

theorem isOnCurve_iff (p : Affine F) :
    p.isOnCurve c = true ↔ p.infinity = true ∨ p.y ^ 2 = p.x ^ 3 + c.a * p.x + c.b := by
  unfold Affine.isOnCurve
  by_cases hi : p.infinity = true
  · simp [hi]
  · rw [if_neg hi]
    dsimp only
    have e : (if c.a = 0 then c.addB (sqr p.x * p.x) else c.addB (sqr p.x * p.x) + c.mulByA p.x) =
        p.x ^ 3 + c.a * p.x + c.b := by
      unfold Config.addB Config.mulByA sqr
      by_cases ha : c.a = 0 <;> by_cases hb : c.b = 0 <;> simp [ha, hb] <;> ring
    rw [e]
    have e2 : sqr p.y = p.y ^ 2 := by unfold sqr; ring
    rw [e2]
    simp [hi]

/-! ## Batch inversion -/

theorem prefixProducts_last (tmp : F) (v : List F) (ht : tmp ≠ 0) : (prefixProducts tmp v).2 ≠ 0 := by
  induction v generalizing tmp with
  | nil => exact ht
  | cons f t ih =>
    unfold prefixProducts
    by_cases hf : f = 0
    · rw [if_pos hf]; exact ih tmp ht
    · rw [if_neg hf]; exact ih _ (mul_ne_zero ht hf)

theorem prefixProducts_append (tmp : F) (v w : List F) :
    prefixProducts tmp (v ++ w) =
      ((prefixProducts tmp v).1 ++ (prefixProducts (prefixProducts tmp v).2 w).1,
       (prefixProducts (prefixProducts tmp v).2 w).2) := by
  induction v generalizing tmp with
  | nil => simp [prefixProducts]
  | cons f t ih =>
    rw [List.cons_append]
    by_cases hf : f = 0
    · simp only [prefixProducts, if_pos hf]; exact ih tmp
    · simp only [prefixProducts, if_neg hf, ih]; simp

/-- The list zipped in the second pass ends with the product of everything before the last non-zero element. -/
theorem backPass_ok (v : List F) (coeff tmp : F) (ht : tmp * (prefixProducts 1 v).2 = coeff) :
    (backPass tmp v.reverse ((prefixProducts 1 v).1.reverse.drop 1 ++ [1])).reverse =
      v.map fun f => if f = 0 then 0 else coeff * f⁻¹ := by
  -- the pending products: `last :: rest` with `last` the product of the whole list
  have shape : ∀ v : List F, ((prefixProducts 1 v).1.reverse ++ [1]).head? = some (prefixProducts 1 v).2 := by
    intro v
    induction v using List.reverseRecOn with
    | nil => simp [prefixProducts]
    | append_singleton t f ih =>
      rw [prefixProducts_append]
      by_cases hf : f = 0
      · simp only [prefixProducts, if_pos hf, List.append_nil]; exact ih
      · simp [prefixProducts, if_neg hf]
  have drop_shape : ∀ v : List F, (prefixProducts 1 v).1 ≠ [] →
      (prefixProducts 1 v).1.reverse.drop 1 ++ [1] = ((prefixProducts 1 v).1.reverse ++ [1]).drop 1 := by
    intro v hv
    have : 1 ≤ (prefixProducts 1 v).1.reverse.length := by
      rw [List.length_reverse]; exact List.length_pos_iff.mpr hv
    rw [List.drop_append_of_le_length this]
  -- strengthened: any tail of pending products
  have key : ∀ (v : List F) (tmp : F) (ss : List F), tmp * (prefixProducts 1 v).2 = coeff →
      ((prefixProducts 1 v).1 ≠ [] → ss = ((prefixProducts 1 v).1.reverse ++ [1]).drop 1) →
      (backPass tmp v.reverse ss).reverse = v.map fun f => if f = 0 then 0 else coeff * f⁻¹ := by
    intro v
    induction v using List.reverseRecOn with
    | nil => intro tmp ss _ _; simp [backPass]
    | append_singleton t f ih =>
      intro tmp ss ht hs
      rw [List.reverse_append, List.reverse_singleton, List.singleton_append, List.map_append]
      rw [prefixProducts_append] at ht hs
      by_cases hf : f = 0
      · simp only [prefixProducts, if_pos hf, List.append_nil] at ht hs
        simp only [backPass, if_pos hf, List.reverse_cons]
        rw [ih tmp ss ht hs]
        simp [hf]
      · simp only [prefixProducts, if_neg hf] at ht hs
        have hs' := hs (by simp)
        simp only [List.reverse_append, List.reverse_singleton, List.singleton_append, List.cons_append,
          List.drop_succ_cons, List.drop_zero, List.nil_append] at hs'
        have hne : ss ≠ [] := by rw [hs']; simp
        obtain ⟨s, ss', rfl⟩ := List.exists_cons_of_ne_nil hne
        have hsh := shape t
        rw [← hs'] at hsh
        simp only [List.head?_cons, Option.some.injEq] at hsh
        simp only [backPass, if_neg hf, List.reverse_cons]
        rw [ih (tmp * f) ss' (by rw [← ht]; ring) (fun _ => by rw [← hs']; rfl)]
        congr 1
        simp only [List.map_cons, List.map_nil, if_neg hf]
        rw [hsh, ← ht]
        congr 1
        field_simp
  by_cases hv : (prefixProducts 1 v).1 = []
  · exact key v tmp _ ht (fun h => absurd hv h)
  · exact key v tmp _ ht (fun _ => drop_shape v hv)

theorem batchInversionAndMul_ok (v : List F) (coeff : F) :
    batchInversionAndMul v coeff = some (v.map fun f => if f = 0 then 0 else coeff * f⁻¹) := by
  unfold batchInversionAndMul
  have h := prefixProducts_last 1 v one_ne_zero
  dsimp only
  unfold inv?
  rw [if_neg h]
  dsimp only
  rw [backPass_ok v coeff _ (by field_simp)]

theorem normalizeBatch_ok (v : List (Projective F)) : (normalizeBatch v).map (·.map some) = some (v.map (·.toAffine)) := by
  unfold normalizeBatch batchInversion
  rw [batchInversionAndMul_ok]
  dsimp only
  rw [Option.map_some]
  congr 1
  rw [List.map_map]
  induction v with
  | nil => rfl
  | cons g t ih =>
    simp only [List.map_cons, List.zip_cons_cons]
    rw [ih]
    congr 1
    unfold Projective.toAffine
    simp only [Function.comp, Projective.isZero]
    by_cases hz : g.z = 0
    · simp [hz]
    · simp only [hz, decide_false, Bool.false_eq_true, if_false, inv?]
      by_cases h1 : g.z = 1
      · simp [h1, sqr]
      · simp [h1]

end Verif.Proofs.Curve
