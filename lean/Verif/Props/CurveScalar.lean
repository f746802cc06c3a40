import Verif.Model.CurveScalar
import Verif.Props.Curve
import Verif.Props.Fp
/-!
# C112: elements of the scalar field act on the points of the curve

`R` is the scalar field with its Montgomery arithmetic, `order R` its modulus.  The points are those of any short
Weierstrass curve over any field of characteristic other than two; a point of the subgroup of order `order R` is one
with `order R • P = 0`, which is what the library's subgroup check tests.
-/

namespace Verif.Props.CurveScalar
open Verif Verif.Curve Verif.Uint Verif.Fp
open Verif.Spec.Curve Verif.Spec.Uint Verif.Spec.Fp
open Verif.Proofs.Curve

variable {F : Type} [Field F] [DecidableEq F] {c : Config F} {M : Nat} {R : FpParams M}

theorem mulScalar_ok (h2 : (2 : F) ≠ 0) {p : Projective F} {P : Point c} (hp : IsJacobian p P) (s : Fp R) :
    IsJacobian (p.mulScalar c s) (num s • P) := by
  have e : bitsValue (bitsBe (intoBigint s)) = num s := by
    show _ = val (intoBigint s)
    rw [val_eq]; exact bitsBe_value M _
  rw [← e]
  exact mulBits_ok h2 hp _

theorem mulScalarAffine_ok (h2 : (2 : F) ≠ 0) {q : Affine F} {Q : Point c} (hq : IsAffine q Q) (s : Fp R) :
    IsJacobian (q.mulScalar c s) (num s • Q) := by
  have e : bitsValue (bitsBe (intoBigint s)) = num s := by
    show _ = val (intoBigint s)
    rw [val_eq]; exact bitsBe_value M _
  rw [← e]
  exact mulBitsAffine_ok h2 hq _

theorem mod_smul {G : Type} [AddCommGroup G] {P : G} {r : Nat} (h : r • P = 0) (k : Nat) : (k % r) • P = k • P := by
  conv_rhs => rw [← Nat.div_add_mod k r]
  rw [add_smul, mul_comm r, mul_smul, h, smul_zero, zero_add]

/-- A point times a scalar is the point added to itself as often as the number the scalar stands for. -/
theorem C112_meaning (h2 : (2 : F) ≠ 0) {p : Projective F} {q : Affine F} {P Q : Point c} (hp : IsJacobian p P)
    (hq : IsAffine q Q) (s : Fp R) :
    IsJacobian (p.mulScalar c s) (num s • P) ∧ IsJacobian (q.mulScalar c s) (num s • Q) :=
  ⟨mulScalar_ok h2 hp s, mulScalarAffine_ok h2 hq s⟩

/-- **C112** On the subgroup of order `order R` the scalars act as a field: what the library computes for
`p * (s + t)`, `p * (s - t)`, `p * (s * t)`, `p * -s`, `p * 1` and `p * 0`, with its own arithmetic of scalars, compares
equal to `p * s + p * t`, `p * s - p * t`, `(p * s) * t`, `-(p * s)`, `p` and the identity; and multiplication
distributes over the addition of points. -/
theorem C112_scalars_act (h2 : (2 : F) ≠ 0) (hR : Valid R) {p q : Projective F} {P Q : Point c} (hp : IsJacobian p P)
    (hq : IsJacobian q Q) (hP : order R • P = 0) {s t : Fp R} (hs : Reduced s) (ht : Reduced t) :
    (p.mulScalar c (Fp.add s t)).eq ((p.mulScalar c s).add c (p.mulScalar c t)) = true ∧
    (p.mulScalar c (Fp.sub s t)).eq ((p.mulScalar c s).sub c (p.mulScalar c t)) = true ∧
    (p.mulScalar c (Fp.mul s t)).eq ((p.mulScalar c s).mulScalar c t) = true ∧
    (p.mulScalar c (Fp.neg s)).eq (p.mulScalar c s).neg = true ∧
    (p.mulScalar c (Fp.one R)).eq p = true ∧
    (p.mulScalar c (Fp.zero R)).isZero = true ∧
    ((p.add c q).mulScalar c s).eq ((p.mulScalar c s).add c (q.mulScalar c s)) = true := by
  have ms := fun s => mulScalar_ok (R := R) h2 hp s
  obtain ⟨a1, _⟩ := Props.Fp.C67_add hR hs ht
  obtain ⟨a2, _⟩ := Props.Fp.C67_sub hR hs ht
  obtain ⟨a3, _⟩ := Props.Fp.C67_mul hR hs ht
  obtain ⟨a4, _⟩ := Props.Fp.C67_neg hR hs
  obtain ⟨z0, _, z1, _⟩ := Props.Fp.C67_constants hR
  have imod : ∀ (k : Nat) (z : ℤ), (k : ℤ) = z % order R → k • P = z • P := by
    intro k z h
    rw [← natCast_zsmul, h]
    conv_rhs => rw [← Int.mul_ediv_add_emod z (order R)]
    rw [add_smul, mul_comm, mul_smul, natCast_zsmul, hP, smul_zero, zero_add]
  refine ⟨(eq_ok (ms _) (add_ok h2 (ms s) (ms t))).mpr ?_, ?_, ?_, ?_, ?_, ?_, ?_⟩
  · rw [a1, mod_smul hP, add_smul]
  · refine (eq_ok (ms _) (add_ok h2 (ms s) (neg_ok (ms t)))).mpr ?_
    rw [imod _ _ a2, ← sub_eq_add_neg, sub_smul, natCast_zsmul, natCast_zsmul]
  · refine (eq_ok (ms _) (mulScalar_ok h2 (ms s) t)).mpr ?_
    rw [a3, mod_smul hP, mul_comm, mul_smul]
  · refine (eq_ok (ms _) (neg_ok (ms s))).mpr ?_
    rw [imod _ _ a4, neg_smul, natCast_zsmul]
  · refine (eq_ok (ms _) hp).mpr ?_
    rw [z1, one_smul]
  · refine (isZero_ok (ms _)).mpr ?_
    rw [z0, zero_smul]
  · refine (eq_ok (mulScalar_ok h2 (add_ok h2 hp hq) s) (add_ok h2 (ms s) (mulScalar_ok h2 hq s))).mpr ?_
    rw [smul_add]

/-- Dividing by a scalar undoes multiplying by it: if `t` is what `inverse` returns for `s`, then `(p * s) * t` is
`p`. -/
theorem C112_inverse_scalar (h2 : (2 : F) ≠ 0) (hR : ValidPrime R) {p : Projective F} {P : Point c}
    (hp : IsJacobian p P) (hP : order R • P = 0) {s t : Fp R} (hs : Reduced s) (h0 : num s ≠ 0) (fuel : Nat)
    (hf : 2 * order R ≤ fuel) (ht : inverse fuel s = some (some t)) :
    ((p.mulScalar c s).mulScalar c t).eq p = true := by
  obtain ⟨x, e, _, hv⟩ := Props.Fp.C69_inverse hR hs h0 fuel hf
  rw [e] at ht
  injection ht with ht; injection ht with ht; subst ht
  refine (eq_ok (mulScalar_ok h2 (mulScalar_ok h2 hp s) _) hp).mpr ?_
  rw [← mul_smul, mul_comm, ← mod_smul hP, hv, one_smul]

theorem order_eq (hR : ValidPrime R) {P : Point c} (hP : order R • P = 0) (h0 : P ≠ 0) : addOrderOf P = order R :=
  haveI : Fact (order R).Prime := ⟨hR.2⟩
  addOrderOf_eq_prime hP h0

/-- With a prime order, different scalars move a point of the subgroup other than the identity to different points. -/
theorem C112_faithful (h2 : (2 : F) ≠ 0) (hR : ValidPrime R) {p : Projective F} {P : Point c} (hp : IsJacobian p P)
    (hP : order R • P = 0) (h0 : P ≠ 0) {s t : Fp R} (hs : Reduced s) (ht : Reduced t) :
    ((p.mulScalar c s).eq (p.mulScalar c t) = true ↔ s = t) ∧ ((p.mulScalar c s).isZero = true ↔ s = Fp.zero R) := by
  have ho := order_eq hR hP h0
  have key : ∀ {s t : Fp R}, Reduced s → Reduced t → (num s • P = num t • P ↔ s = t) := by
    intro s t hs ht
    rw [nsmul_eq_nsmul_iff_modEq, ho]
    refine ⟨fun h => num_inj hR.1 hs ht ?_, fun h => by rw [h]⟩
    exact Nat.ModEq.eq_of_lt_of_lt h (num_lt hR.1 hs) (num_lt hR.1 ht)
  obtain ⟨z0, rz, _, _⟩ := Props.Fp.C67_constants hR.1
  refine ⟨(eq_ok (mulScalar_ok h2 hp s) (mulScalar_ok h2 hp t)).trans (key hs ht), (isZero_ok (mulScalar_ok h2 hp s)).trans ?_⟩
  have := key hs rz
  rwa [z0, zero_smul] at this

/-- The multiples of such a point by integers of any size repeat with period `order R` and not sooner. -/
theorem C112_integers (h2 : (2 : F) ≠ 0) (hR : ValidPrime R) {p : Projective F} {P : Point c} (hp : IsJacobian p P)
    (hP : order R • P = 0) (h0 : P ≠ 0) (k l : List Bool) :
    (p.mulBits c k).eq (p.mulBits c l) = true ↔ bitsValue k % order R = bitsValue l % order R := by
  rw [eq_ok (mulBits_ok h2 hp k) (mulBits_ok h2 hp l), nsmul_eq_nsmul_iff_modEq, order_eq hR hP h0]
  rfl

/-- The points the subgroup check accepts, on a curve that declares a cofactor other than one and the order of its
scalar field, are the points all this is about. -/
theorem C112_checked_points (h2 : (2 : F) ≠ 0) (hc : c.cofactorIsOne = false) (hr : bitsValue c.scalarModulus = order R)
    {q : Affine F} {Q : Point c} (hq : IsAffine q Q) : q.isInCorrectSubgroup c = true ↔ order R • Q = 0 := by
  rw [Props.Curve.C72_subgroup h2 hq, hr, ← Props.Curve.C72_cofactor_is_one, hc]
  simp

/-! ## Why the subgroup matters

`s17` of `Props/Curve` is `y² = x³ + 7` over the integers modulo 17, with 18 points, cofactor 6 and scalars modulo 3. -/

/-- The scalar field of three elements. -/
def P3 : FpParams 1 := ⟨fromU64 3#64⟩
theorem prime3 : ValidPrime P3 := by
  have h : order P3 = 3 := by unfold order; decide +kernel
  exact ⟨⟨by decide, by rw [h], by rw [h]; decide⟩, by rw [h]; decide⟩

/-- Outside the subgroup the law fails: for the point (1, 5), `p * (2 + 2)` is not `p * 2 + p * 2`. -/
theorem C112_outside_the_subgroup :
    ∃ (p : Projective (ZMod 17)) (P : Point Props.Curve.s17) (s : Fp P3), IsJacobian p P ∧ Reduced s ∧
      (p.mulScalar Props.Curve.s17 (Fp.add s s)).eq
        ((p.mulScalar Props.Curve.s17 s).add Props.Curve.s17 (p.mulScalar Props.Curve.s17 s)) = false :=
  ⟨⟨1, 5, 1⟩, Props.Curve.h17, fromU64 2#64, ofAffine_ok Props.Curve.h17_affine, by unfold Reduced; decide +kernel,
    by decide +kernel⟩

end Verif.Props.CurveScalar
