import Verif.Props.Fp
import Verif.Props.Curve
import Mathlib.Algebra.Field.ZMod
import Mathlib.Algebra.Field.Basic
/-!
# C67, C69, C71: the library's field elements are a field, and its curves are over that field

`Elem P hP` is the type of reduced elements.  Its `Field` structure below uses the operations of the library (the
model of `fp.rs`): the field axioms are therefore statements about the library's operations, and every theorem about
curves over an arbitrary field applies to curves over the library's own fields.
-/

namespace Verif.Props.FpField
open Verif Verif.Fp Verif.Limb Verif.Uint
open Verif.Spec.Uint Verif.Spec.Fp Verif.Spec.Curve
open Verif.Props.Fp

variable {N : Nat} {P : FpParams N}

/-- Reduced elements of a field with valid prime modulus. -/
structure Elem (P : FpParams N) (_hP : ValidPrime P) where
  val : Fp P
  reduced : Reduced val

@[ext] theorem Elem.ext {hP : ValidPrime P} {a b : Elem P hP} (h : a.val = b.val) : a = b := by
  cases a; cases b; cases h; rfl

instance {hP : ValidPrime P} : DecidableEq (Elem P hP) := fun a b =>
  decidable_of_iff (a.val = b.val) ⟨Elem.ext, fun h => by rw [h]⟩

variable {hP : ValidPrime P}

/-- The residue a caller sees. -/
def residue (a : Elem P hP) : ZMod (order P) := (num a.val : ℕ)

theorem residue_injective : Function.Injective (residue (P := P) (hP := hP)) := by
  intro a b h
  unfold residue at h
  rw [ZMod.natCast_eq_natCast_iff', Nat.mod_eq_of_lt (num_lt hP.1 a.reduced), Nat.mod_eq_of_lt (num_lt hP.1 b.reduced)] at h
  exact Elem.ext (num_inj hP.1 a.reduced b.reduced h)

theorem exists_limbs (n : Nat) : value N (fun i => BitVec.ofNat 64 (n / 2 ^ (64 * i))) = n % 2 ^ (64 * N) := by
  induction N with
  | zero => simp [value, Nat.mod_one]
  | succ N ih =>
    rw [value_succ, ih, BitVec.toNat_ofNat, show 64 * (N + 1) = 64 * N + 64 from by ring, pow_add, Nat.mod_mul]
    ring

theorem residue_surjective : Function.Surjective (residue (P := P) (hP := hP)) := by
  intro z
  haveI : Fact (order P).Prime := ⟨hP.2⟩
  have hlt : z.val < 2 ^ (64 * N) := lt_trans (ZMod.val_lt z) (val_lt P.modulus)
  let u : Uint N := Uint.mk fun i => BitVec.ofNat 64 (z.val / 2 ^ (64 * i))
  have hu : val u = z.val := by
    have : val u = value N (fun i => BitVec.ofNat 64 (z.val / 2 ^ (64 * i))) := by
      rw [val_eq]
      exact value_congr fun i hi => get_mk _ hi
    rw [this, exists_limbs, Nat.mod_eq_of_lt hlt]
  obtain ⟨h1, h2⟩ := num_fromBigint hP.1 u
  refine ⟨⟨fromBigint u, h2⟩, ?_⟩
  unfold residue
  rw [h1, hu, Nat.mod_eq_of_lt (ZMod.val_lt z), ZMod.natCast_zmod_val]

/-- Reduced elements correspond to residues. -/
noncomputable def residues (hP : ValidPrime P) : Elem P hP ≃ ZMod (order P) :=
  Equiv.ofBijective residue ⟨residue_injective, residue_surjective⟩

/-- `inverse`, with zero for the element that has none. -/
theorem inverse_reduced (a : Elem P hP) : Reduced (((inverse (2 * order P) a.val).getD none).getD (Fp.zero P)) := by
  by_cases h : num a.val = 0
  · rw [C69_zero hP.1 _ a.val a.reduced h]; exact reduced_zero hP.1
  · obtain ⟨x, e, hx, _⟩ := C69_inverse hP a.reduced h _ le_rfl
    rw [e]; exact hx

instance : Zero (Elem P hP) := ⟨⟨Fp.zero P, reduced_zero hP.1⟩⟩
instance : One (Elem P hP) := ⟨⟨Fp.one P, reduced_one hP.1⟩⟩
instance : Add (Elem P hP) := ⟨fun a b => ⟨Fp.add a.val b.val, (num_add hP.1 a.reduced b.reduced).2⟩⟩
instance : Mul (Elem P hP) := ⟨fun a b => ⟨Fp.mul a.val b.val, (num_mul hP.1 b.reduced).2⟩⟩
instance : Neg (Elem P hP) := ⟨fun a => ⟨Fp.neg a.val, (num_neg hP.1 a.reduced).2⟩⟩
instance : Sub (Elem P hP) := ⟨fun a b => ⟨Fp.sub a.val b.val, (num_sub hP.1 a.reduced b.reduced).2⟩⟩
instance : Inv (Elem P hP) := ⟨fun a => ⟨((inverse (2 * order P) a.val).getD none).getD (Fp.zero P), inverse_reduced a⟩⟩
instance : Div (Elem P hP) := ⟨fun a b => a * b⁻¹⟩

variable (hP) in
/-- The field of residues. -/
noncomputable abbrev zfield : Field (ZMod (order P)) := @ZMod.instField (order P) ⟨hP.2⟩

theorem residue_zero : residue (0 : Elem P hP) = 0 := by
  show ((num (Fp.zero P) : ℕ) : ZMod (order P)) = 0
  rw [num_zero hP.1, Nat.cast_zero]
theorem residue_one : residue (1 : Elem P hP) = 1 := by
  show ((num (Fp.one P) : ℕ) : ZMod (order P)) = 1
  rw [num_one hP.1, Nat.cast_one]
theorem residue_add (a b : Elem P hP) : residue (a + b) = residue a + residue b := by
  show ((num (Fp.add a.val b.val) : ℕ) : ZMod (order P)) = _
  rw [(num_add hP.1 a.reduced b.reduced).1, cast_mod, Nat.cast_add]; rfl
theorem residue_mul (a b : Elem P hP) : residue (a * b) = residue a * residue b := by
  show ((num (Fp.mul a.val b.val) : ℕ) : ZMod (order P)) = _
  rw [(num_mul hP.1 b.reduced).1, cast_mod, Nat.cast_mul]; rfl
theorem residue_neg (a : Elem P hP) : residue (-a) = -residue a := by
  have hlt := num_lt hP.1 a.reduced
  show ((num (Fp.neg a.val) : ℕ) : ZMod (order P)) = -((num a.val : ℕ) : ZMod (order P))
  rw [(num_neg hP.1 a.reduced).1, cast_mod, Nat.cast_sub hlt.le, ZMod.natCast_self, zero_sub]
theorem residue_sub (a b : Elem P hP) : residue (a - b) = residue a - residue b := by
  have hlt := num_lt hP.1 b.reduced
  show ((num (Fp.sub a.val b.val) : ℕ) : ZMod (order P)) = ((num a.val : ℕ) : ZMod (order P)) - ((num b.val : ℕ) : ZMod (order P))
  rw [(num_sub hP.1 a.reduced b.reduced).1, cast_mod, Nat.cast_add, Nat.cast_sub hlt.le, ZMod.natCast_self, zero_sub, sub_eq_add_neg]
theorem residue_inv (a : Elem P hP) : residue a⁻¹ = @Inv.inv _ (zfield hP).toInv (residue a) := by
  let _ := zfield hP
  show ((num (((inverse (2 * order P) a.val).getD none).getD (Fp.zero P)) : ℕ) : ZMod (order P)) = (residue a)⁻¹
  by_cases h : num a.val = 0
  · rw [C69_zero hP.1 _ a.val a.reduced h]
    show ((num (Fp.zero P) : ℕ) : ZMod (order P)) = _
    rw [num_zero hP.1]
    have : residue a = 0 := by unfold residue; rw [h, Nat.cast_zero]
    rw [this, inv_zero, Nat.cast_zero]
  · obtain ⟨x, e, hx, hv⟩ := C69_inverse hP a.reduced h _ le_rfl
    rw [e]
    show ((num x : ℕ) : ZMod (order P)) = _
    refine eq_inv_of_mul_eq_one_right ?_
    unfold residue
    rw [← Nat.cast_mul, ← cast_mod, hv, Nat.cast_one]


/-! Multiples, powers and numerals, which Mathlib asks for besides the operations. -/

noncomputable instance : SMul ℕ (Elem P hP) := ⟨fun n a => (residues hP).symm (n • residues hP a)⟩
noncomputable instance : SMul ℤ (Elem P hP) := ⟨fun n a => (residues hP).symm (n • residues hP a)⟩
noncomputable instance : SMul ℚ≥0 (Elem P hP) :=
  ⟨fun q a => let _ := zfield hP; (residues hP).symm (q • residues hP a)⟩
noncomputable instance : SMul ℚ (Elem P hP) :=
  ⟨fun q a => let _ := zfield hP; (residues hP).symm (q • residues hP a)⟩
noncomputable instance : Pow (Elem P hP) ℕ := ⟨fun a n => (residues hP).symm (residues hP a ^ n)⟩
noncomputable instance : Pow (Elem P hP) ℤ :=
  ⟨fun a n => let _ := zfield hP; (residues hP).symm (residues hP a ^ n)⟩
noncomputable instance : NatCast (Elem P hP) := ⟨fun n => (residues hP).symm n⟩
noncomputable instance : IntCast (Elem P hP) := ⟨fun n => (residues hP).symm n⟩
noncomputable instance : NNRatCast (Elem P hP) := ⟨fun q => let _ := zfield hP; (residues hP).symm q⟩
noncomputable instance : RatCast (Elem P hP) := ⟨fun q => let _ := zfield hP; (residues hP).symm q⟩

theorem residue_symm (z : ZMod (order P)) : residue ((residues hP).symm z) = z := (residues hP).apply_symm_apply z

/-- The field axioms hold of the library's zero, one, addition, multiplication, negation, subtraction, inverse and
division. -/
noncomputable instance field : Field (Elem P hP) :=
  letI := zfield hP
  residue_injective.field residue
    residue_zero residue_one residue_add residue_mul residue_neg residue_sub residue_inv
    (fun a b => by
      show residue (a * b⁻¹) = _
      rw [residue_mul, residue_inv]
      exact (div_eq_mul_inv _ _).symm)
    (fun _ _ => residue_symm _) (fun _ _ => residue_symm _) (fun _ _ => residue_symm _) (fun _ _ => residue_symm _)
    (fun _ _ => residue_symm _) (fun _ _ => residue_symm _) (fun _ => residue_symm _) (fun _ => residue_symm _)
    (fun _ => residue_symm _) (fun _ => residue_symm _)

/-- Zero, one, addition, multiplication, negation and subtraction of that field are the operations of the library;
so are doubling, squaring and equality. -/
theorem C67_field_operations (a b : Elem P hP) :
    (0 : Elem P hP).val = Fp.zero P ∧ (1 : Elem P hP).val = Fp.one P ∧ (a + b).val = Fp.add a.val b.val ∧
    (a * b).val = Fp.mul a.val b.val ∧ (-a).val = Fp.neg a.val ∧ (a - b).val = Fp.sub a.val b.val ∧
    (a + a).val = Fp.double a.val ∧ (a * a).val = Fp.square a.val ∧ (a = b ↔ a.val = b.val) := by
  refine ⟨rfl, rfl, rfl, rfl, rfl, rfl, ?_, rfl, ⟨fun h => by rw [h], Elem.ext⟩⟩
  show Fp.add a.val a.val = Fp.double a.val
  obtain ⟨h1, h2⟩ := num_add hP.1 a.reduced a.reduced
  obtain ⟨h3, h4⟩ := num_double hP.1 a.reduced
  exact num_inj hP.1 h2 h4 (by rw [h1, h3, two_mul])

/-- The inverse of the field is what `inverse` returns, and `inverse` returns nothing exactly for zero. -/
theorem C69_field_inverse (a : Elem P hP) (fuel : Nat) (hf : 2 * order P ≤ fuel) :
    (a = 0 → inverse fuel a.val = some none) ∧ (a ≠ 0 → inverse fuel a.val = some (some a⁻¹.val)) := by
  constructor
  · rintro rfl
    exact C69_zero hP.1 fuel _ (reduced_zero hP.1) (num_zero hP.1)
  · intro h
    have h0 : num a.val ≠ 0 := fun e => h (residue_injective (by
      rw [residue_zero]; unfold residue; rw [e, Nat.cast_zero]))
    obtain ⟨x, e, hx, hv⟩ := C69_inverse hP a.reduced h0 fuel hf
    rw [e]
    have : (⟨x, hx⟩ : Elem P hP) = a⁻¹ := by
      refine eq_inv_of_mul_eq_one_right (Elem.ext ?_)
      show Fp.mul a.val x = Fp.one P
      exact C69_mul_inverse hP a.reduced h0 fuel hf e
    rw [← this]

/-- The field is the integers modulo the order. -/
theorem C67_field_is_zmod (hP : ValidPrime P) :
    ∃ e : Elem P hP ≃+* ZMod (order P), ∀ a, e a = ((num a.val : ℕ) : ZMod (order P)) :=
  ⟨{ residues hP with map_mul' := residue_mul, map_add' := residue_add }, fun _ => rfl⟩

theorem two_ne_zero (hP : ValidPrime P) : (2 : Elem P hP) ≠ 0 := by
  intro h
  have h1 : (1 + 1 : Elem P hP) = 0 := by rw [← h]; exact one_add_one_eq_two
  have h2 : residue ((1 : Elem P hP) + 1) = 0 := (congrArg residue h1).trans residue_zero
  rw [residue_add, residue_one] at h2
  have h3 : ((2 : ℕ) : ZMod (order P)) = 0 := by rw [← h2]; norm_num
  have hu := two_unit hP.1
  rw [h3] at hu
  have : Fact (order P).Prime := ⟨hP.2⟩
  exact not_isUnit_zero hu

/-! ## Curves over the library's fields -/

/-- Over any prime field of the library and any coefficients, addition, mixed addition, doubling, negation and
scalar multiplication compute in the group of the curve. -/
theorem C71_over_library_fields (c : Curve.Config (Elem P hP)) {p q : Curve.Projective (Elem P hP)}
    {r : Curve.Affine (Elem P hP)} {A B R : Point c} (hp : IsJacobian p A) (hq : IsJacobian q B) (hr : IsAffine r R)
    (bits : List Bool) :
    IsJacobian (p.add c q) (A + B) ∧ IsJacobian (p.addAffine c r) (A + R) ∧ IsJacobian (p.double c) (A + A) ∧
    IsJacobian p.neg (-A) ∧ IsJacobian (p.sub c q) (A - B) ∧
    IsJacobian (p.mulBits c bits) (bitsValue bits • A) ∧ IsJacobian (r.mulBits c bits) (bitsValue bits • R) ∧
    (p.eq q = true ↔ A = B) ∧ ∃ s, p.toAffine = some s ∧ IsAffine s A :=
  have h2 := two_ne_zero hP
  ⟨(Props.Curve.C71_add h2 hp hq).1, (Props.Curve.C71_add_affine h2 hp hr).1, Props.Curve.C71_double h2 hp,
   (Props.Curve.C71_neg hp hr).1, (Props.Curve.C71_sub h2 hp hq hr).1, (Props.Curve.C72_mul h2 hp hr bits).1,
   (Props.Curve.C72_mul h2 hp hr bits).2, (Props.Curve.C73_equality hp hq hr).1, (Props.Curve.C73_conversions hp hr).1⟩

-- the curve y² = x³ + 2 x + 2 over the library's field of 17 elements, and its point (5, 1) with Z = 1
abbrev E17 : Type := Elem P17 prime17
def e17 (v : L) : E17 := ⟨Fp.fromU64 v, (C68_from_then_into valid17 _).2.1⟩
def cfg17 : Curve.Config E17 := ⟨e17 2#64, e17 2#64, [1#64], [true], limbBitsBe 19#8, 1⟩

theorem on17 : (curve cfg17).Nonsingular (e17 5#64) (e17 1#64) := by
  have lift : ∀ x y a b : E17, num (Fp.mul y.val y.val) =
      num (Fp.add (Fp.add (Fp.mul (Fp.mul x.val x.val) x.val) (Fp.mul a.val x.val)) b.val) →
      y ^ 2 = x ^ 3 + a * x + b := by
    intro x y a b h
    rw [pow_two, pow_succ, pow_two]
    exact Elem.ext (num_inj prime17.1 (y * y).reduced (x * x * x + a * x + b).reduced h)
  have lift' : ∀ y : E17, y = -y → num (Fp.add y.val y.val) = 0 := by
    intro y h
    have h0 : y + y = 0 := add_eq_zero_iff_eq_neg.mpr h
    have h1 : num (y + y).val = num (0 : E17).val := by rw [h0]
    exact h1.trans (num_zero prime17.1)
  rw [WeierstrassCurve.Affine.nonsingular_iff, WeierstrassCurve.Affine.equation_iff]
  simp only [curve, zero_mul, add_zero, mul_zero, sub_zero]
  refine ⟨lift _ _ _ _ (by decide +kernel), Or.inr fun h => ?_⟩
  exact absurd (lift' _ h) (by decide +kernel)

example (x y : E17) (h : (curve cfg17).Nonsingular x y) :
    IsJacobian ((⟨x, y, 1⟩ : Curve.Projective E17).double cfg17) ((.some x y h : Point cfg17) + .some x y h) :=
  (C71_over_library_fields cfg17 (B := 0) (R := 0) (q := .zero) (r := .identity) (p := ⟨x, y, 1⟩)
    (Proofs.Curve.jac_some.mpr ⟨one_ne_zero, by simp, by simp⟩) rfl rfl []).2.2.1

end Verif.Props.FpField
