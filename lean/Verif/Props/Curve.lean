import Verif.Proofs.Curve
import Mathlib.Data.ZMod.Basic
import Mathlib.Algebra.Field.ZMod
/-!
# C71 – C73: short Weierstrass curves

`curve c` is `y² = x³ + a x + b`; `Point c` is the group of its points as defined (and proved to be a group) in
Mathlib.  `IsAffine p P` and `IsJacobian p P` say that a value of the library stands for the point `P`.  The field is
arbitrary, of characteristic other than two, and so are `a` and `b`.
-/

namespace Verif.Props.Curve
open Verif Verif.Curve Verif.Uint
open Verif.Spec.Curve Verif.Spec.Uint
open Verif.Proofs.Curve

variable {F : Type} [Field F] [DecidableEq F] {c : Config F}

/-! ## Concrete curves for the examples -/

instance : Fact (Nat.Prime 17) := ⟨by decide +kernel⟩
instance : Fact (Nat.Prime 7) := ⟨by decide +kernel⟩

/-- `y² = x³ + 2 x + 2` over the integers modulo 17: 19 points. -/
def c17 : Config (ZMod 17) := ⟨2, 2, [1#64], [true], limbBitsBe 19#8, 1⟩
/-- `y² = x³ + 7` over the integers modulo 17 (`a = 0`, as in secp256k1): 18 points. -/
def s17 : Config (ZMod 17) := ⟨0, 7, [6#64], [true], limbBitsBe 3#8, 1⟩

theorem two17 : (2 : ZMod 17) ≠ 0 := by decide +kernel

/-- The point (5, 1) of the first curve. -/
def g17 : Point c17 := .some 5 1 ((curve c17).nonsingular_iff 5 1 |>.mpr
  ⟨((curve c17).equation_iff 5 1).mpr (by decide +kernel), by right; decide +kernel⟩)
/-- The point (1, 5) of the second curve. -/
def h17 : Point s17 := .some 1 5 ((curve s17).nonsingular_iff 1 5 |>.mpr
  ⟨((curve s17).equation_iff 1 5).mpr (by decide +kernel), by right; decide +kernel⟩)

theorem g17_affine : IsAffine (⟨5, 1, false⟩ : Affine (ZMod 17)) g17 := ⟨rfl, rfl, rfl⟩
/-- The same point with `Z = 2`: (5·4, 1·8). -/
theorem g17_jacobian : IsJacobian (⟨3, 8, 2⟩ : Projective (ZMod 17)) g17 := by
  refine ⟨by decide +kernel, by decide +kernel, by decide +kernel⟩
theorem h17_affine : IsAffine (⟨1, 5, false⟩ : Affine (ZMod 17)) h17 := ⟨rfl, rfl, rfl⟩

/-! ## C71 -/

/-- Doubling. -/
theorem C71_double (h2 : (2 : F) ≠ 0) {p : Projective F} {P : Point c} (hp : IsJacobian p P) :
    IsJacobian (p.double c) (P + P) := double_ok h2 hp

/-- Adding two projective points, whatever they are: identity, equal, opposite or general. -/
theorem C71_add (h2 : (2 : F) ≠ 0) {p q : Projective F} {P Q : Point c} (hp : IsJacobian p P) (hq : IsJacobian q Q) :
    IsJacobian (p.add c q) (P + Q) ∧ IsJacobian (p.refAdd c q) (P + Q) :=
  ⟨add_ok h2 hp hq, by rw [add_comm]; exact add_ok h2 hq hp⟩

/-- Adding an affine point to a projective one. -/
theorem C71_add_affine (h2 : (2 : F) ≠ 0) {p : Projective F} {q : Affine F} {P Q : Point c} (hp : IsJacobian p P)
    (hq : IsAffine q Q) : IsJacobian (p.addAffine c q) (P + Q) ∧ IsJacobian (q.addProjective c p) (Q + P) :=
  ⟨addAffine_ok h2 hp hq, by rw [add_comm]; exact addAffine_ok h2 hp hq⟩

/-- Adding and subtracting two affine points. -/
theorem C71_affine_ops (h2 : (2 : F) ≠ 0) {p q : Affine F} {P Q : Point c} (hp : IsAffine p P) (hq : IsAffine q Q) :
    IsJacobian (p.add c q) (P + Q) ∧ IsJacobian (p.sub c q) (P - Q) :=
  ⟨addAffine_ok h2 (ofAffine_ok hp) hq,
   by rw [sub_eq_add_neg]; exact addAffine_ok h2 (ofAffine_ok hp) (negAffine_ok hq)⟩

/-- Negation. -/
theorem C71_neg {p : Projective F} {q : Affine F} {P Q : Point c} (hp : IsJacobian p P) (hq : IsAffine q Q) :
    IsJacobian p.neg (-P) ∧ IsAffine q.neg (-Q) := ⟨neg_ok hp, negAffine_ok hq⟩

/-- Subtraction in its three forms. -/
theorem C71_sub (h2 : (2 : F) ≠ 0) {p q : Projective F} {r : Affine F} {P Q R : Point c} (hp : IsJacobian p P)
    (hq : IsJacobian q Q) (hr : IsAffine r R) :
    IsJacobian (p.sub c q) (P - Q) ∧ IsJacobian (p.subAffine c r) (P - R) ∧
      IsJacobian (r.subProjective c q) (R - Q) := by
  refine ⟨?_, ?_, ?_⟩
  · rw [sub_eq_add_neg]; exact add_ok h2 hp (neg_ok hq)
  · rw [sub_eq_add_neg]; exact addAffine_ok h2 hp (negAffine_ok hr)
  · rw [sub_eq_add_neg, add_comm]; exact addAffine_ok h2 (neg_ok hq) hr

/-- Sums over iterators of affine or projective points. -/
theorem C71_sum (h2 : (2 : F) ≠ 0) (l : List (Affine F × Point c)) (m : List (Projective F × Point c))
    (hl : ∀ e ∈ l, IsAffine e.1 e.2) (hm : ∀ e ∈ m, IsJacobian e.1 e.2) :
    IsJacobian (Projective.sum c (l.map (·.1))) (l.map (·.2)).sum ∧
    IsJacobian (Projective.sumProjective c (m.map (·.1))) (m.map (·.2)).sum :=
  ⟨sum_ok h2 l hl, sumProjective_ok h2 m hm⟩

/-- The constants stand for the identity, and the zero tests recognise it. -/
theorem C71_identity {p : Projective F} {q : Affine F} {P Q : Point c} (hp : IsJacobian p P) (hq : IsAffine q Q) :
    IsJacobian (Projective.zero : Projective F) (0 : Point c) ∧ IsAffine (Affine.identity : Affine F) (0 : Point c) ∧
    (p.isZero = true ↔ P = 0) ∧ (q.isZero = true ↔ Q = 0) := by
  refine ⟨rfl, rfl, isZero_ok hp, ?_⟩
  unfold Affine.isZero Affine.xy
  rcases Q with _ | ⟨x, y, h⟩
  · have : q.infinity = true := hq
    simp [this]
    rfl
  · simp [hq.1]

/-- Group expressions over the values of the library. -/
inductive Expr (F : Type) where
  | proj (p : Projective F)
  | aff (p : Affine F)
  | add (e f : Expr F)
  | sub (e f : Expr F)
  | addAff (e : Expr F) (p : Affine F)
  | subAff (e : Expr F) (p : Affine F)
  | neg (e : Expr F)
  | double (e : Expr F)
  | mul (e : Expr F) (scalar : List Bool)

/-- What the library computes. -/
def Expr.compute (c : Config F) : Expr F → Projective F
  | .proj p => p
  | .aff p => .ofAffine p
  | .add e f => (e.compute c).add c (f.compute c)
  | .sub e f => (e.compute c).sub c (f.compute c)
  | .addAff e p => (e.compute c).addAffine c p
  | .subAff e p => (e.compute c).subAffine c p
  | .neg e => (e.compute c).neg
  | .double e => (e.compute c).double c
  | .mul e k => (e.compute c).mulBits c k

/-- What it means in the group, given what the leaves stand for. -/
def Expr.meaning (c : Config F) (pp : Projective F → Point c) (pa : Affine F → Point c) : Expr F → Point c
  | .proj p => pp p
  | .aff p => pa p
  | .add e f => e.meaning c pp pa + f.meaning c pp pa
  | .sub e f => e.meaning c pp pa - f.meaning c pp pa
  | .addAff e p => e.meaning c pp pa + pa p
  | .subAff e p => e.meaning c pp pa - pa p
  | .neg e => -e.meaning c pp pa
  | .double e => 2 • e.meaning c pp pa
  | .mul e k => bitsValue k • e.meaning c pp pa

/-- Every leaf stands for the point it is given. -/
def Expr.LeavesOk (c : Config F) (pp : Projective F → Point c) (pa : Affine F → Point c) : Expr F → Prop
  | .proj p => IsJacobian p (pp p)
  | .aff p => IsAffine p (pa p)
  | .add e f | .sub e f => e.LeavesOk c pp pa ∧ f.LeavesOk c pp pa
  | .addAff e p | .subAff e p => e.LeavesOk c pp pa ∧ IsAffine p (pa p)
  | .neg e | .double e | .mul e _ => e.LeavesOk c pp pa

/-- Every expression, of any size and mixing all the operators, computes a representative of its meaning in the
group. -/
theorem C71_every_expression (h2 : (2 : F) ≠ 0) (pp : Projective F → Point c) (pa : Affine F → Point c) (e : Expr F)
    (he : e.LeavesOk c pp pa) : IsJacobian (e.compute c) (e.meaning c pp pa) := by
  induction e with
  | proj p => exact he
  | aff p => exact ofAffine_ok he
  | add e f ihe ihf => exact add_ok h2 (ihe he.1) (ihf he.2)
  | sub e f ihe ihf => exact (C71_sub h2 (ihe he.1) (ihf he.2) (r := .identity) (R := 0) rfl).1
  | addAff e p ih => exact addAffine_ok h2 (ih he.1) he.2
  | subAff e p ih => exact (C71_sub h2 (ih he.1) (ih he.1) he.2).2.1
  | neg e ih => exact neg_ok (ih he)
  | double e ih => exact (by rw [Expr.meaning, two_smul]; exact double_ok h2 (ih he))
  | mul e k ih => exact mulBits_ok h2 (ih he) k

-- (5, 1) doubled is (6, 3), twice that plus itself is (10, 6); adding the opposite gives infinity
example : ((⟨5, 1, 1⟩ : Projective (ZMod 17)).double c17).toAffine = some ⟨6, 3, false⟩ ∧
    (((⟨3, 8, 2⟩ : Projective (ZMod 17)).double c17).addAffine c17 ⟨5, 1, false⟩).toAffine = some ⟨10, 6, false⟩ ∧
    ((⟨3, 8, 2⟩ : Projective (ZMod 17)).addAffine c17 ⟨5, -1, false⟩).isZero = true ∧
    ((⟨1, 5, 1⟩ : Projective (ZMod 17)).double s17).toAffine = some ⟨2, 10, false⟩ := by decide +kernel
example : IsJacobian ((⟨3, 8, 2⟩ : Projective (ZMod 17)).addAffine c17 ⟨5, 1, false⟩) (g17 + g17) :=
  (C71_add_affine two17 g17_jacobian g17_affine).1

/-! ## C72 -/

/-- Scalar multiplication by any string of bits is repeated addition, for projective and affine points. -/
theorem C72_mul (h2 : (2 : F) ≠ 0) {p : Projective F} {q : Affine F} {P Q : Point c} (hp : IsJacobian p P)
    (hq : IsAffine q Q) (bits : List Bool) :
    IsJacobian (p.mulBits c bits) (bitsValue bits • P) ∧ IsJacobian (q.mulBits c bits) (bitsValue bits • Q) :=
  ⟨mulBits_ok h2 hp bits, mulBitsAffine_ok h2 hq bits⟩

/-- For a multi-limb integer `k` of the library, `mul_bigint(k)` is `k`-fold addition. -/
theorem C72_mul_bigint (h2 : (2 : F) ≠ 0) {N : Nat} (k : Uint N) {p : Projective F} {q : Affine F} {P Q : Point c}
    (hp : IsJacobian p P) (hq : IsAffine q Q) :
    IsJacobian (p.mulBits c (bitsBe k)) (val k • P) ∧ IsJacobian (q.mulBits c (bitsBe k)) (val k • Q) := by
  have e : bitsValue (bitsBe k) = val k := by rw [val_eq]; exact bitsBe_value N k.get
  rw [← e]
  exact C72_mul h2 hp hq _

/-- Scalars are taken as they are: multiplications compose. -/
theorem C72_mul_mul (h2 : (2 : F) ≠ 0) {p : Projective F} {P : Point c} (hp : IsJacobian p P) (k l : List Bool) :
    IsJacobian ((p.mulBits c k).mulBits c l) ((bitsValue l * bitsValue k) • P) := by
  rw [mul_smul]
  exact mulBits_ok h2 (mulBits_ok h2 hp k) l

/-- The cofactor test: one, in any number of limbs. -/
theorem C72_cofactor_is_one :
    c.cofactorIsOne = true ↔ value c.cofactor.length (fun i => c.cofactor.getD i 0#64) = 1 := by
  unfold Config.cofactorIsOne
  rcases c.cofactor with _ | ⟨l, rest⟩
  · simp [value]
  · have e : value (l :: rest).length (fun i => (l :: rest).getD i 0#64) =
        l.toNat + 2 ^ 64 * value rest.length (fun i => rest.getD i 0#64) := by
      unfold value
      rw [List.length_cons, Finset.sum_range_succ']
      simp only [List.getD_cons_succ, List.getD_cons_zero, Finset.mul_sum]
      rw [add_comm]
      refine congrArg₂ (· + ·) ?_ ?_
      · rw [mul_zero, pow_zero, mul_one]
      · refine Finset.sum_congr rfl fun i _ => ?_
        rw [show 64 * (i + 1) = 64 * i + 64 from by ring, pow_add]; ring
    rw [e]
    have hl := l.isLt
    have hz : ∀ rest : List Limb.L, (rest.all fun x => decide (x = 0#64)) = true ↔
        value rest.length (fun i => rest.getD i 0#64) = 0 := by
      intro rest
      unfold value
      rw [Finset.sum_eq_zero_iff]
      simp only [List.all_eq_true, decide_eq_true_eq, Finset.mem_range, mul_eq_zero]
      constructor
      · intro h i hi
        left
        have := h _ (List.getElem_mem hi)
        rw [List.getD_eq_getElem?_getD, List.getElem?_eq_getElem hi, Option.getD_some, this]; rfl
      · intro h x hx
        obtain ⟨i, hi, rfl⟩ := List.getElem_of_mem hx
        rcases h i hi with h' | h'
        · rw [List.getD_eq_getElem?_getD, List.getElem?_eq_getElem hi, Option.getD_some] at h'
          exact BitVec.eq_of_toNat_eq h'
        · exact absurd h' (pow_pos (by norm_num) _).ne'
    simp only [Bool.and_eq_true, decide_eq_true_eq, hz]
    have hl1 : l = 1#64 ↔ l.toNat = 1 := by
      constructor
      · rintro rfl; rfl
      · intro h; exact BitVec.eq_of_toNat_eq h
    rw [hl1]
    omega

/-- The subgroup check accepts a point exactly when its multiple by the scalar modulus is the identity, except
that a curve of cofactor one is not checked at all. -/
theorem C72_subgroup (h2 : (2 : F) ≠ 0) {p : Affine F} {P : Point c} (hp : IsAffine p P) :
    p.isInCorrectSubgroup c = true ↔
      value c.cofactor.length (fun i => c.cofactor.getD i 0#64) = 1 ∨ bitsValue c.scalarModulus • P = 0 := by
  unfold Affine.isInCorrectSubgroup
  rw [Bool.or_eq_true, C72_cofactor_is_one, isZero_ok (mulBitsAffine_ok h2 hp c.scalarModulus)]

/-- Clearing the cofactor multiplies by it, and cannot panic. -/
theorem C72_clear_cofactor (h2 : (2 : F) ≠ 0) {p : Affine F} {P : Point c} (hp : IsAffine p P) :
    IsJacobian (p.mulByCofactorToGroup c) (value c.cofactor.length (fun i => c.cofactor.getD i 0#64) • P) ∧
    ∃ q, p.clearCofactor c = some q ∧
      IsAffine q (value c.cofactor.length (fun i => c.cofactor.getD i 0#64) • P) := by
  have h := mulBitsAffine_ok h2 hp (sliceBitsBe c.cofactor)
  rw [sliceBitsBe_value] at h
  exact ⟨h, toAffine_ok h⟩

/-- On a group whose order divides cofactor times scalar modulus, the cleared point passes the subgroup check. -/
theorem C72_cleared_point_in_subgroup (h2 : (2 : F) ≠ 0) {p : Affine F} {P : Point c} (hp : IsAffine p P)
    (hord : (bitsValue c.scalarModulus * value c.cofactor.length (fun i => c.cofactor.getD i 0#64)) • P = 0) :
    ∃ q, p.clearCofactor c = some q ∧ q.isInCorrectSubgroup c = true := by
  obtain ⟨_, q, hq, hqp⟩ := C72_clear_cofactor h2 hp
  refine ⟨q, hq, (C72_subgroup h2 hqp).mpr (.inr ?_)⟩
  rw [← mul_smul]; exact hord

/-- Multiplying by the stored inverse of the cofactor. -/
theorem C72_mul_by_cofactor_inv (h2 : (2 : F) ≠ 0) {p : Affine F} {P : Point c} (hp : IsAffine p P) :
    ∃ q, p.mulByCofactorInv c = some q ∧ IsAffine q (bitsValue c.cofactorInv • P) :=
  toAffine_ok (mulBitsAffine_ok h2 hp c.cofactorInv)

-- nineteen times the generator is infinity; seven times it is (0, 6)
example : ((⟨5, 1, false⟩ : Affine (ZMod 17)).mulBits c17 (limbBitsBe 19#8)).isZero = true ∧
    ((⟨5, 1, false⟩ : Affine (ZMod 17)).mulBits c17 (limbBitsBe 7#8)).toAffine = some ⟨0, 6, false⟩ ∧
    ((⟨3, 8, 2⟩ : Projective (ZMod 17)).mulBits c17 (limbBitsBe 7#8)).toAffine = some ⟨0, 6, false⟩ := by decide +kernel
-- cofactor six: the point (1, 5) is refused, its cleared form accepted
example : (⟨1, 5, false⟩ : Affine (ZMod 17)).isInCorrectSubgroup s17 = false ∧ s17.cofactorIsOne = false ∧
    c17.cofactorIsOne = true ∧
    ((⟨1, 5, false⟩ : Affine (ZMod 17)).clearCofactor s17).map (fun q => (q.isInCorrectSubgroup s17, q.infinity)) =
      some (true, false) := by decide +kernel
example : IsJacobian ((⟨5, 1, false⟩ : Affine (ZMod 17)).mulBits c17 (limbBitsBe 19#8)) ((19 : Nat) • g17) := by
  have := (C72_mul two17 g17_jacobian g17_affine (limbBitsBe 19#8)).2
  rwa [show bitsValue (limbBitsBe 19#8) = 19 from by decide +kernel] at this

/-! ## C73 -/

/-- **C73** The coefficient helpers: `mul_by_a` multiplies by `a` and `add_b` adds `b`, whatever shortcut they take
when a coefficient is zero. -/
theorem C73_coefficients (c : Config F) (e : F) : c.mulByA e = c.a * e ∧ c.addB e = e + c.b := by
  unfold Config.mulByA Config.addB
  constructor
  · split <;> simp_all [mul_comm]
  · split <;> simp_all

example : s17.mulByA 5 = 0 ∧ c17.mulByA 5 = 10 ∧ c17.addB 5 = 7 := by decide +kernel

/-- Into the group and back, with no panic: the point is the same. -/
theorem C73_conversions {p : Projective F} {q : Affine F} {P Q : Point c} (hp : IsJacobian p P) (hq : IsAffine q Q) :
    (∃ r, p.toAffine = some r ∧ IsAffine r P) ∧ IsJacobian (.ofAffine q) Q := ⟨toAffine_ok hp, ofAffine_ok hq⟩

/-- Conversion to affine form never panics, even off the curve. -/
theorem C73_to_affine_total (p : Projective F) : p.toAffine ≠ none := by
  unfold Projective.toAffine inv?
  by_cases hz : p.z = 0
  · simp [Projective.isZero, hz]
  · by_cases h1 : p.z = 1
    · simp [Projective.isZero, h1]
    · simp [Projective.isZero, hz, h1]

/-- A finite affine point and the identity come back unchanged. -/
theorem C73_round_trip (x y : F) :
    (Projective.ofAffine (⟨x, y, false⟩ : Affine F)).toAffine = some ⟨x, y, false⟩ ∧
    (Projective.ofAffine (Affine.identity : Affine F)).toAffine = some .identity := by
  constructor
  · simp [Projective.ofAffine, Affine.xy, Projective.toAffine, Projective.isZero, Affine.newUnchecked]
  · simp [Projective.ofAffine, Affine.xy, Projective.toAffine, Projective.isZero, Affine.identity, Projective.zero]

/-- Equality of projective points, and comparisons with affine ones, is equality of points of the curve. -/
theorem C73_equality {p q : Projective F} {r : Affine F} {P Q R : Point c} (hp : IsJacobian p P)
    (hq : IsJacobian q Q) (hr : IsAffine r R) :
    (p.eq q = true ↔ P = Q) ∧ (p.eqAffine r = true ↔ P = R) ∧ (r.eqProjective p = true ↔ R = P) :=
  ⟨eq_ok hp hq, eq_ok hp (ofAffine_ok hr), eq_ok (ofAffine_ok hr) hp⟩

/-- Points that compare equal have the same affine form, bit for bit (so they hash alike). -/
theorem C73_equal_points_same_affine {p q : Projective F} {P Q : Point c} (hp : IsJacobian p P)
    (hq : IsJacobian q Q) : p.eq q = true ↔ p.toAffine = q.toAffine := by
  rw [eq_ok hp hq]
  have norm : ∀ {p : Projective F} {P : Point c}, IsJacobian p P →
      p.toAffine = some (match P with | .zero => .identity | .some x y _ => ⟨x, y, false⟩) := by
    intro p P hp
    obtain ⟨r, hr, hrP⟩ := toAffine_ok hp
    rcases P with _ | ⟨x, y, h⟩
    · have hz : p.z = 0 := hp
      unfold Projective.toAffine
      rw [if_pos (by simp [Projective.isZero, hz])]
    · obtain ⟨h1, h2, h3⟩ := hrP
      rw [hr]
      rcases r with ⟨rx, ry, ri⟩
      simp only at h1 h2 h3
      rw [h1, h2, h3]
  rw [norm hp, norm hq]
  rcases P with _ | ⟨x, y, h⟩ <;> rcases Q with _ | ⟨x', y', h'⟩ <;> simp [Affine.identity]

/-- `is_on_curve` is the curve equation. -/
theorem C73_on_curve (p : Affine F) :
    p.isOnCurve c = true ↔ p.infinity = true ∨ p.y ^ 2 = p.x ^ 3 + c.a * p.x + c.b := isOnCurve_iff p

/-- On a curve with non-zero discriminant a value passes `is_on_curve` exactly when it stands for a point. -/
theorem C73_on_curve_point (hΔ : -16 * (4 * c.a ^ 3 + 27 * c.b ^ 2) ≠ 0) (p : Affine F) :
    p.isOnCurve c = true ↔ ∃ P : Point c, IsAffine p P := by
  rw [isOnCurve_iff]
  constructor
  · rintro (h | h)
    · exact ⟨0, h⟩
    · by_cases hi : p.infinity = true
      · exact ⟨0, hi⟩
      · have he : (curve c).Equation p.x p.y := by
          rw [WeierstrassCurve.Affine.equation_iff]
          simpa [curve] using h
        have hD : (curve c).Δ ≠ 0 := by
          have : (curve c).Δ = -16 * (4 * c.a ^ 3 + 27 * c.b ^ 2) := by
            simp [WeierstrassCurve.Δ, WeierstrassCurve.b₂, WeierstrassCurve.b₄, WeierstrassCurve.b₆,
              WeierstrassCurve.b₈, curve]; ring
          rw [this]; exact hΔ
        have hn := (WeierstrassCurve.Affine.equation_iff_nonsingular_of_Δ_ne_zero hD).mp he
        exact ⟨.some p.x p.y hn, by simpa using hi, rfl, rfl⟩
  · rintro ⟨P, hP⟩
    rcases P with _ | ⟨x, y, h⟩
    · exact .inl hP
    · right
      rw [hP.2.1, hP.2.2]
      exact equation h

/-- The checked constructor accepts exactly the coordinates of points of the curve in the right subgroup. -/
theorem C73_new (h2 : (2 : F) ≠ 0) (hΔ : -16 * (4 * c.a ^ 3 + 27 * c.b ^ 2) ≠ 0) (x y : F) (q : Affine F) :
    Affine.new c x y = some q ↔ q = ⟨x, y, false⟩ ∧ ∃ P : Point c, IsAffine q P ∧
      (value c.cofactor.length (fun i => c.cofactor.getD i 0#64) = 1 ∨ bitsValue c.scalarModulus • P = 0) := by
  unfold Affine.new
  dsimp only
  constructor
  · intro h
    split at h
    · rename_i h1
      split at h
      · rename_i h3
        have hq := (Option.some.inj h).symm
        subst hq
        obtain ⟨P, hP⟩ := (C73_on_curve_point hΔ _).mp h1
        exact ⟨rfl, P, hP, (C72_subgroup h2 hP).mp h3⟩
      · exact absurd h (by simp)
    · exact absurd h (by simp)
  · rintro ⟨rfl, P, hP, hsub⟩
    have h1 := (C73_on_curve_point hΔ _).mpr ⟨P, hP⟩
    have h3 := (C72_subgroup h2 hP).mpr hsub
    rw [if_pos (show (Affine.newUnchecked x y).isOnCurve c = true from h1),
      if_pos (show (Affine.newUnchecked x y).isInCorrectSubgroup c = true from h3)]
    rfl

/-- The checked projective constructor normalises: it accepts a triple exactly when its affine form is a point of the
curve in the right subgroup, and returns that point. -/
theorem C73_new_projective (h2 : (2 : F) ≠ 0) (hΔ : -16 * (4 * c.a ^ 3 + 27 * c.b ^ 2) ≠ 0) (x y z : F) :
    (Projective.new c x y z).isSome = true ↔ ∃ P : Point c, IsJacobian ⟨x, y, z⟩ P ∧
      (value c.cofactor.length (fun i => c.cofactor.getD i 0#64) = 1 ∨ bitsValue c.scalarModulus • P = 0) := by
  have rep : ∀ q : Affine F, Projective.toAffine ⟨x, y, z⟩ = some q → ∀ P : Point c, IsAffine q P →
      IsJacobian (⟨x, y, z⟩ : Projective F) P := by
    intro q hq P hP
    unfold Projective.toAffine at hq
    by_cases hz : z = 0
    · rw [if_pos (by simp [Projective.isZero, hz])] at hq
      have := (Option.some.inj hq).symm
      subst this
      rcases P with _ | ⟨x', y', h'⟩
      · exact hz
      · exact absurd hP.1 (by simp [Affine.identity])
    · rw [if_neg (by simp [Projective.isZero, hz])] at hq
      rcases P with _ | ⟨x', y', h'⟩
      · exfalso
        have hi : q.infinity = true := hP
        by_cases h1 : z = 1
        · rw [if_pos h1] at hq
          rw [← Option.some.inj hq] at hi
          simp [Affine.newUnchecked] at hi
        · rw [if_neg h1] at hq
          unfold inv? at hq
          rw [if_neg hz] at hq
          rw [← Option.some.inj hq] at hi
          simp [Affine.newUnchecked] at hi
      · rw [jac_some]
        obtain ⟨_, hx, hy⟩ := hP
        refine ⟨hz, ?_, ?_⟩
        all_goals
          show _ = _ * z ^ _
          by_cases h1 : z = 1
          · rw [if_pos h1] at hq
            rw [← Option.some.inj hq] at hx hy
            simp only [Affine.newUnchecked] at hx hy
            first
              | (rw [← hx, h1, one_pow, mul_one])
              | (rw [← hy, h1, one_pow, mul_one])
          · rw [if_neg h1] at hq
            unfold inv? at hq
            rw [if_neg hz] at hq
            rw [← Option.some.inj hq] at hx hy
            simp only [Affine.newUnchecked, sqr] at hx hy
            first
              | (rw [← hx]; field_simp)
              | (rw [← hy]; field_simp)
  unfold Projective.new
  constructor
  · intro h
    split at h
    · exact absurd h (by simp)
    · rename_i q hq
      split at h
      · rename_i h1
        split at h
        · rename_i h3
          obtain ⟨P, hP⟩ := (C73_on_curve_point hΔ _).mp h1
          exact ⟨P, rep q hq P hP, (C72_subgroup h2 hP).mp h3⟩
        · exact absurd h (by simp)
      · exact absurd h (by simp)
  · rintro ⟨P, hP, hsub⟩
    obtain ⟨q, hq, hqP⟩ := toAffine_ok hP
    rw [hq]
    dsimp only
    rw [if_pos ((C73_on_curve_point hΔ _).mpr ⟨P, hqP⟩), if_pos ((C72_subgroup h2 hqP).mpr hsub)]
    rfl

/-- Batch inversion inverts every non-zero element and leaves zeros, for a list of any length, without panicking. -/
theorem C73_batch_inversion (v : List F) : batchInversion v = some (v.map fun f => f⁻¹) := by
  unfold batchInversion
  rw [batchInversionAndMul_ok]
  congr 1
  refine List.map_congr_left fun f _ => ?_
  by_cases hf : f = 0 <;> simp [hf]

/-- With a coefficient. -/
theorem C73_batch_inversion_and_mul (v : List F) (k : F) :
    batchInversionAndMul v k = some (v.map fun f => if f = 0 then 0 else k * f⁻¹) := batchInversionAndMul_ok v k

/-- Batch normalisation is element-wise conversion, for a list of any length with identities anywhere. -/
theorem C73_normalize_batch (v : List (Projective F)) :
    (normalizeBatch v).map (·.map some) = some (v.map (·.toAffine)) := normalizeBatch_ok v

example : normalizeBatch [(⟨3, 8, 2⟩ : Projective (ZMod 17)), .zero, ⟨6, 3, 1⟩] =
    some [⟨5, 1, false⟩, .identity, ⟨6, 3, false⟩] ∧
    batchInversion [(2 : ZMod 17), 0, 3, 0] = some [9, 0, 6, 0] := by decide +kernel
example : Affine.new c17 5 1 = some ⟨5, 1, false⟩ ∧ Affine.new c17 5 2 = none ∧ Affine.new s17 1 5 = none ∧
    (Projective.new c17 3 8 2).isSome = true ∧
    -16 * (4 * c17.a ^ 3 + 27 * c17.b ^ 2) ≠ 0 ∧ -16 * (4 * s17.a ^ 3 + 27 * s17.b ^ 2) ≠ 0 := by decide +kernel
example : (⟨3, 8, 2⟩ : Projective (ZMod 17)).eq ⟨5, 1, 1⟩ = true ∧
    (⟨3, 8, 2⟩ : Projective (ZMod 17)).eq ⟨5, -1, 1⟩ = false := by decide +kernel

end Verif.Props.Curve
