import Verif.Model.UintText
import Mathlib.Algebra.Field.Defs
/-!
# Model of `lib/crypto/src/curve` (short Weierstrass curves)

The code is generic over a base field; so is the model, over any field `F` with decidable equality.  The library's
own prime fields are an instance (`Props/FpField`).  `x.double()` is `x + x`, `x.square()` is `x * x`,
`sum_of_products([a, b], [c, d])` is `a * c + b * d` (`field/mod.rs` 161-167, starting from zero), and
`x.inverse()` is `none` for zero.
-/

namespace Verif.Curve
open Verif.Uint

variable {F : Type} [Field F] [DecidableEq F]

/-- `SWCurveConfig` and `CurveConfig`, `sw/mod.rs` 27-33, `curve/mod.rs` 28-40.  `extDegree` is
`BaseField::extension_degree()`, `scalarModulus` the bits of `ScalarField::characteristic()`. -/
structure Config (F : Type) where
  a : F
  b : F
  cofactor : List Limb.L
  cofactorInv : List Bool
  scalarModulus : List Bool
  extDegree : Nat

/-- `Affine`, `sw/affine.rs` 26-35. -/
structure Affine (F : Type) where
  x : F
  y : F
  infinity : Bool
  deriving DecidableEq

/-- `Projective` (Jacobian coordinates), `sw/projective.rs` 32-39. -/
structure Projective (F : Type) where
  x : F
  y : F
  z : F
  deriving DecidableEq

/-- `double`.
Models `lib/crypto/src/field/fp.rs` 500-504 (exact by C67). -/
def dbl (x : F) : F := x + x
/-- `square`.
Models `lib/crypto/src/field/fp.rs` 527-531 (exact by C67). -/
def sqr (x : F) : F := x * x
/-- `inverse`.
Models `lib/crypto/src/field/fp.rs` 540-542 (exact by C69). -/
def inv? (x : F) : Option F := if x = 0 then none else some x⁻¹

/-- `mul_by_a`, `sw/mod.rs` 41-47. -/
def Config.mulByA (c : Config F) (e : F) : F := if c.a = 0 then 0 else e * c.a
/-- `add_b`, `sw/mod.rs` 55-61. -/
def Config.addB (c : Config F) (e : F) : F := if c.b = 0 then e else e + c.b
/-- `cofactor_is_one`, `curve/mod.rs` 43-46. -/
def Config.cofactorIsOne (c : Config F) : Bool :=
  match c.cofactor with
  | [] => false
  | l :: rest => decide (l = 1#64) && rest.all fun x => decide (x = 0#64)

/-! ## Affine points -/

/-- `identity`, `sw/affine.rs` 90-92; `zero`, 143-145. -/
def Affine.identity : Affine F := ⟨0, 0, true⟩
/-- `new_unchecked`, `sw/affine.rs` 85-87. -/
def Affine.newUnchecked (x y : F) : Affine F := ⟨x, y, false⟩
/-- `is_on_curve`, `sw/affine.rs` 95-106. -/
def Affine.isOnCurve (c : Config F) (p : Affine F) : Bool :=
  if p.infinity then true
  else
    let x3b := c.addB (sqr p.x * p.x)
    let x3b := if c.a = 0 then x3b else x3b + c.mulByA p.x
    decide (sqr p.y = x3b)
/-- `xy`, `sw/affine.rs` 134-136. -/
def Affine.xy (p : Affine F) : Option (F × F) := if p.infinity then none else some (p.x, p.y)
/-- `is_zero`, `curve/mod.rs` 197-199. -/
def Affine.isZero (p : Affine F) : Bool := p.xy.isNone
/-- `neg`, `sw/affine.rs` 171-174. -/
def Affine.neg (p : Affine F) : Affine F := { p with y := -p.y }

/-! ## Projective points -/

/-- `zero`, `sw/projective.rs` 138-144. -/
def Projective.zero : Projective F := ⟨1, 1, 0⟩
/-- `is_zero`, `sw/projective.rs` 147-149. -/
def Projective.isZero (p : Projective F) : Bool := decide (p.z = 0)

/-- `eq`, `sw/projective.rs` 59-79. -/
def Projective.eq (p q : Projective F) : Bool :=
  if p.isZero then q.isZero
  else if q.isZero then false
  else
    let z1z1 := sqr p.z
    let z2z2 := sqr q.z
    if p.x * z2z2 = q.x * z1z1 then decide (p.y * (z2z2 * q.z) = q.y * (z1z1 * p.z)) else false

/-- `From<Affine>`, `sw/projective.rs` 580-589; `into_group`, `curve/mod.rs` 206-208. -/
def Projective.ofAffine (p : Affine F) : Projective F :=
  match p.xy with
  | none => Projective.zero
  | some (x, y) => ⟨x, y, 1⟩

/-- Comparisons between the two kinds, `sw/projective.rs` 82-86 and `sw/affine.rs` 37-41. -/
def Projective.eqAffine (p : Projective F) (q : Affine F) : Bool := p.eq (.ofAffine q)
/-- `PartialEq<Projective>` of `Affine`, `sw/affine.rs` 37-41. -/
def Affine.eqProjective (p : Affine F) (q : Projective F) : Bool := (Projective.ofAffine p).eq q

/-- `From<Projective>`, `sw/affine.rs` 249-268; `into_affine`, `curve/mod.rs` 120-122.  `none` is the `unwrap`
panic. -/
def Projective.toAffine (p : Projective F) : Option (Affine F) :=
  if p.isZero then some .identity
  else if p.z = 1 then some (.newUnchecked p.x p.y)
  else
    match inv? p.z with
    | none => none
    | some zinv =>
      let zinv2 := sqr zinv
      some (.newUnchecked (p.x * zinv2) (p.y * zinv2 * zinv))

/-- `double_in_place`, `sw/projective.rs` 168-268. -/
def Projective.double (c : Config F) (p : Projective F) : Projective F :=
  if p.isZero then p
  else if c.a = 0 then
    let a := sqr p.x
    let b := sqr p.y
    let cc := sqr b
    let d := if c.extDegree = 1 ∨ c.extDegree = 2 then dbl (dbl (p.x * b)) else dbl (sqr (p.x + b) - a - cc)
    let e := a + dbl a
    let z3 := dbl (p.z * p.y)
    let x3 := sqr e - dbl d
    let y3 := (d - x3) * e - dbl (dbl (dbl cc))
    ⟨x3, y3, z3⟩
  else
    let xx := sqr p.x
    let yy := sqr p.y
    let yyyy := sqr yy
    let zz := sqr p.z
    let s := dbl (sqr (p.x + yy) - xx - yyyy)
    let m := dbl xx + xx + c.mulByA (sqr zz)
    let x3 := sqr m - dbl s
    let z3 := dbl (p.z * p.y)
    let y3 := (s - x3) * m - dbl (dbl (dbl yyyy))
    ⟨x3, y3, z3⟩

/-- `neg`, `sw/projective.rs` 330-333. -/
def Projective.neg (p : Projective F) : Projective F := { p with y := -p.y }

/-- `add_assign` of an affine point, `sw/projective.rs` 336-414. -/
def Projective.addAffine (c : Config F) (p : Projective F) (q : Affine F) : Projective F :=
  match q.xy with
  | none => p
  | some (qx, qy) =>
    if p.isZero then ⟨qx, qy, 1⟩
    else
      let z1z1 := sqr p.z
      let u2 := qx * z1z1
      let s2 := p.z * qy * z1z1
      if p.x = u2 then
        if p.y = s2 then p.double c else Projective.zero
      else
        let h := u2 - p.x
        let hh := sqr h
        let i := dbl (dbl hh)
        let j := -h * i
        let r := dbl (s2 - p.y)
        let v := p.x * i
        let x3 := sqr r + j - dbl v
        let y3 := r * (v - x3) + dbl p.y * j
        let z3 := dbl (p.z * h)
        ⟨x3, y3, z3⟩

/-- `add_assign` of a projective point, `sw/projective.rs` 453-542. -/
def Projective.add (c : Config F) (p q : Projective F) : Projective F :=
  if p.isZero then q
  else if q.isZero then p
  else
    let z1z1 := sqr p.z
    let z2z2 := sqr q.z
    let u1 := p.x * z2z2
    let u2 := q.x * z1z1
    let s1 := p.y * q.z * z2z2
    let s2 := q.y * p.z * z1z1
    if u1 = u2 then
      if s1 = s2 then p.double c else Projective.zero
    else
      let h := u2 - u1
      let i := sqr (dbl h)
      let j := -h * i
      let r := dbl (s2 - s1)
      let v := u1 * i
      let x3 := sqr r + j - dbl v
      let y3 := r * (v - x3) + dbl s1 * j
      let z3 := dbl (p.z * q.z) * h
      ⟨x3, y3, z3⟩

/-- `sub_assign`, `sw/projective.rs` 426-430 and 554-558. -/
def Projective.subAffine (c : Config F) (p : Projective F) (q : Affine F) : Projective F := p.addAffine c q.neg
/-- `Sub` and `SubAssign`, `sw/projective.rs` 544-558. -/
def Projective.sub (c : Config F) (p q : Projective F) : Projective F := p.add c q.neg

/-- `&P + P`, `helpers.rs` 29-38: the right operand is the accumulator. -/
def Projective.refAdd (c : Config F) (p q : Projective F) : Projective F := q.add c p

/-- Additive operators of affine points, `sw/affine.rs` 177-227. -/
def Affine.add (c : Config F) (p q : Affine F) : Projective F := (Projective.ofAffine p).addAffine c q
/-- `Sub<Affine>`, `sw/affine.rs` 203-211. -/
def Affine.sub (c : Config F) (p q : Affine F) : Projective F := (Projective.ofAffine p).subAffine c q
/-- `Add<Projective>`, `sw/affine.rs` 187-201. -/
def Affine.addProjective (c : Config F) (p : Affine F) (q : Projective F) : Projective F := q.addAffine c p
/-- `Sub<Projective>`, `sw/affine.rs` 213-227. -/
def Affine.subProjective (c : Config F) (p : Affine F) (q : Projective F) : Projective F := p.addProjective c q.neg

/-- `Sum`, `sw/projective.rs` 591-597. -/
def Projective.sum (c : Config F) (l : List (Affine F)) : Projective F :=
  l.foldl (fun s x => s.addAffine c x) Projective.zero

/-- `Sum` of projective points, `helpers.rs` 123-135. -/
def Projective.sumProjective (c : Config F) (l : List (Projective F)) : Projective F :=
  l.foldl (fun s x => s.add c x) Projective.zero

/-! ## Scalar multiplication -/

/-- `sw_double_and_add_affine`, `sw/mod.rs` 106-119; `mul_bigint`, `sw/affine.rs` 147-149. -/
def Affine.mulBits (c : Config F) (p : Affine F) (scalar : List Bool) : Projective F :=
  (trimmed scalar).foldl
    (fun res b =>
      let res := res.double c
      if b then res.addAffine c p else res) Projective.zero
/-- `sw_double_and_add_projective`, `sw/mod.rs` 123-136; `mul_bigint`, `sw/projective.rs` 280-282; `mul_bits_be`,
`curve/mod.rs` 65-75. -/
def Projective.mulBits (c : Config F) (p : Projective F) (scalar : List Bool) : Projective F :=
  (trimmed scalar).foldl
    (fun res b =>
      let res := res.double c
      if b then res.add c p else res) Projective.zero

/-- `is_in_correct_subgroup_assuming_on_curve`, `sw/mod.rs` 72-76. -/
def Affine.isInCorrectSubgroup (c : Config F) (p : Affine F) : Bool :=
  c.cofactorIsOne || (p.mulBits c c.scalarModulus).isZero

/-- `Affine::new`, `sw/affine.rs` 72-77: `none` is a failed assertion. -/
def Affine.new (c : Config F) (x y : F) : Option (Affine F) :=
  let point := Affine.newUnchecked x y
  if point.isOnCurve c then (if point.isInCorrectSubgroup c then some point else none) else none

/-- `Projective::new`, `sw/projective.rs` 119-125. -/
def Projective.new (c : Config F) (x y z : F) : Option (Projective F) :=
  match Projective.toAffine ⟨x, y, z⟩ with
  | none => none
  | some p =>
    if p.isOnCurve c then (if p.isInCorrectSubgroup c then some (.ofAffine p) else none) else none

/-- `mul_by_cofactor_to_group`, `sw/affine.rs` 153-155; `mul_by_cofactor`, `curve/mod.rs` 227-229;
`clear_cofactor`, `sw/mod.rs` 81-83. -/
def Affine.mulByCofactorToGroup (c : Config F) (p : Affine F) : Projective F := p.mulBits c (sliceBitsBe c.cofactor)
/-- `clear_cofactor`, `sw/mod.rs` 81-83 and `sw/affine.rs` 160-162. -/
def Affine.clearCofactor (c : Config F) (p : Affine F) : Option (Affine F) := (p.mulByCofactorToGroup c).toAffine
/-- `mul_by_cofactor_inv`, `curve/mod.rs` 234-236. -/
def Affine.mulByCofactorInv (c : Config F) (p : Affine F) : Option (Affine F) := (p.mulBits c c.cofactorInv).toAffine

/-! ## Batch inversion -/

/-- First pass of `batch_inversion_and_mul`, `curve/mod.rs` 254-262: the running products of the non-zero
elements, and the last of them. -/
def prefixProducts (tmp : F) : List F → List F × F
  | [] => ([], tmp)
  | f :: rest =>
    if f = 0 then prefixProducts tmp rest
    else
      let tmp := tmp * f
      let r := prefixProducts tmp rest
      (tmp :: r.1, r.2)

/-- Second pass, `curve/mod.rs` 271-284, on the reversed list; the second list is the zipped iterator (the
iteration stops when it is used up). -/
def backPass (tmp : F) : List F → List F → List F
  | [], _ => []
  | f :: rest, ss =>
    if f = 0 then f :: backPass tmp rest ss
    else
      match ss with
      | [] => f :: rest
      | s :: ss => (tmp * s) :: backPass (tmp * f) rest ss

/-- `batch_inversion_and_mul`, `curve/mod.rs` 246-285: `none` is the `expect` panic. -/
def batchInversionAndMul (v : List F) (coeff : F) : Option (List F) :=
  let r := prefixProducts 1 v
  match inv? r.2 with
  | none => none
  | some tmp => some (backPass (tmp * coeff) v.reverse (r.1.reverse.drop 1 ++ [1])).reverse

/-- `batch_inversion`, `curve/mod.rs` 240-242. -/
def batchInversion (v : List F) : Option (List F) := batchInversionAndMul v 1

/-- `normalize_batch`, `sw/projective.rs` 304-323. -/
def normalizeBatch (v : List (Projective F)) : Option (List (Affine F)) :=
  match batchInversion (v.map fun g => g.z) with
  | none => none
  | some zs => some ((v.zip zs).map fun gz =>
      if gz.1.isZero then Affine.identity
      else
        let z2 := sqr gz.2
        Affine.newUnchecked (gz.1.x * z2) (gz.1.y * z2 * gz.2))

end Verif.Curve
