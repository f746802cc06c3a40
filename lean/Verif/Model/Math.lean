import Verif.Base
/-!
# Model of the 256-bit math helpers

Source: `contracts/src/utils/math/alloy.rs`.
-/

namespace Verif.Math

/-- `enum Rounding`, `alloy.rs` 40-45. -/
inductive Rounding where
  | floor
  | ceil
  deriving DecidableEq, Repr

/-- The four panics of `mul_div`, `alloy.rs` 170-193, in order of appearance. -/
inductive Panic where
  | divisionByZero
  | mulOverflow
  | addOverflow
  | doesNotFit
  deriving DecidableEq, Repr

/-- `U512::from(U256)`. -/
def widen (x : U256) : BitVec 512 := x.setWidth 512

/-- `mul_div`, `alloy.rs` 169-196.  `checked_div` by a non-zero divisor is division. -/
def mulDiv (x y denominator : U256) (rounding : Rounding) : Except Panic U256 := do
  if denominator = 0#256 then throw .divisionByZero
  let prod ← orPanic .mulOverflow (checkedMul (widen x) (widen y))
  let adjusted ← match rounding with
    | .floor => pure prod
    | .ceil => orPanic .addOverflow (checkedAdd prod (widen denominator - 1#512))
  let result := adjusted / widen denominator
  if widen maxU256 < result then throw .doesNotFit
  return result.setWidth 256

/-- `average`, `alloy.rs` 159-167. -/
def average (a b : U256) : U256 := (a &&& b) + ((a ^^^ b) >>> 1)

/-- One of the `if aa >= (one << m) { aa >>= m; xn <<= m / 2; }` blocks, `alloy.rs` 73-96. -/
def sqrtStage (m : Nat) (p : U256 × U256) : U256 × U256 :=
  if 1#256 <<< m ≤ p.1 then (p.1 >>> m, p.2 <<< (m / 2)) else p

/-- The initial estimate, `alloy.rs` 70-108 (the last block, 97-99, does not update `aa`). -/
def sqrtInit (a : U256) : U256 :=
  let p := sqrtStage 4 (sqrtStage 8 (sqrtStage 16 (sqrtStage 32 (sqrtStage 64 (sqrtStage 128
    (a, 1#256))))))
  let xn := if 1#256 <<< 2 ≤ p.1 then p.2 <<< 1 else p.2
  (3#256 * xn) >>> 1

/-- One Newton step `xn = (xn + a / xn) >> 1`, `alloy.rs` 145-150. -/
def newton (a xn : U256) : U256 := (xn + a / xn) >>> 1

/-- `sqrt`, `alloy.rs` 48-157. -/
def sqrt (a : U256) : U256 :=
  if a ≤ 1#256 then a
  else
    let xn := newton a (newton a (newton a (newton a (newton a (newton a (sqrtInit a))))))
    xn - (if a / xn < xn then 1#256 else 0#256)

end Verif.Math
