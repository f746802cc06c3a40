import Verif.Model.Curve
import Verif.Spec.Uint
import Mathlib.AlgebraicGeometry.EllipticCurve.Affine.Point
/-!
# Specification vocabulary for curve points

Points of the curve `y² = x³ + a x + b` are Mathlib's `WeierstrassCurve.Affine.Point`: the point at infinity `0`
or a nonsingular solution, with the chord-and-tangent addition, which Mathlib proves to be a commutative group.
-/

namespace Verif.Spec.Curve
open Verif.Curve

variable {F : Type} [Field F] [DecidableEq F]

/-- The curve `y² = x³ + a x + b`. -/
def curve (c : Config F) : WeierstrassCurve.Affine F := ⟨0, 0, 0, c.a, c.b⟩

/-- The group of points of the curve. -/
abbrev Point (c : Config F) : Type := (curve c).Point

/-- An affine value stands for a point. -/
def IsAffine {c : Config F} (p : Affine F) : Point c → Prop
  | .zero => p.infinity = true
  | .some x y _ => p.infinity = false ∧ p.x = x ∧ p.y = y

/-- A Jacobian triple `(X, Y, Z)` stands for a point: `(X / Z², Y / Z³)`, or infinity when `Z = 0`. -/
def IsJacobian {c : Config F} (p : Projective F) : Point c → Prop
  | .zero => p.z = 0
  | .some x y _ => p.z ≠ 0 ∧ p.x / p.z ^ 2 = x ∧ p.y / p.z ^ 3 = y

end Verif.Spec.Curve
