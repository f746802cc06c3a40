import Verif.Model.Curve
import Verif.Model.Fp
/-!
# Model of the multiplication of a point by an element of the scalar field

Source: `lib/crypto/src/curve/sw/affine.rs` 236-243, `lib/crypto/src/curve/sw/projective.rs` 560-575.
-/

namespace Verif.Curve
open Verif.Uint Verif.Fp

variable {F : Type} [Field F] [DecidableEq F] {M : Nat} {R : FpParams M}

/-- `Mul<ScalarField> for Affine`, `sw/affine.rs` 236-243: the scalar leaves Montgomery form and its bits are read
from the top. -/
def Affine.mulScalar (c : Config F) (p : Affine F) (s : Fp R) : Projective F := p.mulBits c (bitsBe (intoBigint s))

/-- `MulAssign<ScalarField>` and `Mul<ScalarField>` for `Projective`, `sw/projective.rs` 560-575. -/
def Projective.mulScalar (c : Config F) (p : Projective F) (s : Fp R) : Projective F :=
  p.mulBits c (bitsBe (intoBigint s))

end Verif.Curve
