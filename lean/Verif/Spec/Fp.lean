import Verif.Model.Fp
import Verif.Spec.Uint
import Mathlib.Data.Nat.Prime.Basic
/-! # Specification vocabulary for field elements -/

namespace Verif.Spec.Fp
open Verif.Fp Verif.Uint
open Verif.Spec.Uint

variable {N : Nat}

/-- The modulus as a number. -/
def order (P : FpParams N) : Nat := val P.modulus

/-- What the code requires of its parameters: at least one limb, and an odd modulus greater than one. -/
def Valid (P : FpParams N) : Prop := 0 < N ∧ order P % 2 = 1 ∧ 1 < order P

/-- The modulus is moreover a prime number. -/
def ValidPrime (P : FpParams N) : Prop := Valid P ∧ (order P).Prime

/-- The representation is below the modulus.  The field is private and every operation keeps it (part of the
theorems). -/
def Reduced {P : FpParams N} (a : Fp P) : Prop := val a.mont < order P

/-- The number that a caller sees: `into_bigint`. -/
def num {P : FpParams N} (a : Fp P) : Nat := val (intoBigint a)

end Verif.Spec.Fp
