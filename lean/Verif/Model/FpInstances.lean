import Verif.Model.Fp
/-!
# Model of `lib/crypto/src/field/instance.rs`

The constants are written as decimal strings and parsed at compile time, as in the code.
-/

namespace Verif.Fp
open Verif.Uint

/-- The bytes of an ASCII string.
The argument of `from_num!`, `lib/crypto/src/arithmetic/uint.rs` 802-806. -/
def ascii (s : String) : List Byte := s.toList.map fun c => BitVec.ofNat 8 c.toNat

/-- `from_num!`, `uint.rs` 802-806; a parse failure would be a compile-time error. -/
def fromNum? {N : Nat} (s : String) : Option (Uint N) := fromStrRadix (ascii s) 10
/-- `from_num!` with the failure resolved (C81 proves there is none), `uint.rs` 802-806. -/
def fromNum {N : Nat} (s : String) : Uint N := (fromNum? s).getD Uint.ZERO
/-- `fp_from_num!`, `fp.rs` 979-985. -/
def fpFromNum {N : Nat} {P : FpParams N} (s : String) : Fp P := new (fromNum s)

/-- `VestaParam`, `instance.rs` 12-16. -/
def vestaText := "28948022309329048855892746252171976963363056481941647379679742748393362948097"
/-- `VestaParam::MODULUS`, `instance.rs` 12-16. -/
def Vesta : FpParams 4 := ⟨fromNum vestaText⟩
/-- `VestaParam::GENERATOR`, `instance.rs` 12-16. -/
def Vesta.generator : Fp Vesta := fpFromNum "5"
/-- `BabyBearParam`, `instance.rs` 19-23. -/
def babyBearText := "2013265921"
/-- `BabyBearParam::MODULUS`, `instance.rs` 19-23. -/
def BabyBear : FpParams 1 := ⟨fromNum babyBearText⟩
/-- `BabyBearParam::GENERATOR`, `instance.rs` 19-23. -/
def BabyBear.generator : Fp BabyBear := fpFromNum "31"
/-- `BLS12Param`, `instance.rs` 26-30. -/
def bls12Text := "52435875175126190479447740508185965837690552500527637822603658699938581184513"
/-- `BLS12Param::MODULUS`, `instance.rs` 26-30. -/
def BLS12 : FpParams 4 := ⟨fromNum bls12Text⟩
/-- `BLS12Param::GENERATOR`, `instance.rs` 26-30. -/
def BLS12.generator : Fp BLS12 := fpFromNum "7"
/-- `BN256Param`, `instance.rs` 33-37. -/
def bn256Text := "21888242871839275222246405745257275088548364400416034343698204186575808495617"
/-- `BN256Param::MODULUS`, `instance.rs` 33-37. -/
def BN256 : FpParams 4 := ⟨fromNum bn256Text⟩
/-- `BN256Param::GENERATOR`, `instance.rs` 33-37. -/
def BN256.generator : Fp BN256 := fpFromNum "7"
/-- `GoldiLocksParam`, `instance.rs` 40-44. -/
def goldiLocksText := "18446744069414584321"
/-- `GoldiLocksParam::MODULUS`, `instance.rs` 40-44. -/
def GoldiLocks : FpParams 1 := ⟨fromNum goldiLocksText⟩
/-- `GoldiLocksParam::GENERATOR`, `instance.rs` 40-44. -/
def GoldiLocks.generator : Fp GoldiLocks := fpFromNum "7"
/-- `PallasParam`, `instance.rs` 47-51. -/
def pallasText := "28948022309329048855892746252171976963363056481941560715954676764349967630337"
/-- `PallasParam::MODULUS`, `instance.rs` 47-51. -/
def Pallas : FpParams 4 := ⟨fromNum pallasText⟩
/-- `PallasParam::GENERATOR`, `instance.rs` 47-51. -/
def Pallas.generator : Fp Pallas := fpFromNum "5"

end Verif.Fp
