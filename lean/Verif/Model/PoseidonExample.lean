import Verif.Model.PoseidonInstances
import Verif.Model.FpInstances
import Verif.Model.UintText
import Verif.Props.FpField
import Verif.Props.FpInstances
/-!
# Model of `examples/poseidon/src/lib.rs`

The hasher runs over the library's own elements of BN256's scalar field (`Verif.Props.FpField.Elem`, whose operations
are those of `fp.rs`).  `none` is a panic.
-/

namespace Verif.PoseidonExample
open Verif Verif.Fp Verif.Uint Verif.Poseidon Verif.Poseidon.Instances Verif.Props.FpField

/-- `FpBN256`, `examples/poseidon/src/lib.rs` 9: its elements in reduced form. -/
abbrev FpBN256 : Type := Elem BN256 Props.FpInstances.C81_bn256.2.2

/-- `BN256Params`, `examples/poseidon/src/lib.rs` 10. -/
noncomputable abbrev params : Params FpBN256 := bn256.params FpBN256

/-- `U256::to_le_bytes_vec`, `examples/poseidon/src/lib.rs` 25. -/
def toLeBytesVec (x : U256) : List Byte := (List.range 32).map fun i => x.extractLsb' (8 * i) 8

/-- `FpBN256::from_bigint(Uint::from_bytes_le(..))`, `examples/poseidon/src/lib.rs` 24-26. -/
def element (x : U256) : Option FpBN256 :=
  (ctFromLeSlice (toLeBytesVec x) : Option (Uint 4)).map fun u =>
    ⟨fromBigint u, (num_fromBigint Props.FpInstances.C81_bn256.2.2.1 u).2⟩

/-- `U256::from_le_slice`, `examples/poseidon/src/lib.rs` 33: at most 32 bytes, least significant first. -/
def fromLeSlice (l : List Byte) : Option U256 :=
  if l.length ≤ 32 then some (BitVec.ofNat 256 (l.foldr (fun b acc => b.toNat + 256 * acc) 0)) else none

/-- `hash`, `examples/poseidon/src/lib.rs` 20-34, with the two inputs as a list. -/
noncomputable def hash (inputs : List U256) : Option U256 := do
  let hasher ← inputs.foldlM (fun hasher input => do
    let fp ← element input
    absorb params hasher fp) (new params)
  let (h, _) ← squeeze params hasher
  fromLeSlice (intoBytesLe (intoBigint h.val))

end Verif.PoseidonExample
