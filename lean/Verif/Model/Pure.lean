import Verif.Model.Contracts
import Verif.Model.Crypto
import Verif.Model.Merkle
import Verif.Model.PoseidonExample
/-!
# Model of the example contracts without storage, on bytes

`examples/ecdsa`, `examples/merkle-proofs` and `examples/poseidon`: the handlers that take a routed function and decoded
arguments to the Rust function.  The state is `Unit`: none of the three has a storage field.
-/
namespace Verif.Pure
open Verif Verif.Abi Verif.Entry Verif.Contracts

/-- `examples/ecdsa/src/lib.rs` 14-25; `P` is the precompile at address 1. -/
def ecdsa (K : Hash) (P : Ecdsa.Precompile) : Handler Unit := fun t f args s =>
  dispatch t f args
  [("ECDSAExample", "recover", fun
      | [.bytes32 hash, .uint8 v, .bytes32 r, .bytes32 x] => view K Revert.ecdsa s (one .address (Ecdsa.recover P hash v r x))
      | _ => .error none)]

/-- `examples/merkle-proofs/src/lib.rs` 55-78. -/
def merkleProofs (K : Hash) : Handler Unit := fun t f args s =>
  dispatch t f args
  [("VerifierContract", "verify", fun
      | [.bytes32s proof, .bytes32 root, .bytes32 leaf] => .ok (s, [.bool (Merkle.verify K proof root leaf)])
      | _ => .error none),
   ("VerifierContract", "verify_multi_proof", fun
      | [.bytes32s proof, .bools flags, .bytes32 root, .bytes32s leaves] =>
        view K Revert.merkleExample s (one .bool (Merkle.verifyMultiProof K proof flags root leaves))
      | _ => .error none)]

/-- `examples/poseidon/src/lib.rs` 18-35: the two elements of the fixed array are decoded as two words. -/
noncomputable def poseidon : Handler Unit := fun t f args s =>
  dispatch t f args
  [("PoseidonExample", "hash", fun
      | [.uint256 a, .uint256 b] =>
        match PoseidonExample.hash [a, b] with
        | some h => .ok (s, [.uint256 h])
        | none => .error none
      | _ => .error none)]

end Verif.Pure
