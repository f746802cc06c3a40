import Verif.Model.Revert
import Verif.Spec.Revert
import Verif.Proofs.KeccakFast
/-! # C95: the selectors of the errors, evaluated -/

namespace Verif.Props.Revert
open Verif Verif.Revert Verif.Interfaces
open Verif.Spec.Keccak (keccak256)

/-- The selectors of the declared errors, in the order of the declarations. -/
def selectors : List (BitVec 32) :=
  [0xe2517d3f#32, 0x6697b232#32, 0x118cdaa7#32, 0x1e4fbdf7#32, 0xed943c2b#32, 0x961c9a4f#32, 0x6f483d09#32, 0xb6d9900a#32,
   0xdfd1fc1b#32, 0x969f0852#32, 0x03dee4c5#32, 0x01a83514#32, 0x57f447ce#32, 0xe237d922#32, 0x3e31884e#32, 0xced3e100#32,
   0x5b059991#32, 0x9e79f854#32, 0x392e1e27#32, 0x79012fb2#32, 0x284ff667#32, 0xfe9cceec#32, 0xb94abeec#32, 0x6f79c78a#32,
   0xb5a7db92#32, 0xfd9a7609#32, 0x678c5b00#32, 0x62791302#32, 0x4b800e46#32, 0x438d6fe3#32, 0x96c6fd1e#32, 0xec442f05#32,
   0xe450d38c#32, 0xfb8f41b2#32, 0x94280d62#32, 0xe602df05#32, 0x3d26bc04#32, 0x75910b84#32, 0x539f9062#32, 0x8f58e570#32,
   0xad895052#32, 0x1d089165#32, 0xa57d13dc#32, 0x59171fc1#32, 0xc7d837c6#32, 0xf2f8c1e6#32, 0x89c62b64#32, 0x7e273289#32,
   0x64283d7b#32, 0x73c6ac6e#32, 0x64a0ae92#32, 0x177e802f#32, 0xa9fbf51f#32, 0x5b08ba18#32, 0xf645eedf#32, 0xd78bce0c#32,
   0x752d88c0#32, 0xd93c0665#32, 0x8dfc202b#32, 0x2520601d#32, 0x2bfafc4b#32, 0x3d8178f6#32, 0x48fe5dfa#32, 0xf21fbe5b#32]

set_option maxRecDepth 100000 in
theorem selectors_eq : declarations.map (fun d => functionSelector keccak256 d.1.toList d.2) = selectors := by
  rw [Proofs.KeccakFast.keccak256_eq]; decide +kernel

set_option maxRecDepth 100000 in
/-- **C95** The four bytes are the published ones. -/
theorem C95_standard_selectors : ∀ p ∈ Spec.Revert.standardSelectors,
    (keccak256 (Spec.Keccak.ascii p.1)).extractLsb' 224 32 = p.2 := by
  rw [Proofs.KeccakFast.keccak256_eq]; decide +kernel


set_option maxRecDepth 100000 in
theorem safe_operation_ne : (Spec.Revert.word (keccak256 (Spec.Keccak.ascii "SafeErc20FailedOperation(address)"))).take 4 ≠
    (Spec.Revert.word (keccak256 (Spec.Keccak.ascii "SafeERC20FailedOperation(address)"))).take 4 := by
  rw [Proofs.KeccakFast.keccak256_eq]; decide +kernel

set_option maxRecDepth 100000 in
theorem safe_decrease_ne :
    (Spec.Revert.word (keccak256 (Spec.Keccak.ascii "SafeErc20FailedDecreaseAllowance(address,uint256,uint256)"))).take 4 ≠
    (Spec.Revert.word (keccak256 (Spec.Keccak.ascii "SafeERC20FailedDecreaseAllowance(address,uint256,uint256)"))).take 4 := by
  rw [Proofs.KeccakFast.keccak256_eq]; decide +kernel

end Verif.Props.Revert
