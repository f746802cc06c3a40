import Verif.Model.Interfaces
import Verif.Proofs.KeccakFast
/-! # Values of interface ids under Keccak-256, part B (evaluated by the kernel) -/

namespace Verif.Props.Interfaces
open Verif.Interfaces
open Verif.Spec.Keccak (keccak256)

set_option maxRecDepth 100000

theorem value_IErc1155MetadataUri : interfaceId keccak256 IErc1155MetadataUri = 0x0e89341c#32 := by
  rw [Proofs.KeccakFast.keccak256_eq]; decide +kernel

theorem value_IErc1155Supply : interfaceId keccak256 IErc1155Supply = 0xeac6339d#32 := by
  rw [Proofs.KeccakFast.keccak256_eq]; decide +kernel

theorem value_IErc2981 : interfaceId keccak256 IErc2981 = 0x2a55205a#32 := by
  rw [Proofs.KeccakFast.keccak256_eq]; decide +kernel

theorem value_IErc3156FlashLender : manualId keccak256 IErc3156FlashLender = 0xe4143091#32 := by
  rw [Proofs.KeccakFast.keccak256_eq]; decide +kernel

theorem value_IErc20Wrapper : manualId keccak256 IErc20Wrapper = 0x511f913e#32 := by
  rw [Proofs.KeccakFast.keccak256_eq]; decide +kernel

theorem value_IErc4626 : manualId keccak256 IErc4626 = 0x87dfe5a0#32 := by
  rw [Proofs.KeccakFast.keccak256_eq]; decide +kernel

end Verif.Props.Interfaces
