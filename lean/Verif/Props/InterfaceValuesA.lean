import Verif.Model.Interfaces
import Verif.Proofs.KeccakFast
/-! # Values of interface ids under Keccak-256, part A (evaluated by the kernel) -/

namespace Verif.Props.Interfaces
open Verif.Interfaces
open Verif.Spec.Keccak (keccak256)

set_option maxRecDepth 100000

theorem value_IErc165 : interfaceId keccak256 IErc165 = 0x01ffc9a7#32 := by
  rw [Proofs.KeccakFast.keccak256_eq]; decide +kernel

theorem value_IErc20 : interfaceId keccak256 IErc20 = 0x36372b07#32 := by
  rw [Proofs.KeccakFast.keccak256_eq]; decide +kernel

theorem value_IErc20Metadata : interfaceId keccak256 IErc20Metadata = 0xa219a025#32 := by
  rw [Proofs.KeccakFast.keccak256_eq]; decide +kernel

theorem value_IErc721Metadata : manualId keccak256 IErc721Metadata = 0x5b5e139f#32 := by
  rw [Proofs.KeccakFast.keccak256_eq]; decide +kernel

theorem value_IErc721 : interfaceId keccak256 IErc721 = 0x80ac58cd#32 := by
  rw [Proofs.KeccakFast.keccak256_eq]; decide +kernel

theorem value_IErc721Enumerable : interfaceId keccak256 IErc721Enumerable = 0x780e9d63#32 := by
  rw [Proofs.KeccakFast.keccak256_eq]; decide +kernel

theorem value_IErc1155 : interfaceId keccak256 IErc1155 = 0xd9b67a26#32 := by
  rw [Proofs.KeccakFast.keccak256_eq]; decide +kernel

end Verif.Props.Interfaces
