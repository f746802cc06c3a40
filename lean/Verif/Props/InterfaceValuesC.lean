import Verif.Model.Interfaces
import Verif.Proofs.KeccakFast
/-! # Values of interface ids under Keccak-256, part C (evaluated by the kernel) -/

namespace Verif.Props.Interfaces
open Verif.Interfaces
open Verif.Spec.Keccak (keccak256)

set_option maxRecDepth 100000

theorem value_ISafeErc20 : interfaceId keccak256 ISafeErc20 = 0xf71993e3#32 := by
  rw [Proofs.KeccakFast.keccak256_eq]; decide +kernel

theorem value_IOwnable : interfaceId keccak256 IOwnable = 0x0e083076#32 := by
  rw [Proofs.KeccakFast.keccak256_eq]; decide +kernel

theorem value_IOwnable2Step : interfaceId keccak256 IOwnable2Step = 0x94be5999#32 := by
  rw [Proofs.KeccakFast.keccak256_eq]; decide +kernel

theorem value_IAccessControl : interfaceId keccak256 IAccessControl = 0x0edd8b6c#32 := by
  rw [Proofs.KeccakFast.keccak256_eq]; decide +kernel

theorem value_IVestingWallet : interfaceId keccak256 IVestingWallet = 0x123215de#32 := by
  rw [Proofs.KeccakFast.keccak256_eq]; decide +kernel

end Verif.Props.Interfaces
