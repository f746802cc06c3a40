import Verif.Props.InterfaceIds
import Verif.Props.InterfaceValuesA
import Verif.Props.InterfaceValuesB
import Verif.Props.InterfaceValuesC
import Verif.Model.Erc721
import Verif.Model.Erc1155
import Verif.Model.Erc20Permit
import Verif.Model.Compositions
/-! # C87: interface detection, selectors and type hashes as numbers -/

namespace Verif.Props.Interfaces
open Verif.Interfaces
open Verif.Spec.Keccak (keccak256 ascii)

set_option maxRecDepth 100000

/-- Keccak-256 is the real one: the empty string, "abc", and the two lengths around a full block. -/
example :
    keccak256 [] = 0xc5d2460186f7233c927e7db2dcc703c0e500b653ca82273b7bfad8045d85a470#256 ∧
    keccak256 (ascii "abc") = 0x4e03657aea45a94fc7d47ba826c8d667c0d1e6e33a64a036ec44f58fa12d6c45#256 ∧
    keccak256 (List.replicate 135 0x61#8) = 0x34367dc248bbd832f4e3e69dfaac2f92638bd0bbd18f2912ba4ef454919cf446#256 ∧
    keccak256 (List.replicate 136 0x61#8) = 0xa6c4d403279fe3e0af03729caada8374b5ca54d8065329a3ebcaeb4b60aa386e#256 := by
  rw [Proofs.KeccakFast.keccak256_eq]; decide +kernel

/-- The id every ERC-165 contract reports. -/
def ERC165 : BitVec 32 := 0x01ffc9a7#32

/-- **C87** For every one of the 2^32 ids, each contract answers `true` exactly for the ids listed, among them always
that of ERC-165 itself. -/
theorem C87_supports :
    (∀ id, vestingWallet keccak256 id = true ↔ id ∈ [0x123215de#32, ERC165]) ∧
    (∀ id, ownable keccak256 id = true ↔ id ∈ [0x0e083076#32, ERC165]) ∧
    (∀ id, ownable2Step keccak256 id = true ↔ id ∈ [0x94be5999#32, 0x0e083076#32, ERC165]) ∧
    (∀ id, accessControl keccak256 id = true ↔ id ∈ [0x0edd8b6c#32, ERC165]) ∧
    (∀ id, erc20FlashMint keccak256 id = true ↔ id ∈ [0xe4143091#32, ERC165]) ∧
    (∀ id, erc20Metadata keccak256 id = true ↔ id ∈ [0xa219a025#32, ERC165]) ∧
    (∀ id, erc20Wrapper keccak256 id = true ↔ id ∈ [0x511f913e#32, ERC165]) ∧
    (∀ id, erc4626 keccak256 id = true ↔ id ∈ [0x87dfe5a0#32, ERC165]) ∧
    (∀ id, erc20 keccak256 id = true ↔ id ∈ [0x36372b07#32, ERC165]) ∧
    (∀ id, safeErc20 keccak256 id = true ↔ id ∈ [0xf71993e3#32, ERC165]) ∧
    (∀ id, erc2981 keccak256 id = true ↔ id ∈ [0x2a55205a#32, ERC165]) ∧
    (∀ id, erc721Metadata keccak256 id = true ↔ id ∈ [0x5b5e139f#32, ERC165]) ∧
    (∀ id, erc721Enumerable keccak256 id = true ↔ id ∈ [0x780e9d63#32, ERC165]) ∧
    (∀ id, erc721 keccak256 id = true ↔ id ∈ [0x80ac58cd#32, ERC165]) ∧
    (∀ id, erc721Consecutive keccak256 id = true ↔ id ∈ [0x80ac58cd#32, ERC165]) ∧
    (∀ id, erc1155Supply keccak256 id = true ↔ id ∈ [0xeac6339d#32, 0xd9b67a26#32, ERC165]) ∧
    (∀ id, erc1155MetadataUri keccak256 id = true ↔ id ∈ [0x0e89341c#32, ERC165]) ∧
    (∀ id, erc1155 keccak256 id = true ↔ id ∈ [0xd9b67a26#32, ERC165]) ∧
    (∀ id, erc20Example keccak256 id = true ↔ id ∈ [0x36372b07#32, 0xa219a025#32, ERC165]) ∧
    (∀ id, erc721Example keccak256 id = true ↔ id ∈ [0x80ac58cd#32, 0x780e9d63#32, ERC165]) ∧
    (∀ id, erc721ConsecutiveExample keccak256 id = true ↔ id ∈ [0x80ac58cd#32, ERC165]) ∧
    (∀ id, erc721MetadataExample keccak256 id = true ↔ id ∈ [0x80ac58cd#32, 0x5b5e139f#32, ERC165]) ∧
    (∀ id, erc1155Example keccak256 id = true ↔ id ∈ [0xd9b67a26#32, ERC165]) ∧
    (∀ id, erc1155SupplyExample keccak256 id = true ↔ id ∈ [0xd9b67a26#32, ERC165]) ∧
    (∀ id, erc1155MetadataUriExample keccak256 id = true ↔ id ∈ [0xd9b67a26#32, 0x0e89341c#32, ERC165]) := by
  refine ⟨?_, ?_, ?_, ?_, ?_, ?_, ?_, ?_, ?_, ?_, ?_, ?_, ?_, ?_, ?_, ?_, ?_, ?_, ?_, ?_, ?_, ?_, ?_, ?_, ?_⟩ <;> intro id <;>
    simp only [vestingWallet, ownable, ownable2Step, accessControl, erc20FlashMint, erc20Metadata, erc20Wrapper, erc4626, erc20, safeErc20, erc2981, erc721Metadata, erc721Enumerable, erc721, erc721Consecutive, erc1155Supply, erc1155MetadataUri, erc1155, erc20Example, erc721Example, erc721ConsecutiveExample, erc721MetadataExample, erc1155Example, erc1155SupplyExample, erc1155MetadataUriExample, Verif.Interfaces.erc165,
      value_IErc165, value_IErc20, value_IErc20Metadata, value_IErc721Metadata, value_IErc721,
      value_IErc721Enumerable, value_IErc1155, value_IErc1155MetadataUri, value_IErc1155Supply, value_IErc2981,
      value_IErc3156FlashLender, value_IErc20Wrapper, value_IErc4626, value_ISafeErc20, value_IOwnable,
      value_IOwnable2Step, value_IAccessControl, value_IVestingWallet,
      ERC165, Bool.or_eq_true, beq_iff_eq, List.mem_cons, List.not_mem_nil, or_false] <;>
    constructor <;> (intro h; simp only [eq_comm] at h ⊢; tauto)

/-- **C87** ERC-165 reserves `0xffffffff`: no contract claims it. -/
theorem C87_invalid_id :
    ∀ supports ∈ [vestingWallet, ownable, ownable2Step, accessControl, erc20FlashMint, erc20Metadata, erc20Wrapper, erc4626, erc20, safeErc20, erc2981, erc721Metadata, erc721Enumerable, erc721, erc721Consecutive, erc1155Supply, erc1155MetadataUri, erc1155, erc20Example, erc721Example, erc721ConsecutiveExample, erc721MetadataExample, erc1155Example, erc1155SupplyExample, erc1155MetadataUriExample], supports keccak256 0xffffffff#32 = false := by
  obtain ⟨h0, h1, h2, h3, h4, h5, h6, h7, h8, h9, h10, h11, h12, h13, h14, h15, h16, h17, h18, h19, h20, h21, h22, h23, h24⟩ := C87_supports
  simp only [List.forall_mem_cons, List.not_mem_nil, false_imp_iff, implies_true, and_true]
  refine ⟨?_, ?_, ?_, ?_, ?_, ?_, ?_, ?_, ?_, ?_, ?_, ?_, ?_, ?_, ?_, ?_, ?_, ?_, ?_, ?_, ?_, ?_, ?_, ?_, ?_⟩ <;> rw [Bool.eq_false_iff] <;>
    simp only [ne_eq, h0, h1, h2, h3, h4, h5, h6, h7, h8, h9, h10, h11, h12, h13, h14, h15, h16, h17, h18, h19, h20, h21, h22, h23, h24, ERC165] <;> decide

/-- **C87** The AccessControl contract does not report the interface id that clients of the standard contract test
for, although it implements every function of it: its trait carries one function more. -/
theorem C87_access_control_not_standard :
    Spec.Interfaces.interfaceId keccak256 Spec.Interfaces.accessControl = 0x7965db0b#32 ∧
    accessControl keccak256 0x7965db0b#32 = false := by
  refine ⟨?_, ?_⟩
  · rw [Proofs.KeccakFast.keccak256_eq]; decide +kernel
  · obtain ⟨_, _, _, h, _⟩ := C87_supports
    rw [Bool.eq_false_iff]
    simp only [ne_eq, h, ERC165]
    decide

/-- **C87** The supply composition does not report the supply interface it implements. -/
theorem C87_supply_example_silent :
    erc1155Supply keccak256 0xeac6339d#32 = true ∧ erc1155SupplyExample keccak256 0xeac6339d#32 = false := by
  have h := C87_supports
  refine ⟨by rw [h.2.2.2.2.2.2.2.2.2.2.2.2.2.2.2.1]; simp, ?_⟩
  rw [Bool.eq_false_iff]
  simp only [ne_eq, h.2.2.2.2.2.2.2.2.2.2.2.2.2.2.2.2.2.2.2.2.2.2.2.1, ERC165]
  decide

/-- **C87** The literal values a receiver must return, the role of the example, and the two EIP-712 type hashes. -/
theorem C87_constants :
    Erc721.RECEIVER_FN_SELECTOR =
      Spec.Interfaces.selector keccak256 "onERC721Received(address,address,uint256,bytes)" ∧
    Erc1155.SINGLE_SELECTOR =
      Spec.Interfaces.selector keccak256 "onERC1155Received(address,address,uint256,uint256,bytes)" ∧
    Erc1155.BATCH_SELECTOR =
      Spec.Interfaces.selector keccak256 "onERC1155BatchReceived(address,address,uint256[],uint256[],bytes)" ∧
    AccessExample.TRANSFER_ROLE = keccak256 (ascii "TRANSFER_ROLE") ∧
    keccak256 Eip712.typeString = 0x8b73c3c69bb8fe3d512ecc4cf759cc79239f7b179b0ffacaa9a75d522b39400f#256 ∧
    keccak256 Permit.typeString = 0x6e71edae12b1b97f4d1f60370fef10105fa2faae0126114a169c64845d6126c9#256 := by
  rw [Proofs.KeccakFast.keccak256_eq]; decide +kernel

/-- A client's question about a token that answers it: ERC-721 yes, ERC-1155 no. -/
example : erc721Example keccak256 0x80ac58cd#32 = true ∧ erc721Example keccak256 0xd9b67a26#32 = false := by
  obtain ⟨_, _, _, _, _, _, _, _, _, _, _, _, _, _, _, _, _, _, _, h, _⟩ := C87_supports
  refine ⟨by rw [h]; simp, ?_⟩
  rw [Bool.eq_false_iff]; simp only [ne_eq, h, ERC165]; decide

end Verif.Props.Interfaces
