import Verif.Model.Router
import Verif.Spec.Keccak
/-!
# The ABI of the contracts

Selectors as Solidity defines them, the functions the standards require with their published selectors, and for every
example contract of the repository the list of its functions: the Solidity signature, the type whose implementation
answers the call, and the Rust function.
-/
namespace Verif.Spec.Router
open Verif.Spec.Keccak

/-- The selector of the function with this signature. -/
def selector (sig : String) : BitVec 32 := (keccak256 (Spec.Keccak.ascii sig)).extractLsb' 224 32

/-- Functions of ERC-20. -/
def erc20 : List (String × BitVec 32) :=
  [("totalSupply()", 0x18160ddd#32),
   ("balanceOf(address)", 0x70a08231#32),
   ("transfer(address,uint256)", 0xa9059cbb#32),
   ("allowance(address,address)", 0xdd62ed3e#32),
   ("approve(address,uint256)", 0x095ea7b3#32),
   ("transferFrom(address,address,uint256)", 0x23b872dd#32)]

/-- Functions of ERC-20, the optional part. -/
def erc20Metadata : List (String × BitVec 32) :=
  [("name()", 0x06fdde03#32),
   ("symbol()", 0x95d89b41#32),
   ("decimals()", 0x313ce567#32)]

/-- Functions of ERC-721. -/
def erc721 : List (String × BitVec 32) :=
  [("balanceOf(address)", 0x70a08231#32),
   ("ownerOf(uint256)", 0x6352211e#32),
   ("safeTransferFrom(address,address,uint256)", 0x42842e0e#32),
   ("safeTransferFrom(address,address,uint256,bytes)", 0xb88d4fde#32),
   ("transferFrom(address,address,uint256)", 0x23b872dd#32),
   ("approve(address,uint256)", 0x095ea7b3#32),
   ("setApprovalForAll(address,bool)", 0xa22cb465#32),
   ("getApproved(uint256)", 0x081812fc#32),
   ("isApprovedForAll(address,address)", 0xe985e9c5#32)]

/-- Functions of ERC-721, metadata extension. -/
def erc721Metadata : List (String × BitVec 32) :=
  [("name()", 0x06fdde03#32),
   ("symbol()", 0x95d89b41#32),
   ("tokenURI(uint256)", 0xc87b56dd#32)]

/-- Functions of ERC-721, enumeration extension. -/
def erc721Enumerable : List (String × BitVec 32) :=
  [("totalSupply()", 0x18160ddd#32),
   ("tokenOfOwnerByIndex(address,uint256)", 0x2f745c59#32),
   ("tokenByIndex(uint256)", 0x4f6ccce7#32)]

/-- Functions of ERC-1155. -/
def erc1155 : List (String × BitVec 32) :=
  [("balanceOf(address,uint256)", 0x00fdd58e#32),
   ("balanceOfBatch(address[],uint256[])", 0x4e1273f4#32),
   ("setApprovalForAll(address,bool)", 0xa22cb465#32),
   ("isApprovedForAll(address,address)", 0xe985e9c5#32),
   ("safeTransferFrom(address,address,uint256,uint256,bytes)", 0xf242432a#32),
   ("safeBatchTransferFrom(address,address,uint256[],uint256[],bytes)", 0x2eb2c2d6#32)]

/-- Functions of ERC-1155, metadata extension. -/
def erc1155MetadataUri : List (String × BitVec 32) :=
  [("uri(uint256)", 0x0e89341c#32)]

/-- Functions of ERC-165. -/
def erc165 : List (String × BitVec 32) :=
  [("supportsInterface(bytes4)", 0x01ffc9a7#32)]

/-- Functions of ERC-2612. -/
def erc2612 : List (String × BitVec 32) :=
  [("permit(address,address,uint256,uint256,uint8,bytes32,bytes32)", 0xd505accf#32),
   ("nonces(address)", 0x7ecebe00#32),
   ("DOMAIN_SEPARATOR()", 0x3644e515#32)]

/-- Functions of ERC-3156, the lender. -/
def erc3156 : List (String × BitVec 32) :=
  [("maxFlashLoan(address)", 0x613255ab#32),
   ("flashFee(address,uint256)", 0xd9d98ce4#32),
   ("flashLoan(address,address,uint256,bytes)", 0x5cffe9de#32)]

/-- Functions of ERC-4626. -/
def erc4626 : List (String × BitVec 32) :=
  [("asset()", 0x38d52e0f#32),
   ("totalAssets()", 0x01e1d114#32),
   ("convertToShares(uint256)", 0xc6e6f592#32),
   ("convertToAssets(uint256)", 0x07a2d13a#32),
   ("maxDeposit(address)", 0x402d267d#32),
   ("previewDeposit(uint256)", 0xef8b30f7#32),
   ("deposit(uint256,address)", 0x6e553f65#32),
   ("maxMint(address)", 0xc63d75b6#32),
   ("previewMint(uint256)", 0xb3d7f6b9#32),
   ("mint(uint256,address)", 0x94bf804d#32),
   ("maxWithdraw(address)", 0xce96cb77#32),
   ("previewWithdraw(uint256)", 0x0a28a477#32),
   ("withdraw(uint256,address,address)", 0xb460af94#32),
   ("maxRedeem(address)", 0xd905777e#32),
   ("previewRedeem(uint256)", 0x4cdad506#32),
   ("redeem(uint256,address,address)", 0xba087652#32)]

/-- Functions of ERC-173, ownership. -/
def erc173 : List (String × BitVec 32) :=
  [("owner()", 0x8da5cb5b#32),
   ("transferOwnership(address)", 0xf2fde38b#32)]

/-- The functions of `examples/access-control`. -/
def accessControlExample : List (String × String × String) :=
  [("makeAdmin(address)", "AccessControlExample", "make_admin"),
   ("transferFrom(address,address,uint256)", "AccessControlExample", "transfer_from"),
   ("setRoleAdmin(bytes32,bytes32)", "AccessControlExample", "set_role_admin"),
   ("totalSupply()", "Erc20", "total_supply"),
   ("balanceOf(address)", "Erc20", "balance_of"),
   ("transfer(address,uint256)", "Erc20", "transfer"),
   ("allowance(address,address)", "Erc20", "allowance"),
   ("approve(address,uint256)", "Erc20", "approve"),
   ("hasRole(bytes32,address)", "AccessControl", "has_role"),
   ("onlyRole(bytes32)", "AccessControl", "only_role"),
   ("getRoleAdmin(bytes32)", "AccessControl", "get_role_admin"),
   ("grantRole(bytes32,address)", "AccessControl", "grant_role"),
   ("revokeRole(bytes32,address)", "AccessControl", "revoke_role"),
   ("renounceRole(bytes32,address)", "AccessControl", "renounce_role")]

/-- The functions of `examples/ecdsa`. -/
def ecdsaExample : List (String × String × String) :=
  [("recover(bytes32,uint8,bytes32,bytes32)", "ECDSAExample", "recover")]

/-- The functions of `examples/erc1155-metadata-uri`. -/
def erc1155MetadataUriExample : List (String × String × String) :=
  [("uri(uint256)", "Erc1155MetadataUriExample", "uri"),
   ("setTokenURI(uint256,string)", "Erc1155MetadataUriExample", "set_token_uri"),
   ("setBaseURI(string)", "Erc1155MetadataUriExample", "set_base_uri"),
   ("supportsInterface(bytes4)", "Erc1155MetadataUriExample", "supports_interface"),
   ("balanceOf(address,uint256)", "Erc1155", "balance_of"),
   ("balanceOfBatch(address[],uint256[])", "Erc1155", "balance_of_batch"),
   ("setApprovalForAll(address,bool)", "Erc1155", "set_approval_for_all"),
   ("isApprovedForAll(address,address)", "Erc1155", "is_approved_for_all"),
   ("safeTransferFrom(address,address,uint256,uint256,bytes)", "Erc1155", "safe_transfer_from"),
   ("safeBatchTransferFrom(address,address,uint256[],uint256[],bytes)", "Erc1155", "safe_batch_transfer_from")]

/-- The functions of `examples/erc1155-supply`. -/
def erc1155SupplyExample : List (String × String × String) :=
  [("totalSupply(uint256)", "Erc1155Example", "total_supply"),
   ("totalSupply()", "Erc1155Example", "total_supply_all"),
   ("exists(uint256)", "Erc1155Example", "exists"),
   ("mint(address,uint256,uint256,bytes)", "Erc1155Example", "mint"),
   ("mintBatch(address,uint256[],uint256[],bytes)", "Erc1155Example", "mint_batch"),
   ("burn(address,uint256,uint256)", "Erc1155Example", "burn"),
   ("burnBatch(address,uint256[],uint256[])", "Erc1155Example", "burn_batch"),
   ("supportsInterface(bytes4)", "Erc1155Example", "supports_interface"),
   ("balanceOf(address,uint256)", "Erc1155Supply", "balance_of"),
   ("balanceOfBatch(address[],uint256[])", "Erc1155Supply", "balance_of_batch"),
   ("setApprovalForAll(address,bool)", "Erc1155Supply", "set_approval_for_all"),
   ("isApprovedForAll(address,address)", "Erc1155Supply", "is_approved_for_all"),
   ("safeTransferFrom(address,address,uint256,uint256,bytes)", "Erc1155Supply", "safe_transfer_from"),
   ("safeBatchTransferFrom(address,address,uint256[],uint256[],bytes)", "Erc1155Supply", "safe_batch_transfer_from")]

/-- The functions of `examples/erc1155`. -/
def erc1155Example : List (String × String × String) :=
  [("mint(address,uint256,uint256,bytes)", "Erc1155Example", "mint"),
   ("mintBatch(address,uint256[],uint256[],bytes)", "Erc1155Example", "mint_batch"),
   ("burn(address,uint256,uint256)", "Erc1155Example", "burn"),
   ("burnBatch(address,uint256[],uint256[])", "Erc1155Example", "burn_batch"),
   ("safeTransferFrom(address,address,uint256,uint256,bytes)", "Erc1155Example", "safe_transfer_from"),
   ("safeBatchTransferFrom(address,address,uint256[],uint256[],bytes)", "Erc1155Example", "safe_batch_transfer_from"),
   ("supportsInterface(bytes4)", "Erc1155Example", "supports_interface"),
   ("pause()", "Erc1155Example", "pause"),
   ("unpause()", "Erc1155Example", "unpause"),
   ("balanceOf(address,uint256)", "Erc1155", "balance_of"),
   ("balanceOfBatch(address[],uint256[])", "Erc1155", "balance_of_batch"),
   ("setApprovalForAll(address,bool)", "Erc1155", "set_approval_for_all"),
   ("isApprovedForAll(address,address)", "Erc1155", "is_approved_for_all"),
   ("paused()", "Pausable", "paused")]

/-- The functions of `examples/erc20-flash-mint`. -/
def erc20FlashMintExample : List (String × String × String) :=
  [("maxFlashLoan(address)", "Erc20FlashMintExample", "max_flash_loan"),
   ("flashFee(address,uint256)", "Erc20FlashMintExample", "flash_fee"),
   ("flashLoan(address,address,uint256,bytes)", "Erc20FlashMintExample", "flash_loan"),
   ("mint(address,uint256)", "Erc20FlashMintExample", "mint"),
   ("totalSupply()", "Erc20", "total_supply"),
   ("balanceOf(address)", "Erc20", "balance_of"),
   ("transfer(address,uint256)", "Erc20", "transfer"),
   ("allowance(address,address)", "Erc20", "allowance"),
   ("approve(address,uint256)", "Erc20", "approve"),
   ("transferFrom(address,address,uint256)", "Erc20", "transfer_from")]

/-- The functions of `examples/erc20-permit`. -/
def erc20PermitExample : List (String × String × String) :=
  [("mint(address,uint256)", "Erc20PermitExample", "mint"),
   ("permit(address,address,uint256,uint256,uint8,bytes32,bytes32)", "Erc20PermitExample", "permit"),
   ("totalSupply()", "Erc20", "total_supply"),
   ("balanceOf(address)", "Erc20", "balance_of"),
   ("transfer(address,uint256)", "Erc20", "transfer"),
   ("allowance(address,address)", "Erc20", "allowance"),
   ("approve(address,uint256)", "Erc20", "approve"),
   ("transferFrom(address,address,uint256)", "Erc20", "transfer_from"),
   ("nonces(address)", "Nonces", "nonces"),
   ("DOMAIN_SEPARATOR()", "Erc20Permit", "domain_separator")]

/-- The functions of `examples/erc20-wrapper`. -/
def erc20WrapperExample : List (String × String × String) :=
  [("underlying()", "Erc20WrapperExample", "underlying"),
   ("decimals()", "Erc20WrapperExample", "decimals"),
   ("depositFor(address,uint256)", "Erc20WrapperExample", "deposit_for"),
   ("withdrawTo(address,uint256)", "Erc20WrapperExample", "withdraw_to"),
   ("totalSupply()", "Erc20", "total_supply"),
   ("balanceOf(address)", "Erc20", "balance_of"),
   ("transfer(address,uint256)", "Erc20", "transfer"),
   ("allowance(address,address)", "Erc20", "allowance"),
   ("approve(address,uint256)", "Erc20", "approve"),
   ("transferFrom(address,address,uint256)", "Erc20", "transfer_from")]

/-- The functions of `examples/erc20`. -/
def erc20Example : List (String × String × String) :=
  [("decimals()", "Erc20Example", "decimals"),
   ("burn(uint256)", "Erc20Example", "burn"),
   ("burnFrom(address,uint256)", "Erc20Example", "burn_from"),
   ("mint(address,uint256)", "Erc20Example", "mint"),
   ("transfer(address,uint256)", "Erc20Example", "transfer"),
   ("transferFrom(address,address,uint256)", "Erc20Example", "transfer_from"),
   ("supportsInterface(bytes4)", "Erc20Example", "supports_interface"),
   ("pause()", "Erc20Example", "pause"),
   ("unpause()", "Erc20Example", "unpause"),
   ("totalSupply()", "Erc20", "total_supply"),
   ("balanceOf(address)", "Erc20", "balance_of"),
   ("allowance(address,address)", "Erc20", "allowance"),
   ("approve(address,uint256)", "Erc20", "approve"),
   ("name()", "Erc20Metadata", "name"),
   ("symbol()", "Erc20Metadata", "symbol"),
   ("cap()", "Capped", "cap"),
   ("paused()", "Pausable", "paused")]

/-- The functions of `examples/erc4626`. -/
def erc4626Example : List (String × String × String) :=
  [("decimals()", "Erc4626Example", "decimals"),
   ("asset()", "Erc4626Example", "asset"),
   ("totalAssets()", "Erc4626Example", "total_assets"),
   ("convertToShares(uint256)", "Erc4626Example", "convert_to_shares"),
   ("convertToAssets(uint256)", "Erc4626Example", "convert_to_assets"),
   ("maxDeposit(address)", "Erc4626Example", "max_deposit"),
   ("previewDeposit(uint256)", "Erc4626Example", "preview_deposit"),
   ("deposit(uint256,address)", "Erc4626Example", "deposit"),
   ("maxMint(address)", "Erc4626Example", "max_mint"),
   ("previewMint(uint256)", "Erc4626Example", "preview_mint"),
   ("mint(uint256,address)", "Erc4626Example", "mint"),
   ("maxWithdraw(address)", "Erc4626Example", "max_withdraw"),
   ("previewWithdraw(uint256)", "Erc4626Example", "preview_withdraw"),
   ("withdraw(uint256,address,address)", "Erc4626Example", "withdraw"),
   ("maxRedeem(address)", "Erc4626Example", "max_redeem"),
   ("previewRedeem(uint256)", "Erc4626Example", "preview_redeem"),
   ("redeem(uint256,address,address)", "Erc4626Example", "redeem"),
   ("totalSupply()", "Erc20", "total_supply"),
   ("balanceOf(address)", "Erc20", "balance_of"),
   ("transfer(address,uint256)", "Erc20", "transfer"),
   ("allowance(address,address)", "Erc20", "allowance"),
   ("approve(address,uint256)", "Erc20", "approve"),
   ("transferFrom(address,address,uint256)", "Erc20", "transfer_from"),
   ("name()", "Erc20Metadata", "name"),
   ("symbol()", "Erc20Metadata", "symbol")]

/-- The functions of `examples/erc721-consecutive`. -/
def erc721ConsecutiveExample : List (String × String × String) :=
  [("burn(uint256)", "Erc721ConsecutiveExample", "burn"),
   ("mint(address,uint256)", "Erc721ConsecutiveExample", "mint"),
   ("supportsInterface(bytes4)", "Erc721ConsecutiveExample", "supports_interface"),
   ("balanceOf(address)", "Erc721Consecutive", "balance_of"),
   ("ownerOf(uint256)", "Erc721Consecutive", "owner_of"),
   ("safeTransferFrom(address,address,uint256)", "Erc721Consecutive", "safe_transfer_from"),
   ("safeTransferFrom(address,address,uint256,bytes)", "Erc721Consecutive", "safe_transfer_from_with_data"),
   ("transferFrom(address,address,uint256)", "Erc721Consecutive", "transfer_from"),
   ("approve(address,uint256)", "Erc721Consecutive", "approve"),
   ("setApprovalForAll(address,bool)", "Erc721Consecutive", "set_approval_for_all"),
   ("getApproved(uint256)", "Erc721Consecutive", "get_approved"),
   ("isApprovedForAll(address,address)", "Erc721Consecutive", "is_approved_for_all")]

/-- The functions of `examples/erc721-metadata`. -/
def erc721MetadataExample : List (String × String × String) :=
  [("mint(address,uint256)", "Erc721MetadataExample", "mint"),
   ("burn(uint256)", "Erc721MetadataExample", "burn"),
   ("tokenURI(uint256)", "Erc721MetadataExample", "token_uri"),
   ("setTokenURI(uint256,string)", "Erc721MetadataExample", "set_token_uri"),
   ("supportsInterface(bytes4)", "Erc721MetadataExample", "supports_interface"),
   ("balanceOf(address)", "Erc721", "balance_of"),
   ("ownerOf(uint256)", "Erc721", "owner_of"),
   ("safeTransferFrom(address,address,uint256)", "Erc721", "safe_transfer_from"),
   ("safeTransferFrom(address,address,uint256,bytes)", "Erc721", "safe_transfer_from_with_data"),
   ("transferFrom(address,address,uint256)", "Erc721", "transfer_from"),
   ("approve(address,uint256)", "Erc721", "approve"),
   ("setApprovalForAll(address,bool)", "Erc721", "set_approval_for_all"),
   ("getApproved(uint256)", "Erc721", "get_approved"),
   ("isApprovedForAll(address,address)", "Erc721", "is_approved_for_all"),
   ("name()", "Erc721Metadata", "name"),
   ("symbol()", "Erc721Metadata", "symbol")]

/-- The functions of `examples/erc721-wrapper`. -/
def erc721WrapperExample : List (String × String × String) :=
  [("underlying()", "Erc721WrapperExample", "underlying"),
   ("depositFor(address,uint256[])", "Erc721WrapperExample", "deposit_for"),
   ("withdrawTo(address,uint256[])", "Erc721WrapperExample", "withdraw_to"),
   ("onErc721Received(address,address,uint256,bytes)", "Erc721WrapperExample", "on_erc721_received"),
   ("balanceOf(address)", "Erc721", "balance_of"),
   ("ownerOf(uint256)", "Erc721", "owner_of"),
   ("safeTransferFrom(address,address,uint256)", "Erc721", "safe_transfer_from"),
   ("safeTransferFrom(address,address,uint256,bytes)", "Erc721", "safe_transfer_from_with_data"),
   ("transferFrom(address,address,uint256)", "Erc721", "transfer_from"),
   ("approve(address,uint256)", "Erc721", "approve"),
   ("setApprovalForAll(address,bool)", "Erc721", "set_approval_for_all"),
   ("getApproved(uint256)", "Erc721", "get_approved"),
   ("isApprovedForAll(address,address)", "Erc721", "is_approved_for_all")]

/-- The functions of `examples/erc721`. -/
def erc721Example : List (String × String × String) :=
  [("burn(uint256)", "Erc721Example", "burn"),
   ("mint(address,uint256)", "Erc721Example", "mint"),
   ("safeMint(address,uint256,bytes)", "Erc721Example", "safe_mint"),
   ("safeTransferFrom(address,address,uint256)", "Erc721Example", "safe_transfer_from"),
   ("safeTransferFrom(address,address,uint256,bytes)", "Erc721Example", "safe_transfer_from_with_data"),
   ("transferFrom(address,address,uint256)", "Erc721Example", "transfer_from"),
   ("supportsInterface(bytes4)", "Erc721Example", "supports_interface"),
   ("pause()", "Erc721Example", "pause"),
   ("unpause()", "Erc721Example", "unpause"),
   ("balanceOf(address)", "Erc721", "balance_of"),
   ("ownerOf(uint256)", "Erc721", "owner_of"),
   ("approve(address,uint256)", "Erc721", "approve"),
   ("setApprovalForAll(address,bool)", "Erc721", "set_approval_for_all"),
   ("getApproved(uint256)", "Erc721", "get_approved"),
   ("isApprovedForAll(address,address)", "Erc721", "is_approved_for_all"),
   ("tokenOfOwnerByIndex(address,uint256)", "Erc721Enumerable", "token_of_owner_by_index"),
   ("totalSupply()", "Erc721Enumerable", "total_supply"),
   ("tokenByIndex(uint256)", "Erc721Enumerable", "token_by_index"),
   ("paused()", "Pausable", "paused")]

/-- The functions of `examples/merkle-proofs`. -/
def merkleProofsExample : List (String × String × String) :=
  [("verify(bytes32[],bytes32,bytes32)", "VerifierContract", "verify"),
   ("verifyMultiProof(bytes32[],bool[],bytes32,bytes32[])", "VerifierContract", "verify_multi_proof")]

/-- The functions of `examples/ownable-two-step`. -/
def ownableTwoStepExample : List (String × String × String) :=
  [("transfer(address,uint256)", "Ownable2StepExample", "transfer"),
   ("totalSupply()", "Erc20", "total_supply"),
   ("balanceOf(address)", "Erc20", "balance_of"),
   ("allowance(address,address)", "Erc20", "allowance"),
   ("approve(address,uint256)", "Erc20", "approve"),
   ("transferFrom(address,address,uint256)", "Erc20", "transfer_from"),
   ("owner()", "Ownable2Step", "owner"),
   ("pendingOwner()", "Ownable2Step", "pending_owner"),
   ("transferOwnership(address)", "Ownable2Step", "transfer_ownership"),
   ("acceptOwnership()", "Ownable2Step", "accept_ownership"),
   ("renounceOwnership()", "Ownable2Step", "renounce_ownership")]

/-- The functions of `examples/ownable`. -/
def ownableExample : List (String × String × String) :=
  [("transfer(address,uint256)", "OwnableExample", "transfer"),
   ("totalSupply()", "Erc20", "total_supply"),
   ("balanceOf(address)", "Erc20", "balance_of"),
   ("allowance(address,address)", "Erc20", "allowance"),
   ("approve(address,uint256)", "Erc20", "approve"),
   ("transferFrom(address,address,uint256)", "Erc20", "transfer_from"),
   ("owner()", "Ownable", "owner"),
   ("transferOwnership(address)", "Ownable", "transfer_ownership"),
   ("renounceOwnership()", "Ownable", "renounce_ownership")]

/-- The functions of `examples/poseidon`. -/
def poseidonExample : List (String × String × String) :=
  [("hash(uint256[2])", "PoseidonExample", "hash")]

/-- The functions of `examples/safe-erc20`. -/
def safeErc20Example : List (String × String × String) :=
  [("safeTransfer(address,address,uint256)", "SafeErc20", "safe_transfer"),
   ("safeTransferFrom(address,address,address,uint256)", "SafeErc20", "safe_transfer_from"),
   ("safeIncreaseAllowance(address,address,uint256)", "SafeErc20", "safe_increase_allowance"),
   ("safeDecreaseAllowance(address,address,uint256)", "SafeErc20", "safe_decrease_allowance"),
   ("forceApprove(address,address,uint256)", "SafeErc20", "force_approve")]

/-- The functions of `examples/basic`. -/
def basicToken : List (String × String × String) :=
  [("mint(address,uint256)", "Erc20Example", "mint"),
   ("totalSupply()", "Erc20", "total_supply"),
   ("balanceOf(address)", "Erc20", "balance_of"),
   ("transfer(address,uint256)", "Erc20", "transfer"),
   ("allowance(address,address)", "Erc20", "allowance"),
   ("approve(address,uint256)", "Erc20", "approve"),
   ("transferFrom(address,address,uint256)", "Erc20", "transfer_from"),
   ("name()", "Erc20Metadata", "name"),
   ("symbol()", "Erc20Metadata", "symbol"),
   ("decimals()", "Erc20Metadata", "decimals")]

/-- The functions of `examples/vesting-wallet`. -/
def vestingWalletExample : List (String × String × String) :=
  [("owner()", "VestingWallet", "owner"),
   ("transferOwnership(address)", "VestingWallet", "transfer_ownership"),
   ("renounceOwnership()", "VestingWallet", "renounce_ownership"),
   ("start()", "VestingWallet", "start"),
   ("duration()", "VestingWallet", "duration"),
   ("end()", "VestingWallet", "end"),
   ("released()", "VestingWallet", "released_eth"),
   ("released(address)", "VestingWallet", "released_erc20"),
   ("releasable()", "VestingWallet", "releasable_eth"),
   ("releasable(address)", "VestingWallet", "releasable_erc20"),
   ("release()", "VestingWallet", "release_eth"),
   ("release(address)", "VestingWallet", "release_erc20"),
   ("vestedAmount(uint64)", "VestingWallet", "vested_amount_eth"),
   ("vestedAmount(address,uint64)", "VestingWallet", "vested_amount_erc20")]

/-- An example contract, its functions, and the standards it implements. -/
structure Entry where
  contract : Verif.Router.Contract
  abi : List (String × String × String)
  standards : List (List (String × BitVec 32))

/-- Every example contract of the repository. -/
def contracts : List Entry :=
  [⟨Verif.Router.accessControlExample, accessControlExample, [erc20]⟩,
   ⟨Verif.Router.ecdsaExample, ecdsaExample, []⟩,
   ⟨Verif.Router.erc1155MetadataUriExample, erc1155MetadataUriExample, [erc1155, erc1155MetadataUri, erc165]⟩,
   ⟨Verif.Router.erc1155SupplyExample, erc1155SupplyExample, [erc1155, erc165]⟩,
   ⟨Verif.Router.erc1155Example, erc1155Example, [erc1155, erc165]⟩,
   ⟨Verif.Router.erc20FlashMintExample, erc20FlashMintExample, [erc20, erc3156]⟩,
   ⟨Verif.Router.erc20PermitExample, erc20PermitExample, [erc20, erc2612]⟩,
   ⟨Verif.Router.erc20WrapperExample, erc20WrapperExample, [erc20]⟩,
   ⟨Verif.Router.erc20Example, erc20Example, [erc20, erc20Metadata, erc165]⟩,
   ⟨Verif.Router.erc4626Example, erc4626Example, [erc20, erc20Metadata, erc4626]⟩,
   ⟨Verif.Router.erc721ConsecutiveExample, erc721ConsecutiveExample, [erc721, erc165]⟩,
   ⟨Verif.Router.erc721MetadataExample, erc721MetadataExample, [erc721, erc721Metadata, erc165]⟩,
   ⟨Verif.Router.erc721WrapperExample, erc721WrapperExample, [erc721]⟩,
   ⟨Verif.Router.erc721Example, erc721Example, [erc721, erc721Enumerable, erc165]⟩,
   ⟨Verif.Router.merkleProofsExample, merkleProofsExample, []⟩,
   ⟨Verif.Router.ownableTwoStepExample, ownableTwoStepExample, [erc20, erc173]⟩,
   ⟨Verif.Router.ownableExample, ownableExample, [erc20, erc173]⟩,
   ⟨Verif.Router.poseidonExample, poseidonExample, []⟩,
   ⟨Verif.Router.safeErc20Example, safeErc20Example, []⟩,
   ⟨Verif.Router.vestingWalletExample, vestingWalletExample, [erc173]⟩,
   ⟨Verif.Router.basicToken, basicToken, [erc20, erc20Metadata]⟩]

end Verif.Spec.Router
