import Verif.Spec.Keccak
/-!
# ERC-165 interfaces, as the standards write them

The functions of each interface as Solidity signatures, in the order of the standard, and the rule of ERC-165: the id
is the xor of the function selectors, a selector being the first four bytes of the Keccak-256 hash of the signature.
-/
namespace Verif.Spec.Interfaces
open Verif.Spec.Keccak

/-- The selector of a function, for a given hash function. -/
def selector (K : List U8 → BitVec 256) (sig : String) : BitVec 32 := (K (ascii sig)).extractLsb' 224 32

/-- The id of an interface, for a given hash function. -/
def interfaceId (K : List U8 → BitVec 256) : List String → BitVec 32
  | [] => 0#32
  | sig :: sigs => selector K sig ^^^ interfaceId K sigs

/-- ERC-165. -/
def erc165 : List String := ["supportsInterface(bytes4)"]

/-- ERC-20, without the optional metadata. -/
def erc20 : List String :=
  ["totalSupply()", "balanceOf(address)", "transfer(address,uint256)", "transferFrom(address,address,uint256)",
   "approve(address,uint256)", "allowance(address,address)"]

/-- The optional part of ERC-20. -/
def erc20Metadata : List String := ["name()", "symbol()", "decimals()"]

/-- ERC-721. -/
def erc721 : List String :=
  ["balanceOf(address)", "ownerOf(uint256)", "safeTransferFrom(address,address,uint256,bytes)",
   "safeTransferFrom(address,address,uint256)", "transferFrom(address,address,uint256)", "approve(address,uint256)",
   "setApprovalForAll(address,bool)", "getApproved(uint256)", "isApprovedForAll(address,address)"]

/-- The metadata extension of ERC-721. -/
def erc721Metadata : List String := ["name()", "symbol()", "tokenURI(uint256)"]

/-- The enumeration extension of ERC-721. -/
def erc721Enumerable : List String :=
  ["totalSupply()", "tokenByIndex(uint256)", "tokenOfOwnerByIndex(address,uint256)"]

/-- ERC-1155. -/
def erc1155 : List String :=
  ["safeTransferFrom(address,address,uint256,uint256,bytes)",
   "safeBatchTransferFrom(address,address,uint256[],uint256[],bytes)", "balanceOf(address,uint256)",
   "balanceOfBatch(address[],uint256[])", "setApprovalForAll(address,bool)", "isApprovedForAll(address,address)"]

/-- The metadata extension of ERC-1155. -/
def erc1155MetadataUri : List String := ["uri(uint256)"]

/-- The functions `ERC1155Supply` adds in the Solidity library. -/
def erc1155Supply : List String := ["totalSupply(uint256)", "totalSupply()", "exists(uint256)"]

/-- ERC-2981. -/
def erc2981 : List String := ["royaltyInfo(uint256,uint256)"]

/-- ERC-3156, the lender. -/
def erc3156Lender : List String :=
  ["maxFlashLoan(address)", "flashFee(address,uint256)", "flashLoan(address,address,uint256,bytes)"]

/-- ERC-4626, without the ERC-20 functions. -/
def erc4626 : List String :=
  ["asset()", "totalAssets()", "convertToShares(uint256)", "convertToAssets(uint256)", "maxDeposit(address)",
   "previewDeposit(uint256)", "deposit(uint256,address)", "maxMint(address)", "previewMint(uint256)",
   "mint(uint256,address)", "maxWithdraw(address)", "previewWithdraw(uint256)",
   "withdraw(uint256,address,address)", "maxRedeem(address)", "previewRedeem(uint256)",
   "redeem(uint256,address,address)"]

/-- `Ownable` of the Solidity library. -/
def ownable : List String := ["owner()", "transferOwnership(address)", "renounceOwnership()"]

/-- `Ownable2Step` of the Solidity library. -/
def ownable2Step : List String :=
  ["owner()", "pendingOwner()", "renounceOwnership()", "transferOwnership(address)", "acceptOwnership()"]

/-- `IAccessControl` of the Solidity library. -/
def accessControl : List String :=
  ["hasRole(bytes32,address)", "getRoleAdmin(bytes32)", "grantRole(bytes32,address)", "revokeRole(bytes32,address)",
   "renounceRole(bytes32,address)"]

/-- The functions of `VestingWallet` in the Solidity library, with those of its base `Ownable`. -/
def vestingWallet : List String :=
  ["owner()", "transferOwnership(address)", "renounceOwnership()", "start()", "duration()", "end()", "released()",
   "released(address)", "releasable()", "releasable(address)", "release()", "release(address)",
   "vestedAmount(uint64)", "vestedAmount(address,uint64)"]

/-- The functions `ERC20Wrapper` adds or overrides in the Solidity library. -/
def erc20Wrapper : List String :=
  ["decimals()", "underlying()", "depositFor(address,uint256)", "withdrawTo(address,uint256)"]

/-- The helper interface of this library for safe ERC-20 calls. -/
def safeErc20 : List String :=
  ["safeTransfer(address,address,uint256)", "safeTransferFrom(address,address,address,uint256)",
   "safeIncreaseAllowance(address,address,uint256)", "safeDecreaseAllowance(address,address,uint256)",
   "forceApprove(address,address,uint256)"]

end Verif.Spec.Interfaces
