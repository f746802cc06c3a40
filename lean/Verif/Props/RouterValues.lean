import Verif.Spec.Router
import Verif.Proofs.KeccakFast
/-! # C97: the selectors, evaluated -/

namespace Verif.Props.Router
open Verif

/-- The selectors of all exported functions. -/
def table : List (String × BitVec 32) :=
  [("makeAdmin(address)", 0x472905ca#32),
   ("transferFrom(address,address,uint256)", 0x23b872dd#32),
   ("setRoleAdmin(bytes32,bytes32)", 0x1e4e0091#32),
   ("totalSupply()", 0x18160ddd#32),
   ("balanceOf(address)", 0x70a08231#32),
   ("transfer(address,uint256)", 0xa9059cbb#32),
   ("allowance(address,address)", 0xdd62ed3e#32),
   ("approve(address,uint256)", 0x095ea7b3#32),
   ("hasRole(bytes32,address)", 0x91d14854#32),
   ("onlyRole(bytes32)", 0x77b85067#32),
   ("getRoleAdmin(bytes32)", 0x248a9ca3#32),
   ("grantRole(bytes32,address)", 0x2f2ff15d#32),
   ("revokeRole(bytes32,address)", 0xd547741f#32),
   ("renounceRole(bytes32,address)", 0x36568abe#32),
   ("recover(bytes32,uint8,bytes32,bytes32)", 0xc2bf17b0#32),
   ("uri(uint256)", 0x0e89341c#32),
   ("setTokenURI(uint256,string)", 0x162094c4#32),
   ("setBaseURI(string)", 0x55f804b3#32),
   ("supportsInterface(bytes4)", 0x01ffc9a7#32),
   ("balanceOf(address,uint256)", 0x00fdd58e#32),
   ("balanceOfBatch(address[],uint256[])", 0x4e1273f4#32),
   ("setApprovalForAll(address,bool)", 0xa22cb465#32),
   ("isApprovedForAll(address,address)", 0xe985e9c5#32),
   ("safeTransferFrom(address,address,uint256,uint256,bytes)", 0xf242432a#32),
   ("safeBatchTransferFrom(address,address,uint256[],uint256[],bytes)", 0x2eb2c2d6#32),
   ("totalSupply(uint256)", 0xbd85b039#32),
   ("exists(uint256)", 0x4f558e79#32),
   ("mint(address,uint256,uint256,bytes)", 0x731133e9#32),
   ("mintBatch(address,uint256[],uint256[],bytes)", 0x1f7fdffa#32),
   ("burn(address,uint256,uint256)", 0xf5298aca#32),
   ("burnBatch(address,uint256[],uint256[])", 0x6b20c454#32),
   ("pause()", 0x8456cb59#32),
   ("unpause()", 0x3f4ba83a#32),
   ("paused()", 0x5c975abb#32),
   ("maxFlashLoan(address)", 0x613255ab#32),
   ("flashFee(address,uint256)", 0xd9d98ce4#32),
   ("flashLoan(address,address,uint256,bytes)", 0x5cffe9de#32),
   ("mint(address,uint256)", 0x40c10f19#32),
   ("permit(address,address,uint256,uint256,uint8,bytes32,bytes32)", 0xd505accf#32),
   ("nonces(address)", 0x7ecebe00#32),
   ("DOMAIN_SEPARATOR()", 0x3644e515#32),
   ("underlying()", 0x6f307dc3#32),
   ("decimals()", 0x313ce567#32),
   ("depositFor(address,uint256)", 0x2f4f21e2#32),
   ("withdrawTo(address,uint256)", 0x205c2878#32),
   ("burn(uint256)", 0x42966c68#32),
   ("burnFrom(address,uint256)", 0x79cc6790#32),
   ("name()", 0x06fdde03#32),
   ("symbol()", 0x95d89b41#32),
   ("cap()", 0x355274ea#32),
   ("asset()", 0x38d52e0f#32),
   ("totalAssets()", 0x01e1d114#32),
   ("convertToShares(uint256)", 0xc6e6f592#32),
   ("convertToAssets(uint256)", 0x07a2d13a#32),
   ("maxDeposit(address)", 0x402d267d#32),
   ("previewDeposit(uint256)", 0xef8b30f7#32),
   ("deposit(uint256,address)", 0x6e553f65#32),
   ("maxMint(address)", 0xc63d75b6#32),
   ("previewMint(uint256)", 0xb3d7f6b9#32),
   ("mint(uint256,address)", 0x94bf804d#32),
   ("maxWithdraw(address)", 0xce96cb77#32),
   ("previewWithdraw(uint256)", 0x0a28a477#32),
   ("withdraw(uint256,address,address)", 0xb460af94#32),
   ("maxRedeem(address)", 0xd905777e#32),
   ("previewRedeem(uint256)", 0x4cdad506#32),
   ("redeem(uint256,address,address)", 0xba087652#32),
   ("ownerOf(uint256)", 0x6352211e#32),
   ("safeTransferFrom(address,address,uint256)", 0x42842e0e#32),
   ("safeTransferFrom(address,address,uint256,bytes)", 0xb88d4fde#32),
   ("getApproved(uint256)", 0x081812fc#32),
   ("tokenURI(uint256)", 0xc87b56dd#32),
   ("depositFor(address,uint256[])", 0xcace6eb2#32),
   ("withdrawTo(address,uint256[])", 0x7c1b126c#32),
   ("onErc721Received(address,address,uint256,bytes)", 0x5ca688d3#32),
   ("safeMint(address,uint256,bytes)", 0x8832e6e3#32),
   ("tokenOfOwnerByIndex(address,uint256)", 0x2f745c59#32),
   ("tokenByIndex(uint256)", 0x4f6ccce7#32),
   ("verify(bytes32[],bytes32,bytes32)", 0x5a9a49c7#32),
   ("verifyMultiProof(bytes32[],bool[],bytes32,bytes32[])", 0x21570568#32),
   ("owner()", 0x8da5cb5b#32),
   ("pendingOwner()", 0xe30c3978#32),
   ("transferOwnership(address)", 0xf2fde38b#32),
   ("acceptOwnership()", 0x79ba5097#32),
   ("renounceOwnership()", 0x715018a6#32),
   ("hash(uint256[2])", 0x561558fe#32),
   ("safeTransfer(address,address,uint256)", 0xd1660f99#32),
   ("safeTransferFrom(address,address,address,uint256)", 0xd9fc4b61#32),
   ("safeIncreaseAllowance(address,address,uint256)", 0xf9255c1f#32),
   ("safeDecreaseAllowance(address,address,uint256)", 0x675215d2#32),
   ("forceApprove(address,address,uint256)", 0x61f49ed6#32),
   ("start()", 0xbe9a6555#32),
   ("duration()", 0x0fb5a6b4#32),
   ("end()", 0xefbe1c1c#32),
   ("released()", 0x96132521#32),
   ("released(address)", 0x9852595c#32),
   ("releasable()", 0xfbccedae#32),
   ("releasable(address)", 0xa3f8eace#32),
   ("release()", 0x86d1a69f#32),
   ("release(address)", 0x19165587#32),
   ("vestedAmount(uint64)", 0x0a17b06b#32),
   ("vestedAmount(address,uint64)", 0x810ec23b#32),
   ("onERC721Received(address,address,uint256,bytes)", 0x150b7a02#32)]

set_option maxRecDepth 100000 in
theorem table_eq : ∀ p ∈ table, Spec.Router.selector p.1 = p.2 := by
  unfold Spec.Router.selector
  rw [Proofs.KeccakFast.keccak256_eq]; decide +kernel

end Verif.Props.Router
