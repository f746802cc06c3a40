import Verif.Model.Interfaces
/-!
# Model of the ABI router

Which function answers a call with a given selector.  `#[public]` gives each function of the block a selector from its
name (in camel case, or as the `#[selector]` attribute says) and the types of its arguments; `#[inherit(A, B)]` passes a
selector the block does not have on to `A`, then to `B`.  Both macros are in the Stylus SDK, which is not in the
repository: this file states what they do.  Decoding of the arguments and the check that a function which
is not payable gets no value are in `Verif/Model/Abi.lean`.
-/
namespace Verif.Router
open Verif
open Verif.Interfaces (SolType camelFrom functionSelector)

/-- A function of a `#[public]` block: Rust name, `#[selector(name = "…")]` if any, types of the arguments
(`contracts/src/token/erc721/mod.rs` 408-491). -/
structure Fn where
  rustName : String
  selector : Option String
  args : List SolType
  deriving DecidableEq

/-- The Solidity name of a function (`contracts/src/token/erc721/mod.rs` 408-491).  No exported name has a letter behind
a digit, so how the case conversion treats digits does not matter. -/
def Fn.name (f : Fn) : List Char :=
  match f.selector with
  | some n => n.toList
  | none => camelFrom false f.rustName.toList

/-- The selector of a function (`contracts/src/token/erc721/mod.rs` 408-491). -/
def Fn.id (K : Hash) (f : Fn) : BitVec 32 := functionSelector K f.name f.args

/-- A type with a `#[public]` block (`contracts/src/token/erc20/mod.rs` 270-316). -/
structure Module where
  type : String
  fns : List Fn

/-- A contract: its own `#[public]` block and the types it inherits from, in order (`examples/erc20/src/lib.rs`
39-40).  The inherited types inherit nothing themselves. -/
structure Contract where
  own : Module
  parents : List Module

/-- The function of one block that has the selector (`contracts/src/token/erc20/mod.rs` 270-316). -/
def Module.route (K : Hash) (m : Module) (sel : BitVec 32) : Option (String × Fn) :=
  (m.fns.find? fun f => f.id K = sel).map fun f => (m.type, f)

/-- The router: the contract's own functions, then the inherited ones in order (`examples/erc20/src/lib.rs` 39-40). -/
def Contract.route (K : Hash) (c : Contract) (sel : BitVec 32) : Option (String × Fn) :=
  (c.own :: c.parents).findSome? fun m => m.route K sel

/-- The `#[public]` functions of `AccessControl`, `contracts/src/access/control.rs` 254-302. -/
def accessControl : Module := ⟨"AccessControl",
  [⟨"has_role", none, [.bytes32, .address]⟩,
   ⟨"only_role", none, [.bytes32]⟩,
   ⟨"get_role_admin", none, [.bytes32]⟩,
   ⟨"grant_role", none, [.bytes32, .address]⟩,
   ⟨"revoke_role", none, [.bytes32, .address]⟩,
   ⟨"renounce_role", none, [.bytes32, .address]⟩]⟩

/-- The `#[public]` functions of `Ownable`, `contracts/src/access/ownable.rs` 128-158. -/
def ownable : Module := ⟨"Ownable",
  [⟨"owner", none, []⟩,
   ⟨"transfer_ownership", none, [.address]⟩,
   ⟨"renounce_ownership", none, []⟩]⟩

/-- The `#[public]` functions of `Ownable2Step`, `contracts/src/access/ownable_two_step.rs` 160-204. -/
def ownable2Step : Module := ⟨"Ownable2Step",
  [⟨"owner", none, []⟩,
   ⟨"pending_owner", none, []⟩,
   ⟨"transfer_ownership", none, [.address]⟩,
   ⟨"accept_ownership", none, []⟩,
   ⟨"renounce_ownership", none, []⟩]⟩

/-- The `#[public]` functions of `VestingWallet`, `contracts/src/finance/vesting_wallet.rs` 350-472. -/
def vestingWallet : Module := ⟨"VestingWallet",
  [⟨"owner", none, []⟩,
   ⟨"transfer_ownership", none, [.address]⟩,
   ⟨"renounce_ownership", none, []⟩,
   ⟨"start", none, []⟩,
   ⟨"duration", none, []⟩,
   ⟨"end", none, []⟩,
   ⟨"released_eth", some "released", []⟩,
   ⟨"released_erc20", some "released", [.address]⟩,
   ⟨"releasable_eth", some "releasable", []⟩,
   ⟨"releasable_erc20", some "releasable", [.address]⟩,
   ⟨"release_eth", some "release", []⟩,
   ⟨"release_erc20", some "release", [.address]⟩,
   ⟨"vested_amount_eth", some "vestedAmount", [.uint64]⟩,
   ⟨"vested_amount_erc20", some "vestedAmount", [.address, .uint64]⟩]⟩

/-- The `#[public]` functions of `Erc2981`, `contracts/src/token/common/erc2981.rs` 164-192. -/
def erc2981 : Module := ⟨"Erc2981",
  [⟨"royalty_info", none, [.uint256, .uint256]⟩]⟩

/-- The `#[public]` functions of `Erc1155MetadataUri`, `contracts/src/token/erc1155/extensions/metadata_uri.rs` 56-64. -/
def erc1155MetadataUri : Module := ⟨"Erc1155MetadataUri",
  [⟨"uri", none, [.uint256]⟩]⟩

/-- The `#[public]` functions of `Erc1155Supply`, `contracts/src/token/erc1155/extensions/supply.rs` 101-152. -/
def erc1155Supply : Module := ⟨"Erc1155Supply",
  [⟨"balance_of", none, [.address, .uint256]⟩,
   ⟨"balance_of_batch", none, [.array .address, .array .uint256]⟩,
   ⟨"set_approval_for_all", none, [.address, .bool]⟩,
   ⟨"is_approved_for_all", none, [.address, .address]⟩,
   ⟨"safe_transfer_from", none, [.address, .address, .uint256, .uint256, .bytes]⟩,
   ⟨"safe_batch_transfer_from", none, [.address, .address, .array .uint256, .array .uint256, .bytes]⟩]⟩

/-- The `#[public]` functions of `Erc1155`, `contracts/src/token/erc1155/mod.rs` 360-419. -/
def erc1155 : Module := ⟨"Erc1155",
  [⟨"balance_of", none, [.address, .uint256]⟩,
   ⟨"balance_of_batch", none, [.array .address, .array .uint256]⟩,
   ⟨"set_approval_for_all", none, [.address, .bool]⟩,
   ⟨"is_approved_for_all", none, [.address, .address]⟩,
   ⟨"safe_transfer_from", none, [.address, .address, .uint256, .uint256, .bytes]⟩,
   ⟨"safe_batch_transfer_from", none, [.address, .address, .array .uint256, .array .uint256, .bytes]⟩]⟩

/-- The `#[public]` functions of `Capped`, `contracts/src/token/erc20/extensions/capped.rs` 57-63. -/
def capped : Module := ⟨"Capped",
  [⟨"cap", none, []⟩]⟩

/-- The `#[public]` functions of `Erc20Metadata`, `contracts/src/token/erc20/extensions/metadata.rs` 61-74. -/
def erc20Metadata : Module := ⟨"Erc20Metadata",
  [⟨"name", none, []⟩,
   ⟨"symbol", none, []⟩,
   ⟨"decimals", none, []⟩]⟩

/-- The `#[public]` functions of `Erc20Permit`, `contracts/src/token/erc20/extensions/permit.rs` 89-102. -/
def erc20Permit : Module := ⟨"Erc20Permit",
  [⟨"domain_separator", some "DOMAIN_SEPARATOR", []⟩]⟩

/-- The `#[public]` functions of `Erc20`, `contracts/src/token/erc20/mod.rs` 270-316. -/
def erc20 : Module := ⟨"Erc20",
  [⟨"total_supply", none, []⟩,
   ⟨"balance_of", none, [.address]⟩,
   ⟨"transfer", none, [.address, .uint256]⟩,
   ⟨"allowance", none, [.address, .address]⟩,
   ⟨"approve", none, [.address, .uint256]⟩,
   ⟨"transfer_from", none, [.address, .address, .uint256]⟩]⟩

/-- The `#[public]` functions of `SafeErc20`, `contracts/src/token/erc20/utils/safe_erc20.rs` 232-308. -/
def safeErc20 : Module := ⟨"SafeErc20",
  [⟨"safe_transfer", none, [.address, .address, .uint256]⟩,
   ⟨"safe_transfer_from", none, [.address, .address, .address, .uint256]⟩,
   ⟨"safe_increase_allowance", none, [.address, .address, .uint256]⟩,
   ⟨"safe_decrease_allowance", none, [.address, .address, .uint256]⟩,
   ⟨"force_approve", none, [.address, .address, .uint256]⟩]⟩

/-- The `#[public]` functions of `Erc721Consecutive`, `contracts/src/token/erc721/extensions/consecutive.rs` 170-259. -/
def erc721Consecutive : Module := ⟨"Erc721Consecutive",
  [⟨"balance_of", none, [.address]⟩,
   ⟨"owner_of", none, [.uint256]⟩,
   ⟨"safe_transfer_from", none, [.address, .address, .uint256]⟩,
   ⟨"safe_transfer_from_with_data", some "safeTransferFrom", [.address, .address, .uint256, .bytes]⟩,
   ⟨"transfer_from", none, [.address, .address, .uint256]⟩,
   ⟨"approve", none, [.address, .uint256]⟩,
   ⟨"set_approval_for_all", none, [.address, .bool]⟩,
   ⟨"get_approved", none, [.uint256]⟩,
   ⟨"is_approved_for_all", none, [.address, .address]⟩]⟩

/-- The `#[public]` functions of `Erc721Enumerable`, `contracts/src/token/erc721/extensions/enumerable.rs` 137-165. -/
def erc721Enumerable : Module := ⟨"Erc721Enumerable",
  [⟨"token_of_owner_by_index", none, [.address, .uint256]⟩,
   ⟨"total_supply", none, []⟩,
   ⟨"token_by_index", none, [.uint256]⟩]⟩

/-- The `#[public]` functions of `Erc721Metadata`, `contracts/src/token/erc721/extensions/metadata.rs` 60-69. -/
def erc721Metadata : Module := ⟨"Erc721Metadata",
  [⟨"name", none, []⟩,
   ⟨"symbol", none, []⟩]⟩

/-- The `#[public]` functions of `Erc721`, `contracts/src/token/erc721/mod.rs` 408-491. -/
def erc721 : Module := ⟨"Erc721",
  [⟨"balance_of", none, [.address]⟩,
   ⟨"owner_of", none, [.uint256]⟩,
   ⟨"safe_transfer_from", none, [.address, .address, .uint256]⟩,
   ⟨"safe_transfer_from_with_data", some "safeTransferFrom", [.address, .address, .uint256, .bytes]⟩,
   ⟨"transfer_from", none, [.address, .address, .uint256]⟩,
   ⟨"approve", none, [.address, .uint256]⟩,
   ⟨"set_approval_for_all", none, [.address, .bool]⟩,
   ⟨"get_approved", none, [.uint256]⟩,
   ⟨"is_approved_for_all", none, [.address, .address]⟩]⟩

/-- The `#[public]` functions of `Metadata`, `contracts/src/utils/metadata.rs` 15-34. -/
def metadata : Module := ⟨"Metadata",
  [⟨"name", none, []⟩,
   ⟨"symbol", none, []⟩]⟩

/-- The `#[public]` functions of `Nonces`, `contracts/src/utils/nonces.rs` 51-63. -/
def nonces : Module := ⟨"Nonces",
  [⟨"nonces", none, [.address]⟩]⟩

/-- The `#[public]` functions of `Pausable`, `contracts/src/utils/pausable.rs` 79-89. -/
def pausable : Module := ⟨"Pausable",
  [⟨"paused", none, []⟩]⟩

/-- The `#[public]` functions of `AccessControlExample` and what it inherits, `examples/access-control/src/lib.rs` 31-56. -/
def accessControlExample : Contract :=
  ⟨⟨"AccessControlExample",
  [⟨"make_admin", none, [.address]⟩,
   ⟨"transfer_from", none, [.address, .address, .uint256]⟩,
   ⟨"set_role_admin", none, [.bytes32, .bytes32]⟩]⟩, [erc20, accessControl]⟩

/-- The `#[public]` functions of `ECDSAExample` and what it inherits, `examples/ecdsa/src/lib.rs` 14-25. -/
def ecdsaExample : Contract :=
  ⟨⟨"ECDSAExample",
  [⟨"recover", none, [.bytes32, .uint8, .bytes32, .bytes32]⟩]⟩, []⟩

/-- The `#[public]` functions of `Erc1155MetadataUriExample` and what it inherits, `examples/erc1155-metadata-uri/src/lib.rs` 23-44. -/
def erc1155MetadataUriExample : Contract :=
  ⟨⟨"Erc1155MetadataUriExample",
  [⟨"uri", none, [.uint256]⟩,
   ⟨"set_token_uri", some "setTokenURI", [.uint256, .string]⟩,
   ⟨"set_base_uri", some "setBaseURI", [.string]⟩,
   ⟨"supports_interface", none, [.bytes4]⟩]⟩, [erc1155]⟩

/-- The `#[public]` functions of `Erc1155Example` and what it inherits, `examples/erc1155-supply/src/lib.rs` 24-83. -/
def erc1155SupplyExample : Contract :=
  ⟨⟨"Erc1155Example",
  [⟨"total_supply", none, [.uint256]⟩,
   ⟨"total_supply_all", some "totalSupply", []⟩,
   ⟨"exists", none, [.uint256]⟩,
   ⟨"mint", none, [.address, .uint256, .uint256, .bytes]⟩,
   ⟨"mint_batch", none, [.address, .array .uint256, .array .uint256, .bytes]⟩,
   ⟨"burn", none, [.address, .uint256, .uint256]⟩,
   ⟨"burn_batch", none, [.address, .array .uint256, .array .uint256]⟩,
   ⟨"supports_interface", none, [.bytes4]⟩]⟩, [erc1155Supply]⟩

/-- The `#[public]` functions of `Erc1155Example` and what it inherits, `examples/erc1155/src/lib.rs` 28-118. -/
def erc1155Example : Contract :=
  ⟨⟨"Erc1155Example",
  [⟨"mint", none, [.address, .uint256, .uint256, .bytes]⟩,
   ⟨"mint_batch", none, [.address, .array .uint256, .array .uint256, .bytes]⟩,
   ⟨"burn", none, [.address, .uint256, .uint256]⟩,
   ⟨"burn_batch", none, [.address, .array .uint256, .array .uint256]⟩,
   ⟨"safe_transfer_from", none, [.address, .address, .uint256, .uint256, .bytes]⟩,
   ⟨"safe_batch_transfer_from", none, [.address, .address, .array .uint256, .array .uint256, .bytes]⟩,
   ⟨"supports_interface", none, [.bytes4]⟩,
   ⟨"pause", none, []⟩,
   ⟨"unpause", none, []⟩]⟩, [erc1155, pausable]⟩

/-- The `#[public]` functions of `Erc20FlashMintExample` and what it inherits, `examples/erc20-flash-mint/src/lib.rs` 29-59. -/
def erc20FlashMintExample : Contract :=
  ⟨⟨"Erc20FlashMintExample",
  [⟨"max_flash_loan", none, [.address]⟩,
   ⟨"flash_fee", none, [.address, .uint256]⟩,
   ⟨"flash_loan", none, [.address, .address, .uint256, .bytes]⟩,
   ⟨"mint", none, [.address, .uint256]⟩]⟩, [erc20]⟩

/-- The `#[public]` functions of `Erc20PermitExample` and what it inherits, `examples/erc20-permit/src/lib.rs` 35-70. -/
def erc20PermitExample : Contract :=
  ⟨⟨"Erc20PermitExample",
  [⟨"mint", none, [.address, .uint256]⟩,
   ⟨"permit", none, [.address, .address, .uint256, .uint256, .uint8, .bytes32, .bytes32]⟩]⟩, [erc20, nonces, erc20Permit]⟩

/-- The `#[public]` functions of `Erc20WrapperExample` and what it inherits, `examples/erc20-wrapper/src/lib.rs` 22-48. -/
def erc20WrapperExample : Contract :=
  ⟨⟨"Erc20WrapperExample",
  [⟨"underlying", none, []⟩,
   ⟨"decimals", none, []⟩,
   ⟨"deposit_for", none, [.address, .uint256]⟩,
   ⟨"withdraw_to", none, [.address, .uint256]⟩]⟩, [erc20]⟩

/-- The `#[public]` functions of `Erc20Example` and what it inherits, `examples/erc20/src/lib.rs` 39-124. -/
def erc20Example : Contract :=
  ⟨⟨"Erc20Example",
  [⟨"decimals", none, []⟩,
   ⟨"burn", none, [.uint256]⟩,
   ⟨"burn_from", none, [.address, .uint256]⟩,
   ⟨"mint", none, [.address, .uint256]⟩,
   ⟨"transfer", none, [.address, .uint256]⟩,
   ⟨"transfer_from", none, [.address, .address, .uint256]⟩,
   ⟨"supports_interface", none, [.bytes4]⟩,
   ⟨"pause", none, []⟩,
   ⟨"unpause", none, []⟩]⟩, [erc20, erc20Metadata, capped, pausable]⟩

/-- The `#[public]` functions of `Erc4626Example` and what it inherits, `examples/erc4626/src/lib.rs` 31-115. -/
def erc4626Example : Contract :=
  ⟨⟨"Erc4626Example",
  [⟨"decimals", none, []⟩,
   ⟨"asset", none, []⟩,
   ⟨"total_assets", none, []⟩,
   ⟨"convert_to_shares", none, [.uint256]⟩,
   ⟨"convert_to_assets", none, [.uint256]⟩,
   ⟨"max_deposit", none, [.address]⟩,
   ⟨"preview_deposit", none, [.uint256]⟩,
   ⟨"deposit", none, [.uint256, .address]⟩,
   ⟨"max_mint", none, [.address]⟩,
   ⟨"preview_mint", none, [.uint256]⟩,
   ⟨"mint", none, [.uint256, .address]⟩,
   ⟨"max_withdraw", none, [.address]⟩,
   ⟨"preview_withdraw", none, [.uint256]⟩,
   ⟨"withdraw", none, [.uint256, .address, .address]⟩,
   ⟨"max_redeem", none, [.address]⟩,
   ⟨"preview_redeem", none, [.uint256]⟩,
   ⟨"redeem", none, [.uint256, .address, .address]⟩]⟩, [erc20, erc20Metadata]⟩

/-- The `#[public]` functions of `Erc721ConsecutiveExample` and what it inherits, `examples/erc721-consecutive/src/lib.rs` 21-39. -/
def erc721ConsecutiveExample : Contract :=
  ⟨⟨"Erc721ConsecutiveExample",
  [⟨"burn", none, [.uint256]⟩,
   ⟨"mint", none, [.address, .uint256]⟩,
   ⟨"supports_interface", none, [.bytes4]⟩]⟩, [erc721Consecutive]⟩

/-- The `#[public]` functions of `Erc721MetadataExample` and what it inherits, `examples/erc721-metadata/src/lib.rs` 30-59;
the `Metadata` there is `Erc721Metadata` (11). -/
def erc721MetadataExample : Contract :=
  ⟨⟨"Erc721MetadataExample",
  [⟨"mint", none, [.address, .uint256]⟩,
   ⟨"burn", none, [.uint256]⟩,
   ⟨"token_uri", some "tokenURI", [.uint256]⟩,
   ⟨"set_token_uri", some "setTokenURI", [.uint256, .string]⟩,
   ⟨"supports_interface", none, [.bytes4]⟩]⟩, [erc721, erc721Metadata]⟩

/-- The `#[public]` functions of `Erc721WrapperExample` and what it inherits, `examples/erc721-wrapper/src/lib.rs` 22-60. -/
def erc721WrapperExample : Contract :=
  ⟨⟨"Erc721WrapperExample",
  [⟨"underlying", none, []⟩,
   ⟨"deposit_for", none, [.address, .array .uint256]⟩,
   ⟨"withdraw_to", none, [.address, .array .uint256]⟩,
   ⟨"on_erc721_received", none, [.address, .address, .uint256, .bytes]⟩]⟩, [erc721]⟩

/-- The `#[public]` functions of `Erc721Example` and what it inherits, `examples/erc721/src/lib.rs` 37-198. -/
def erc721Example : Contract :=
  ⟨⟨"Erc721Example",
  [⟨"burn", none, [.uint256]⟩,
   ⟨"mint", none, [.address, .uint256]⟩,
   ⟨"safe_mint", none, [.address, .uint256, .bytes]⟩,
   ⟨"safe_transfer_from", none, [.address, .address, .uint256]⟩,
   ⟨"safe_transfer_from_with_data", some "safeTransferFrom", [.address, .address, .uint256, .bytes]⟩,
   ⟨"transfer_from", none, [.address, .address, .uint256]⟩,
   ⟨"supports_interface", none, [.bytes4]⟩,
   ⟨"pause", none, []⟩,
   ⟨"unpause", none, []⟩]⟩, [erc721, erc721Enumerable, pausable]⟩

/-- The `#[public]` functions of `VerifierContract` and what it inherits, `examples/merkle-proofs/src/lib.rs` 55-78. -/
def merkleProofsExample : Contract :=
  ⟨⟨"VerifierContract",
  [⟨"verify", none, [.array .bytes32, .bytes32, .bytes32]⟩,
   ⟨"verify_multi_proof", none, [.array .bytes32, .array .bool, .bytes32, .array .bytes32]⟩]⟩, []⟩

/-- The `#[public]` functions of `Ownable2StepExample` and what it inherits, `examples/ownable-two-step/src/lib.rs` 28-36. -/
def ownableTwoStepExample : Contract :=
  ⟨⟨"Ownable2StepExample",
  [⟨"transfer", none, [.address, .uint256]⟩]⟩, [erc20, ownable2Step]⟩

/-- The `#[public]` functions of `OwnableExample` and what it inherits, `examples/ownable/src/lib.rs` 28-36. -/
def ownableExample : Contract :=
  ⟨⟨"OwnableExample",
  [⟨"transfer", none, [.address, .uint256]⟩]⟩, [erc20, ownable]⟩

/-- The `#[public]` functions of `PoseidonExample` and what it inherits, `examples/poseidon/src/lib.rs` 18-29. -/
def poseidonExample : Contract :=
  ⟨⟨"PoseidonExample",
  [⟨"hash", none, [.uint256Pair]⟩]⟩, []⟩

/-- The `#[public]` functions of `SafeErc20Example` and what it inherits, `examples/safe-erc20/src/lib.rs` 14-17. -/
def safeErc20Example : Contract :=
  ⟨⟨"SafeErc20Example",
  []⟩, [safeErc20]⟩

/-- The `#[public]` functions of `VestingWalletExample` and what it inherits, `examples/vesting-wallet/src/lib.rs` 14-21. -/
def vestingWalletExample : Contract :=
  ⟨⟨"VestingWalletExample",
  []⟩, [vestingWallet]⟩

/-- The `#[public]` functions of `Erc20Example` and what it inherits, `examples/basic/token/src/lib.rs` 21-31. -/
def basicToken : Contract :=
  ⟨⟨"Erc20Example",
  [⟨"mint", none, [.address, .uint256]⟩]⟩, [erc20, erc20Metadata]⟩

end Verif.Router
