import Verif.Model.Crypto
/-!
# Model of ERC-165 interface detection

The `#[interface_id]` macro (`contracts-proc/src/interface_id.rs`), the traits it is applied to, the interface ids
written by hand, and every `supports_interface`.  The hash behind `function_selector!` is a parameter.
Not modelled: the Rust-side parsing of the trait (each trait is given as its list of functions).
-/
namespace Verif.Interfaces
open Verif

/-- The Solidity types of the arguments that occur in the traits: `Address`, `U256`, `u64`, `FixedBytes<4>`, `B256`,
`bool`, `Bytes` and `Vec` of them (`function_selector!` in `contracts-proc/src/interface_id.rs` 58); `string` occurs in
events and functions of the examples, `u8` and `[U256; 2]` in functions of the examples. -/
inductive SolType where
  | address | uint256 | uint64 | uint8 | bytes4 | bytes32 | bool | bytes | string | uint256Pair
  | array (t : SolType)
  deriving DecidableEq

/-- The ABI name of a type, as `function_selector!` writes it (`contracts-proc/src/interface_id.rs` 58). -/
def SolType.name : SolType → List Char
  | .address => "address".toList
  | .uint256 => "uint256".toList
  | .uint64 => "uint64".toList
  | .uint8 => "uint8".toList
  | .uint256Pair => "uint256[2]".toList
  | .bytes4 => "bytes4".toList
  | .bytes32 => "bytes32".toList
  | .bool => "bool".toList
  | .bytes => "bytes".toList
  | .string => "string".toList
  | .array t => t.name ++ "[]".toList

/-- An argument: `FnArg::Receiver` or `FnArg::Typed`, `contracts-proc/src/interface_id.rs` 50-54. -/
inductive Arg where
  | self
  | typed (t : SolType)

/-- A function of a trait: its Rust name, the `#[selector(name = "…")]` attribute if any, its arguments
(`contracts-proc/src/interface_id.rs` 22-59). -/
structure TraitFn where
  rustName : String
  selector : Option String
  args : List Arg

/-- Capitalise the next letter after an underscore: `Case::Camel` (`contracts-proc/src/interface_id.rs` 47), for
names made of lower-case letters, digits and underscores in which no digit starts or ends a word (all names that
reach it in the repository). -/
def camelFrom : Bool → List Char → List Char
  | _, [] => []
  | up, c :: cs => if c = '_' then camelFrom true cs else (if up then c.toUpper else c) :: camelFrom false cs

/-- `solidity_fn_name`, `contracts-proc/src/interface_id.rs` 45-48. -/
def solidityName (f : TraitFn) : List Char :=
  match f.selector with
  | some n => n.toList
  | none => camelFrom false f.rustName.toList

/-- `arg_types`, `contracts-proc/src/interface_id.rs` 50-54. -/
def argTypes (f : TraitFn) : List SolType :=
  f.args.filterMap fun a => match a with
    | .typed t => some t
    | .self => none

/-- Types separated by commas, part of `function_selector!` (`contracts-proc/src/interface_id.rs` 58). -/
def commaJoin : List SolType → List Char
  | [] => []
  | [t] => t.name
  | t :: ts => t.name ++ ',' :: commaJoin ts

/-- The signature hashed by `function_selector!` (`contracts-proc/src/interface_id.rs` 58). -/
def signature (name : List Char) (ts : List SolType) : List Char := name ++ '(' :: commaJoin ts ++ [')']

/-- `u32::from_be_bytes(function_selector!(name, types…))`, `contracts-proc/src/interface_id.rs` 58: the first four
bytes of the hash. -/
def functionSelector (K : Hash) (name : List Char) (ts : List SolType) : BitVec 32 :=
  (K ((signature name ts).map fun c => BitVec.ofNat 8 c.toNat)).extractLsb' 224 32

/-- `INTERFACE_ID`, `contracts-proc/src/interface_id.rs` 78-80: the selectors joined with `^`. -/
def interfaceId (K : Hash) (fns : List TraitFn) : BitVec 32 :=
  fns.foldl (fun acc f => acc ^^^ functionSelector K (solidityName f) (argTypes f)) 0#32

/-- The hand-written `INTERFACE_ID`s: `contracts/src/token/erc20/extensions/flash_mint.rs` 152-164 and the like. -/
def manualId (K : Hash) (fns : List (String × List SolType)) : BitVec 32 :=
  fns.foldl (fun acc f => acc ^^^ functionSelector K f.1.toList f.2) 0#32

/-- The functions of trait `IErc165`, `contracts/src/utils/introspection/erc165.rs` 16-43, in order. -/
def IErc165 : List TraitFn :=
  [⟨"supports_interface", none, [.typed .bytes4]⟩]

/-- The functions of trait `IVestingWallet`, `contracts/src/finance/vesting_wallet.rs` 133-348, in order. -/
def IVestingWallet : List TraitFn :=
  [⟨"owner", none, [.self]⟩, ⟨"transfer_ownership", none, [.self, .typed .address]⟩,
   ⟨"renounce_ownership", none, [.self]⟩, ⟨"start", none, [.self]⟩, ⟨"duration", none, [.self]⟩,
   ⟨"end", none, [.self]⟩, ⟨"released_eth", some "released", [.self]⟩,
   ⟨"released_erc20", some "released", [.self, .typed .address]⟩, ⟨"releasable_eth", some "releasable", [.self]⟩,
   ⟨"releasable_erc20", some "releasable", [.self, .typed .address]⟩, ⟨"release_eth", some "release", [.self]⟩,
   ⟨"release_erc20", some "release", [.self, .typed .address]⟩,
   ⟨"vested_amount_eth", some "vestedAmount", [.self, .typed .uint64]⟩,
   ⟨"vested_amount_erc20", some "vestedAmount", [.self, .typed .address, .typed .uint64]⟩]

/-- The functions of trait `IOwnable`, `contracts/src/access/ownable.rs` 75-126, in order. -/
def IOwnable : List TraitFn :=
  [⟨"owner", none, [.self]⟩, ⟨"transfer_ownership", none, [.self, .typed .address]⟩,
   ⟨"renounce_ownership", none, [.self]⟩]

/-- The functions of trait `IOwnable2Step`, `contracts/src/access/ownable_two_step.rs` 76-158, in order. -/
def IOwnable2Step : List TraitFn :=
  [⟨"owner", none, [.self]⟩, ⟨"pending_owner", none, [.self]⟩,
   ⟨"transfer_ownership", none, [.self, .typed .address]⟩, ⟨"accept_ownership", none, [.self]⟩,
   ⟨"renounce_ownership", none, [.self]⟩]

/-- The functions of trait `IAccessControl`, `contracts/src/access/control.rs` 139-252, in order. -/
def IAccessControl : List TraitFn :=
  [⟨"has_role", none, [.self, .typed .bytes32, .typed .address]⟩, ⟨"only_role", none, [.self, .typed .bytes32]⟩,
   ⟨"get_role_admin", none, [.self, .typed .bytes32]⟩,
   ⟨"grant_role", none, [.self, .typed .bytes32, .typed .address]⟩,
   ⟨"revoke_role", none, [.self, .typed .bytes32, .typed .address]⟩,
   ⟨"renounce_role", none, [.self, .typed .bytes32, .typed .address]⟩]

/-- The functions of trait `IErc20`, `contracts/src/token/erc20/mod.rs` 142-268, in order. -/
def IErc20 : List TraitFn :=
  [⟨"total_supply", none, [.self]⟩, ⟨"balance_of", none, [.self, .typed .address]⟩,
   ⟨"transfer", none, [.self, .typed .address, .typed .uint256]⟩,
   ⟨"allowance", none, [.self, .typed .address, .typed .address]⟩,
   ⟨"approve", none, [.self, .typed .address, .typed .uint256]⟩,
   ⟨"transfer_from", none, [.self, .typed .address, .typed .address, .typed .uint256]⟩]

/-- The functions of trait `IErc20Metadata`, `contracts/src/token/erc20/extensions/metadata.rs` 24-59, in order. -/
def IErc20Metadata : List TraitFn :=
  [⟨"name", none, [.self]⟩, ⟨"symbol", none, [.self]⟩, ⟨"decimals", none, [.self]⟩]

/-- The functions of trait `ISafeErc20`, `contracts/src/token/erc20/utils/safe_erc20.rs` 102-230, in order. -/
def ISafeErc20 : List TraitFn :=
  [⟨"safe_transfer", none, [.self, .typed .address, .typed .address, .typed .uint256]⟩,
   ⟨"safe_transfer_from", none, [.self, .typed .address, .typed .address, .typed .address, .typed .uint256]⟩,
   ⟨"safe_increase_allowance", none, [.self, .typed .address, .typed .address, .typed .uint256]⟩,
   ⟨"safe_decrease_allowance", none, [.self, .typed .address, .typed .address, .typed .uint256]⟩,
   ⟨"force_approve", none, [.self, .typed .address, .typed .address, .typed .uint256]⟩]

/-- The functions of trait `IErc2981`, `contracts/src/token/common/erc2981.rs` 132-157, in order. -/
def IErc2981 : List TraitFn :=
  [⟨"royalty_info", none, [.self, .typed .uint256, .typed .uint256]⟩]

/-- The functions of trait `IErc721`, `contracts/src/token/erc721/mod.rs` 206-406, in order. -/
def IErc721 : List TraitFn :=
  [⟨"balance_of", none, [.self, .typed .address]⟩, ⟨"owner_of", none, [.self, .typed .uint256]⟩,
   ⟨"safe_transfer_from", none, [.self, .typed .address, .typed .address, .typed .uint256]⟩,
   ⟨"safe_transfer_from_with_data", some "safeTransferFrom", [.self, .typed .address, .typed .address, .typed .uint256, .typed .bytes]⟩,
   ⟨"transfer_from", none, [.self, .typed .address, .typed .address, .typed .uint256]⟩,
   ⟨"approve", none, [.self, .typed .address, .typed .uint256]⟩,
   ⟨"set_approval_for_all", none, [.self, .typed .address, .typed .bool]⟩,
   ⟨"get_approved", none, [.self, .typed .uint256]⟩,
   ⟨"is_approved_for_all", none, [.self, .typed .address, .typed .address]⟩]

/-- The functions of trait `IErc721Enumerable`, `contracts/src/token/erc721/extensions/enumerable.rs` 84-135, in order. -/
def IErc721Enumerable : List TraitFn :=
  [⟨"token_of_owner_by_index", none, [.self, .typed .address, .typed .uint256]⟩, ⟨"total_supply", none, [.self]⟩,
   ⟨"token_by_index", none, [.self, .typed .uint256]⟩]

/-- The functions of trait `IErc1155`, `contracts/src/token/erc1155/mod.rs` 215-358, in order. -/
def IErc1155 : List TraitFn :=
  [⟨"balance_of", none, [.self, .typed .address, .typed .uint256]⟩,
   ⟨"balance_of_batch", none, [.self, .typed (.array .address), .typed (.array .uint256)]⟩,
   ⟨"set_approval_for_all", none, [.self, .typed .address, .typed .bool]⟩,
   ⟨"is_approved_for_all", none, [.self, .typed .address, .typed .address]⟩,
   ⟨"safe_transfer_from", none, [.self, .typed .address, .typed .address, .typed .uint256, .typed .uint256, .typed .bytes]⟩,
   ⟨"safe_batch_transfer_from", none, [.self, .typed .address, .typed .address, .typed (.array .uint256), .typed (.array .uint256), .typed .bytes]⟩]

/-- The functions of trait `IErc1155Supply`, `contracts/src/token/erc1155/extensions/supply.rs` 60-85, in order. -/
def IErc1155Supply : List TraitFn :=
  [⟨"total_supply", none, [.self, .typed .uint256]⟩, ⟨"total_supply_all", some "totalSupply", [.self]⟩,
   ⟨"exists", none, [.self, .typed .uint256]⟩]

/-- The functions of trait `IErc1155MetadataUri`, `contracts/src/token/erc1155/extensions/metadata_uri.rs` 42-54, in order. -/
def IErc1155MetadataUri : List TraitFn :=
  [⟨"uri", none, [.self, .typed .uint256]⟩]

/-- `INTERFACE_ID` of `IErc3156FlashLender`, written out by hand in `contracts/src/token/erc20/extensions/flash_mint.rs` 152-164: name and argument types. -/
def IErc3156FlashLender : List (String × List SolType) :=
  [("maxFlashLoan", [.address]), ("flashFee", [.address, .uint256]),
   ("flashLoan", [.address, .address, .uint256, .bytes])]

/-- `INTERFACE_ID` of `IErc20Wrapper`, written out by hand in `contracts/src/token/erc20/extensions/wrapper.rs` 107-119: name and argument types. -/
def IErc20Wrapper : List (String × List SolType) :=
  [("decimals", []), ("underlying", []), ("depositFor", [.address, .uint256]),
   ("withdrawTo", [.address, .uint256])]

/-- `INTERFACE_ID` of `IErc4626`, written out by hand in `contracts/src/token/erc20/extensions/erc4626.rs` 165-218: name and argument types. -/
def IErc4626 : List (String × List SolType) :=
  [("asset", []), ("totalAssets", []), ("convertToShares", [.uint256]), ("convertToAssets", [.uint256]),
   ("maxDeposit", [.address]), ("previewDeposit", [.uint256]), ("deposit", [.uint256, .address]),
   ("maxMint", [.address]), ("previewMint", [.uint256]), ("mint", [.uint256, .address]),
   ("maxWithdraw", [.address]), ("previewWithdraw", [.uint256]), ("withdraw", [.uint256, .address, .address]),
   ("maxRedeem", [.address]), ("previewRedeem", [.uint256]), ("redeem", [.uint256, .address, .address])]

/-- `INTERFACE_ID` of `IErc721Metadata`, written out by hand in `contracts/src/token/erc721/extensions/metadata.rs` 35-40: name and argument types. -/
def IErc721Metadata : List (String × List SolType) :=
  [("name", []), ("symbol", []), ("tokenURI", [.uint256])]

variable (K : Hash)

/-- `Erc165::supports_interface`, `contracts/src/utils/introspection/erc165.rs` 61-65. -/
def erc165 (id : BitVec 32) : Bool := interfaceId K IErc165 == id

/-- `VestingWallet::supports_interface`, `contracts/src/finance/vesting_wallet.rs` 513-517. -/
def vestingWallet (id : BitVec 32) : Bool := interfaceId K IVestingWallet == id || erc165 K id

/-- `Ownable::supports_interface`, `contracts/src/access/ownable.rs` 201-204. -/
def ownable (id : BitVec 32) : Bool := interfaceId K IOwnable == id || erc165 K id

/-- `Ownable2Step::supports_interface`, `contracts/src/access/ownable_two_step.rs` 229-235. -/
def ownable2Step (id : BitVec 32) : Bool :=
  interfaceId K IOwnable2Step == id || interfaceId K IOwnable == id || erc165 K id

/-- `AccessControl::supports_interface`, `contracts/src/access/control.rs` 409-413. -/
def accessControl (id : BitVec 32) : Bool := interfaceId K IAccessControl == id || erc165 K id

/-- `Erc20FlashMint::supports_interface`, `contracts/src/token/erc20/extensions/flash_mint.rs` 368-372. -/
def erc20FlashMint (id : BitVec 32) : Bool := manualId K IErc3156FlashLender == id || erc165 K id

/-- `Erc20Metadata::supports_interface`, `contracts/src/token/erc20/extensions/metadata.rs` 77-81. -/
def erc20Metadata (id : BitVec 32) : Bool := interfaceId K IErc20Metadata == id || erc165 K id

/-- `Erc20Wrapper::supports_interface`, `contracts/src/token/erc20/extensions/wrapper.rs` 336-340. -/
def erc20Wrapper (id : BitVec 32) : Bool := manualId K IErc20Wrapper == id || erc165 K id

/-- `Erc4626::supports_interface`, `contracts/src/token/erc20/extensions/erc4626.rs` 1219-1222. -/
def erc4626 (id : BitVec 32) : Bool := manualId K IErc4626 == id || erc165 K id

/-- `Erc20::supports_interface`, `contracts/src/token/erc20/mod.rs` 579-582. -/
def erc20 (id : BitVec 32) : Bool := interfaceId K IErc20 == id || erc165 K id

/-- `SafeErc20::supports_interface`, `contracts/src/token/erc20/utils/safe_erc20.rs` 403-406. -/
def safeErc20 (id : BitVec 32) : Bool := interfaceId K ISafeErc20 == id || erc165 K id

/-- `Erc2981::supports_interface`, `contracts/src/token/common/erc2981.rs` 195-198. -/
def erc2981 (id : BitVec 32) : Bool := interfaceId K IErc2981 == id || erc165 K id

/-- `Erc721Metadata::supports_interface`, `contracts/src/token/erc721/extensions/metadata.rs` 72-76. -/
def erc721Metadata (id : BitVec 32) : Bool := manualId K IErc721Metadata == id || erc165 K id

/-- `Erc721Enumerable::supports_interface`, `contracts/src/token/erc721/extensions/enumerable.rs` 168-172. -/
def erc721Enumerable (id : BitVec 32) : Bool := interfaceId K IErc721Enumerable == id || erc165 K id

/-- `Erc721::supports_interface`, `contracts/src/token/erc721/mod.rs` 494-497. -/
def erc721 (id : BitVec 32) : Bool := interfaceId K IErc721 == id || erc165 K id

/-- `Erc721Consecutive::supports_interface`, `contracts/src/token/erc721/extensions/consecutive.rs` 779-782. -/
def erc721Consecutive (id : BitVec 32) : Bool := interfaceId K IErc721 == id || erc165 K id

/-- `Erc1155Supply::supports_interface`, `contracts/src/token/erc1155/extensions/supply.rs` 377-383. -/
def erc1155Supply (id : BitVec 32) : Bool :=
  interfaceId K IErc1155Supply == id || interfaceId K IErc1155 == id || erc165 K id

/-- `Erc1155MetadataUri::supports_interface`, `contracts/src/token/erc1155/extensions/metadata_uri.rs` 67-71. -/
def erc1155MetadataUri (id : BitVec 32) : Bool := interfaceId K IErc1155MetadataUri == id || erc165 K id

/-- `Erc1155::supports_interface`, `contracts/src/token/erc1155/mod.rs` 422-425. -/
def erc1155 (id : BitVec 32) : Bool := interfaceId K IErc1155 == id || erc165 K id

/-- `Erc20Example::supports_interface`, `examples/erc20/src/lib.rs` 108-111. -/
def erc20Example (id : BitVec 32) : Bool := erc20 K id || erc20Metadata K id

/-- `Erc721Example::supports_interface`, `examples/erc721/src/lib.rs` 182-185. -/
def erc721Example (id : BitVec 32) : Bool := erc721 K id || erc721Enumerable K id

/-- `Erc721ConsecutiveExample::supports_interface`, `examples/erc721-consecutive/src/lib.rs` 36-38. -/
def erc721ConsecutiveExample (id : BitVec 32) : Bool := erc721 K id

/-- `Erc721MetadataExample::supports_interface`, `examples/erc721-metadata/src/lib.rs` 55-58. -/
def erc721MetadataExample (id : BitVec 32) : Bool := erc721 K id || erc721Metadata K id

/-- `Erc1155Example::supports_interface`, `examples/erc1155/src/lib.rs` 103-105. -/
def erc1155Example (id : BitVec 32) : Bool := erc1155 K id

/-- `Erc1155SupplyExample::supports_interface`, `examples/erc1155-supply/src/lib.rs` 80-82. -/
def erc1155SupplyExample (id : BitVec 32) : Bool := erc1155 K id

/-- `Erc1155MetadataUriExample::supports_interface`, `examples/erc1155-metadata-uri/src/lib.rs` 40-43. -/
def erc1155MetadataUriExample (id : BitVec 32) : Bool := erc1155 K id || erc1155MetadataUri K id

end Verif.Interfaces
