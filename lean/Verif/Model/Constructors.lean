import Verif.Model.Storage
/-!
# Model of the constructors of the examples

At this commit a Stylus contract has no constructor of its own.  The examples are deployed by running the constructor of a
Solidity contract (`examples/*/src/constructor.sol`) on fresh storage, and putting the compiled Rust contract in its place.
The Solidity contract has its own list of state variables, laid out by Solidity, and the Rust contract finds the values
only if both layouts agree.

The Solidity contracts are modelled by their state variables (a struct, by the rules of `Verif.Model.Storage`) and their
constructors by the list of assignments they make, or `none` if they revert.  Events of constructors and revert data are
not modelled.
-/
namespace Verif.Constructors
open Verif Verif.Storage

/-- A path to a cell. -/
abbrev Path := List Step

/-- Fresh storage, before the constructor runs (`examples/erc20/src/constructor.sol` 17). -/
def fresh : Words := fun _ => 0#256

/-- Make assignments one after the other; `none` if there is no such cell (`examples/erc20/src/constructor.sol` 17-27). -/
def assign (K : Hash) (t : Ty) : List (Path × U256) → Words → Option Words
  | [], st => some st
  | (p, v) :: ws, st => (cell K t p).bind fun l => assign K t ws (write K st l v)

/-- The word with the given 32 bytes, the first one on top. -/
def wordOf (bs : Bytes) : U256 := BitVec.ofNat 256 (Ecdsa.fromBytes bs)

/-- The i-th word of a long string, filled up with zeros (Solidity's layout of `string`,
`examples/erc20/src/constructor.sol` 9). -/
def chunk (bs : Bytes) (i : Nat) : U256 :=
  let c := (bs.drop (32 * i)).take 32
  wordOf (c ++ List.replicate (32 - c.length) 0#8)

/-- Assignment of a string: up to 31 bytes are kept in the word of the variable with twice the length in the last byte,
else the word has twice the length plus one and the bytes are behind the hash of the word's number
(`examples/erc20/src/constructor.sol` 18). -/
def text (p : Path) (bs : Bytes) : List (Path × U256) :=
  if bs.length < 32 then
    [(p, wordOf (bs ++ List.replicate (31 - bs.length) 0#8 ++ [BitVec.ofNat 8 (2 * bs.length)]))]
  else
    (p, BitVec.ofNat 256 (2 * bs.length + 1)) ::
      (List.range ((bs.length + 31) / 32)).map fun i => (p ++ [.index i], chunk bs i)

/-- Value of a cell, `none` if there is no such cell (`contracts/src/token/erc20/mod.rs` 275). -/
def get (K : Hash) (t : Ty) (st : Words) (p : Path) : Option U256 := (cell K t p).map fun l => Storage.read K st l

/-- Read a string, by the same layout: `get_string` (`contracts/src/utils/metadata.rs` 23 and 32). -/
def getText (K : Hash) (t : Ty) (st : Words) (p : Path) : Option Bytes := do
  let head ← get K t st p
  if head.getLsbD 0 then
    let len := (head >>> 1).toNat
    let ws ← (List.range ((len + 31) / 32)).mapM fun i => get K t st (p ++ [.index i])
    some ((ws.flatMap be32).take len)
  else
    some ((be32 head).take ((head.setWidth 8 >>> 1).toNat))

/-- A state variable. -/
def var (n : String) : Path := [.field n]

/-- The variables every ERC-20 example begins with, `examples/erc20/src/constructor.sol` 5-8. -/
def erc20Vars : List (String × Ty) :=
  [("_balances", .map u256), ("_allowances", .map (.map u256)), ("_totalSupply", u256)]

/-- The variables every ERC-721 example begins with, `examples/erc721/src/constructor.sol` 5-9. -/
def erc721Vars : List (String × Ty) :=
  [("_owners", .map address), ("_balances", .map u256), ("_tokenApprovals", .map address),
   ("_operatorApprovals", .map (.map bool))]

/-- The variables every ERC-1155 example begins with, `examples/erc1155/src/constructor.sol` 5-6.  The balances are declared
by account and then token there, by token and then account in `contracts/src/token/erc1155/mod.rs` 204; the constructor does
not touch them. -/
def erc1155Vars : List (String × Ty) := [("_balances", .map (.map u256)), ("_operatorApprovals", .map (.map bool))]

/-- `RoleData`, `examples/access-control/src/constructor.sol` 9-12. -/
def roleDataSol : Ty := struct [("hasRole", .map bool), ("adminRole", bytes32)]

/-- State variables of `examples/access-control/src/constructor.sol` 5-14. -/
def accessControlSol : Ty := struct (erc20Vars ++ [("_roles", .map roleDataSol)])

/-- Where a role is kept, `examples/access-control/src/constructor.sol` 32. -/
def roleCell (role account : U256) : Path := [.field "_roles", .key role, .field "hasRole", .key account]

/-- Constructor of `examples/access-control/src/constructor.sol` 24-26 and 28-46: the deployer gets the default admin role
(which is 0). -/
def accessControlInit (K : Hash) (sender : Address) : Option (List (Path × U256)) :=
  let p := roleCell 0#256 (sender.setWidth 256)
  if get K accessControlSol fresh p = some 0#256 then some [(p, 1#256)] else some []

/-- State variables of `examples/erc1155-metadata-uri/src/constructor.sol` 5-11. -/
def erc1155MetadataUriSol : Ty :=
  struct (erc1155Vars ++ [("_uri", .string), ("_baseUri", .string), ("_tokenUris", .map .string)])

/-- Constructor of `examples/erc1155-metadata-uri/src/constructor.sol` 13-15. -/
def erc1155MetadataUriInit (uri : Bytes) : Option (List (Path × U256)) := some (text (var "_uri") uri)

/-- State variables of `examples/erc1155/src/constructor.sol` 5-8. -/
def erc1155Sol : Ty := struct (erc1155Vars ++ [("_paused", Storage.bool)])

/-- Constructor of `examples/erc1155/src/constructor.sol` 10-12. -/
def erc1155Init : Option (List (Path × U256)) := some [(var "_paused", 0#256)]

/-- State variables of `examples/erc20-flash-mint/src/constructor.sol` 5-10. -/
def flashMintSol : Ty := struct (erc20Vars ++ [("_flashFeeAmount", u256), ("_flashFeeReceiverAddress", address)])

/-- Constructor of `examples/erc20-flash-mint/src/constructor.sol` 12-15. -/
def flashMintInit (receiver : Address) (fee : U256) : Option (List (Path × U256)) :=
  some [(var "_flashFeeReceiverAddress", receiver.setWidth 256), (var "_flashFeeAmount", fee)]

/-- State variables of `examples/erc20-permit/src/constructor.sol` 5-9. -/
def permitSol : Ty := struct (erc20Vars ++ [("_nonces", .map u256)])

/-- Constructor of `examples/erc20-permit/src/constructor.sol` 11. -/
def permitInit : Option (List (Path × U256)) := some []

/-- State variables of `examples/erc20-wrapper/src/constructor.sol` 6-13. -/
def erc20WrapperSol : Ty := struct (erc20Vars ++ [("_underlying", address), ("_decimals", u8)])

/-- Constructor of `examples/erc20-wrapper/src/constructor.sol` 17-23. -/
def erc20WrapperInit (this underlying : Address) (decimals : U8) : Option (List (Path × U256)) :=
  if underlying = this then none
  else some [(var "_underlying", underlying.setWidth 256), (var "_decimals", decimals.setWidth 256)]

/-- State variables of `examples/erc20/src/constructor.sol` 5-13. -/
def erc20Sol : Ty :=
  struct (erc20Vars ++ [("_name", .string), ("_symbol", .string), ("_cap", u256), ("_paused", bool), ("_nonces", .map u256)])

/-- Constructor of `examples/erc20/src/constructor.sol` 17-27. -/
def erc20Init (name symbol : Bytes) (cap : U256) : Option (List (Path × U256)) :=
  if cap = 0#256 then none
  else some (text (var "_name") name ++ text (var "_symbol") symbol ++ [(var "_cap", cap), (var "_paused", 0#256)])

/-- State variables of `examples/basic/token/src/constructor.sol` 5-10. -/
def basicTokenSol : Ty := struct (erc20Vars ++ [("_name", .string), ("_symbol", .string)])

/-- Constructor of `examples/basic/token/src/constructor.sol` 12-15. -/
def basicTokenInit (name symbol : Bytes) : Option (List (Path × U256)) :=
  some (text (var "_name") name ++ text (var "_symbol") symbol)

/-- State variables of `examples/erc4626/src/constructor.sol` 6-18. -/
def erc4626Sol : Ty :=
  struct (erc20Vars ++ [("_name", .string), ("_symbol", .string), ("_asset", address), ("_underlyingDecimals", u8),
    ("_decimalsOffset", u8)])

/-- Constructor of `examples/erc4626/src/constructor.sol` 20-26. -/
def erc4626Init (name symbol : Bytes) (asset : Address) (offset : U8) : Option (List (Path × U256)) :=
  some (text (var "_name") name ++ text (var "_symbol") symbol ++
    [(var "_asset", asset.setWidth 256), (var "_decimalsOffset", offset.setWidth 256), (var "_underlyingDecimals", 18#256)])

/-- `Checkpoint160`, `examples/erc721-consecutive/src/constructor.sol` 29-32. -/
def checkpointSol : Ty := struct [("_key", u96), ("_value", u160)]

/-- State variables of `examples/erc721-consecutive/src/constructor.sol` 5-13. -/
def erc721ConsecutiveSol : Ty :=
  struct (erc721Vars ++ [("_checkpoints", .vec checkpointSol), ("_data", .map u256), ("_firstConsecutiveId", u96),
    ("_maxBatchSize", u96)])

/-- State variables of `examples/erc721-metadata/src/constructor.sol` 5-15. -/
def erc721MetadataSol : Ty :=
  struct (erc721Vars ++ [("_name", .string), ("_symbol", .string), ("_baseUri", .string), ("_tokenUris", .map .string)])

/-- Constructor of `examples/erc721-metadata/src/constructor.sol` 17-21. -/
def erc721MetadataInit (name symbol baseUri : Bytes) : Option (List (Path × U256)) :=
  some (text (var "_name") name ++ text (var "_symbol") symbol ++ text (var "_baseUri") baseUri)

/-- State variables of `examples/erc721-wrapper/src/constructor.sol` 5-11. -/
def erc721WrapperSol : Ty := struct (erc721Vars ++ [("_underlyingToken", address)])

/-- Constructor of `examples/erc721-wrapper/src/constructor.sol` 13-15. -/
def erc721WrapperInit (underlying : Address) : Option (List (Path × U256)) :=
  some [(var "_underlyingToken", underlying.setWidth 256)]

/-- State variables of `examples/erc721/src/constructor.sol` 5-17. -/
def erc721Sol : Ty :=
  struct (erc721Vars ++ [("_ownedTokens", .map (.map u256)), ("_ownedTokensIndex", .map u256), ("_allTokens", .vec u256),
    ("_allTokensIndex", .map u256), ("_paused", Storage.bool)])

/-- Constructor of `examples/erc721/src/constructor.sol` 19-21. -/
def erc721Init : Option (List (Path × U256)) := some [(var "_paused", 0#256)]

/-- State variables of `examples/ownable-two-step/src/constructor.sol` 5-10. -/
def ownableTwoStepSol : Ty := struct (erc20Vars ++ [("_owner", address), ("_pendingOwner", address)])

/-- State variables of `examples/ownable/src/constructor.sol` 5-9. -/
def ownableSol : Ty := struct (erc20Vars ++ [("_owner", address)])

/-- Constructors of `examples/ownable/src/constructor.sol` 17-28 and `examples/ownable-two-step/src/constructor.sol`
16-27. -/
def ownableInit (owner : Address) : Option (List (Path × U256)) :=
  if owner = 0#160 then none else some [(var "_owner", owner.setWidth 256)]

/-- State variables of `examples/vesting-wallet/src/constructor.sol` 5-10. -/
def vestingWalletSol : Ty :=
  struct [("_owner", address), ("_released", u256), ("_erc20Released", .map u256), ("_start", u64), ("_duration", u64)]

/-- Constructor of `examples/vesting-wallet/src/constructor.sol` 14-26. -/
def vestingWalletInit (beneficiary : Address) (start duration : BitVec 64) : Option (List (Path × U256)) :=
  if beneficiary = 0#160 then none
  else some [(var "_owner", beneficiary.setWidth 256), (var "_start", start.setWidth 256),
    (var "_duration", duration.setWidth 256)]

end Verif.Constructors
