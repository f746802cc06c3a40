import Verif.Model.Interfaces
import Verif.Model.Access
import Verif.Model.Erc20
import Verif.Model.Erc1155
import Verif.Model.Erc4626
import Verif.Model.Erc721Consecutive
import Verif.Model.Metadata
import Verif.Model.Vesting
/-!
# Model of the logs the events become

`evm::log` turns a `sol!` event into topics (the hash of the signature, then one word per `indexed` parameter) and data
(the ABI encoding of the other parameters).  The encoder is that of alloy; what it does is taken from the ABI
specification.
-/
namespace Verif.Logs
open Verif
open Verif.Interfaces (SolType signature)

/-- The value of an event parameter: the types that occur in the event declarations of the library
(`contracts/src/token/erc1155/mod.rs` 54-82 and the like). -/
inductive Val where
  | address (a : Address)
  | uint256 (x : U256)
  | bytes32 (x : B256)
  | bool (b : Bool)
  | uints (l : List U256)
  | string (s : List Char)
  deriving DecidableEq

/-- The declared type of a parameter (`contracts/src/token/erc1155/mod.rs` 54-82 and the like). -/
def Val.type : Val → SolType
  | .address _ => .address
  | .uint256 _ => .uint256
  | .bytes32 _ => .bytes32
  | .bool _ => .bool
  | .uints _ => .array .uint256
  | .string _ => .string

/-- UTF-8 bytes of a string: `String` values, `contracts/src/token/erc1155/extensions/uri_storage.rs` 79-81. -/
def utf8 (s : List Char) : Bytes := (s.flatMap String.utf8EncodeChar).map UInt8.toBitVec

/-- The word of a parameter of a static type (`contracts/src/token/erc20/mod.rs` 39-44); 0 for the others, which have no
word. -/
def Val.word : Val → U256
  | .address a => a.setWidth 256
  | .uint256 x => x
  | .bytes32 x => x
  | .bool b => if b then 1#256 else 0#256
  | .uints _ => 0#256
  | .string _ => 0#256

/-- What goes behind the heads for a parameter of a dynamic type: its length and its content, padded to whole words
(`contracts/src/token/erc1155/mod.rs` 66-72, `extensions/metadata_uri.rs` 29); nothing for the static types. -/
def Val.tail : Val → Option Bytes
  | .uints l => some (be32 (BitVec.ofNat 256 l.length) ++ l.flatMap be32)
  | .string s =>
    let bytes := utf8 s
    some (be32 (BitVec.ofNat 256 bytes.length) ++ bytes ++ List.replicate ((32 - bytes.length % 32) % 32) 0#8)
  | _ => none

/-- Heads and tails of a parameter list; `off` is where the next tail starts (the encoding of the parameters that are
not `indexed`, `contracts/src/token/erc1155/mod.rs` 480). -/
def headsTails : Nat → List Val → Bytes × Bytes
  | _, [] => ([], [])
  | off, v :: vs =>
    match v.tail with
    | none => (be32 v.word ++ (headsTails off vs).1, (headsTails off vs).2)
    | some d =>
      (be32 (BitVec.ofNat 256 off) ++ (headsTails (off + d.length) vs).1, d ++ (headsTails (off + d.length) vs).2)

/-- ABI encoding of a parameter list (`contracts/src/token/erc1155/mod.rs` 480). -/
def encodeParams (vs : List Val) : Bytes :=
  (headsTails (32 * vs.length) vs).1 ++ (headsTails (32 * vs.length) vs).2

/-- A parameter of an event: `indexed` or not, and its value (`contracts/src/token/erc20/mod.rs` 39-44). -/
structure Param where
  indexed : Bool
  val : Val
  deriving DecidableEq

/-- A value of a `sol!` event type (`contracts/src/token/erc20/mod.rs` 39-44). -/
structure SolEvent where
  name : String
  params : List Param
  deriving DecidableEq

/-- A log entry as nodes store it: topics and data (`contracts/src/token/erc20/mod.rs` 39-44). -/
structure Log where
  topics : List B256
  data : Bytes
  deriving DecidableEq

/-- `evm::log` (`contracts/src/token/erc20/mod.rs` 499 and the other calls).  No declared event has an `indexed`
parameter of a dynamic type. -/
def toLog (K : Hash) (e : SolEvent) : Log :=
  { topics := K ((signature e.name.toList (e.params.map fun p => p.val.type)).map fun c => BitVec.ofNat 8 c.toNat) ::
      (e.params.filter (·.indexed)).map (·.val.word)
    data := encodeParams ((e.params.filter (fun p => !p.indexed)).map (·.val)) }

/-- Events of the ERC-20 token, `contracts/src/token/erc20/mod.rs` 39-44. -/
def erc20 : Erc20.Event → SolEvent
  | .transfer src dst v => ⟨"Transfer", [⟨true, .address src⟩, ⟨true, .address dst⟩, ⟨false, .uint256 v⟩]⟩
  | .approval o s v => ⟨"Approval", [⟨true, .address o⟩, ⟨true, .address s⟩, ⟨false, .uint256 v⟩]⟩

/-- Events of the ERC-721 token, `contracts/src/token/erc721/mod.rs` 41-70. -/
def erc721 : Erc721.Event → SolEvent
  | .transfer src dst id => ⟨"Transfer", [⟨true, .address src⟩, ⟨true, .address dst⟩, ⟨true, .uint256 id⟩]⟩
  | .approval o a id => ⟨"Approval", [⟨true, .address o⟩, ⟨true, .address a⟩, ⟨true, .uint256 id⟩]⟩
  | .approvalForAll o op b => ⟨"ApprovalForAll", [⟨true, .address o⟩, ⟨true, .address op⟩, ⟨false, .bool b⟩]⟩

/-- Events of the ERC-1155 token, `contracts/src/token/erc1155/mod.rs` 54-82. -/
def erc1155 : Erc1155.Event → SolEvent
  | .transferSingle op src dst id v =>
    ⟨"TransferSingle", [⟨true, .address op⟩, ⟨true, .address src⟩, ⟨true, .address dst⟩, ⟨false, .uint256 id⟩,
      ⟨false, .uint256 v⟩]⟩
  | .transferBatch op src dst ids vs =>
    ⟨"TransferBatch", [⟨true, .address op⟩, ⟨true, .address src⟩, ⟨true, .address dst⟩, ⟨false, .uints ids⟩,
      ⟨false, .uints vs⟩]⟩
  | .approvalForAll a op b => ⟨"ApprovalForAll", [⟨true, .address a⟩, ⟨true, .address op⟩, ⟨false, .bool b⟩]⟩

/-- `URI`, `contracts/src/token/erc1155/extensions/metadata_uri.rs` 29. -/
def uri (e : Metadata1155.UriEvent) : SolEvent := ⟨"URI", [⟨false, .string e.value⟩, ⟨true, .uint256 e.id⟩]⟩

/-- `MetadataUpdate`, `contracts/src/token/erc721/extensions/uri_storage.rs` 26. -/
def metadataUpdate (id : U256) : SolEvent := ⟨"MetadataUpdate", [⟨false, .uint256 id⟩]⟩

/-- `ConsecutiveTransfer`, `contracts/src/token/erc721/extensions/consecutive.rs` 73-78. -/
def consecutive (e : Consecutive.ConsecutiveTransfer) : SolEvent :=
  ⟨"ConsecutiveTransfer", [⟨true, .uint256 e.fromTokenId⟩, ⟨false, .uint256 e.toTokenId⟩, ⟨true, .address e.fromAddress⟩,
    ⟨true, .address e.toAddress⟩]⟩

/-- Events of `Ownable` and `Ownable2Step`, `contracts/src/access/ownable.rs` 33 and
`contracts/src/access/ownable_two_step.rs` 42-45. -/
def ownable : Ownable.Event → SolEvent
  | .transferred p n => ⟨"OwnershipTransferred", [⟨true, .address p⟩, ⟨true, .address n⟩]⟩
  | .started p n => ⟨"OwnershipTransferStarted", [⟨true, .address p⟩, ⟨true, .address n⟩]⟩

/-- Events of `AccessControl`, `contracts/src/access/control.rs` 68-85. -/
def accessControl : AccessControl.Event → SolEvent
  | .roleAdminChanged r p n => ⟨"RoleAdminChanged", [⟨true, .bytes32 r⟩, ⟨true, .bytes32 p⟩, ⟨true, .bytes32 n⟩]⟩
  | .roleGranted r a s => ⟨"RoleGranted", [⟨true, .bytes32 r⟩, ⟨true, .address a⟩, ⟨true, .address s⟩]⟩
  | .roleRevoked r a s => ⟨"RoleRevoked", [⟨true, .bytes32 r⟩, ⟨true, .address a⟩, ⟨true, .address s⟩]⟩

/-- Events of `Pausable`, `contracts/src/utils/pausable.rs` 32-37. -/
def pausable : Pausable.Event → SolEvent
  | .paused a => ⟨"Paused", [⟨false, .address a⟩]⟩
  | .unpaused a => ⟨"Unpaused", [⟨false, .address a⟩]⟩

/-- Events of the vault, `contracts/src/token/erc20/extensions/erc4626.rs` 45-56. -/
def erc4626 : Erc4626.Event → SolEvent
  | .deposit s o a sh => ⟨"Deposit", [⟨true, .address s⟩, ⟨true, .address o⟩, ⟨false, .uint256 a⟩, ⟨false, .uint256 sh⟩]⟩
  | .withdraw s r o a sh =>
    ⟨"Withdraw", [⟨true, .address s⟩, ⟨true, .address r⟩, ⟨true, .address o⟩, ⟨false, .uint256 a⟩, ⟨false, .uint256 sh⟩]⟩

/-- Events of the vesting wallet, `contracts/src/finance/vesting_wallet.rs` 63-71. -/
def vesting : Vesting.Event → SolEvent
  | .etherReleased v => ⟨"EtherReleased", [⟨false, .uint256 v⟩]⟩
  | .erc20Released t v => ⟨"ERC20Released", [⟨true, .address t⟩, ⟨false, .uint256 v⟩]⟩

/-- The `sol!` event declarations of the library, name and parameters (`indexed` or not, type), each once:
`contracts/src/access/control.rs` 68-85, `contracts/src/access/ownable.rs` 33-33,
`contracts/src/access/ownable_two_step.rs` 42-45, `contracts/src/finance/vesting_wallet.rs` 63-71,
`contracts/src/token/erc1155/extensions/metadata_uri.rs` 29-29, `contracts/src/token/erc1155/mod.rs` 54-82,
`contracts/src/token/erc20/extensions/erc4626.rs` 45-56, `contracts/src/token/erc20/mod.rs` 39-44,
`contracts/src/token/erc721/extensions/consecutive.rs` 73-78, `contracts/src/token/erc721/extensions/uri_storage.rs`
26-34, `contracts/src/token/erc721/mod.rs` 41-70, `contracts/src/utils/pausable.rs` 32-37. -/
def declarations : List (String × List (Bool × SolType)) :=
  [("RoleAdminChanged", [(true, .bytes32), (true, .bytes32), (true, .bytes32)]),
   ("RoleGranted", [(true, .bytes32), (true, .address), (true, .address)]),
   ("RoleRevoked", [(true, .bytes32), (true, .address), (true, .address)]),
   ("OwnershipTransferred", [(true, .address), (true, .address)]),
   ("OwnershipTransferStarted", [(true, .address), (true, .address)]),
   ("EtherReleased", [(false, .uint256)]),
   ("ERC20Released", [(true, .address), (false, .uint256)]),
   ("URI", [(false, .string), (true, .uint256)]),
   ("TransferSingle", [(true, .address), (true, .address), (true, .address), (false, .uint256), (false, .uint256)]),
   ("TransferBatch", [(true, .address), (true, .address), (true, .address), (false, .array .uint256), (false, .array .uint256)]),
   ("ApprovalForAll", [(true, .address), (true, .address), (false, .bool)]),
   ("Deposit", [(true, .address), (true, .address), (false, .uint256), (false, .uint256)]),
   ("Withdraw", [(true, .address), (true, .address), (true, .address), (false, .uint256), (false, .uint256)]),
   ("Transfer", [(true, .address), (true, .address), (false, .uint256)]),
   ("Approval", [(true, .address), (true, .address), (false, .uint256)]),
   ("ConsecutiveTransfer", [(true, .uint256), (false, .uint256), (true, .address), (true, .address)]),
   ("MetadataUpdate", [(false, .uint256)]),
   ("BatchMetadataUpdate", [(false, .uint256), (false, .uint256)]),
   ("Transfer", [(true, .address), (true, .address), (true, .uint256)]),
   ("Approval", [(true, .address), (true, .address), (true, .uint256)]),
   ("Paused", [(false, .address)]),
   ("Unpaused", [(false, .address)])]

end Verif.Logs
