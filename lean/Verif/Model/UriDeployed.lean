import Verif.Model.MultiDeployed
import Verif.Model.Deployed
import Verif.Model.Erc721Words
import Verif.Model.Metadata
/-!
# Model of deployed contracts: `examples/erc721-metadata`, `examples/erc1155-metadata-uri`

Contracts whose transactions write texts, with nothing left out between the transaction and the storage: functions as programs on
storage cells, in the order in which the code reads and writes them, the router and the decoder in front, and the words of the storage
behind.  A `StorageString` is kept in the layout of `Verif.Model.Constructors`; that code is in the SDK, not in the repository.
-/
namespace Verif.Storage

/-- The words of the old text become zero, in `set_str` (`contracts/src/token/erc721/extensions/uri_storage.rs` 58). -/
def eraseFrom {E V : Type} (p : List Step) (i : Nat) : Nat → Prog E V Unit
  | 0 => .ret ()
  | n + 1 => .set (p ++ [.index i]) 0#256 (eraseFrom p (i + 1) n)

/-- Words are written one after the other, in `set_str` (`contracts/src/token/erc721/extensions/uri_storage.rs` 58). -/
def store {E V : Type} : List (List Step × U256) → Prog E V Unit
  | [] => .ret ()
  | (p, v) :: l => .set p v (store l)

/-- `set_str`, in `contracts/src/token/erc721/extensions/uri_storage.rs` 58 and
`contracts/src/token/erc1155/extensions/uri_storage.rs` 80 and 91: a long old text is erased, then the new one is written.  Simplified:
the SDK appends byte by byte; here each word is written once. -/
def setString {E V : Type} (p : List Step) (s : List Char) : Prog E V Unit :=
  .get p fun head =>
  (if head.getLsbD 0 then eraseFrom p 0 (((head >>> 1).toNat + 31) / 32) else .ret ()).bind fun _ =>
  store (Constructors.text p (Logs.utf8 s))

/-- `get_string`, in `contracts/src/token/erc721/extensions/uri_storage.rs` 102 and
`contracts/src/token/erc1155/extensions/uri_storage.rs` 52 and 57. -/
def getString {E V : Type} (U : Deployed.Utf8) (p : List Step) : Prog E V (List Char) := (stringBytes p).bind fun b => .ret (U.read b)

end Verif.Storage

namespace Verif.Erc721UriDeployed
open Verif Verif.Storage Verif.OnWords
open Verif.Abi (Val Decoder Outcome)
open Verif.Contracts (Env)
open Verif.Deployed (Utf8)

/-- Events: of the token (`contracts/src/token/erc721/mod.rs` 41-70), and the tokens named by `MetadataUpdate`
(`contracts/src/token/erc721/extensions/uri_storage.rs` 24-26). -/
abbrev Ev := Erc721.Event ⊕ U256

/-- The field `erc721`, `examples/erc721-metadata/src/lib.rs` 23-24. -/
def token : List Step := [.field "erc721"]
/-- `self.metadata.metadata.name`, `examples/erc721-metadata/src/lib.rs` 25-26. -/
def nameCell : List Step := [.field "metadata", .field "metadata", .field "name"]
/-- `self.metadata.metadata.symbol`, `examples/erc721-metadata/src/lib.rs` 25-26. -/
def symbolCell : List Step := [.field "metadata", .field "metadata", .field "symbol"]
/-- `self.metadata.base_uri`, `examples/erc721-metadata/src/lib.rs` 25-26. -/
def baseCell : List Step := [.field "metadata", .field "base_uri"]
/-- `self.uri_storage.token_uris` at the key of a token, `examples/erc721-metadata/src/lib.rs` 27. -/
def uriCell (id : U256) : List Step := [.field "uri_storage", .field "token_uris", .key id]

/-- A function of the token. -/
def inner {α : Type} (m : Erc721Words.Code α) : Prog Erc721.Err Ev α := m.lift id .inl

/-- `token_uri`, `contracts/src/token/erc721/extensions/metadata.rs` 118-134. -/
def defaultUri (U : Utf8) (id : U256) : Prog Erc721.Err Ev (List Char) :=
  (inner (Erc721Words.requireOwned token id)).bind fun _ =>
  (getString U baseCell).bind fun base => .ret (if base.isEmpty then [] else base ++ Metadata.decimal id.toNat)

/-- `token_uri`, `contracts/src/token/erc721/extensions/uri_storage.rs` 94-118. -/
def tokenUri (U : Utf8) (id : U256) : Prog Erc721.Err Ev (List Char) :=
  (inner (Erc721Words.requireOwned token id)).bind fun _ =>
  (getString U (uriCell id)).bind fun uri =>
  (getString U baseCell).bind fun base =>
  if base.isEmpty then .ret uri else if uri.isEmpty then defaultUri U id else .ret (base ++ uri)

/-- A state-changing function of the token (`contracts/src/token/erc721/mod.rs` 409-1036).  No transaction has the zero address as
its sender: such a one is refused, as in `Erc721.exec`. -/
def tokenCode (R : Erc721.Receivers) (caller : Address) (c : Erc721.UserCall ⊕ Erc721.AdminCall) : Prog Erc721.Err Ev Unit :=
  if caller = ZERO then .fail (.invalidSender ZERO) else inner (Erc721Words.code token R caller c)

/-- The functions that change the state, `examples/erc721-metadata/src/lib.rs` 33-53. -/
def code (R : Erc721.Receivers) (caller : Address) : Metadata.Call → Prog Erc721.Err Ev Unit
  | .mint dst id => tokenCode R caller (.inr (.mint dst id))
  | .user c => tokenCode R caller (.inl c)
  | .setTokenUri id uri => (setString (uriCell id) uri).bind fun _ => .emit (.inr id) (.ret ())

/-- The functions of `examples/erc721-metadata/src/lib.rs` 30-59 with `Erc721` (`contracts/src/token/erc721/mod.rs` 409-491) and
`Erc721Metadata` (`contracts/src/token/erc721/extensions/metadata.rs` 60-69). -/
def program (K : Hash) (D : Decoder) (U : Utf8) (env : Env) (t f : String) (args : List Val) : Prog (Option Bytes) Ev (List Val) :=
  let go (c : Metadata.Call) := finish K Revert.erc721 (fun _ => []) (code (Calls.receivers721 K D env.world) env.caller c)
  dispatch t f args
  [("Erc721MetadataExample", "mint", fun | [.address dst, .uint256 id] => go (.mint dst id) | _ => .fail none),
   ("Erc721MetadataExample", "burn", fun | [.uint256 id] => go (.user (.burn id)) | _ => .fail none),
   ("Erc721MetadataExample", "token_uri", fun
      | [.uint256 id] => finish K Revert.erc721 (fun u => [.string u]) (tokenUri U id)
      | _ => .fail none),
   ("Erc721MetadataExample", "set_token_uri", fun | [.uint256 id, .string u] => go (.setTokenUri id u) | _ => .fail none),
   ("Erc721MetadataExample", "supports_interface", fun
      | [.bytes4 id] => .ret [.bool (Interfaces.erc721MetadataExample K id)]
      | _ => .fail none),
   ("Erc721", "transfer_from", fun
      | [.address src, .address dst, .uint256 id] => go (.user (.transferFrom src dst id))
      | _ => .fail none),
   ("Erc721", "safe_transfer_from", fun
      | [.address src, .address dst, .uint256 id] => go (.user (.safeTransferFrom src dst id))
      | _ => .fail none),
   ("Erc721", "safe_transfer_from_with_data", fun
      | [.address src, .address dst, .uint256 id, .bytes data] => go (.user (.safeTransferFromWithData src dst id data))
      | _ => .fail none),
   ("Erc721", "approve", fun | [.address dst, .uint256 id] => go (.user (.approve dst id)) | _ => .fail none),
   ("Erc721", "set_approval_for_all", fun
      | [.address op, .bool b] => go (.user (.setApprovalForAll op b))
      | _ => .fail none),
   ("Erc721Metadata", "name", fun | [] => (getString U nameCell).bind fun s => .ret [.string s] | _ => .fail none),
   ("Erc721Metadata", "symbol", fun | [] => (getString U symbolCell).bind fun s => .ret [.string s] | _ => .fail none),
   ("Erc721", "balance_of", fun
      | [.address a] => finish K Revert.erc721 (fun v => [.uint256 v]) (inner (Erc721Words.balanceOf token a))
      | _ => .fail none),
   ("Erc721", "owner_of", fun
      | [.uint256 id] => finish K Revert.erc721 (fun a => [.address a]) (inner (Erc721Words.requireOwned token id))
      | _ => .fail none),
   ("Erc721", "get_approved", fun
      | [.uint256 id] => finish K Revert.erc721 (fun a => [.address a]) (inner (Erc721Words.getApproved token id))
      | _ => .fail none),
   ("Erc721", "is_approved_for_all", fun
      | [.address o, .address p] => finish K Revert.erc721 (fun b => [.bool b]) (inner (Erc721Words.isApprovedForAll token o p))
      | _ => .fail none)]

/-- `#[entrypoint]`, `examples/erc721-metadata/src/lib.rs` 20-59. -/
def entry (K : Hash) (D : Decoder) (U : Utf8) (env : Env) (w : State Ev) (value : U256) (input : Bytes) : Outcome (State Ev) :=
  Abi.entry K D Router.erc721MetadataExample (onWords K erc721MetadataExample (program K D U env)) w value input

/-- Deployment: the constructor runs on fresh storage (`examples/erc721-metadata/src/constructor.sol` 17-21). -/
def deploy (K : Hash) (m : Metadata.Erc721Metadata) : Option (State Ev) :=
  (Constructors.erc721MetadataInit (Logs.utf8 m.name) (Logs.utf8 m.symbol) (Logs.utf8 m.baseUri)).bind fun ws =>
  (Constructors.assign K Constructors.erc721MetadataSol ws Constructors.fresh).map fun st => { words := st, log := [] }

end Verif.Erc721UriDeployed

namespace Verif.Erc1155UriDeployed
open Verif Verif.Storage Verif.OnWords
open Verif.Abi (Val Decoder Outcome)
open Verif.Contracts (Env)
open Verif.Deployed (Utf8)

/-- Events: of the token (`contracts/src/token/erc1155/mod.rs` 54-82), and `URI`
(`contracts/src/token/erc1155/extensions/metadata_uri.rs` 20-29). -/
abbrev Ev := Erc1155.Event ⊕ Metadata1155.UriEvent

/-- The field `erc1155`, `examples/erc1155-metadata-uri/src/lib.rs` 17-18. -/
def tokens : List Step := [.field "erc1155"]
/-- `self.metadata_uri.uri`, `examples/erc1155-metadata-uri/src/lib.rs` 19. -/
def defaultCell : List Step := [.field "metadata_uri", .field "uri"]
/-- `self.uri_storage.base_uri`, `examples/erc1155-metadata-uri/src/lib.rs` 20. -/
def baseCell : List Step := [.field "uri_storage", .field "base_uri"]
/-- `self.uri_storage.token_uris` at the key of a token, `examples/erc1155-metadata-uri/src/lib.rs` 20. -/
def uriCell (id : U256) : List Step := [.field "uri_storage", .field "token_uris", .key id]

/-- `uri`, `contracts/src/token/erc1155/extensions/uri_storage.rs` 47-59, with `uri` of
`contracts/src/token/erc1155/extensions/metadata_uri.rs` 61-63. -/
def uri {E : Type} (U : Utf8) (id : U256) : Prog E Ev (List Char) :=
  (getString U (uriCell id)).bind fun s =>
  if s.isEmpty then getString U defaultCell else (getString U baseCell).bind fun base => .ret (base ++ s)

/-- The functions that change the state, `examples/erc1155-metadata-uri/src/lib.rs` 30-38, and those of the token. -/
def code (U : Utf8) (R : Erc1155.Receivers) (caller : Address) : Metadata1155.Call → Prog Erc1155.Err Ev Unit
  | .user c => (Erc1155Words.code tokens R caller (.inl c)).lift id .inl
  | .setTokenUri id s =>
    (setString (uriCell id) s).bind fun _ => (uri U id).bind fun v => .emit (.inr ⟨v, id⟩) (.ret ())
  | .setBaseUri s => setString baseCell s

/-- The functions of `examples/erc1155-metadata-uri/src/lib.rs` 23-44 with `Erc1155` (`contracts/src/token/erc1155/mod.rs` 360-419). -/
def program (K : Hash) (D : Decoder) (U : Utf8) (env : Env) (t f : String) (args : List Val) : Prog (Option Bytes) Ev (List Val) :=
  let go (c : Metadata1155.Call) := finish K Revert.erc1155 (fun _ => []) (code U (Calls.receivers1155 K D env.world) env.caller c)
  dispatch t f args (
  [("Erc1155MetadataUriExample", "uri", fun
      | [.uint256 id] => (uri U id).bind fun s => .ret [.string s]
      | _ => .fail none),
   ("Erc1155MetadataUriExample", "set_token_uri", fun
      | [.uint256 id, .string u] => go (.setTokenUri id u)
      | _ => .fail none),
   ("Erc1155MetadataUriExample", "set_base_uri", fun | [.string u] => go (.setBaseUri u) | _ => .fail none),
   ("Erc1155MetadataUriExample", "supports_interface", fun
      | [.bytes4 id] => .ret [.bool (Interfaces.erc1155MetadataUriExample K id)]
      | _ => .fail none),
   ("Erc1155", "set_approval_for_all", fun
      | [.address op, .bool b] => go (.user (.setApprovalForAll op b))
      | _ => .fail none),
   ("Erc1155", "safe_transfer_from", fun
      | [.address src, .address dst, .uint256 id, .uint256 v, .bytes data] => go (.user (.safeTransferFrom src dst id v data))
      | _ => .fail none),
   ("Erc1155", "safe_batch_transfer_from", fun
      | [.address src, .address dst, .uints ids, .uints vs, .bytes data] => go (.user (.safeBatchTransferFrom src dst ids vs data))
      | _ => .fail none)] ++
  MultiWords.views K tokens .inl "Erc1155")

/-- `#[entrypoint]`, `examples/erc1155-metadata-uri/src/lib.rs` 14-44. -/
def entry (K : Hash) (D : Decoder) (U : Utf8) (env : Env) (w : State Ev) (value : U256) (input : Bytes) : Outcome (State Ev) :=
  Abi.entry K D Router.erc1155MetadataUriExample (onWords K erc1155MetadataUriExample (program K D U env)) w value input

/-- Deployment: the constructor runs on fresh storage (`examples/erc1155-metadata-uri/src/constructor.sol` 13-15). -/
def deploy (K : Hash) (uri : List Char) : Option (State Ev) :=
  (Constructors.erc1155MetadataUriInit (Logs.utf8 uri)).bind fun ws =>
  (Constructors.assign K Constructors.erc1155MetadataUriSol ws Constructors.fresh).map fun st => { words := st, log := [] }

end Verif.Erc1155UriDeployed
