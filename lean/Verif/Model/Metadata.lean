import Verif.Model.Erc721
import Verif.Model.Erc1155
/-!
# Model of the URI extensions

`token/erc721/extensions/metadata.rs`, `token/erc721/extensions/uri_storage.rs`,
`token/erc1155/extensions/metadata_uri.rs`, `token/erc1155/extensions/uri_storage.rs`, and the compositions
`examples/erc721-metadata` and `examples/erc1155-metadata-uri`.  A `String` is a list of characters.
-/

namespace Verif.Metadata

/-- A Rust `String`, as read from a `StorageString`, `contracts/src/utils/metadata.rs` 8-13. -/
abbrev Str := List Char

/-- The character of a decimal digit.
Part of `token_id.to_string()`, `contracts/src/token/erc721/extensions/metadata.rs` 130. -/
def digit (d : Nat) : Char := Char.ofNat (48 + d)

/-- `token_id.to_string()`, `contracts/src/token/erc721/extensions/metadata.rs` 130 (ruint's `Display`): decimal,
most significant digit first, no padding. -/
def decimal (n : Nat) : Str :=
  if n < 10 then [digit n] else decimal (n / 10) ++ [digit (n % 10)]
decreasing_by omega

/-- `Erc721Metadata`, `contracts/src/token/erc721/extensions/metadata.rs` 21-27, with the two strings of `Metadata`,
`contracts/src/utils/metadata.rs` 7-13. -/
structure Erc721Metadata where
  name : Str
  symbol : Str
  baseUri : Str

/-- `token_uri`, `contracts/src/token/erc721/extensions/metadata.rs` 118-134. -/
def Erc721Metadata.tokenUri (m : Erc721Metadata) (t : Erc721.State) (id : U256) : Except Erc721.Err Str := do
  let _ ← Erc721.ownerOf t id
  let baseUri := m.baseUri
  return if baseUri.isEmpty then [] else baseUri ++ decimal id.toNat

/-- `Erc721UriStorage`, `contracts/src/token/erc721/extensions/uri_storage.rs` 38-43, and its `MetadataUpdate`
events, 20-26. -/
structure UriStorage where
  tokenUris : U256 → Str
  updates : List U256

/-- `_set_token_uri`, `contracts/src/token/erc721/extensions/uri_storage.rs` 57-60. -/
def UriStorage.setTokenUri (u : UriStorage) (id : U256) (uri : Str) : UriStorage :=
  { u with tokenUris := upd u.tokenUris id uri, updates := u.updates ++ [id] }

/-- `token_uri`, `contracts/src/token/erc721/extensions/uri_storage.rs` 94-118. -/
def UriStorage.tokenUri (u : UriStorage) (id : U256) (t : Erc721.State) (m : Erc721Metadata) :
    Except Erc721.Err Str := do
  let _ ← Erc721.ownerOf t id
  let tokenUri := u.tokenUris id
  let base := m.baseUri
  if base.isEmpty then return tokenUri
  else if tokenUri.isEmpty then m.tokenUri t id
  else return base ++ tokenUri

/-! ## `examples/erc721-metadata` -/

/-- Storage, `examples/erc721-metadata/src/lib.rs` 20-28. -/
structure State where
  erc721 : Erc721.State
  metadata : Erc721Metadata
  uriStorage : UriStorage

/-- Newly deployed with the given name, symbol and base URI, `examples/erc721-metadata/src/lib.rs` 20-28. -/
def init (m : Erc721Metadata) : State :=
  { erc721 := Erc721.init, metadata := m, uriStorage := { tokenUris := fun _ => [], updates := [] } }

/-- Calls: the contract's own and the inherited ones, `examples/erc721-metadata/src/lib.rs` 30-59. -/
inductive Call where
  | mint (dst : Address) (id : U256)
  | user (c : Erc721.UserCall)
  | setTokenUri (id : U256) (uri : Str)

/-- One transaction, `examples/erc721-metadata/src/lib.rs` 30-59. -/
structure Tx where
  caller : Address
  receivers : Erc721.Receivers
  call : Call

/-- Dispatch, `examples/erc721-metadata/src/lib.rs` 30-59 (`burn` is the burn of the base contract). -/
def exec (s : State) (tx : Tx) : Except Erc721.Err State :=
  match tx.call with
  | .mint dst id => do
    return { s with erc721 := (← Erc721.exec s.erc721 ⟨tx.caller, tx.receivers, .inr (.mint dst id)⟩) }
  | .user c => do
    return { s with erc721 := (← Erc721.exec s.erc721 ⟨tx.caller, tx.receivers, .inl c⟩) }
  | .setTokenUri id uri => .ok { s with uriStorage := s.uriStorage.setTokenUri id uri }

/-- A history of `examples/erc721-metadata/src/lib.rs` 30-59; a failed transaction leaves no trace. -/
def run (s : State) (txs : List Tx) : State := runOf exec s txs

/-- `tokenURI`, `examples/erc721-metadata/src/lib.rs` 44-47. -/
def tokenURI (s : State) (id : U256) : Except Erc721.Err Str := s.uriStorage.tokenUri id s.erc721 s.metadata

end Verif.Metadata

namespace Verif.Metadata1155
open Verif.Metadata (Str)

/-- `URI` event, `contracts/src/token/erc1155/extensions/metadata_uri.rs` 20-29. -/
structure UriEvent where
  value : Str
  id : U256
  deriving DecidableEq

/-- `Erc1155MetadataUri`, `contracts/src/token/erc1155/extensions/metadata_uri.rs` 34-39. -/
structure MetadataUri where
  uri : Str

/-- `uri`, `contracts/src/token/erc1155/extensions/metadata_uri.rs` 61-63. -/
def MetadataUri.uriOf (m : MetadataUri) (_id : U256) : Str := m.uri

/-- `Erc1155UriStorage`, `contracts/src/token/erc1155/extensions/uri_storage.rs` 17-23, and its events. -/
structure UriStorage where
  baseUri : Str
  tokenUris : U256 → Str
  events : List UriEvent

/-- `uri`, `contracts/src/token/erc1155/extensions/uri_storage.rs` 47-59. -/
def UriStorage.uri (u : UriStorage) (id : U256) (m : MetadataUri) : Str :=
  let tokenUri := u.tokenUris id
  if tokenUri.isEmpty then m.uriOf id else u.baseUri ++ tokenUri

/-- `set_token_uri`, `contracts/src/token/erc1155/extensions/uri_storage.rs` 74-82. -/
def UriStorage.setTokenUri (u : UriStorage) (id : U256) (tokenUri : Str) (m : MetadataUri) : UriStorage :=
  let u1 := { u with tokenUris := upd u.tokenUris id tokenUri }
  { u1 with events := u1.events ++ [⟨u1.uri id m, id⟩] }

/-- `set_base_uri`, `contracts/src/token/erc1155/extensions/uri_storage.rs` 90-92. -/
def UriStorage.setBaseUri (u : UriStorage) (baseUri : Str) : UriStorage := { u with baseUri := baseUri }

/-! ## `examples/erc1155-metadata-uri` -/

/-- Storage, `examples/erc1155-metadata-uri/src/lib.rs` 14-21. -/
structure State where
  erc1155 : Erc1155.State
  metadataUri : MetadataUri
  uriStorage : UriStorage

/-- Newly deployed with the given default URI, `examples/erc1155-metadata-uri/src/lib.rs` 14-21. -/
def init (uri : Str) : State :=
  { erc1155 := Erc1155.init, metadataUri := ⟨uri⟩,
    uriStorage := { baseUri := [], tokenUris := fun _ => [], events := [] } }

/-- Calls, `examples/erc1155-metadata-uri/src/lib.rs` 23-44. -/
inductive Call where
  | user (c : Erc1155.UserCall)
  | setTokenUri (id : U256) (uri : Str)
  | setBaseUri (uri : Str)

/-- One transaction, `examples/erc1155-metadata-uri/src/lib.rs` 23-44. -/
structure Tx where
  caller : Address
  receivers : Erc1155.Receivers
  call : Call

/-- Dispatch, `examples/erc1155-metadata-uri/src/lib.rs` 23-44. -/
def exec (s : State) (tx : Tx) : Except Erc1155.Err State :=
  match tx.call with
  | .user c => do return { s with erc1155 := (← Erc1155.execUser tx.receivers s.erc1155 tx.caller c) }
  | .setTokenUri id uri => .ok { s with uriStorage := s.uriStorage.setTokenUri id uri s.metadataUri }
  | .setBaseUri uri => .ok { s with uriStorage := s.uriStorage.setBaseUri uri }

/-- A history of `examples/erc1155-metadata-uri/src/lib.rs` 23-44; a failed transaction leaves no trace. -/
def run (s : State) (txs : List Tx) : State := runOf exec s txs

/-- `uri`, `examples/erc1155-metadata-uri/src/lib.rs` 26-28. -/
def uri (s : State) (id : U256) : Str := s.uriStorage.uri id s.metadataUri

end Verif.Metadata1155
