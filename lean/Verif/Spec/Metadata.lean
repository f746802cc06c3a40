import Verif.Model.Metadata
/-! # Specification vocabulary for token URIs -/

namespace Verif.Spec.Metadata
open Verif.Metadata (Str)

/-- The number a string of decimal digits denotes, read left to right; `none` if some character is no digit. -/
def readDecimal (s : Str) : Option Nat :=
  s.foldl (fun acc c => acc.bind fun n =>
    if '0'.toNat ≤ c.toNat ∧ c.toNat ≤ '9'.toNat then some (10 * n + (c.toNat - '0'.toNat)) else none) (some 0)

/-- `s` is how people write the number `n`: digits that read as `n`, at least one, and no superfluous leading zero. -/
structure IsDecimal (s : Str) (n : Nat) : Prop where
  reads : readDecimal s = some n
  nonempty : s ≠ []
  noLeadingZero : s.head? = some '0' → s = ['0']

/-- The URI that the last of a list of (token, URI) settings, oldest first, gave to token `id`; the empty string if
there is none. -/
def lastSet (sets : List (U256 × Str)) (id : U256) : Str :=
  ((sets.filter fun p => p.1 = id).getLast?.map fun p => p.2).getD []

/-- The URIs set in a history of the ERC-721 composition, oldest first. -/
def sets721 (txs : List Metadata.Tx) : List (U256 × Str) :=
  txs.filterMap fun tx => match tx.call with | .setTokenUri id u => some (id, u) | _ => none

/-- The token transactions of a history of the ERC-721 composition. -/
def tokenTxs (txs : List Metadata.Tx) : List Erc721.Tx :=
  txs.filterMap fun tx => match tx.call with
    | .mint dst id => some ⟨tx.caller, tx.receivers, .inr (.mint dst id)⟩
    | .user c => some ⟨tx.caller, tx.receivers, .inl c⟩
    | .setTokenUri .. => none

/-- The URIs set in a history of the ERC-1155 composition, oldest first. -/
def sets1155 (txs : List Metadata1155.Tx) : List (U256 × Str) :=
  txs.filterMap fun tx => match tx.call with | .setTokenUri id u => some (id, u) | _ => none

/-- The base URI set last. -/
def lastBase (txs : List Metadata1155.Tx) : Str :=
  (txs.filterMap fun tx => match tx.call with | .setBaseUri u => some u | _ => none).getLast?.getD []

end Verif.Spec.Metadata
