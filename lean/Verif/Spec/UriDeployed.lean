import Verif.Model.UriDeployed
import Verif.Spec.MultiDeployed
import Verif.Spec.Erc721Words
/-! # Specification: what the transactions of a deployed contract with texts are about -/

namespace Verif.Spec.UriDeployed
open Verif Verif.Storage Verif.Spec.Contracts
open Verif.Abi (Val Decoder)
open Verif.Contracts (Env)
open Verif.Spec.OnWords (Arguments)

/-- The cells of a text at `p` of at most `L` words: the variable, and the words of a long text. -/
def Text (p : List Step) (L : Nat) (q : List Step) : Prop := q = p ∨ ∃ i < L, q = p ++ [.index i]

/-- A text of at most `L` words of storage. -/
def Short (L : Nat) (s : List Char) : Prop := (Logs.utf8 s).length ≤ 32 * L

/-- The sender and the accounts among the arguments are in `S`, the tokens in `N`; the texts have at most `L` words. -/
structure Within (K : Hash) (D : Decoder) (router : Router.Contract) (S : List Address) (N : List U256) (L : Nat) (tx : Raw Env) : Prop where
  names : MultiDeployed.Within K D router S N tx
  texts : ∀ args, Arguments K D router tx args → ∀ s, Val.string s ∈ args → Short L s

/-- The words hold the text `s` at `p`, and of the `L` words behind it those that the text does not need are zero. -/
structure Stored (K : Hash) (t : Ty) (st : Words) (p : List Step) (L : Nat) (s : List Char) : Prop where
  text : Constructors.getText K t st p = some (Logs.utf8 s)
  clean : ∀ i < L, ((Logs.utf8 s).length < 32 ∨ (Logs.utf8 s).length ≤ 32 * i) → Constructors.get K t st (p ++ [.index i]) = some 0#256

end Verif.Spec.UriDeployed

namespace Verif.Spec.Erc721UriDeployed
open Verif Verif.Storage Verif.Spec.UriDeployed

/-- The cells of `examples/erc721-metadata` that accounts of `S`, tokens of `N` and texts of at most `L` words can reach. -/
def Cells (S : List Address) (N : List U256) (L : Nat) (p : List Step) : Prop :=
  Erc721Words.Cells [.field "erc721"] S N p ∨
  Text [.field "metadata", .field "metadata", .field "name"] L p ∨
  Text [.field "metadata", .field "metadata", .field "symbol"] L p ∨
  Text [.field "metadata", .field "base_uri"] L p ∨
  ∃ id ∈ N, Text [.field "uri_storage", .field "token_uris", .key id] L p

end Verif.Spec.Erc721UriDeployed

namespace Verif.Spec.Erc1155UriDeployed
open Verif Verif.Storage Verif.Spec.UriDeployed

/-- The cells of `examples/erc1155-metadata-uri` that accounts of `S`, tokens of `N` and texts of at most `L` words can reach. -/
def Cells (S : List Address) (N : List U256) (L : Nat) (p : List Step) : Prop :=
  MultiDeployed.Holdings [.field "erc1155"] S N p ∨
  Text [.field "metadata_uri", .field "uri"] L p ∨
  Text [.field "uri_storage", .field "base_uri"] L p ∨
  ∃ id ∈ N, Text [.field "uri_storage", .field "token_uris", .key id] L p

end Verif.Spec.Erc1155UriDeployed
