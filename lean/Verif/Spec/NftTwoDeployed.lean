import Verif.Spec.UriDeployed
import Verif.Spec.NftWrapperDeployed
import Verif.Spec.Outside
import Verif.Model.UriDeployed
/-!
# Two deployed contracts: the ERC-721 wrapper, and the token it wraps

The token is `examples/erc721-metadata` as deployed and the wrapper is `examples/erc721-wrapper` as deployed, so that both are words of
storage.
-/
namespace Verif.Spec.NftTwoDeployed
open Verif Verif.Outside Verif.OnWords
open Verif.Abi (Decoder)
open Verif.Deployed (Utf8)
open Verif.Spec.Keccak (keccak256)
open Verif.Spec.Outside (Step Tx)

/-- The token, as words of storage. -/
abbrev Token := OnWords.State Erc721UriDeployed.Ev

/-- Who has code: the token and the wrapper.  The token sends nothing but `onERC721Received`, which neither of them has a function
for (C97). -/
def others (self under : Address) : Contracts.Programs := fun a => if a = under ∨ a = self then some fun _ => .reverted [] else none

/-- The chain with the token at `under`, the wrapper at `self`, and no other contract. -/
def wordsWorld (D : Decoder) (U : Utf8) (self under : Address) : World Token where
  hasCode _ a := (others self under a).isSome
  call t sender a b := if a = under then Erc721UriDeployed.entry keccak256 D U ⟨sender, others self under⟩ t 0#256 b else .reverted []
  look _ _ _ _ _ := none

/-- A raw transaction to the wrapper or to the token, as a step of a history. -/
def step (D : Decoder) (U : Utf8) (self under : Address) : Tx → Step Token
  | .contract c v i => .call c v i
  | .token c v i => .outside fun t => (Erc721UriDeployed.entry keccak256 D U ⟨c, others self under⟩ t v i).after t

/-- A raw transaction is about accounts of `S`, tokens of `N` and texts of at most `L` words: its sender and what the contract it goes to
decodes are among them.  The wrapper sends none, the token sends none to the wrapper, and the zero address sends none to the wrapper. -/
def About (D : Decoder) (S : List Address) (N : List U256) (L : Nat) (self under : Address) : Tx → Prop
  | .contract c v i => NftWrapperDeployed.Within keccak256 D S N ⟨c, v, i⟩ ∧ c ≠ self ∧ c ≠ under
  | .token c v i => UriDeployed.Within keccak256 D Router.erc721MetadataExample S N L ⟨⟨c, others self under⟩, v, i⟩ ∧ c ≠ self

/-- What the theorems assume of a wrapper `w` over the token: both constructors have made them, the token first, with name, symbol and base
URI `m` of at most `L` words; the address of the wrapper is not zero and is among the accounts `S`, since the wrapper has tokens; the zero
address is among them; and the hash values of the storage cells that the accounts of `S`, the tokens of `N` and the texts use do not
coincide, in either contract. -/
structure Setting (n : Nat) (S : List Address) (N : List U256) (L : Nat) (m : Metadata.Erc721Metadata) (here under : Address)
    (w : Chained Erc721.Event Token) : Prop where
  small : 32 * L < 2 ^ 255
  zero : ZERO ∈ S
  mem : here ∈ S
  nonzero : here ≠ ZERO
  name : UriDeployed.Short L m.name
  symbol : UriDeployed.Short L m.symbol
  base : UriDeployed.Short L m.baseUri
  token : OnWords.Apart keccak256 n Storage.erc721MetadataExample (Erc721UriDeployed.Cells S N L)
  wrapper : OnWords.Apart keccak256 n Storage.erc721WrapperExample (NftWrapperDeployed.Cells S N)
  deployed : ∃ t, Verif.Erc721UriDeployed.deploy keccak256 m = some t ∧ Verif.NftWrapperDeployed.deploy keccak256 here under t = some w

/-- The wrapper and the token after raw transactions to them. -/
def play (D : Decoder) (U : Utf8) (self under : Address) (w : Chained Erc721.Event Token) (txs : List Tx) : Chained Erc721.Event Token :=
  NftWrapperDeployed.play (wordsWorld D U self under) keccak256 D w (txs.map (step D U self under))

end Verif.Spec.NftTwoDeployed
