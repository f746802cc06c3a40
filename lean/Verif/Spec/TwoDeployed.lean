import Verif.Spec.BasicDeployed
import Verif.Spec.WrapperDeployed
import Verif.Spec.VaultDeployed
/-!
# Two deployed contracts: one that holds a token, and the token

The token is `examples/basic/token` as deployed (`Verif.Model.BasicDeployed`), so that both contracts are words of storage.
-/
namespace Verif.Spec.TwoDeployed
open Verif Verif.Outside Verif.OnWords
open Verif.Abi (Decoder)
open Verif.Deployed (Utf8)
open Verif.Spec.Keccak (keccak256)
open Verif.Spec.Outside (Step Tx)

/-- The token, as words of storage. -/
abbrev Token := OnWords.State BasicDeployed.Ev

/-- The chain in which the asset is the token of `examples/basic/token` as deployed.  Nothing else has code. -/
def wordsWorld (D : Decoder) (U : Utf8) (asset : Address) : World Token where
  hasCode _ a := decide (a = asset)
  call t sender _ b := BasicDeployed.entry keccak256 D U sender t 0#256 b
  look t _ sender _ b := (BasicDeployed.entry keccak256 D U sender t 0#256 b).reply

/-- A raw transaction to the contract or to the token, as a step of a history. -/
def step (D : Decoder) (U : Utf8) : Tx → Step Token
  | .contract c v i => .call c v i
  | .token c v i => .outside fun t => (BasicDeployed.entry keccak256 D U c t v i).after t

/-- A raw transaction is about accounts of `S`: its sender and the addresses among the arguments that the contract it goes to decodes
are in `S`. -/
def About (D : Decoder) (contract : Router.Contract) (S : List Address) : Tx → Prop
  | .contract c v i => OnWords.Within keccak256 D contract S ⟨c, v, i⟩
  | .token c v i => OnWords.Within keccak256 D Router.basicToken S ⟨c, v, i⟩

/-- What the theorems assume of a wrapper `w` over the token: both constructors have made them, the token first; the address of the
wrapper is not zero and is among the accounts `S`, since the wrapper has tokens; the strings have a length that a storage word can hold;
and the hash values of the storage cells that the accounts of `S` use do not coincide, in either contract. -/
structure WrapperSetting (n : Nat) (S : List Address) (name symbol : List Char) (here under : Address) (decimals : U8)
    (w : Chained WrapperDeployed.Ev Token) : Prop where
  token : BasicDeployed.Setting keccak256 n S name symbol
  apart : OnWords.Apart keccak256 n Storage.erc20WrapperExample (WrapperDeployed.Cells S)
  mem : here ∈ S
  nonzero : here ≠ ZERO
  deployed : ∃ t, Verif.BasicDeployed.deploy keccak256 name symbol = some t ∧
    Verif.WrapperDeployed.deploy keccak256 here under decimals t = some w

/-- The wrapper and the token after raw transactions to them. -/
def wrapperAfter (D : Decoder) (U : Utf8) (under : Address) (w : Chained WrapperDeployed.Ev Token) (txs : List Tx) :
    Chained WrapperDeployed.Ev Token := WrapperDeployed.play (wordsWorld D U under) keccak256 D w (txs.map (step D U))

/-- What the theorems assume of a vault `w` over the token. -/
structure VaultSetting (n : Nat) (S : List Address) (name symbol name' symbol' : List Char) (here asset : Address) (offset : U8) (t : Token)
    (w : Chained VaultDeployed.Ev Token) : Prop where
  token : BasicDeployed.Setting keccak256 n S name symbol
  deployed : Verif.BasicDeployed.deploy keccak256 name symbol = some t
  vault : VaultDeployed.Setting keccak256 n S here name' symbol' asset offset t w
  mem : here ∈ S
  nonzero : here ≠ ZERO

/-- The vault and the token after raw transactions to them. -/
def vaultAfter (D : Decoder) (U : Utf8) (asset : Address) (w : Chained VaultDeployed.Ev Token) (txs : List Tx) :
    Chained VaultDeployed.Ev Token := VaultDeployed.play (wordsWorld D U asset) keccak256 D U w (txs.map (step D U))

end Verif.Spec.TwoDeployed
