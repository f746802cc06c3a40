import Verif.Spec.GatesDeployed
import Verif.Spec.Deployed
import Verif.Spec.Outside
import Verif.Model.VaultDeployed
/-!
# The storage cells of a deployed vault, and histories of it

The steps of a history are those of `Verif.Spec.Outside`, and so is what is asked of the chain.
-/
namespace Verif.Spec.VaultDeployed
open Verif Verif.Storage Verif.Outside Verif.VaultDeployed Verif.OnWords
open Verif.Abi (Val Decoder)
open Verif.Spec.StoragePrograms (Accounts)

variable {τ : Type}

/-- The cells of `examples/erc4626` that belong to the given accounts or to nobody, without the texts. -/
def Core (S : List Address) (p : List Step) : Prop :=
  Accounts [.field "erc20"] S p ∨ p = [.field "erc4626", .field "asset"] ∨ p = [.field "erc4626", .field "underlying_decimals"] ∨
  p = [.field "erc4626", .field "decimals_offset"]

/-- The cells of `examples/erc4626` that belong to the given accounts or to nobody, for a vault of this name and symbol. -/
def Cells (S : List Address) (name symbol : List Char) (p : List Step) : Prop :=
  Core S p ∨
  p ∈ (Constructors.text [.field "metadata", .field "metadata", .field "name"] (Logs.utf8 name)).map Prod.fst ∨
  p ∈ (Constructors.text [.field "metadata", .field "metadata", .field "symbol"] (Logs.utf8 symbol)).map Prod.fst

/-- A step of a history that is a transaction between accounts of `S`, or anything that others do. -/
def About (K : Hash) (D : Decoder) (S : List Address) : Outside.Step τ → Prop
  | .call caller value input => OnWords.Within K D Router.erc4626Example S ⟨caller, value, input⟩
  | .outside _ => True

/-- The deployed vault after a list of steps. -/
def play (W : World τ) (K : Hash) (D : Decoder) (U : Deployed.Utf8) (w : Chained Ev τ) (l : List (Outside.Step τ)) : Chained Ev τ :=
  Outside.play (run W K D U) (fun f w => { w with world := f w.world }) w l

/-- The events of the token of the shares. -/
def transfers (w : Chained Ev τ) : List Erc20.Event := w.log.filterMap Sum.getLeft?

/-- The events of the vault. -/
def deposits (w : Chained Ev τ) : List Erc4626.Event := w.log.filterMap Sum.getRight?

/-- What the theorems assume of a vault `w`: the constructor has made it with these arguments at the address `here`, name and symbol
have a length that a storage word can hold, and the hash values of the storage cells that the accounts of `S` use, and those of the two
texts, do not coincide. -/
structure Setting (K : Hash) (n : Nat) (S : List Address) (here : Address) (name symbol : List Char) (asset : Address) (offset : U8) (t : τ)
    (w : Chained Ev τ) : Prop where
  deployed : deploy K here name symbol asset offset t = some w
  name_fits : (Logs.utf8 name).length < 2 ^ 255
  symbol_fits : (Logs.utf8 symbol).length < 2 ^ 255
  apart : OnWords.Apart K n erc4626Example (Cells S name symbol)

/-- The numbers the vault works with fit in 256 bits: the supply with the virtual shares, and the assets `A` with the virtual one. -/
def Room (total : U256) (offset : U8) (A : U256) : Prop := total.toNat + 10 ^ offset.toNat < 2 ^ 256 ∧ A.toNat + 1 < 2 ^ 256

end Verif.Spec.VaultDeployed
