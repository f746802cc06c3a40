import Verif.Spec.MultiDeployed
import Verif.Spec.Deployed
import Verif.Spec.Erc721Words
import Verif.Spec.NftBytes
import Verif.Model.NftWrapperDeployed
/-!
# The storage cells of a deployed ERC-721 wrapper, and histories of it

The steps of a history are those of `Verif.Spec.Outside`; what is asked of the others is as in `Verif.Spec.NftBytes`.
-/
namespace Verif.Spec.NftWrapperDeployed
open Verif Verif.Storage Verif.Outside Verif.NftWrapperDeployed Verif.OnWords
open Verif.Abi (Val Decoder)
open Verif.Spec.Contracts (Raw)
open Verif.Spec.OnWords (Arguments)
open Verif.Spec.MultiDeployed (Names tokensOf)

variable {τ : Type}

/-- The cells of `examples/erc721-wrapper` that accounts of `S` and tokens of `N` can reach. -/
def Cells (S : List Address) (N : List U256) (p : List Step) : Prop :=
  Erc721Words.Cells [.field "erc721"] S N p ∨ p = [.field "erc721_wrapper", .field "underlying"]

/-- A transaction of an account of `S`, not the zero address, whose arguments are accounts of `S` and tokens of `N`. -/
structure Within (K : Hash) (D : Decoder) (S : List Address) (N : List U256) (tx : Raw Address) : Prop where
  sender : tx.env ∈ S
  signed : tx.env ≠ ZERO
  accounts : ∀ args, Arguments K D Router.erc721WrapperExample tx args → ∀ a, Names args a → a ∈ S
  tokens : ∀ args, Arguments K D Router.erc721WrapperExample tx args → ∀ id ∈ tokensOf args, id ∈ N

/-- A step of a history that is a transaction between accounts of `S` about tokens of `N`, or anything that others do. -/
def About (K : Hash) (D : Decoder) (S : List Address) (N : List U256) : Outside.Step τ → Prop
  | .call caller value input => Within K D S N ⟨caller, value, input⟩
  | .outside _ => True

/-- The deployed wrapper after a list of steps. -/
def play (W : World τ) (K : Hash) (D : Decoder) (w : Chained Erc721.Event τ) (l : List (Outside.Step τ)) : Chained Erc721.Event τ :=
  Outside.play (run W K D) (fun f w => { w with world := f w.world }) w l

open Verif.Spec.Contracts (message)
open Verif.Spec.NftBytes (Obeys Welcomes)

/-- For one token after the other, the underlying token obeys `transferFrom(sender, wrapper, id)` and then `account` welcomes the
wrapped token. -/
def Pulls (W : World τ) (D : Decoder) (self under sender account : Address) : List U256 → τ → τ → Prop
  | [], t, t' => t' = t
  | id :: ids, t, t' => ∃ t1 t2,
      Obeys W D t self under (message "transferFrom(address,address,uint256)" [.address sender, .address self, .uint256 id]) t1 ∧
      Welcomes W D t1 self sender ZERO account id [] t2 ∧ Pulls W D self under sender account ids t2 t'

/-- For one token after the other, the underlying token obeys `safeTransferFrom(wrapper, account, id, "")`. -/
def Pushes (W : World τ) (D : Decoder) (self under account : Address) : List U256 → τ → τ → Prop
  | [], t, t' => t' = t
  | id :: ids, t, t' => ∃ t1,
      Obeys W D t self under (message "safeTransferFrom(address,address,uint256,bytes)"
        [.address self, .address account, .uint256 id, .bytes []]) t1 ∧ Pushes W D self under account ids t1 t'

end Verif.Spec.NftWrapperDeployed
