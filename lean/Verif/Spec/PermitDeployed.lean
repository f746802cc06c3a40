import Verif.Model.PermitDeployed
import Verif.Spec.GatesDeployed
/-! # Specification: what the transactions of the deployed `examples/erc20-permit` are about -/

namespace Verif.Spec.PermitDeployed
open Verif Verif.Storage Verif.Spec.Contracts
open Verif.Abi (Val Decoder)
open Verif.Contracts (Timed)

/-- The sender and the addresses among the arguments are in `S`. -/
structure Within (K : Hash) (D : Decoder) (S : List Address) (tx : Raw Timed) : Prop where
  sender : tx.env.caller ∈ S
  addresses : ∀ args, Spec.OnWords.Arguments K D Router.erc20PermitExample tx args → ∀ a, Val.address a ∈ args → a ∈ S

/-- The cells of `examples/erc20-permit` that accounts of `S` can reach. -/
def Cells (S : List Address) (p : List Step) : Prop :=
  StoragePrograms.Accounts Verif.OnWords.token S p ∨
  ∃ a ∈ S, p = [.field "nonces", .field "nonces", .key (a.setWidth 256)]

end Verif.Spec.PermitDeployed
