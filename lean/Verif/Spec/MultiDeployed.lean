import Verif.Model.MultiDeployed
import Verif.Spec.GatesDeployed
/-! # Specification: what the transactions of a deployed multi-token contract are about -/

namespace Verif.Spec.MultiDeployed
open Verif Verif.Storage Verif.Spec.Contracts
open Verif.Abi (Val Decoder)
open Verif.Contracts (Env)
open Verif.Spec.OnWords (Arguments)

/-- An account is among the arguments, alone or in a list. -/
def Names (args : List Val) (a : Address) : Prop := Val.address a ∈ args ∨ ∃ l, Val.addresses l ∈ args ∧ a ∈ l

/-- The tokens among the arguments: the first number or list of numbers (what comes after are amounts). -/
def tokensOf : List Val → List U256
  | [] => []
  | .uint256 id :: _ => [id]
  | .uints ids :: _ => ids
  | _ :: args => tokensOf args

/-- The sender and the accounts among the arguments are in `S`, the tokens in `N`. -/
structure Within (K : Hash) (D : Decoder) (router : Router.Contract) (S : List Address) (N : List U256) (tx : Raw Env) : Prop where
  sender : tx.env.caller ∈ S
  accounts : ∀ args, Arguments K D router tx args → ∀ a, Names args a → a ∈ S
  tokens : ∀ args, Arguments K D router tx args → ∀ id ∈ tokensOf args, id ∈ N

/-- The cells of a multi-token at `root` that accounts of `S` and tokens of `N` can reach. -/
def Holdings (root : List Step) (S : List Address) (N : List U256) (p : List Step) : Prop :=
  (∃ id ∈ N, ∃ a ∈ S, p = root ++ [.field "balances", .key id, .key (a.setWidth 256)]) ∨
  (∃ a ∈ S, ∃ b ∈ S, p = root ++ [.field "operator_approvals", .key (a.setWidth 256), .key (b.setWidth 256)])

end Verif.Spec.MultiDeployed

namespace Verif.Spec.Erc1155Deployed
open Verif Verif.Storage

/-- The cells of `examples/erc1155` that accounts of `S` and tokens of `N` can reach. -/
def Cells (S : List Address) (N : List U256) (p : List Step) : Prop :=
  MultiDeployed.Holdings [.field "erc1155"] S N p ∨ p = [.field "pausable", .field "paused"]

end Verif.Spec.Erc1155Deployed

namespace Verif.Spec.Erc1155SupplyDeployed
open Verif Verif.Storage

/-- The cells of `examples/erc1155-supply` that accounts of `S` and tokens of `N` can reach. -/
def Cells (S : List Address) (N : List U256) (p : List Step) : Prop :=
  MultiDeployed.Holdings [.field "erc1155_supply", .field "erc1155"] S N p ∨
  (∃ id ∈ N, p = [.field "erc1155_supply", .field "total_supply", .key id]) ∨
  p = [.field "erc1155_supply", .field "total_supply_all"]

end Verif.Spec.Erc1155SupplyDeployed
