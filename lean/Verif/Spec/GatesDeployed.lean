import Verif.Model.GatesDeployed
import Verif.Spec.StoragePrograms
import Verif.Spec.Contracts
/-! # Specification: what the transactions of a deployed contract are about -/

namespace Verif.Spec.OnWords
open Verif Verif.Storage Verif.Spec.Contracts
open Verif.Abi (Val Decoder selectorOf)

/-- The arguments of a transaction: those that the router and the decoder find in its bytes. -/
def Arguments {T : Type} (K : Hash) (D : Decoder) (router : Router.Contract) (tx : Raw T) (args : List Val) : Prop :=
  ∃ t f, router.route K (selectorOf tx.input) = some (t, f) ∧ D.read (Abi.flat f.args) (tx.input.drop 4) = some args

/-- The sender and the addresses among the arguments are in `S`. -/
structure Within (K : Hash) (D : Decoder) (router : Router.Contract) (S : List Address) (tx : Raw Address) : Prop where
  sender : tx.env ∈ S
  addresses : ∀ args, Arguments K D router tx args → ∀ a, Val.address a ∈ args → a ∈ S

/-- The words of 32 bytes among the arguments (which are roles) are in `N`. -/
def Roles (K : Hash) (D : Decoder) (router : Router.Contract) (N : List U256) (tx : Raw Address) : Prop :=
  ∀ args, Arguments K D router tx args → ∀ r, Val.bytes32 r ∈ args → r ∈ N

/-- What is asked of the cells in use: no struct reaches further than `n` words, and no hash values on the way to two of the cells
coincide. -/
structure Apart (K : Hash) (n : Nat) (t : Ty) (C : List Step → Prop) : Prop where
  bound : n < 2 ^ 256
  separate : Spec.StoragePrograms.Separate K n t C

end Verif.Spec.OnWords

namespace Verif.Spec.OwnableDeployed
open Verif Verif.Storage

/-- The cells of `examples/ownable` that accounts of `S` can reach. -/
def Cells (S : List Address) (p : List Step) : Prop :=
  StoragePrograms.Accounts OnWords.token S p ∨ p = [.field "ownable", .field "owner"]

end Verif.Spec.OwnableDeployed

namespace Verif.Spec.Ownable2StepDeployed
open Verif Verif.Storage

/-- The cells of `examples/ownable-two-step` that accounts of `S` can reach. -/
def Cells (S : List Address) (p : List Step) : Prop :=
  StoragePrograms.Accounts OnWords.token S p ∨ p = [.field "ownable", .field "ownable", .field "owner"] ∨
  p = [.field "ownable", .field "pending_owner"]

end Verif.Spec.Ownable2StepDeployed

namespace Verif.Spec.AccessDeployed
open Verif Verif.Storage

/-- The cells of `examples/access-control` that accounts of `S` can reach with roles of `N`. -/
def Cells (S : List Address) (N : List U256) (p : List Step) : Prop :=
  StoragePrograms.Accounts OnWords.token S p ∨
  (∃ r ∈ N, ∃ a ∈ S, p = [.field "access", .field "roles", .key r, .field "has_role", .key (a.setWidth 256)]) ∨
  ∃ r ∈ N, p = [.field "access", .field "roles", .key r, .field "admin_role"]

/-- What is asked of the accounts `S` and the roles `N`: the two roles of the contract are among `N`, and no hash values on the way to
two of their cells coincide. -/
structure Setting (K : Hash) (n : Nat) (S : List Address) (N : List U256) : Prop where
  apart : OnWords.Apart K n accessControlExample (Cells S N)
  admin : 0#256 ∈ N
  transfer : AccessExample.TRANSFER_ROLE ∈ N

end Verif.Spec.AccessDeployed
