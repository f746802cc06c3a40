import Verif.Model.NftDeployed
import Verif.Spec.Erc721Words
import Verif.Spec.Contracts
/-! # Specification: what the transactions of an enumerable ERC-721 contract are about -/

namespace Verif.Spec.NftDeployed
open Verif Verif.Storage Verif.NftDeployed Verif.Spec.Contracts
open Verif.Abi (Val Decoder selectorOf)
open Verif.Contracts (Env)

/-- The arguments of a transaction: those that the router and the decoder find in its bytes. -/
def Arguments (K : Hash) (D : Decoder) (tx : Raw Env) (args : List Val) : Prop :=
  ∃ t f, Router.erc721Example.route K (selectorOf tx.input) = some (t, f) ∧ D.read (Abi.flat f.args) (tx.input.drop 4) = some args

/-- The sender and the addresses among the arguments are in `S`, the numbers among the arguments are in `N`. -/
structure Within (K : Hash) (D : Decoder) (S : List Address) (N : List U256) (tx : Raw Env) : Prop where
  sender : tx.env.caller ∈ S
  addresses : ∀ args, Arguments K D tx args → ∀ a, Val.address a ∈ args → a ∈ S
  numbers : ∀ args, Arguments K D tx args → ∀ v, Val.uint256 v ∈ args → v ∈ N

/-- The cells of `examples/erc721` that accounts of `S` can reach with tokens and indices of `N`: those of the token, the pause
flag, the list of all tokens and its index, and of each account's list the first `N.length + 1` places and the places in `N`. -/
def Cells (S : List Address) (N : List U256) (p : List Step) : Prop :=
  Erc721Words.Cells token S N p ∨ p = pausedCell ∨
  (∃ a ∈ S, ∃ i : U256, (i.toNat ≤ N.length ∨ i ∈ N) ∧ p = owned a i) ∨ (∃ id ∈ N, p = ownedIndex id) ∨
  p = all ∨ (∃ i < N.length, p = allAt i) ∨ ∃ id ∈ N, p = allIndex id

/-- What is asked of the accounts `S` and the numbers `N`: there are fewer than `2^256` numbers, both contain zero, and no hash values
on the way to two of their cells coincide; `cap` bounds the vector of all tokens, and no struct or
vector reaches further than `n` words. -/
structure Setting (K : Hash) (n cap : Nat) (S : List Address) (N : List U256) : Prop where
  bound : n < 2 ^ 256
  vector : cap < 2 ^ 256
  length : N.length < 2 ^ 256
  zero : ZERO ∈ S
  token : 0#256 ∈ N
  separate : Spec.StoragePrograms.Separate K n erc721Example (Cells S N)

end Verif.Spec.NftDeployed
