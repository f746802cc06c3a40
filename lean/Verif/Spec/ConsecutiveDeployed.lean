import Verif.Model.ConsecutiveDeployed
import Verif.Spec.Erc721Words
import Verif.Spec.Contracts
/-! # Specification: what the transactions of an ERC-721 contract with batches are about -/

namespace Verif.Spec.ConsecutiveDeployed
open Verif Verif.Storage Verif.ConsecutiveDeployed Verif.Spec.Contracts
open Verif.Abi (Val Decoder selectorOf)
open Verif.Contracts (Env)

/-- The arguments of a transaction: those that the router and the decoder find in its bytes. -/
def Arguments (K : Hash) (D : Decoder) (tx : Raw Env) (args : List Val) : Prop :=
  ∃ t f, Router.erc721ConsecutiveExample.route K (selectorOf tx.input) = some (t, f) ∧
    D.read (Abi.flat f.args) (tx.input.drop 4) = some args

/-- The sender and the addresses among the arguments are in `S`, the tokens among the arguments are in `N`. -/
structure Within (K : Hash) (D : Decoder) (S : List Address) (N : List U256) (tx : Raw Env) : Prop where
  sender : tx.env.caller ∈ S
  addresses : ∀ args, Arguments K D tx args → ∀ a, Val.address a ∈ args → a ∈ S
  numbers : ∀ args, Arguments K D tx args → ∀ v, Val.uint256 v ∈ args → v ∈ N

/-- The cells of `examples/erc721-consecutive` that accounts of `S` can reach with tokens of `N`: those of the token, the two numbers
the constructor stores, the words with the bits of these tokens, and the checkpoints of `m` batches. -/
def Cells (S : List Address) (N : List U256) (m : Nat) (p : List Step) : Prop :=
  Erc721Words.Cells token S N p ∨ p = firstCell ∨ p = maxCell ∨ (∃ id ∈ N, p = bucket (BitMap.getBucket id)) ∨
  p = count ∨ (∃ i < m, p = keyAt i) ∨ ∃ i < m, p = valueAt i

/-- What is asked of the accounts `S`, the tokens `N` and the receivers of the batches: the receivers and the zero address are in `S`,
there are at most `2^64` of them (Solidity's bound for a vector), and no hash values on the way to two of the cells
coincide; no struct or vector reaches further than `n` words. -/
structure Setting (K : Hash) (n : Nat) (S : List Address) (N : List U256) (receivers : List Address) : Prop where
  bound : n < 2 ^ 256
  zero : ZERO ∈ S
  among : ∀ a ∈ receivers, a ∈ S
  length : receivers.length ≤ 2 ^ 64
  separate : Spec.StoragePrograms.Separate K n erc721ConsecutiveExample (Cells S N receivers.length)

end Verif.Spec.ConsecutiveDeployed
