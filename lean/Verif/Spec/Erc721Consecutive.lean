import Verif.Model.Erc721Consecutive
import Verif.Spec.Erc721
/-! # Specification vocabulary for consecutive ERC-721 -/

namespace Verif.Spec.Consecutive
open Verif.Consecutive

/-- Who owns `id` when the batches are laid out one after the other from `start`. -/
def batchOwner (start : Nat) : List (Address × U96) → Nat → Option Address
  | [], _ => none
  | (a, n) :: bs, id =>
    if start ≤ id ∧ id < start + n.toNat then some a else batchOwner (start + n.toNat) bs id

/-- Number of ids in the batches. -/
def total (bs : List (Address × U96)) : Nat := (bs.map fun b => b.2.toNat).sum

/-- Owner of a token as seen by `owner_of`. -/
def owner? (s : State) (id : U256) : Option Address :=
  match ownerOf s id with | .ok a => some a | .error _ => none

/-- `balance_of` as a number. -/
def bal? (s : State) (a : Address) : Option Nat :=
  match balanceOf s a with | .ok b => some b.toNat | .error _ => none

/-- The same call on a plain ERC-721. -/
def plainCall : Call → Erc721.UserCall ⊕ Erc721.AdminCall
  | .transferFrom src dst id => .inl (.transferFrom src dst id)
  | .safeTransferFrom src dst id => .inl (.safeTransferFrom src dst id)
  | .safeTransferFromWithData src dst id data => .inl (.safeTransferFromWithData src dst id data)
  | .approve dst id => .inl (.approve dst id)
  | .setApprovalForAll p b => .inl (.setApprovalForAll p b)
  | .mint dst id => .inr (.mint dst id)
  | .safeMint dst id data => .inr (.safeMint dst id data)
  | .burn id => .inr (.burn id)
  | .transfer src dst id => .inr (.transfer src dst id)
  | .safeTransfer src dst id data => .inr (.safeTransfer src dst id data)

/-- The same transaction on a plain ERC-721. -/
def plainTx (tx : Tx) : Erc721.Tx := ⟨tx.caller, tx.receivers, plainCall tx.call⟩

/-- A plain ERC-721 in which the batches were minted id by id and nothing else has happened. -/
def plain (first : U96) (bs : List (Address × U96)) : Erc721.State :=
  { Erc721.init with
    owners := fun id => (batchOwner first.toNat bs id.toNat).getD ZERO
    balances := fun a => BitVec.ofNat 256 (total (bs.filter fun b => b.1 = a)) }

/-- Every observer of the two contracts agrees, and so do the logs of transfers and approvals. -/
structure Same (s : State) (t : Erc721.State) : Prop where
  owner : ∀ id, owner? s id = Spec.Erc721.owner? t id
  balance : ∀ a, balanceOf s a = (Erc721.balanceOf t a).mapError .erc721
  approved : ∀ id, getApproved s id = (Erc721.getApproved t id).mapError .erc721
  operator : ∀ o p, isApprovedForAll s o p = Erc721.isApprovedForAll t o p
  log : s.erc721.log = t.log

end Verif.Spec.Consecutive
