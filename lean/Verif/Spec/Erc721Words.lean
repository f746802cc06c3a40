import Verif.Model.Erc721Words
import Verif.Spec.StoragePrograms
/-! # Specification: what an ERC-721 token on raw storage shows -/

namespace Verif.Spec.Erc721Words
open Verif Verif.Storage Verif.Spec.StoragePrograms

/-- The cells of an ERC-721 token at `root` that belong to the given accounts and tokens. -/
def Cells (root : List Step) (S : List Address) (T : List U256) (p : List Step) : Prop :=
  (∃ id ∈ T, p = Erc721Words.owner root id) ∨ (∃ a ∈ S, p = Erc721Words.balance root a) ∨
  (∃ id ∈ T, p = Erc721Words.approved root id) ∨ ∃ a ∈ S, ∃ b ∈ S, p = Erc721Words.operator root a b

/-- Accounts that a transaction names; the sender is one of them. -/
def accounts (tx : Erc721.Tx) : List Address :=
  tx.caller :: match tx.call with
  | .inl (.transferFrom src dst _) => [src, dst]
  | .inl (.safeTransferFrom src dst _) => [src, dst]
  | .inl (.safeTransferFromWithData src dst _ _) => [src, dst]
  | .inl (.approve dst _) => [dst]
  | .inl (.setApprovalForAll op _) => [op]
  | .inl (.burn _) => []
  | .inr (.mint dst _) => [dst]
  | .inr (.safeMint dst _ _) => [dst]
  | .inr (.burn _) => []
  | .inr (.transfer src dst _) => [src, dst]
  | .inr (.safeTransfer src dst _ _) => [src, dst]

/-- Tokens that a transaction names. -/
def tokens (tx : Erc721.Tx) : List U256 :=
  match tx.call with
  | .inl (.transferFrom _ _ id) => [id]
  | .inl (.safeTransferFrom _ _ id) => [id]
  | .inl (.safeTransferFromWithData _ _ id _) => [id]
  | .inl (.approve _ id) => [id]
  | .inl (.setApprovalForAll _ _) => []
  | .inl (.burn id) => [id]
  | .inr (.mint _ id) => [id]
  | .inr (.safeMint _ id _) => [id]
  | .inr (.burn id) => [id]
  | .inr (.transfer _ _ id) => [id]
  | .inr (.safeTransfer _ _ id _) => [id]

/-- A transaction that names only these accounts and tokens. -/
def Names (S : List Address) (T : List U256) (tx : Erc721.Tx) : Prop := (∀ a ∈ accounts tx, a ∈ S) ∧ ∀ id ∈ tokens tx, id ∈ T

/-- The value in a cell of the storage. -/
abbrev value (K : Hash) (t : Ty) (w : Words) (p : List Step) : Option U256 := Constructors.get K t w p

/-- The words show the same as the state with independent owners, balances and approvals, to these accounts and for these
tokens. -/
structure Shows (K : Hash) (t : Ty) (root : List Step) (S : List Address) (T : List U256) (w : Erc721Words.State)
    (s : Erc721.State) : Prop where
  owners : ∀ id ∈ T, value K t w.words (Erc721Words.owner root id) = some ((s.owners id).setWidth 256)
  balances : ∀ a ∈ S, value K t w.words (Erc721Words.balance root a) = some (s.balances a)
  approvals : ∀ id ∈ T, value K t w.words (Erc721Words.approved root id) = some ((s.tokenApprovals id).setWidth 256)
  operators : ∀ a ∈ S, ∀ b ∈ S, ∃ v, value K t w.words (Erc721Words.operator root a b) = some v ∧
    (v ≠ 0#256 ↔ s.operatorApprovals a b = true)
  log : w.log = s.log

/-- An ERC-721 token at `root` in a contract with storage struct `t`, the accounts and tokens that are named (the zero address
is one of the accounts, as an operator for nobody is looked up), the hash values met on the way to their cells far from each other,
and a history that names no others. -/
structure Setting (K : Hash) (n : Nat) (t : Ty) (root : List Step) (S : List Address) (T : List U256) (txs : List Erc721.Tx) : Prop where
  bound : n < 2 ^ 256
  sound : Spec.Storage.Ty.ok t = true
  place : ∃ b d, cell K t root = some ⟨b, d, 0, erc721⟩
  zero : ZERO ∈ S
  separate : Separate K n t (Cells root S T)
  names : ∀ tx ∈ txs, Names S T tx

/-- The words after a history on fresh storage. -/
def after (K : Hash) (t : Ty) (root : List Step) (txs : List Erc721.Tx) : Erc721Words.State :=
  Erc721Words.run root K t ⟨Constructors.fresh, []⟩ txs

/-- How many of the tokens have the account in their owner cell. -/
def held (K : Hash) (t : Ty) (root : List Step) (T : List U256) (w : Words) (a : Address) : Nat :=
  (T.filter fun id => value K t w (Erc721Words.owner root id) = some (a.setWidth 256)).length

end Verif.Spec.Erc721Words
