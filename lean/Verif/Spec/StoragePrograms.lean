import Verif.Model.StoragePrograms
import Verif.Spec.Constructors
/-! # Specification: storage as a table of independent cells -/

namespace Verif.Spec.StoragePrograms
open Verif Verif.Storage Verif.Spec.Storage Verif.Spec.Constructors

/-- Bytes of the cell at a path. -/
def widthAt (K : Hash) (t : Ty) (p : List Step) : Nat := ((cell K t p).map fun l => l.ty.width).getD 0

/-- Run a program on a table with one entry for each path: what one would expect of storage. -/
def onCells {E V α : Type} (width : List Step → Nat) :
    Prog E V α → (List Step → U256) → Except E (α × (List Step → U256) × List V)
  | .ret a, c => .ok (a, c, [])
  | .fail e, _ => .error e
  | .get p k, c => onCells width (k (c p)) c
  | .set p v k, c => onCells width k (upd c p (v &&& mask (width p)))
  | .emit v k, c => (onCells width k c).map fun r => (r.1, r.2.1, v :: r.2.2)

/-- The program only uses cells of `S`. -/
def Uses {E V α : Type} (S : List Step → Prop) : Prog E V α → Prop
  | .ret _ => True
  | .fail _ => True
  | .get p k => S p ∧ ∀ v, Uses S (k v)
  | .set p _ k => S p ∧ Uses S k
  | .emit _ k => Uses S k

/-- The words hold the values of the table in all cells of `S`. -/
def Agree (K : Hash) (t : Ty) (S : List Step → Prop) (st : Words) (c : List Step → U256) : Prop :=
  ∀ p, S p → ∀ l, cell K t p = some l → Storage.read K st l = c p

/-- All cells of `S` exist, and no hash values on the way to two of them coincide. -/
structure Separate (K : Hash) (n : Nat) (t : Ty) (S : List Step → Prop) : Prop where
  cells : ∀ p, S p → Cell K n t p
  clear : ∀ p, S p → ∀ q, S q → p ≠ q → ¬ Coincidence K n t p q

/-- The cells of an ERC-20 token at `root` that belong to the given accounts. -/
def Accounts (root : List Step) (S : List Address) (p : List Step) : Prop :=
  p = Erc20Words.supply root ∨ (∃ a ∈ S, p = Erc20Words.balance root a) ∨
  ∃ a ∈ S, ∃ b ∈ S, p = Erc20Words.allowance root a b

/-- Accounts that a call names. -/
def named : Address × Erc20.Call → List Address
  | (c, .transfer dst _) => [c, dst]
  | (c, .transferFrom src dst _) => [c, src, dst]
  | (c, .approve sp _) => [c, sp]
  | (_, .mint a _) => [a]
  | (c, .burn _) => [c]
  | (c, .burnFrom a _) => [c, a]

/-- The token on raw storage and the token of the other theorems show the same to these accounts. -/
structure Shows (K : Hash) (t : Ty) (root : List Step) (S : List Address) (w : Erc20Words.State) (s : Erc20.State) : Prop where
  supply : ∀ l, cell K t (Erc20Words.supply root) = some l → Storage.read K w.words l = s.totalSupply
  balances : ∀ a ∈ S, ∀ l, cell K t (Erc20Words.balance root a) = some l → Storage.read K w.words l = s.balances a
  allowances : ∀ a ∈ S, ∀ b ∈ S, ∀ l, cell K t (Erc20Words.allowance root a b) = some l →
    Storage.read K w.words l = s.allowances a b
  log : w.log = s.log

end Verif.Spec.StoragePrograms
