import Verif.Model.Erc721
/-! # Specification vocabulary for ERC-721 -/

namespace Verif.Spec.Erc721
open Verif.Erc721

/-- Reachable from deployment by any history. -/
def Reachable (s : State) : Prop := ∃ txs, s = run init txs

/-- Owner of a token as seen by `owner_of`: `none` if it does not exist. -/
def owner? (s : State) (id : U256) : Option Address :=
  match ownerOf s id with | .ok a => some a | .error _ => none

/-- The token's approved address as seen by `get_approved`; `none` if there is none. -/
def approved? (s : State) (id : U256) : Option Address :=
  match getApproved s id with | .ok a => if a = ZERO then none else some a | .error _ => none

/-- `balance_of` as a number; `none` for the zero address. -/
def bal? (s : State) (a : Address) : Option Nat :=
  match balanceOf s a with | .ok b => some b.toNat | .error _ => none

/-- Number of token ids that `a` owns. -/
def owned (s : State) (a : Address) : Nat :=
  (Finset.univ.filter fun id : U256 => owner? s id = some a).card

/-- The caller may move the token: owner, operator of the owner, or approved for the token. -/
def MayMove (s : State) (caller : Address) (id : U256) : Prop :=
  ∃ o, owner? s id = some o ∧
    (caller = o ∨ isApprovedForAll s o caller = true ∨ approved? s id = some caller)

/-- Everything the events say about a token contract. -/
structure Ledger where
  owner : U256 → Option Address
  approved : U256 → Option Address
  operator : Address → Address → Bool

/-- The empty ledger. -/
def Ledger.empty : Ledger := ⟨fun _ => none, fun _ => none, fun _ _ => false⟩

/-- An address, with the zero address meaning nobody. -/
def nobody (a : Address) : Option Address := if a = ZERO then none else some a

/-- What one event says. -/
def Ledger.apply (l : Ledger) : Event → Ledger
  | .transfer _ dst id =>
    { l with owner := fun i => if i = id then nobody dst else l.owner i
             approved := fun i => if i = id then none else l.approved i }
  | .approval _ a id => { l with approved := fun i => if i = id then nobody a else l.approved i }
  | .approvalForAll o p b => { l with operator := fun x y => if x = o ∧ y = p then b else l.operator x y }

/-- What a log says. -/
def replay (log : List Event) : Ledger := log.foldl Ledger.apply Ledger.empty

/-- A log in which every transfer names the true previous owner and every approval the true owner. -/
def Truthful (log : List Event) : Prop :=
  ∀ pre e post, log = pre ++ e :: post → match e with
    | .transfer src _ id => (replay pre).owner id = nobody src
    | .approval o _ id => (replay pre).owner id = some o
    | .approvalForAll .. => True

end Verif.Spec.Erc721
