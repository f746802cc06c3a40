import Verif.Model.Deployed
import Verif.Spec.StoragePrograms
/-! # Specification: a deployed contract seen from outside -/

namespace Verif.Spec.Deployed
open Verif Verif.Storage Verif.Deployed Verif.Spec.StoragePrograms
open Verif.Abi (Val Decoder Outcome selectorOf)
open Verif.Entry (Tx)

/-- What the sender of a transaction gets: returned data, or revert data. -/
def answer {σ : Type} : Outcome σ → Except Bytes Bytes
  | .returned _ d => .ok d
  | .reverted d => .error d

/-- The accounts a transaction is about: its sender and the addresses among its arguments. -/
def Names (K : Hash) (D : Decoder) (tx : Tx) (a : Address) : Prop :=
  a = tx.caller ∨ ∃ t f args, Router.erc20Example.route K (selectorOf tx.input) = some (t, f) ∧
    D.read (Abi.flat f.args) (tx.input.drop 4) = some args ∧ Val.address a ∈ args

/-- The cells of `examples/erc20` that belong to the given accounts or to nobody. -/
def Cells (S : List Address) (name symbol : List Char) (p : List Step) : Prop :=
  Accounts token S p ∨ p = capCell ∨ p = pausedCell ∨
  p ∈ (Constructors.text nameCell (Logs.utf8 name)).map Prod.fst ∨
  p ∈ (Constructors.text symbolCell (Logs.utf8 symbol)).map Prod.fst

end Verif.Spec.Deployed
