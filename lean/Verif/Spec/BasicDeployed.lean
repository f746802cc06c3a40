import Verif.Model.BasicDeployed
import Verif.Spec.GatesDeployed
/-! # Specification: the storage cells of the deployed `examples/basic/token` -/

namespace Verif.Spec.BasicDeployed
open Verif Verif.Storage

/-- The cells of `examples/basic/token` that belong to the given accounts or to nobody. -/
def Cells (S : List Address) (name symbol : List Char) (p : List Step) : Prop :=
  StoragePrograms.Accounts Verif.OnWords.token S p ∨
  p ∈ (Constructors.text [.field "metadata", .field "metadata", .field "name"] (Logs.utf8 name)).map Prod.fst ∨
  p ∈ (Constructors.text [.field "metadata", .field "metadata", .field "symbol"] (Logs.utf8 symbol)).map Prod.fst

/-- What is asked of the accounts and the two strings: no hash values on the way to two of the cells coincide, and the strings are
shorter than 2²⁵⁵ bytes. -/
structure Setting (K : Hash) (n : Nat) (S : List Address) (name symbol : List Char) : Prop where
  apart : OnWords.Apart K n basicToken (Cells S name symbol)
  shortName : (Logs.utf8 name).length < 2 ^ 255
  shortSymbol : (Logs.utf8 symbol).length < 2 ^ 255

end Verif.Spec.BasicDeployed
