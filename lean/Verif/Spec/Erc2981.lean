import Verif.Model.Erc2981
/-! # Specification of royalties: an optional default and optional per-token entries -/

namespace Verif.Spec.Erc2981
open Verif.Erc2981

/-- Who gets what fraction. -/
structure Book where
  default_ : Option (Address × Nat)
  token : U256 → Option (Address × Nat)

/-- Nothing set. -/
def Book.empty : Book := ⟨none, fun _ => none⟩

/-- A setting is accepted if the fraction is at most one and there is a receiver. -/
def valid (denominator : Nat) (receiver : Address) (numerator : Nat) : Prop :=
  numerator ≤ denominator ∧ receiver ≠ ZERO

instance (d : Nat) (r : Address) (n : Nat) : Decidable (valid d r n) := by unfold valid; infer_instance

/-- What a call does to the book; invalid calls change nothing. -/
def Book.apply (d : Nat) (b : Book) : Call → Book
  | .setDefault r n => if valid d r n.toNat then { b with default_ := some (r, n.toNat) } else b
  | .deleteDefault => { b with default_ := none }
  | .setToken t r n =>
    if valid d r n.toNat then { b with token := fun i => if i = t then some (r, n.toNat) else b.token i } else b
  | .resetToken t => { b with token := fun i => if i = t then none else b.token i }

/-- The book after a history. -/
def book (d : Nat) (ops : List Call) : Book := ops.foldl (Book.apply d) .empty

/-- The entry in force for a token: its own, else the default, else nobody with fraction zero. -/
def Book.entry (b : Book) (t : U256) : Address × Nat := ((b.token t).orElse fun _ => b.default_).getD (ZERO, 0)

end Verif.Spec.Erc2981
