import Verif.Model.Erc20Wrapper
/-! # Specification vocabulary for the ERC-20 wrapper -/

namespace Verif.Spec.Wrapper
open Verif.Wrapper

/-- Underlying tokens held by the wrapper contract. -/
def held (s : State) : Nat := (Erc20.balanceOf s.underlying s.self_).toNat
/-- Wrapped tokens in existence. -/
def supply (s : State) : Nat := (Erc20.totalSupplyOf s.token).toNat
/-- Wrapped tokens of an account. -/
def wrapped (s : State) (a : Address) : Nat := (Erc20.balanceOf s.token a).toNat
/-- Underlying tokens of an account. -/
def plain (s : State) (a : Address) : Nat := (Erc20.balanceOf s.underlying a).toNat

/-- States reachable from a fresh world by any interleaving of calls on both contracts. -/
def Reachable (s : State) : Prop := ∃ me ops, me ≠ ZERO ∧ s = run (init me) ops

/-- The call sends underlying tokens to the wrapper's address other than through `deposit_for`. -/
def Donates (me : Address) : Call → Prop
  | .underlying (.transfer dst _) => dst = me
  | .underlying (.transferFrom _ dst _) => dst = me
  | .underlying (.mint a _) => a = me
  | _ => False

end Verif.Spec.Wrapper
