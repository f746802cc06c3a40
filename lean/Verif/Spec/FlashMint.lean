import Verif.Model.FlashMint
/-! # Specification vocabulary for flash minting -/

namespace Verif.Spec.FlashMint
open Verif.FlashMint

/-- Balance of an account. -/
def bal (s : Erc20.State) (a : Address) : Nat := (Erc20.balanceOf s a).toNat
/-- Supply. -/
def supply (s : Erc20.State) : Nat := (Erc20.totalSupplyOf s).toNat

/-- Reachable from a new token by any sequence of actions, nested at will. -/
def Reachable (E : Env) (s : Erc20.State) : Prop := ∃ acts, s = execAll E Erc20.init acts

/-- The fee that each loan destroys: the fee, if there is nobody to receive it. -/
def burntFee (E : Env) : Nat := if E.feeReceiver = ZERO then E.fee.toNat else 0

/-- A token call that neither mints nor burns. -/
def QuietCall : Erc20.Call → Prop
  | .mint .. => False
  | .burn .. => False
  | .burnFrom .. => False
  | _ => True

mutual
/-- An action in which, at any depth, nothing is minted or burnt except by flash loans. -/
def Quiet : Action → Prop
  | .call _ c => QuietCall c
  | .loan _ _ _ cb _ => QuietAll cb
/-- The same for a sequence. -/
def QuietAll : List Action → Prop
  | [] => True
  | a :: as => Quiet a ∧ QuietAll as
end

mutual
/-- Number of flash loans in an action, at any depth. -/
def loans : Action → Nat
  | .call .. => 0
  | .loan _ _ _ cb _ => loansAll cb + 1
/-- The same for a sequence. -/
def loansAll : List Action → Nat
  | [] => 0
  | a :: as => loans a + loansAll as
end

end Verif.Spec.FlashMint
