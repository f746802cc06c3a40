import Verif.Model.Vesting
/-! # Specification of linear vesting -/

namespace Verif.Spec.Vesting
open Verif.Vesting

/-- The linear vesting curve over unbounded integers. -/
def curve (start duration total time : Nat) : Nat :=
  if time < start then 0
  else if start + duration ≤ time then total
  else total * (time - start) / duration

/-- Ether that actually arrived during a history. -/
def ethReceived : State → List Op → Nat
  | _, [] => 0
  | s, op :: ops =>
    (match op, exec s op with
      | .receiveEth v, .ok _ => v.toNat
      | _, _ => 0) + ethReceived (stepOf exec s op) ops

/-- Units of `token` that actually arrived during a history. -/
def tokenReceived (token : Address) : State → List Op → Nat
  | _, [] => 0
  | s, op :: ops =>
    (match op, exec s op with
      | .receiveToken k v, .ok _ => if k = token then v.toNat else 0
      | _, _ => 0) + tokenReceived token (stepOf exec s op) ops

/-- Sum of the payments of an asset. -/
def paidTotal (asset : Option Address) : List Payment → Nat
  | [] => 0
  | p :: ps => (if p.asset = asset then p.amount.toNat else 0) + paidTotal asset ps

end Verif.Spec.Vesting
