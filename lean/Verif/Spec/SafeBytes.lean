import Verif.Spec.Outside
import Verif.Model.SafeBytes
/-!
# What a contract that inherits `SafeErc20` does with another contract
-/
namespace Verif.Spec.SafeBytes
open Verif Verif.Abi Verif.Outside
open Verif.Spec.Contracts Verif.Spec.Outside

variable {τ : Type}

/-- No call takes away the code of a contract (on the EVM, code vanishes at the end of a transaction at the earliest). -/
def Stays (W : World τ) : Prop :=
  ∀ t sender target b t' data a, W.call t sender target b = .returned t' data → W.hasCode t a = true → W.hasCode t' a = true

/-- `target` does not take the message: it reverts, and nothing has happened, or its reply is something else than nothing or
true, and the rest of the chain is `t'`. -/
def Declines (W : World τ) (t : τ) (sender target : Address) (msg : Bytes) (t' : τ) : Prop :=
  (∃ data, W.call t sender target msg = .reverted data ∧ t' = t) ∨
  ∃ data, W.call t sender target msg = .returned t' data ∧ ¬ Spec.SafeErc20.Accepted data

/-- The message that sets an allowance. -/
abbrev approval (p : Address) (v : U256) : Bytes := message "approve(address,uint256)" [.address p, .uint256 v]

/-- `me` sets its allowance for `p` at `token` to `v`: at once, or, if that is declined, by way of zero. -/
def Approves (W : World τ) (t : τ) (me token p : Address) (v : U256) (t' : τ) : Prop :=
  Takes W t me token (approval p v) t' ∨
  ∃ t1 t2, Declines W t me token (approval p v) t1 ∧ Takes W t1 me token (approval p 0#256) t2 ∧
    Takes W t2 me token (approval p v) t'

/-- Called by `me` with the question for its allowance for `p`, `token` answers the number `n` (in the first 32 bytes of its
reply); a call, not a static one, so the chain is `t'` afterwards. -/
def Tells (W : World τ) (t : τ) (me token p : Address) (n : U256) (t' : τ) : Prop :=
  ∃ data, W.call t me token (message "allowance(address,address)" [.address me, .address p]) = .returned t' data ∧
    n.toNat = SafeErc20.beNat (data.take 32)

end Verif.Spec.SafeBytes
