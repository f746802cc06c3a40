import Verif.Model.HookTree
import Verif.Model.Erc20Wrapper
/-! # The ERC-20 wrapper when the underlying token calls back

Line numbers are in `/repo/contracts/src/token/erc20/extensions/wrapper.rs`.  The functions of
`Model/Erc20Wrapper.lean` that make the underlying token move a balance, with the wrapper's state threaded
through that call.  `balance_of` on the underlying (319-321) is a static call. -/

namespace Verif.Wrapper.Reentrant
open Verif.Wrapper

/-- `deposit_for`, 241-268; `before` and `after` happen inside the token's `transferFrom` (258-263), before
and after it moves the balance. -/
def depositFor (before after : State → State) (s : State) (caller account : Address) (value : U256) :
    Except Err State := do
  if caller = s.self_ then throw (.invalidSender caller)
  if account = s.self_ then throw (.invalidReceiver account)
  let s1 := before s
  let u ← liftSafe (SafeErc20.safeTransferFrom (SafeErc20.standardToken s.self_) s1.underlying caller
    s.self_ value)
  let s2 := after { s1 with underlying := u }
  let t ← liftErc20 (Erc20.mint s2.token account value)
  return { s2 with token := t }

/-- `withdraw_to`, 270-285; `before` and `after` happen inside the token's `transfer` (282), before and
after it moves the balance. -/
def withdrawTo (before after : State → State) (s : State) (caller account : Address) (value : U256) :
    Except Err State := do
  if account = s.self_ then throw (.invalidReceiver account)
  let t ← liftErc20 (Erc20.burnInternal s.token caller value)
  let s1 := before { s with token := t }
  let u ← liftSafe (SafeErc20.safeTransfer (SafeErc20.standardToken s.self_) s1.underlying account value)
  return after { s1 with underlying := u }

/-- One call; everything else as in `Wrapper.exec`.  `afterDeposit` and `beforeWithdraw` say whether the
underlying also calls out after a balance has moved into the wrapper and before one moves out of it.
Models 230-332. -/
def execWith (afterDeposit beforeWithdraw : Bool) (before after : State → State) (s : State)
    (op : Address × Call) : Except Err State :=
  if op.1 = s.self_ then .error .panic
  else match op.2 with
  | .depositFor a v => depositFor before (if afterDeposit then after else fun t => t) s op.1 a v
  | .withdrawTo a v => withdrawTo (if beforeWithdraw then before else fun t => t) after s op.1 a v
  | _ => exec s op

/-- A history of calls with everything that happens inside them.  Sequences of calls of 230-332. -/
def run (afterDeposit beforeWithdraw : Bool) (s : State) (calls : List (HookTree (Address × Call))) :
    State :=
  HookTree.execAll (execWith afterDeposit beforeWithdraw) s calls

end Verif.Wrapper.Reentrant
