import Verif.Model.HookTree
import Verif.Model.Vesting
/-! # The vesting wallet when payees and tokens call back

Line numbers are in `/repo/contracts/src/finance/vesting_wallet.rs`.  The functions of
`Model/Vesting.lean` that call out, with the wallet's state threaded through the call.  The calls of
`balance_of` (460-463) are static calls, during which nothing can change. -/

namespace Verif.Vesting.Reentrant
open Verif.Vesting

/-- `release_eth`, 412-427: the amount is added to `released` (415-418), the owner is read (420), the
call moves the ether and then runs the owner's code (422), and the event comes last (424). -/
def releaseEth (after : State → State) (s : State) (callOk : Bool) : Except Err State := do
  let amount ← releasableEth s
  let released ← orPanic .panic (checkedAdd s.released amount)
  let s1 := { s with released := released }
  if callOk = false ∨ s1.ethBalance < amount then throw .releaseEtherFailed
  let s2 := after { s1 with ethBalance := s1.ethBalance - amount
                            paid := s1.paid ++ [⟨none, s1.owner, amount⟩] }
  return { s2 with log := s2.log ++ [.etherReleased amount] }

/-- `release_erc20`, 430-444: the owner is read (432), the amount is added to the token's released
amount (434-437), the token's `transfer` is called (439), and the event comes last (441).  During the
call things may happen before the token moves the balance, and after. -/
def releaseErc20 (before after : State → State) (s : State) (token : Address) (callOk : Bool) :
    Except Err State := do
  let amount ← releasableErc20 s token
  let owner := s.owner
  let released ← orPanic .panic (checkedAdd (s.erc20Released token) amount)
  let s1 := before { s with erc20Released := upd s.erc20Released token released }
  let balance ← orPanic (.safeErc20 token) (s1.tokenBalance token)
  if callOk = false ∨ balance < amount then throw (.safeErc20 token)
  let s2 := after { s1 with tokenBalance := upd s1.tokenBalance token (some (balance - amount))
                            paid := s1.paid ++ [⟨some token, owner, amount⟩] }
  return { s2 with log := s2.log ++ [.erc20Released token amount] }

/-- One call.  `early token` says whether this token calls anybody before it has moved the balance; a
token that does not (every plain ERC-20, and those that only notify the receiver) gives no occasion
for `before`.  Models 351-472 as exported by `examples/vesting-wallet/src/lib.rs`, as `Vesting.exec`
does. -/
def execWith (early : Address → Bool) (before after : State → State) (s : State) :
    Op → Except Err State
  | .releaseEth ok => releaseEth after s ok
  | .releaseErc20 k ok => releaseErc20 (if early k then before else fun t => t) after s k ok
  | .tick t => exec s (.tick t)
  | .receiveEth v => exec s (.receiveEth v)
  | .receiveToken k v => exec s (.receiveToken k v)
  | .setOwner o => exec s (.setOwner o)

/-- A history of calls with everything that happens inside them.  Sequences of calls of 351-472. -/
def run (early : Address → Bool) (s : State) (calls : List (HookTree Op)) : State :=
  HookTree.execAll (execWith early) s calls

end Verif.Vesting.Reentrant
