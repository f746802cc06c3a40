import Verif.Base
/-!
# Model of the vesting wallet

Source: `contracts/src/finance/vesting_wallet.rs`; the payable `receive` is
`examples/vesting-wallet/src/lib.rs` 17-20.

The environment is part of the state: the block timestamp, the wallet's ether balance and, per token,
the balance that the token contract reports for the wallet (`none`: the call fails).  A token transfer
out of the wallet is modelled as in a standard token: it fails if the balance is too low, otherwise it
lowers the wallet's balance by exactly the amount.  `transfer_ownership` and `renounce_ownership`
(365-367) are `Ownable` and modelled there; here `owner` may change arbitrarily (`setOwner`).
-/

namespace Verif.Vesting

/-- `enum Error`, `vesting_wallet.rs` 90-100; `panic` covers the `expect`s and
`add_assign_checked`. -/
inductive Err where
  | releaseEtherFailed
  | safeErc20 (token : Address)
  | invalidToken (token : Address)
  | panic
  deriving DecidableEq, Repr

/-- Events, `vesting_wallet.rs` 57-72. -/
inductive Event where
  | etherReleased (amount : U256)
  | erc20Released (token : Address) (amount : U256)
  deriving DecidableEq, Repr

/-- An outgoing payment: asset (`none` is ether), receiver, amount.
`contracts/src/finance/vesting_wallet.rs` 412-444. -/
structure Payment where
  asset : Option Address
  receiver : Address
  amount : U256
  deriving DecidableEq, Repr

/-- Storage of `VestingWallet`, `vesting_wallet.rs` 109-125, plus its environment, the event log and
the list of payments made. -/
structure State where
  owner : Address
  released : U256
  erc20Released : Address → U256
  start : U64
  duration : U64
  now : U64
  ethBalance : U256
  tokenBalance : Address → Option U256
  log : List Event
  paid : List Payment

/-- `start`, `vesting_wallet.rs` 369-371. -/
def start (s : State) : U256 := s.start.setWidth 256

/-- `duration`, `vesting_wallet.rs` 373-375. -/
def duration (s : State) : U256 := s.duration.setWidth 256

/-- `end`, `vesting_wallet.rs` 377-381. -/
def end' (s : State) : U256 := start s + duration s

/-- `vesting_schedule`, `vesting_wallet.rs` 488-509. -/
def vestingSchedule (s : State) (totalAllocation : U256) (timestamp : U64) : Except Err U256 :=
  let ts : U256 := timestamp.setWidth 256
  if ts < start s then .ok 0#256
  else if end' s ≤ ts then .ok totalAllocation
  else do
    let elapsed := ts - start s
    let scaled ← orPanic .panic (checkedMul totalAllocation elapsed)
    return scaled / duration s

/-- `vested_amount_eth`, `vesting_wallet.rs` 447-453. -/
def vestedAmountEth (s : State) (timestamp : U64) : Except Err U256 := do
  let total ← orPanic .panic (checkedAdd s.ethBalance s.released)
  vestingSchedule s total timestamp

/-- `vested_amount_erc20`, `vesting_wallet.rs` 456-471. -/
def vestedAmountErc20 (s : State) (token : Address) (timestamp : U64) : Except Err U256 := do
  let balance ← orPanic (.invalidToken token) (s.tokenBalance token)
  let total ← orPanic .panic (checkedAdd balance (s.erc20Released token))
  vestingSchedule s total timestamp

/-- `releasable_eth`, `vesting_wallet.rs` 394-398: unchecked subtraction. -/
def releasableEth (s : State) : Except Err U256 := do
  let vested ← vestedAmountEth s s.now
  return vested - s.released

/-- `releasable_erc20`, `vesting_wallet.rs` 401-409: unchecked subtraction. -/
def releasableErc20 (s : State) (token : Address) : Except Err U256 := do
  let vested ← vestedAmountErc20 s token s.now
  return vested - s.erc20Released token

/-- `release_eth`, `vesting_wallet.rs` 412-427.  `callOk` is whether the receiver accepts the call;
the EVM also fails it when the balance is too low. -/
def releaseEth (s : State) (callOk : Bool) : Except Err State := do
  let amount ← releasableEth s
  let released ← orPanic .panic (checkedAdd s.released amount)
  if callOk = false ∨ s.ethBalance < amount then throw .releaseEtherFailed
  return { s with released := released
                  ethBalance := s.ethBalance - amount
                  paid := s.paid ++ [⟨none, s.owner, amount⟩]
                  log := s.log ++ [.etherReleased amount] }

/-- `release_erc20`, `vesting_wallet.rs` 430-444.  `callOk` is whether the token accepts the transfer;
a standard token also refuses when the balance is too low. -/
def releaseErc20 (s : State) (token : Address) (callOk : Bool) : Except Err State := do
  let amount ← releasableErc20 s token
  let released ← orPanic .panic (checkedAdd (s.erc20Released token) amount)
  let balance ← orPanic (.safeErc20 token) (s.tokenBalance token)
  if callOk = false ∨ balance < amount then throw (.safeErc20 token)
  return { s with erc20Released := upd s.erc20Released token released
                  tokenBalance := upd s.tokenBalance token (some (balance - amount))
                  paid := s.paid ++ [⟨some token, s.owner, amount⟩]
                  log := s.log ++ [.erc20Released token amount] }

/-- What can happen to the wallet: time passes, ether or tokens arrive, anybody calls a release, the
owner changes.
Models `contracts/src/finance/vesting_wallet.rs` 351-472 as exported by `examples/vesting-wallet/src/lib.rs`. -/
inductive Op where
  | tick (now : U64)
  | receiveEth (value : U256)
  | receiveToken (token : Address) (value : U256)
  | releaseEth (callOk : Bool)
  | releaseErc20 (token : Address) (callOk : Bool)
  | setOwner (owner : Address)

/-- One event in the life of the wallet.  The clock never goes back; ether and token balances stay
256-bit numbers (more ether or tokens than that cannot exist). -/
def exec (s : State) : Op → Except Err State
  | .tick t => if t < s.now then .error .panic else .ok { s with now := t }
  | .receiveEth v => do
    let b ← orPanic .panic (checkedAdd s.ethBalance v)
    return { s with ethBalance := b }
  | .receiveToken k v => do
    let b ← orPanic (.invalidToken k) (s.tokenBalance k)
    let b' ← orPanic .panic (checkedAdd b v)
    return { s with tokenBalance := upd s.tokenBalance k (some b') }
  | .releaseEth ok => releaseEth s ok
  | .releaseErc20 k ok => releaseErc20 s k ok
  | .setOwner o => .ok { s with owner := o }

/-- A history.
Sequences of them (`contracts/src/finance/vesting_wallet.rs` 351-472); a failed transaction leaves no trace (Stylus reverts). -/
def run (s : State) (ops : List Op) : State := runOf exec s ops

/-- A new wallet: nothing received, nothing released; `tokens` says which addresses are tokens.
`contracts/src/finance/vesting_wallet.rs` 109-127. -/
def init (owner : Address) (start duration now : U64) (tokens : Address → Bool) : State :=
  { owner := owner, released := 0#256, erc20Released := fun _ => 0#256, start := start,
    duration := duration, now := now, ethBalance := 0#256,
    tokenBalance := fun k => if tokens k then some 0#256 else none, log := [], paid := [] }

end Verif.Vesting
