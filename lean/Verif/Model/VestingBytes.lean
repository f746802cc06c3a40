import Verif.Model.Outside
/-!
# Model of `examples/vesting-wallet` on bytes

The wallet with any programs as tokens and as owner.  The rest of the chain is a `Chain`: a `World` with ether.  It cannot re-enter
(the example is compiled without the `reentrant` feature).
-/
namespace Verif.Outside.Wallet
open Verif Verif.Abi Verif.Entry Verif.Contracts Verif.Outside

/-- The rest of the chain, with ether: how much an address has (`contract::balance`, `contracts/src/finance/vesting_wallet.rs`
448) and what a call with a value does (`call` with `Call::new_in(self).value(amount)`, 422).  Whether there is code at the target,
whether it takes the ether and what it does then is left to the chain. -/
structure Chain (τ : Type) extends World τ where
  balance : τ → Address → U256
  pay : τ → (sender target : Address) → (value : U256) → Bytes → Outcome τ

/-- `enum Error`, `contracts/src/finance/vesting_wallet.rs` 90-100: `ether` holds what the owner reverted with, `safe` the token,
`vesting` is `InvalidToken` or a panic. -/
inductive Err where
  | ownable (e : Ownable.Err)
  | ether (data : Bytes)
  | safe (token : Address) (e : SafeErc20.Err)
  | vesting (e : Vesting.Err)
  deriving DecidableEq

/-- The wallet (`contracts/src/finance/vesting_wallet.rs` 109-125, composed as in `examples/vesting-wallet/src/lib.rs` 7-12; `self_`
is its address), its events, and the rest of the chain.  The events of `Ownable` are with its state. -/
structure State (τ : Type) where
  self_ : Address
  ownable : Ownable.State
  released : U256
  erc20Released : Address → U256
  start : U64
  duration : U64
  log : List Vesting.Event
  world : τ

/-- Who calls, and the time of the block (`block::timestamp()`, `contracts/src/finance/vesting_wallet.rs` 397). -/
structure Env where
  caller : Address
  now : U64

variable {τ : Type}

/-- What the functions without effect see (`contracts/src/finance/vesting_wallet.rs` 369-409 and 447-471, which are in
`Verif.Vesting`): the storage, the clock, the ether of the wallet, and what each token answers for the balance of the wallet
(461-464), which is asked once in a transaction. -/
def seen (W : Chain τ) (K : Hash) (D : Decoder) (now : U64) (s : State τ) : Vesting.State :=
  { owner := s.ownable.owner, released := s.released, erc20Released := s.erc20Released, start := s.start, duration := s.duration,
    now := now, ethBalance := W.balance s.world s.self_,
    tokenBalance := fun k => Calls.uintReply D (W.ask s.world 0 s.self_ k ((Calls.Message.balanceOf s.self_).bytes K)),
    log := [], paid := [] }

/-- Errors of the functions that are in `Verif.Vesting` (`contracts/src/finance/vesting_wallet.rs` 90-100). -/
def lift {α : Type} : Except Vesting.Err α → Except Err α
  | .ok a => .ok a
  | .error e => .error (.vesting e)

/-- Functions of `Ownable`, `vesting_wallet.rs` 358-367. -/
def owned (s : State τ) : Except Ownable.Err Ownable.State → Except Err (State τ)
  | .ok o => .ok { s with ownable := o }
  | .error e => .error (.ownable e)

/-- The `call` of `release_eth`, `vesting_wallet.rs` 422, and its `?`. -/
def paid : Outcome τ → Except Err τ
  | .returned t _ => .ok t
  | .reverted data => .error (.ether data)

/-- `release_eth`, `vesting_wallet.rs` 412-427. -/
def releaseEth (W : Chain τ) (K : Hash) (D : Decoder) (now : U64) (s : State τ) : Except Err (State τ) := do
  let amount ← lift (Vesting.releasableEth (seen W K D now s))
  let released ← lift (orPanic .panic (checkedAdd s.released amount))
  let t ← paid (W.pay s.world s.self_ s.ownable.owner amount [])
  return { s with released := released, world := t, log := s.log ++ [.etherReleased amount] }

/-- `release_erc20`, `vesting_wallet.rs` 430-444. -/
def releaseErc20 (W : Chain τ) (K : Hash) (D : Decoder) (now : U64) (s : State τ) (token : Address) : Except Err (State τ) := do
  let amount ← lift (Vesting.releasableErc20 (seen W K D now s) token)
  let released ← lift (orPanic .panic (checkedAdd (s.erc20Released token) amount))
  let t ← settled (.safe token) (SafeErc20.safeTransfer (W.token K s.world s.self_ token) s.world s.ownable.owner amount)
  return { s with erc20Released := upd s.erc20Released token released, world := t,
                  log := s.log ++ [.erc20Released token amount] }

/-- `Error` as bytes, `contracts/src/finance/vesting_wallet.rs` 74-106. -/
def errReply : Err → Revert.Reply
  | .ownable e => Revert.ownable e
  | .ether data => .raw data
  | .safe token e => Revert.safeErc20 token e
  | .vesting e => Revert.vesting [] e

/-- `examples/vesting-wallet/src/lib.rs` 14-21, which inherits the functions of `VestingWallet`
(`contracts/src/finance/vesting_wallet.rs` 350-472). -/
def handler (W : Chain τ) (K : Hash) (D : Decoder) (env : Env) : Handler (State τ) := fun t f args s =>
  let v := seen W K D env.now s
  let ask (x : Except Vesting.Err U256) := view K (Revert.vesting []) s (one .uint256 x)
  dispatch t f args
  [("VestingWallet", "owner", fun | [] => .ok (s, [.address s.ownable.owner]) | _ => .error none),
   ("VestingWallet", "transfer_ownership", fun
      | [.address a] => finish K errReply [] (owned s (Ownable.transferOwnership s.ownable env.caller a))
      | _ => .error none),
   ("VestingWallet", "renounce_ownership", fun
      | [] => finish K errReply [] (owned s (Ownable.renounceOwnership s.ownable env.caller))
      | _ => .error none),
   ("VestingWallet", "start", fun | [] => .ok (s, [.uint256 (Vesting.start v)]) | _ => .error none),
   ("VestingWallet", "duration", fun | [] => .ok (s, [.uint256 (Vesting.duration v)]) | _ => .error none),
   ("VestingWallet", "end", fun | [] => .ok (s, [.uint256 (Vesting.end' v)]) | _ => .error none),
   ("VestingWallet", "released_eth", fun | [] => .ok (s, [.uint256 s.released]) | _ => .error none),
   ("VestingWallet", "released_erc20", fun | [.address k] => .ok (s, [.uint256 (s.erc20Released k)]) | _ => .error none),
   ("VestingWallet", "releasable_eth", fun | [] => ask (Vesting.releasableEth v) | _ => .error none),
   ("VestingWallet", "releasable_erc20", fun | [.address k] => ask (Vesting.releasableErc20 v k) | _ => .error none),
   ("VestingWallet", "release_eth", fun | [] => finish K errReply [] (releaseEth W K D env.now s) | _ => .error none),
   ("VestingWallet", "release_erc20", fun
      | [.address k] => finish K errReply [] (releaseErc20 W K D env.now s k)
      | _ => .error none),
   ("VestingWallet", "vested_amount_eth", fun | [.uint64 ts] => ask (Vesting.vestedAmountEth v ts) | _ => .error none),
   ("VestingWallet", "vested_amount_erc20", fun
      | [.address k, .uint64 ts] => ask (Vesting.vestedAmountErc20 v k ts)
      | _ => .error none)]

/-- `examples/vesting-wallet/src/lib.rs` 7-21 as a contract on bytes.  A call without data is `receive` (17-20), which takes any
value; the value is part of the ether of the wallet already (`s.world`). -/
def run (W : Chain τ) (K : Hash) (D : Decoder) (env : Env) (s : State τ) (value : U256) (input : Bytes) : Outcome (State τ) :=
  if input = [] then .returned s [] else entry K D Router.vestingWalletExample (handler W K D env) s value input

end Verif.Outside.Wallet
