import Verif.Model.SafeErc20
/-!
# Model of `token/erc20/extensions/wrapper.rs`

A world of two contracts: the wrapper (an ERC-20 at address `self_`) and a standard ERC-20 underlying.
-/

namespace Verif.Wrapper

/-- `wrapper::Error`, `wrapper.rs` 62-80, plus panics.  `InvalidUnderlying` is left out: `balance_of` of a standard
ERC-20 never fails. -/
inductive Err where
  | invalidSender (sender : Address)
  | invalidReceiver (receiver : Address)
  | erc20 (e : Erc20.Err)
  | safeErc20 (e : SafeErc20.Err)
  | panic
  deriving DecidableEq, Repr

/-- The wrapper's token and the underlying token.
`contracts/src/token/erc20/extensions/wrapper.rs` 88-96, composed as in `examples/erc20-wrapper/src/lib.rs`. -/
structure State where
  self_ : Address
  token : Erc20.State
  underlying : Erc20.State

/-- Error conversion.
The `?` on token calls in `contracts/src/token/erc20/extensions/wrapper.rs` 230-332. -/
def liftErc20 : Except Erc20.Err Erc20.State → Except Err Erc20.State
  | .ok t => .ok t
  | .error e => .error (.erc20 e)

/-- Error conversion of a `SafeErc20` call. -/
def liftSafe : Erc20.State × Except SafeErc20.Err Unit → Except Err Erc20.State
  | (t, .ok _) => .ok t
  | (_, .error e) => .error (.safeErc20 e)

/-- `deposit_for`, `wrapper.rs` 241-268. -/
def depositFor (s : State) (caller account : Address) (value : U256) : Except Err State := do
  if caller = s.self_ then throw (.invalidSender caller)
  if account = s.self_ then throw (.invalidReceiver account)
  let u ← liftSafe (SafeErc20.safeTransferFrom (SafeErc20.standardToken s.self_) s.underlying caller
    s.self_ value)
  let t ← liftErc20 (Erc20.mint s.token account value)
  return { s with underlying := u, token := t }

/-- `withdraw_to`, `wrapper.rs` 270-285. -/
def withdrawTo (s : State) (caller account : Address) (value : U256) : Except Err State := do
  if account = s.self_ then throw (.invalidReceiver account)
  let t ← liftErc20 (Erc20.burnInternal s.token caller value)
  let u ← liftSafe (SafeErc20.safeTransfer (SafeErc20.standardToken s.self_) s.underlying account value)
  return { s with token := t, underlying := u }

/-- `_recover`, `wrapper.rs` 310-332. -/
def recover (s : State) (account : Address) : Except Err (U256 × State) := do
  let underlyingBalance := Erc20.balanceOf s.underlying s.self_
  let value ← orPanic .panic (checkedSub underlyingBalance (Erc20.totalSupplyOf s.token))
  if 0#256 < value then
    let t ← liftErc20 (Erc20.mint s.token account value)
    return (value, { s with token := t })
  else return (value, s)

/-- Calls on the wrapper's own token (`examples/erc20-wrapper/src/lib.rs` 22-48 inherits `Erc20`; no
public mint or burn). -/
inductive TokenCall where
  | transfer (dst : Address) (value : U256)
  | transferFrom (src dst : Address) (value : U256)
  | approve (spender : Address) (value : U256)
  deriving DecidableEq, Repr

/-- Everything that can happen in the two-contract world.
Models `contracts/src/token/erc20/extensions/wrapper.rs` 230-332 and the public calls of both tokens. -/
inductive Call where
  | depositFor (account : Address) (value : U256)
  | withdrawTo (account : Address) (value : U256)
  | recover (account : Address)
  | token (c : TokenCall)
  | underlying (c : Erc20.Call)

/-- One transaction.  The wrapper contract only makes the calls inside the functions above, so nothing
comes from its address.
Models `contracts/src/token/erc20/extensions/wrapper.rs` 230-332. -/
def exec (s : State) (op : Address × Call) : Except Err State :=
  if op.1 = s.self_ then .error .panic
  else match op.2 with
  | .depositFor a v => depositFor s op.1 a v
  | .withdrawTo a v => withdrawTo s op.1 a v
  | .recover a => do return (← recover s a).2
  | .token (.transfer dst v) => do
    return { s with token := (← liftErc20 (Erc20.transfer s.token op.1 dst v)) }
  | .token (.transferFrom src dst v) => do
    return { s with token := (← liftErc20 (Erc20.transferFrom s.token op.1 src dst v)) }
  | .token (.approve sp v) => do
    return { s with token := (← liftErc20 (Erc20.approve s.token op.1 sp v)) }
  | .underlying c => do
    return { s with underlying := (← liftErc20 (Erc20.exec s.underlying (op.1, c))) }

/-- A history.
Sequences of such transactions (`contracts/src/token/erc20/extensions/wrapper.rs` 230-332); a failed transaction leaves no trace (Stylus reverts). -/
def run (s : State) (ops : List (Address × Call)) : State := runOf exec s ops

/-- A new wrapper over a new token.
Zero-initialised storage of `contracts/src/token/erc20/extensions/wrapper.rs` 88-96. -/
def init (self_ : Address) : State := { self_ := self_, token := Erc20.init, underlying := Erc20.init }

end Verif.Wrapper
