import Verif.Base
/-!
# Model of the ERC-20 token

Source: `contracts/src/token/erc20/mod.rs`, `contracts/src/token/erc20/extensions/burnable.rs`.

Simplification: the boolean `true` that `transfer`, `approve`, `transfer_from` return on success
is dropped (they never return `Ok(false)`); the result is the new state.
-/

namespace Verif.Erc20

/-- Errors of the ERC-20 token, `mod.rs` 47-127 (`sol!` errors and `enum Error`); `panic` is the
failure of `add_assign_checked`. -/
inductive Err where
  | insufficientBalance (sender : Address) (balance needed : U256)
  | invalidSender (sender : Address)
  | invalidReceiver (receiver : Address)
  | insufficientAllowance (spender : Address) (allowance needed : U256)
  | invalidSpender (spender : Address)
  | invalidApprover (approver : Address)
  | panic
  deriving DecidableEq, Repr

/-- Events of the ERC-20 token, `mod.rs` 26-45. -/
inductive Event where
  | transfer (src dst : Address) (value : U256)
  | approval (owner spender : Address) (value : U256)
  deriving DecidableEq, Repr

/-- Storage of `Erc20`, `mod.rs` 129-139, plus the log of emitted events (oldest first). -/
structure State where
  balances : Address → U256
  allowances : Address → Address → U256
  totalSupply : U256
  log : List Event

/-- A freshly deployed token: Stylus storage is zero-initialised.
Models `contracts/src/token/erc20/mod.rs` 130-140. -/
def init : State :=
  { balances := fun _ => 0#256, allowances := fun _ _ => 0#256, totalSupply := 0#256, log := [] }

/-- `total_supply`, `mod.rs` 274-276. -/
def totalSupplyOf (s : State) : U256 := s.totalSupply

/-- `balance_of`, `mod.rs` 278-280. -/
def balanceOf (s : State) (a : Address) : U256 := s.balances a

/-- `allowance`, `mod.rs` 292-294. -/
def allowance (s : State) (owner spender : Address) : U256 := s.allowances owner spender

/-- `_update`, `mod.rs` 458-502: first half, the debit side (`from` zero is a mint). -/
def debit (s : State) (src : Address) (value : U256) : Except Err State :=
  if src = ZERO then
    match checkedAdd s.totalSupply value with
    | some t => .ok { s with totalSupply := t }
    | none => .error .panic
  else if s.balances src < value then
    .error (.insufficientBalance src (s.balances src) value)
  else
    .ok { s with balances := upd s.balances src (s.balances src - value) }

/-- `_update`, `mod.rs` 458-502: second half, the credit side (`to` zero is a burn), with the
wrapping storage arithmetic of `utils/math/storage/unchecked.rs`. -/
def credit (s : State) (dst : Address) (value : U256) : State :=
  if dst = ZERO then { s with totalSupply := s.totalSupply - value }
  else { s with balances := upd s.balances dst (s.balances dst + value) }

/-- `_update`, `mod.rs` 458-502. -/
def update (s : State) (src dst : Address) (value : U256) : Except Err State := do
  let s1 ← debit s src value
  let s2 := credit s1 dst value
  return { s2 with log := s2.log ++ [.transfer src dst value] }

/-- `_approve`, `mod.rs` 338-362. -/
def approveInternal (s : State) (owner spender : Address) (value : U256) (emit : Bool) :
    Except Err State :=
  if owner = ZERO then .error (.invalidApprover ZERO)
  else if spender = ZERO then .error (.invalidSpender ZERO)
  else
    let s1 := { s with allowances := upd2 s.allowances owner spender value }
    .ok (if emit then { s1 with log := s1.log ++ [.approval owner spender value] } else s1)

/-- `_transfer`, `mod.rs` 383-403. -/
def transferInternal (s : State) (src dst : Address) (value : U256) : Except Err State :=
  if src = ZERO then .error (.invalidSender ZERO)
  else if dst = ZERO then .error (.invalidReceiver ZERO)
  else update s src dst value

/-- `_mint`, `mod.rs` 420-431. -/
def mint (s : State) (account : Address) (value : U256) : Except Err State :=
  if account = ZERO then .error (.invalidReceiver ZERO)
  else update s ZERO account value

/-- `_burn`, `mod.rs` 521-532. -/
def burnInternal (s : State) (account : Address) (value : U256) : Except Err State :=
  if account = ZERO then .error (.invalidSender ZERO)
  else update s account ZERO value

/-- `_spend_allowance`, `mod.rs` 553-575. -/
def spendAllowance (s : State) (owner spender : Address) (value : U256) : Except Err State :=
  let current := s.allowances owner spender
  if current ≠ maxU256 then
    if current < value then .error (.insufficientAllowance spender current value)
    else approveInternal s owner spender (current - value) false
  else .ok s

/-- `transfer`, `mod.rs` 282-290. -/
def transfer (s : State) (caller dst : Address) (value : U256) : Except Err State :=
  transferInternal s caller dst value

/-- `approve`, `mod.rs` 296-303. -/
def approve (s : State) (caller spender : Address) (value : U256) : Except Err State :=
  approveInternal s caller spender value true

/-- `transfer_from`, `mod.rs` 305-315. -/
def transferFrom (s : State) (caller src dst : Address) (value : U256) : Except Err State := do
  let s1 ← spendAllowance s src caller value
  transferInternal s1 src dst value

/-- `IErc20Burnable::burn`, `extensions/burnable.rs` 62-64. -/
def burn (s : State) (caller : Address) (value : U256) : Except Err State :=
  burnInternal s caller value

/-- `IErc20Burnable::burn_from`, `extensions/burnable.rs` 66-73. -/
def burnFrom (s : State) (caller account : Address) (value : U256) : Except Err State := do
  let s1 ← spendAllowance s account caller value
  burnInternal s1 account value

/-- The calls a token built from `Erc20` and `IErc20Burnable` offers, with `_mint` exposed without
restriction (the most permissive composition). -/
inductive Call where
  | transfer (dst : Address) (value : U256)
  | transferFrom (src dst : Address) (value : U256)
  | approve (spender : Address) (value : U256)
  | mint (account : Address) (value : U256)
  | burn (value : U256)
  | burnFrom (account : Address) (value : U256)
  deriving DecidableEq, Repr

/-- Dispatch of one transaction: `(msg::sender(), call)`.
Models the router for `contracts/src/token/erc20/mod.rs` 271-316 and `extensions/burnable.rs` 59-80, and the internal functions 318-575. -/
def exec (s : State) (op : Address × Call) : Except Err State :=
  match op.2 with
  | .transfer dst v => transfer s op.1 dst v
  | .transferFrom src dst v => transferFrom s op.1 src dst v
  | .approve sp v => approve s op.1 sp v
  | .mint a v => mint s a v
  | .burn v => burn s op.1 v
  | .burnFrom a v => burnFrom s op.1 a v

/-- Execute a history of transactions; failed transactions are reverted.
Sequences of such transactions (`contracts/src/token/erc20/mod.rs` 271-575). -/
def run (s : State) (ops : List (Address × Call)) : State := runOf exec s ops

end Verif.Erc20
