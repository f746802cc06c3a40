import Verif.Model.Erc20
/-!
# Model of `token/erc20/extensions/flash_mint.rs`

The borrower's callback is an arbitrary finite tree of actions on the token: token calls by anybody and
further flash loans, whose own callbacks are trees again.  A call that fails inside a callback is undone
and the callback goes on (a caller may catch a revert); the callback finally answers some word, or
reverts.  The contract is compiled with the `reentrant` feature in `examples/erc20-flash-mint`.
-/

namespace Verif.FlashMint

/-- `flash_mint::Error`, `flash_mint.rs` 71-82, plus panics. -/
inductive Err where
  | unsupportedToken (token : Address)
  | exceededMaxLoan (maxLoan : U256)
  | invalidReceiver (receiver : Address)
  | erc20 (e : Erc20.Err)
  | panic
  deriving DecidableEq, Repr

/-- The constant environment: the contract's address, which addresses have code, the callback magic value
(`BORROWER_CALLBACK_VALUE`, `flash_mint.rs` 36-39), and the fee storage (`flash_mint.rs` 128-134), which no function
of the library writes. -/
structure Env where
  self_ : Address
  hasCode : Address → Bool
  magic : B256
  fee : U256
  feeReceiver : Address

/-- `max_flash_loan`, `flash_mint.rs` 285-291. -/
def maxFlashLoan (E : Env) (s : Erc20.State) (token : Address) : U256 :=
  if token = E.self_ then maxU256 - Erc20.totalSupplyOf s else 0#256

/-- `flash_fee`, `flash_mint.rs` 293-303. -/
def flashFee (E : Env) (token : Address) (_value : U256) : Except Err U256 :=
  if token = E.self_ then .ok E.fee else .error (.unsupportedToken token)

/-- Error conversion.
The `?` on token calls in `contracts/src/token/erc20/extensions/flash_mint.rs` 282-365. -/
def lift {α : Type} : Except Erc20.Err α → Except Err α
  | .ok a => .ok a
  | .error e => .error (.erc20 e)

/-- The part of `flash_loan` before the callback, `flash_mint.rs` 316-329; returns the fee. -/
def begin_ (E : Env) (s : Erc20.State) (receiver token : Address) (value : U256) :
    Except Err (U256 × Erc20.State) := do
  let maxLoan := maxFlashLoan E s token
  if maxLoan < value then throw (.exceededMaxLoan maxLoan)
  let fee ← flashFee E token value
  if E.hasCode receiver = false then throw (.invalidReceiver receiver)
  let s1 ← lift (Erc20.mint s receiver value)
  return (fee, s1)

/-- The part of `flash_loan` after the callback, `flash_mint.rs` 340-361; `answer` is `none` when the
callback reverts. -/
def finish (E : Env) (s : Erc20.State) (receiver : Address) (value fee : U256)
    (answer : Option B256) : Except Err Erc20.State := do
  match answer with
  | none => throw (.invalidReceiver receiver)
  | some a =>
    if a ≠ E.magic then throw (.invalidReceiver receiver)
    let allowance ← orPanic .panic (checkedAdd value fee)
    let s1 ← lift (Erc20.spendAllowance s receiver E.self_ allowance)
    if fee = 0#256 ∨ E.feeReceiver = ZERO then lift (Erc20.burnInternal s1 receiver allowance)
    else do
      let s2 ← lift (Erc20.burnInternal s1 receiver value)
      lift (Erc20.transferInternal s2 receiver E.feeReceiver fee)

/-- Actions: a token call, or a flash loan with what its callback does and answers.
Models the calls of `contracts/src/token/erc20/extensions/flash_mint.rs` 282-365 and of the token, `examples/erc20-flash-mint/src/lib.rs`. -/
inductive Action where
  | call (caller : Address) (c : Erc20.Call)
  | loan (receiver token : Address) (value : U256) (callback : List Action) (answer : Option B256)

mutual
/-- One action; `loan` is `flash_loan`, `flash_mint.rs` 308-364. -/
def exec (E : Env) (s : Erc20.State) : Action → Except Err Erc20.State
  | .call caller c => lift (Erc20.exec s (caller, c))
  | .loan receiver token value callback answer => do
    let (fee, s1) ← begin_ E s receiver token value
    finish E (execAll E s1 callback) receiver value fee answer
/-- A sequence of actions, each undone if it fails.
What the external call of `contracts/src/token/erc20/extensions/flash_mint.rs` 328-341 may do. -/
def execAll (E : Env) (s : Erc20.State) : List Action → Erc20.State
  | [] => s
  | a :: as => execAll E (match exec E s a with | .ok s' => s' | .error _ => s) as
end

end Verif.FlashMint
