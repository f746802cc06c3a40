import Verif.Model.Erc721
/-!
# Model of `token/erc721/extensions/wrapper.rs`

A world of two contracts: the wrapper (an ERC-721 at address `self_`) and an underlying ERC-721 at
address `under`.  The underlying is a standard ERC-721: its tokens are minted freely, but a token that
exists moves only through the public calls of `Erc721` (no privileged burn or transfer).

The wrapper is not re-entrant (Stylus refuses re-entrant calls unless the `reentrant` feature is on).
The underlying may be any contract, so whoever the wrapper calls back can call the underlying before
answering.
-/

namespace Verif.Wrapper721
open Verif.Erc721 (Receivers Answer RECEIVER_FN_SELECTOR)

/-- `wrapper::Error`, `wrapper.rs` 44-62.  The revert data of a failed call is not kept. -/
inductive Err where
  | erc721 (e : Erc721.Err)
  | unsupportedToken (token : Address)
  | failedOperation (e : Erc721.Err)
  | notPossible
  deriving DecidableEq, Repr

/-- The wrapper's token and the underlying token.
`contracts/src/token/erc721/extensions/wrapper.rs` 71-78, composed as in `examples/erc721-wrapper/src/lib.rs`. -/
structure State where
  self_ : Address
  under : Address
  token : Erc721.State
  underlying : Erc721.State

/-- Error conversion for the wrapper's own token.
The `?` on token calls in `contracts/src/token/erc721/extensions/wrapper.rs` 82-297. -/
def lift {α : Type} : Except Erc721.Err α → Except Err α
  | .ok a => .ok a
  | .error e => .error (.erc721 e)

/-- Error conversion for calls to the underlying, `wrapper.rs` 123-137 and 182-196. -/
def liftCall {α : Type} : Except Erc721.Err α → Except Err α
  | .ok a => .ok a
  | .error e => .error (.failedOperation e)

/-- Calls on the underlying by anybody but the wrapper.
The underlying is an ERC-721 as in `contracts/src/token/erc721/mod.rs` 409-491. -/
inductive UCall where
  | user (c : Erc721.UserCall)
  | mint (dst : Address) (id : U256)
  | safeMint (dst : Address) (id : U256) (data : Bytes)

/-- A transaction on the underlying: sender, how receivers behave, call.
A call of `contracts/src/token/erc721/mod.rs` 409-491. -/
structure UTx where
  caller : Address
  receivers : Receivers
  call : UCall

/-- The same as a transaction of the ERC-721 model. -/
def UCall.toCall : UCall → Erc721.UserCall ⊕ Erc721.AdminCall
  | .user c => .inl c
  | .mint dst id => .inr (.mint dst id)
  | .safeMint dst id data => .inr (.safeMint dst id data)

/-- Receivers while the wrapper is executing: a call back into it fails.
Environment of the external calls in `contracts/src/token/erc721/extensions/wrapper.rs` 82-297. -/
def locked (self_ : Address) (R : Receivers) : Receivers :=
  fun a => if a = self_ then some (fun _ _ _ _ => .failure) else R a

/-- A call on the underlying while the wrapper is executing.
Environment of the external calls in `contracts/src/token/erc721/extensions/wrapper.rs` 82-297. -/
def execLocked (self_ : Address) (u : Erc721.State) (tx : UTx) : Except Erc721.Err Erc721.State :=
  if tx.caller = self_ then .error (.invalidSender self_)
  else Erc721.exec u ⟨tx.caller, locked self_ tx.receivers, tx.call.toCall⟩

/-- What others do to the underlying while the wrapper waits for an answer.
Environment of the external calls in `contracts/src/token/erc721/extensions/wrapper.rs` 82-297. -/
def others (self_ : Address) (u : Erc721.State) (txs : List UTx) : Erc721.State :=
  runOf (execLocked self_) u txs

/-- The environment of one call: how receivers answer, and what they do to the underlying before the
callback for the `k`-th id from the end returns.
Environment of the external calls in `contracts/src/token/erc721/extensions/wrapper.rs` 82-297. -/
structure Env where
  receivers : Receivers
  acts : Nat → List UTx

/-- `_safe_mint` of the wrapper's token followed by whatever the receiver did meanwhile.  `caller` is the
sender of the wrapper's transaction, the operator told to the receiver.
`_safe_mint` as called in `contracts/src/token/erc721/extensions/wrapper.rs` 82-297. -/
def safeMintThen (env : Env) (s : State) (k : Nat) (caller account : Address) (id : U256) :
    Except Err State := do
  let t ← lift (Erc721.safeMint (locked s.self_ env.receivers) s.token caller account id [])
  return { s with token := t, underlying := others s.self_ s.underlying (env.acts k) }

/-- `deposit_for`, `wrapper.rs` 100-140: the loop over the ids. -/
def depositFor (env : Env) (caller account : Address) : State → List U256 → Except Err State
  | s, [] => .ok s
  | s, id :: ids => do
    let u ← liftCall (Erc721.transferFrom s.underlying s.self_ caller s.self_ id)
    let s1 ← safeMintThen env { s with underlying := u } ids.length caller account id
    depositFor env caller account s1 ids

/-- `withdraw_to`, `wrapper.rs` 160-199: the loop over the ids. -/
def withdrawTo (env : Env) (caller account : Address) : State → List U256 → Except Err State
  | s, [] => .ok s
  | s, id :: ids => do
    let r ← lift (Erc721.update s.token ZERO id caller)
    let u ← liftCall (Erc721.safeTransferFromWithData (locked s.self_ env.receivers) s.underlying s.self_
      s.self_ account id [])
    withdrawTo env caller account
      { s with token := r.2, underlying := others s.self_ u (env.acts ids.length) } ids

/-- `on_erc721_received`, `wrapper.rs` 218-236; `sender` is the contract that calls it. -/
def onReceived (env : Env) (s : State) (sender src : Address) (id : U256) : Except Err State := do
  if s.under ≠ sender then throw (.unsupportedToken sender)
  safeMintThen env s 0 sender src id

/-- `_recover`, `wrapper.rs` 266-296. -/
def recover (env : Env) (s : State) (caller account : Address) (id : U256) : Except Err State := do
  let owner ← liftCall (Erc721.ownerOf s.underlying id)
  if owner ≠ s.self_ then throw (.erc721 (.incorrectOwner s.self_ id owner))
  safeMintThen env s 0 caller account id

/-- The transfer or mint calls the wrapper's receiver hook: sender of the token and its id.
When `on_erc721_received`, `contracts/src/token/erc721/extensions/wrapper.rs` 218-236, is called. -/
def hooked (self_ : Address) : UCall → Option (Address × U256)
  | .user (.safeTransferFrom src dst id) => if dst = self_ then some (src, id) else none
  | .user (.safeTransferFromWithData src dst id _) => if dst = self_ then some (src, id) else none
  | .safeMint dst id _ => if dst = self_ then some (ZERO, id) else none
  | _ => none

/-- Receivers as the underlying sees them when the wrapper is idle: the wrapper accepts (whether it really
does is settled by running its hook).
Calls `on_erc721_received`, `contracts/src/token/erc721/extensions/wrapper.rs` 218-236. -/
def hooking (self_ : Address) (R : Receivers) : Receivers :=
  fun a => if a = self_ then some (fun _ _ _ _ => .selector RECEIVER_FN_SELECTOR) else R a

/-- A call on the underlying while the wrapper is idle.  A safe transfer to the wrapper runs its hook, and
fails if the hook fails (`erc721/mod.rs` 993-1035: the new owner is stored before the callback). -/
def execUnderlying (env : Env) (s : State) (tx : UTx) : Except Err State := do
  if tx.caller = s.self_ then throw .notPossible
  let u ← lift (Erc721.exec s.underlying ⟨tx.caller, hooking s.self_ tx.receivers, tx.call.toCall⟩)
  let s1 := { s with underlying := u }
  match hooked s.self_ tx.call with
  | none => return s1
  | some (src, id) => onReceived env s1 s.under src id

/-- Calls on the wrapper's own token (`examples/erc721-wrapper/src/lib.rs` inherits `Erc721`; there is no
public mint or burn). -/
inductive TokenCall where
  | transferFrom (src dst : Address) (id : U256)
  | safeTransferFrom (src dst : Address) (id : U256)
  | safeTransferFromWithData (src dst : Address) (id : U256) (data : Bytes)
  | approve (dst : Address) (id : U256)
  | setApprovalForAll (operator : Address) (approved : Bool)

/-- The same as a call of the ERC-721 model. -/
def TokenCall.toCall : TokenCall → Erc721.UserCall
  | .transferFrom src dst id => .transferFrom src dst id
  | .safeTransferFrom src dst id => .safeTransferFrom src dst id
  | .safeTransferFromWithData src dst id data => .safeTransferFromWithData src dst id data
  | .approve dst id => .approve dst id
  | .setApprovalForAll op b => .setApprovalForAll op b

/-- Everything that can happen in the two-contract world.
Models `contracts/src/token/erc721/extensions/wrapper.rs` 82-297 and the public calls of both tokens. -/
inductive Call where
  | depositFor (account : Address) (ids : List U256)
  | withdrawTo (account : Address) (ids : List U256)
  | onReceived (operator src : Address) (id : U256) (data : Bytes)
  | recover (account : Address) (id : U256)
  | token (c : TokenCall)
  | underlying (receivers : Receivers) (c : UCall)

/-- One transaction: sender, environment, call.
A call of `contracts/src/token/erc721/extensions/wrapper.rs` 82-297 or of one of the tokens. -/
structure Tx where
  caller : Address
  env : Env
  call : Call

/-- One transaction.  Neither contract nor the zero address sends transactions of its own: what they do
happens inside the functions above.
Models `contracts/src/token/erc721/extensions/wrapper.rs` 82-297. -/
def exec (s : State) (tx : Tx) : Except Err State :=
  if tx.caller = s.self_ ∨ tx.caller = s.under ∨ tx.caller = ZERO then .error .notPossible
  else match tx.call with
  | .depositFor account ids => depositFor tx.env tx.caller account s ids
  | .withdrawTo account ids => withdrawTo tx.env tx.caller account s ids
  | .onReceived _ src id _ => onReceived tx.env s tx.caller src id
  | .recover account id => recover tx.env s tx.caller account id
  | .token c => do
    let t ← lift (Erc721.execUser (locked s.self_ tx.env.receivers) s.token tx.caller c.toCall)
    return { s with token := t, underlying := others s.self_ s.underlying (tx.env.acts 0) }
  | .underlying R c => execUnderlying tx.env s ⟨tx.caller, R, c⟩

/-- A history.
Sequences of such transactions (`contracts/src/token/erc721/extensions/wrapper.rs` 82-297); a failed transaction leaves no trace (Stylus reverts). -/
def run (s : State) (txs : List Tx) : State := runOf exec s txs

/-- A new wrapper over a new token.
Zero-initialised storage of `contracts/src/token/erc721/extensions/wrapper.rs` 71-78. -/
def init (self_ under : Address) : State :=
  { self_ := self_, under := under, token := Erc721.init, underlying := Erc721.init }

end Verif.Wrapper721
