import Verif.Model.CallTree
import Verif.Model.Erc721
import Verif.Model.Erc1155
/-! # The token contracts when receivers call back

Line numbers are in `/repo/contracts/src/token`.  These are the functions of `Model/Erc721.lean` and
`Model/Erc1155.lean` that notify a receiver, with the state threaded through the notification: `inside`
is what happens to the contract's own state while the receiver runs.  `Receivers` still says which
addresses have code and what they finally answer.  All other functions make no outgoing call and are
used as they are. -/

namespace Verif.Erc721.Reentrant
open Verif.Erc721

/-- `_check_on_erc721_received`, `erc721/mod.rs` 993-1035: nothing if the receiver has no code (1001-1003);
else the call, during which the state changes by `inside` (1005-1008); then the answer is examined. -/
def checkOnReceived (inside : State → State) (R : Receivers) (s : State) (operator src dst : Address)
    (id : U256) (data : Bytes) : Except Err State :=
  match R dst with
  | none => .ok s
  | some f =>
    let s1 := inside s
    match f operator src id data with
    | .selector sel => if sel ≠ RECEIVER_FN_SELECTOR then .error (.invalidReceiver dst) else .ok s1
    | .revert reason =>
      if reason ≠ [] then .error (.invalidReceiverWithReason reason) else .error (.invalidReceiver dst)
    | .failure => .error (.invalidReceiver dst)

/-- `safe_transfer_from_with_data`, `erc721/mod.rs` 433-442. -/
def safeTransferFromWithData (inside : State → State) (R : Receivers) (s : State)
    (caller src dst : Address) (id : U256) (data : Bytes) : Except Err State := do
  let s1 ← transferFrom s caller src dst id
  checkOnReceived inside R s1 caller src dst id data

/-- `_safe_mint`, `erc721/mod.rs` 732-746. -/
def safeMint (inside : State → State) (R : Receivers) (s : State) (caller dst : Address) (id : U256)
    (data : Bytes) : Except Err State := do
  let s1 ← mint s dst id
  checkOnReceived inside R s1 caller ZERO dst id data

/-- `_safe_transfer`, `erc721/mod.rs` 852-861. -/
def safeTransferInternal (inside : State → State) (R : Receivers) (s : State) (caller src dst : Address)
    (id : U256) (data : Bytes) : Except Err State := do
  let s1 ← transferInternal s src dst id
  checkOnReceived inside R s1 caller src dst id data

/-- One call; `inside` is what happens while a receiver is being notified.
Models `erc721/mod.rs` 409-1036 and `erc721/extensions/burnable.rs` 32-50, as `Erc721.exec` does. -/
def execWith (inside : State → State) (s : State) (tx : Tx) : Except Err State :=
  if tx.caller = ZERO then .error (.invalidSender ZERO)
  else match tx.call with
    | .inl (.safeTransferFrom src dst id) =>
      safeTransferFromWithData inside tx.receivers s tx.caller src dst id []
    | .inl (.safeTransferFromWithData src dst id data) =>
      safeTransferFromWithData inside tx.receivers s tx.caller src dst id data
    | .inl c => execUser tx.receivers s tx.caller c
    | .inr (.safeMint dst id data) => safeMint inside tx.receivers s tx.caller dst id data
    | .inr (.safeTransfer src dst id data) =>
      safeTransferInternal inside tx.receivers s tx.caller src dst id data
    | .inr c => execAdmin tx.receivers s tx.caller c

/-- A history of calls with everything that happens inside them.
Sequences of calls of `erc721/mod.rs` 409-1036. -/
def run (s : State) (calls : List (CallTree Tx)) : State := CallTree.execAll execWith s calls

end Verif.Erc721.Reentrant

namespace Verif.Erc1155.Reentrant
open Verif.Erc1155

/-- `_check_on_erc1155_received`, `erc1155/mod.rs` 748-792, the state changing by `inside` during the call. -/
def checkOnReceived {σ : Type} (inside : σ → σ) (R : Receivers) (s : σ) (dst : Address)
    (details : BitVec 32 × Notice) : Except Err σ :=
  match R dst with
  | none => .ok s
  | some f =>
    let s1 := inside s
    match f details.2 with
    | .selector sel => if sel ≠ details.1 then .error (.invalidReceiver dst) else .ok s1
    | .revert reason =>
      if reason ≠ [] then .error (.invalidReceiverWithReason reason) else .error (.invalidReceiver dst)
    | .failure => .error (.invalidReceiver dst)

/-- `_update_with_acceptance_check`, `erc1155/mod.rs` 521-542. -/
def updateWithAcceptanceCheck (inside : State → State) (R : Receivers) (s : State)
    (operator src dst : Address) (ids values : List U256) (data : Bytes) : Except Err State := do
  let s1 ← update s operator src dst ids values
  if dst ≠ ZERO then checkOnReceived inside R s1 dst (receiverData operator src ids values data)
  else return s1

/-- `_do_mint`, `erc1155/mod.rs` 829-849. -/
def doMint (inside : State → State) (R : Receivers) (s : State) (caller dst : Address)
    (ids values : List U256) (data : Bytes) : Except Err State := do
  if dst = ZERO then throw (.invalidReceiver dst)
  updateWithAcceptanceCheck inside R s caller ZERO dst ids values data

/-- `_do_burn`, `erc1155/mod.rs` 874-893. -/
def doBurn (inside : State → State) (R : Receivers) (s : State) (caller src : Address)
    (ids values : List U256) : Except Err State := do
  if src = ZERO then throw (.invalidSender src)
  updateWithAcceptanceCheck inside R s caller src ZERO ids values []

/-- `do_safe_transfer_from`, `erc1155/mod.rs` 930-949. -/
def doSafeTransferFrom (inside : State → State) (R : Receivers) (s : State) (caller src dst : Address)
    (ids values : List U256) (data : Bytes) : Except Err State := do
  if dst = ZERO then throw (.invalidReceiver dst)
  if src = ZERO then throw (.invalidSender src)
  updateWithAcceptanceCheck inside R s caller src dst ids values data

/-- One call; `inside` is what happens while a receiver is being notified.
Models `erc1155/mod.rs` 361-713 and `erc1155/extensions/burnable.rs` 68-90, as `Erc1155.exec` does. -/
def execWith (inside : State → State) (s : State) (tx : Tx) : Except Err State :=
  match tx.call with
  | .inl (.safeTransferFrom src dst id v data) => do
    authorizeTransfer s tx.caller src
    doSafeTransferFrom inside tx.receivers s tx.caller src dst [id] [v] data
  | .inl (.safeBatchTransferFrom src dst ids vs data) => do
    authorizeTransfer s tx.caller src
    doSafeTransferFrom inside tx.receivers s tx.caller src dst ids vs data
  | .inl (.setApprovalForAll op b) => setApprovalForAll s tx.caller op b
  | .inl (.burn a id v) => do
    authorizeTransfer s tx.caller a
    doBurn inside tx.receivers s tx.caller a [id] [v]
  | .inl (.burnBatch a ids vs) => do
    authorizeTransfer s tx.caller a
    doBurn inside tx.receivers s tx.caller a ids vs
  | .inr (.mint dst id v data) => doMint inside tx.receivers s tx.caller dst [id] [v] data
  | .inr (.mintBatch dst ids vs data) => doMint inside tx.receivers s tx.caller dst ids vs data
  | .inr (.burn src id v) => doBurn inside tx.receivers s tx.caller src [id] [v]
  | .inr (.burnBatch src ids vs) => doBurn inside tx.receivers s tx.caller src ids vs

/-- A history of calls with everything that happens inside them.
Sequences of calls of `erc1155/mod.rs` 361-713. -/
def run (s : State) (calls : List (CallTree Tx)) : State := CallTree.execAll execWith s calls

end Verif.Erc1155.Reentrant

namespace Verif.Erc1155Supply.Reentrant
open Verif.Erc1155Supply
open Verif.Erc1155 (Err Receivers)
open Verif.Erc1155.Reentrant (checkOnReceived)

/-- `_update_with_acceptance_check`, `erc1155/extensions/supply.rs` 288-309. -/
def updateWithAcceptanceCheck (inside : State → State) (R : Receivers) (s : State)
    (operator src dst : Address) (ids values : List U256) (data : Bytes) : Except Err State := do
  let s1 ← update s operator src dst ids values
  if dst ≠ ZERO then
    checkOnReceived inside R s1 dst (Erc1155.receiverData operator src ids values data)
  else return s1

/-- `_do_mint`, `erc1155/extensions/supply.rs` 311-331. -/
def doMint (inside : State → State) (R : Receivers) (s : State) (caller dst : Address)
    (ids values : List U256) (data : Bytes) : Except Err State := do
  if dst = ZERO then throw (.invalidReceiver dst)
  updateWithAcceptanceCheck inside R s caller ZERO dst ids values data

/-- `_do_burn`, `erc1155/extensions/supply.rs` 333-352. -/
def doBurn (inside : State → State) (R : Receivers) (s : State) (caller src : Address)
    (ids values : List U256) : Except Err State := do
  if src = ZERO then throw (.invalidSender src)
  updateWithAcceptanceCheck inside R s caller src ZERO ids values []

/-- `do_safe_transfer_from`, `erc1155/extensions/supply.rs` 354-373. -/
def doSafeTransferFrom (inside : State → State) (R : Receivers) (s : State) (caller src dst : Address)
    (ids values : List U256) (data : Bytes) : Except Err State := do
  if dst = ZERO then throw (.invalidReceiver dst)
  if src = ZERO then throw (.invalidSender src)
  updateWithAcceptanceCheck inside R s caller src dst ids values data

/-- One call; `inside` is what happens while a receiver is being notified.
Models `erc1155/extensions/supply.rs` 87-209, as `Erc1155Supply.exec` does. -/
def execWith (inside : State → State) (s : State) (tx : Tx) : Except Err State :=
  match tx.call with
  | .safeTransferFrom src dst id v data => do
    Erc1155.authorizeTransfer s.erc1155 tx.caller src
    doSafeTransferFrom inside tx.receivers s tx.caller src dst [id] [v] data
  | .safeBatchTransferFrom src dst ids vs data => do
    Erc1155.authorizeTransfer s.erc1155 tx.caller src
    doSafeTransferFrom inside tx.receivers s tx.caller src dst ids vs data
  | .setApprovalForAll op b => do
    return { s with erc1155 := (← Erc1155.setApprovalForAll s.erc1155 tx.caller op b) }
  | .mint dst id v data => doMint inside tx.receivers s tx.caller dst [id] [v] data
  | .mintBatch dst ids vs data => doMint inside tx.receivers s tx.caller dst ids vs data
  | .burn src id v => doBurn inside tx.receivers s tx.caller src [id] [v]
  | .burnBatch src ids vs => doBurn inside tx.receivers s tx.caller src ids vs

/-- A history of calls with everything that happens inside them.
Sequences of calls of `erc1155/extensions/supply.rs` 87-209. -/
def run (s : State) (calls : List (CallTree Tx)) : State := CallTree.execAll execWith s calls

end Verif.Erc1155Supply.Reentrant
