import Verif.Model.Crypto
/-!
# Model of `token/erc1155/mod.rs`, `extensions/burnable.rs` and `extensions/supply.rs`
-/

namespace Verif.Erc1155

/-- `enum Error`, `mod.rs` 161-191, plus panics.  The revert data of a receiver is kept as bytes. -/
inductive Err where
  | insufficientBalance (sender : Address) (balance needed id : U256)
  | invalidSender (sender : Address)
  | invalidReceiver (receiver : Address)
  | invalidReceiverWithReason (reason : Bytes)
  | missingApprovalForAll (operator owner : Address)
  | invalidOperator (operator : Address)
  | invalidArrayLength (idsLength valuesLength : U256)
  | panic
  deriving DecidableEq, Repr

/-- Events, `mod.rs` 54-82. -/
inductive Event where
  | transferSingle (operator src dst : Address) (id value : U256)
  | transferBatch (operator src dst : Address) (ids values : List U256)
  | approvalForAll (account operator : Address) (approved : Bool)
  deriving DecidableEq, Repr

/-- Storage, `mod.rs` 201-207. -/
structure State where
  balances : U256 → Address → U256
  operatorApprovals : Address → Address → Bool
  log : List Event

/-- Newly deployed.
Zero-initialised storage of `contracts/src/token/erc1155/mod.rs` 200-209. -/
def init : State :=
  { balances := fun _ _ => 0#256, operatorApprovals := fun _ _ => false, log := [] }

/-- What a receiver is told: `Transfer` with the selector of the function called, `mod.rs` 1054-1130. -/
inductive Notice where
  | single (operator src : Address) (id value : U256) (data : Bytes)
  | batch (operator src : Address) (ids values : List U256) (data : Bytes)
  deriving DecidableEq, Repr

/-- What comes back from a receiver: a selector, a revert with data, or another failure.
The three outcomes distinguished in `contracts/src/token/erc1155/mod.rs` `_check_on_erc1155_received`, 748-792. -/
inductive Answer where
  | selector (sel : BitVec 32)
  | revert (reason : Bytes)
  | failure
  deriving DecidableEq, Repr

/-- Accounts with code, and how they answer.
The environment of `_check_on_erc1155_received`, `contracts/src/token/erc1155/mod.rs` 748-792. -/
abbrev Receivers := Address → Option (Notice → Answer)

/-- `SINGLE_TRANSFER_FN_SELECTOR`, `mod.rs` 24-31. -/
def SINGLE_SELECTOR : BitVec 32 := 0xf23a6e61#32
/-- `BATCH_TRANSFER_FN_SELECTOR`, `mod.rs` 35-42. -/
def BATCH_SELECTOR : BitVec 32 := 0xbc197c81#32

/-- `balance_of`, `mod.rs` 364-366. -/
def balanceOf (s : State) (account : Address) (id : U256) : U256 := s.balances id account

/-- `require_equal_arrays_length`, `mod.rs` 1016-1027 (lengths as `U256`). -/
def requireEqualLength {α β : Type} (ids : List α) (values : List β) : Except Err Unit :=
  if ids.length ≠ values.length then
    .error (.invalidArrayLength (BitVec.ofNat 256 ids.length) (BitVec.ofNat 256 values.length))
  else .ok ()

/-- `balance_of_batch`, `mod.rs` 368-382. -/
def balanceOfBatch (s : State) (accounts : List Address) (ids : List U256) : Except Err (List U256) := do
  requireEqualLength ids accounts
  return (accounts.zip ids).map fun p => balanceOf s p.1 p.2

/-- `is_approved_for_all`, `mod.rs` 392-394. -/
def isApprovedForAll (s : State) (account operator : Address) : Bool := s.operatorApprovals account operator

/-- `do_update`, `mod.rs` 970-1003. -/
def doUpdate (s : State) (src dst : Address) (id value : U256) : Except Err State := do
  let s1 ← if src ≠ ZERO then do
      let srcBalance := balanceOf s src id
      if srcBalance < value then throw (.insufficientBalance src srcBalance value id)
      pure { s with balances := upd2 s.balances id src (s.balances id src - value) }
    else pure s
  if dst ≠ ZERO then do
    let b ← orPanic .panic (checkedAdd (s1.balances id dst) value)
    return { s1 with balances := upd2 s1.balances id dst b }
  else return s1

/-- The loop of `_update`, `mod.rs` 471-473. -/
def doUpdates (s : State) (src dst : Address) : List (U256 × U256) → Except Err State
  | [] => .ok s
  | p :: ps => do
    let s1 ← doUpdate s src dst p.1 p.2
    doUpdates s1 src dst ps

/-- The event of `_update`, `mod.rs` 475-481. -/
def updateEvent (operator src dst : Address) (ids values : List U256) : Event :=
  match ids, values with
  | [id], [value] => .transferSingle operator src dst id value
  | _, _ => .transferBatch operator src dst ids values

/-- `_update`, `mod.rs` 460-484. -/
def update (s : State) (operator src dst : Address) (ids values : List U256) : Except Err State := do
  requireEqualLength ids values
  let s1 ← doUpdates s src dst (ids.zip values)
  return { s1 with log := s1.log ++ [updateEvent operator src dst ids values] }

/-- `Erc1155ReceiverData::new`, `mod.rs` 1076-1110: the selector expected and the notice sent. -/
def receiverData (operator src : Address) (ids values : List U256) (data : Bytes) : BitVec 32 × Notice :=
  match ids, values with
  | [id], [value] => (SINGLE_SELECTOR, .single operator src id value data)
  | _, _ => (BATCH_SELECTOR, .batch operator src ids values data)

/-- `_check_on_erc1155_received`, `mod.rs` 748-792. -/
def checkOnReceived (R : Receivers) (dst : Address) (details : BitVec 32 × Notice) : Except Err Unit :=
  match R dst with
  | none => .ok ()
  | some f =>
    match f details.2 with
    | .selector sel => if sel ≠ details.1 then .error (.invalidReceiver dst) else .ok ()
    | .revert reason =>
      if reason ≠ [] then .error (.invalidReceiverWithReason reason) else .error (.invalidReceiver dst)
    | .failure => .error (.invalidReceiver dst)

/-- `_update_with_acceptance_check`, `mod.rs` 521-542. -/
def updateWithAcceptanceCheck (R : Receivers) (s : State) (operator src dst : Address)
    (ids values : List U256) (data : Bytes) : Except Err State := do
  let s1 ← update s operator src dst ids values
  if dst ≠ ZERO then checkOnReceived R dst (receiverData operator src ids values data)
  return s1

/-- `_do_mint`, `mod.rs` 829-849; `_mint` 570-578 and `_mint_batch` 610-618 call it. -/
def doMint (R : Receivers) (s : State) (caller dst : Address) (ids values : List U256) (data : Bytes) :
    Except Err State := do
  if dst = ZERO then throw (.invalidReceiver dst)
  updateWithAcceptanceCheck R s caller ZERO dst ids values data

/-- `_do_burn`, `mod.rs` 874-893; `_burn` 639-646 and `_burn_batch` 671-678 call it. -/
def doBurn (R : Receivers) (s : State) (caller src : Address) (ids values : List U256) :
    Except Err State := do
  if src = ZERO then throw (.invalidSender src)
  updateWithAcceptanceCheck R s caller src ZERO ids values []

/-- `do_safe_transfer_from`, `mod.rs` 930-949. -/
def doSafeTransferFrom (R : Receivers) (s : State) (caller src dst : Address) (ids values : List U256)
    (data : Bytes) : Except Err State := do
  if dst = ZERO then throw (.invalidReceiver dst)
  if src = ZERO then throw (.invalidSender src)
  updateWithAcceptanceCheck R s caller src dst ids values data

/-- `authorize_transfer`, `mod.rs` 1040-1049, and `ensure_approved_or_owner`, `burnable.rs` 93-107. -/
def authorizeTransfer (s : State) (caller src : Address) : Except Err Unit :=
  if src ≠ caller ∧ isApprovedForAll s src caller = false then .error (.missingApprovalForAll caller src)
  else .ok ()

/-- `safe_transfer_from`, `mod.rs` 396-406. -/
def safeTransferFrom (R : Receivers) (s : State) (caller src dst : Address) (id value : U256)
    (data : Bytes) : Except Err State := do
  authorizeTransfer s caller src
  doSafeTransferFrom R s caller src dst [id] [value] data

/-- `safe_batch_transfer_from`, `mod.rs` 408-418. -/
def safeBatchTransferFrom (R : Receivers) (s : State) (caller src dst : Address) (ids values : List U256)
    (data : Bytes) : Except Err State := do
  authorizeTransfer s caller src
  doSafeTransferFrom R s caller src dst ids values data

/-- `_set_approval_for_all`, `mod.rs` 698-712, as called by `set_approval_for_all`, 384-390. -/
def setApprovalForAll (s : State) (caller operator : Address) (approved : Bool) : Except Err State :=
  if operator = ZERO then .error (.invalidOperator operator)
  else .ok { s with
    operatorApprovals := upd2 s.operatorApprovals caller operator approved
    log := s.log ++ [.approvalForAll caller operator approved] }

/-- `burn`, `burnable.rs` 71-79. -/
def burn (R : Receivers) (s : State) (caller account : Address) (id value : U256) : Except Err State := do
  authorizeTransfer s caller account
  doBurn R s caller account [id] [value]

/-- `burn_batch`, `burnable.rs` 81-89. -/
def burnBatch (R : Receivers) (s : State) (caller account : Address) (ids values : List U256) :
    Except Err State := do
  authorizeTransfer s caller account
  doBurn R s caller account ids values

/-- Calls by users.
Models the `#[public]` block `contracts/src/token/erc1155/mod.rs` 361-419 and `extensions/burnable.rs` 68-90. -/
inductive UserCall where
  | safeTransferFrom (src dst : Address) (id value : U256) (data : Bytes)
  | safeBatchTransferFrom (src dst : Address) (ids values : List U256) (data : Bytes)
  | setApprovalForAll (operator : Address) (approved : Bool)
  | burn (account : Address) (id value : U256)
  | burnBatch (account : Address) (ids values : List U256)

/-- Calls an integrating contract may make on its own authority.
Models the internal functions `contracts/src/token/erc1155/mod.rs` 428-713. -/
inductive AdminCall where
  | mint (dst : Address) (id value : U256) (data : Bytes)
  | mintBatch (dst : Address) (ids values : List U256) (data : Bytes)
  | burn (src : Address) (id value : U256)
  | burnBatch (src : Address) (ids values : List U256)

/-- A user's call.
Models the router for `contracts/src/token/erc1155/mod.rs` 361-419 and `extensions/burnable.rs` 68-90. -/
def execUser (R : Receivers) (s : State) (caller : Address) : UserCall → Except Err State
  | .safeTransferFrom src dst id v data => safeTransferFrom R s caller src dst id v data
  | .safeBatchTransferFrom src dst ids vs data => safeBatchTransferFrom R s caller src dst ids vs data
  | .setApprovalForAll op b => setApprovalForAll s caller op b
  | .burn a id v => burn R s caller a id v
  | .burnBatch a ids vs => burnBatch R s caller a ids vs

/-- A call of the integrating contract on behalf of `caller`.
Models `contracts/src/token/erc1155/mod.rs` 428-713. -/
def execAdmin (R : Receivers) (s : State) (caller : Address) : AdminCall → Except Err State
  | .mint dst id v data => doMint R s caller dst [id] [v] data
  | .mintBatch dst ids vs data => doMint R s caller dst ids vs data
  | .burn src id v => doBurn R s caller src [id] [v]
  | .burnBatch src ids vs => doBurn R s caller src ids vs

/-- One transaction.
A call of `contracts/src/token/erc1155/mod.rs` 361-713 with its sender and environment. -/
structure Tx where
  caller : Address
  receivers : Receivers
  call : UserCall ⊕ AdminCall

/-- One transaction.
Models `contracts/src/token/erc1155/mod.rs` 361-713. -/
def exec (s : State) (tx : Tx) : Except Err State :=
  match tx.call with
  | .inl c => execUser tx.receivers s tx.caller c
  | .inr c => execAdmin tx.receivers s tx.caller c

/-- A history.
Sequences of such transactions (`contracts/src/token/erc1155/mod.rs` 361-713); a failed transaction leaves no trace (Stylus reverts). -/
def run (s : State) (txs : List Tx) : State := runOf exec s txs

end Verif.Erc1155

namespace Verif.Erc1155Supply
open Verif.Erc1155 (Err Receivers)

/-- Storage, `supply.rs` 36-43. -/
structure State where
  erc1155 : Erc1155.State
  totalSupply : U256 → U256
  totalSupplyAll : U256

/-- Newly deployed.
Zero-initialised storage of `contracts/src/token/erc1155/extensions/supply.rs` 35-43. -/
def init : State := { erc1155 := Erc1155.init, totalSupply := fun _ => 0#256, totalSupplyAll := 0#256 }

/-- `total_supply`, `supply.rs` 88-90. -/
def totalSupplyOf (s : State) (id : U256) : U256 := s.totalSupply id
/-- `total_supply_all`, `supply.rs` 92-94. -/
def totalSupplyAllOf (s : State) : U256 := s.totalSupplyAll
/-- `exists`, `supply.rs` 96-98. -/
def exists_ (s : State) (id : U256) : Bool := decide (0#256 < totalSupplyOf s id)

/-- The loop of a mint, `supply.rs` 253-258. -/
def addSupplies (f : U256 → U256) : List (U256 × U256) → Except Err (U256 → U256)
  | [] => .ok f
  | p :: ps => do
    let t ← orPanic .panic (checkedAdd (f p.1) p.2)
    addSupplies (upd f p.1 t) ps

/-- The loop of a burn, `supply.rs` 268-275. -/
def subSupplies (f : U256 → U256) : List (U256 × U256) → (U256 → U256)
  | [] => f
  | p :: ps => subSupplies (upd f p.1 (f p.1 - p.2)) ps

/-- `values.iter().sum()` in `ruint`: wrapping addition.
Models `contracts/src/token/erc1155/extensions/supply.rs` 260 and 277. -/
def wrappingSum (values : List U256) : U256 := values.foldl (· + ·) 0#256

/-- `_update`, `supply.rs` 243-286. -/
def update (s : State) (operator src dst : Address) (ids values : List U256) : Except Err State := do
  let t ← Erc1155.update s.erc1155 operator src dst ids values
  let s1 := { s with erc1155 := t }
  let s2 ← if src = ZERO then do
      let f ← addSupplies s1.totalSupply (ids.zip values)
      let all ← orPanic .panic (checkedAdd s1.totalSupplyAll (wrappingSum values))
      pure { s1 with totalSupply := f, totalSupplyAll := all }
    else pure s1
  return if dst = ZERO then
      { s2 with totalSupply := subSupplies s2.totalSupply (ids.zip values)
                totalSupplyAll := s2.totalSupplyAll - wrappingSum values }
    else s2

/-- `_update_with_acceptance_check`, `supply.rs` 288-309. -/
def updateWithAcceptanceCheck (R : Receivers) (s : State) (operator src dst : Address)
    (ids values : List U256) (data : Bytes) : Except Err State := do
  let s1 ← update s operator src dst ids values
  if dst ≠ ZERO then
    Erc1155.checkOnReceived R dst (Erc1155.receiverData operator src ids values data)
  return s1

/-- `_do_mint`, `supply.rs` 311-331. -/
def doMint (R : Receivers) (s : State) (caller dst : Address) (ids values : List U256) (data : Bytes) :
    Except Err State := do
  if dst = ZERO then throw (.invalidReceiver dst)
  updateWithAcceptanceCheck R s caller ZERO dst ids values data

/-- `_do_burn`, `supply.rs` 333-352. -/
def doBurn (R : Receivers) (s : State) (caller src : Address) (ids values : List U256) :
    Except Err State := do
  if src = ZERO then throw (.invalidSender src)
  updateWithAcceptanceCheck R s caller src ZERO ids values []

/-- `do_safe_transfer_from`, `supply.rs` 354-373. -/
def doSafeTransferFrom (R : Receivers) (s : State) (caller src dst : Address) (ids values : List U256)
    (data : Bytes) : Except Err State := do
  if dst = ZERO then throw (.invalidReceiver dst)
  if src = ZERO then throw (.invalidSender src)
  updateWithAcceptanceCheck R s caller src dst ids values data

/-- Calls: the public ones of `supply.rs` 101-152 and the internal mints and burns of 154-209, which
`examples/erc1155-supply/src/lib.rs` exposes. -/
inductive Call where
  | safeTransferFrom (src dst : Address) (id value : U256) (data : Bytes)
  | safeBatchTransferFrom (src dst : Address) (ids values : List U256) (data : Bytes)
  | setApprovalForAll (operator : Address) (approved : Bool)
  | mint (dst : Address) (id value : U256) (data : Bytes)
  | mintBatch (dst : Address) (ids values : List U256) (data : Bytes)
  | burn (src : Address) (id value : U256)
  | burnBatch (src : Address) (ids values : List U256)

/-- One transaction.
A call of `contracts/src/token/erc1155/extensions/supply.rs` 87-209 with its sender and environment. -/
structure Tx where
  caller : Address
  receivers : Receivers
  call : Call

/-- One transaction.
Models `contracts/src/token/erc1155/extensions/supply.rs` 87-209. -/
def exec (s : State) (tx : Tx) : Except Err State :=
  match tx.call with
  | .safeTransferFrom src dst id v data => do
    Erc1155.authorizeTransfer s.erc1155 tx.caller src
    doSafeTransferFrom tx.receivers s tx.caller src dst [id] [v] data
  | .safeBatchTransferFrom src dst ids vs data => do
    Erc1155.authorizeTransfer s.erc1155 tx.caller src
    doSafeTransferFrom tx.receivers s tx.caller src dst ids vs data
  | .setApprovalForAll op b => do
    return { s with erc1155 := (← Erc1155.setApprovalForAll s.erc1155 tx.caller op b) }
  | .mint dst id v data => doMint tx.receivers s tx.caller dst [id] [v] data
  | .mintBatch dst ids vs data => doMint tx.receivers s tx.caller dst ids vs data
  | .burn src id v => doBurn tx.receivers s tx.caller src [id] [v]
  | .burnBatch src ids vs => doBurn tx.receivers s tx.caller src ids vs

/-- A history.
Sequences of such transactions (`contracts/src/token/erc1155/extensions/supply.rs` 87-209); a failed transaction leaves no trace (Stylus reverts). -/
def run (s : State) (txs : List Tx) : State := runOf exec s txs

end Verif.Erc1155Supply
