import Verif.Model.Crypto
/-!
# Model of `token/erc721/mod.rs` and `token/erc721/extensions/burnable.rs`

Receivers of safe transfers are a parameter: for each address with code, what its `onERC721Received`
answers to each set of arguments.  The contract is compiled without the `reentrant` feature, so a
receiver cannot change the token's state from inside the callback.
-/

namespace Verif.Erc721

/-- `mod.rs` 145-178.  `invalidReceiverWithReason` carries the revert data. -/
inductive Err where
  | invalidOwner (owner : Address)
  | nonexistentToken (tokenId : U256)
  | incorrectOwner (sender : Address) (tokenId : U256) (owner : Address)
  | invalidSender (sender : Address)
  | invalidReceiver (receiver : Address)
  | invalidReceiverWithReason (reason : Bytes)
  | insufficientApproval (operator : Address) (tokenId : U256)
  | invalidApprover (approver : Address)
  | invalidOperator (operator : Address)
  deriving DecidableEq, Repr

/-- Events, `mod.rs` 41-70. -/
inductive Event where
  | transfer (src dst : Address) (tokenId : U256)
  | approval (owner approved : Address) (tokenId : U256)
  | approvalForAll (owner operator : Address) (approved : Bool)
  deriving DecidableEq, Repr

/-- Storage, `mod.rs` 188-198, and the event log. -/
structure State where
  owners : U256 → Address
  balances : Address → U256
  tokenApprovals : U256 → Address
  operatorApprovals : Address → Address → Bool
  log : List Event

/-- A newly deployed token: all storage is zero.
Models `contracts/src/token/erc721/mod.rs` 187-200. -/
def init : State :=
  { owners := fun _ => ZERO, balances := fun _ => 0#256, tokenApprovals := fun _ => ZERO,
    operatorApprovals := fun _ _ => false, log := [] }

/-- What a call to a receiver's `onERC721Received` gives: four bytes, a revert with data, or another
failure. -/
inductive Answer where
  | selector (id : BitVec 32)
  | revert (reason : Bytes)
  | failure

/-- Receivers: `none` for an address without code.
The environment of `_check_on_erc721_received`, `contracts/src/token/erc721/mod.rs` 993-1035. -/
abbrev Receivers := Address → Option (Address → Address → U256 → Bytes → Answer)

/-- `RECEIVER_FN_SELECTOR`, `mod.rs` 25-26: the selector of `onERC721Received`, `0x150b7a02`. -/
def RECEIVER_FN_SELECTOR : BitVec 32 := 0x150b7a02#32

/-- `balance_of`, `mod.rs` 412-417. -/
def balanceOf (s : State) (owner : Address) : Except Err U256 :=
  if owner = ZERO then .error (.invalidOwner ZERO) else .ok (s.balances owner)

/-- `_owner_of`, `mod.rs` 516-518. -/
def ownerOfInternal (s : State) (id : U256) : Address := s.owners id

/-- `_get_approved`, `mod.rs` 528-530. -/
def getApprovedInternal (s : State) (id : U256) : Address := s.tokenApprovals id

/-- `is_approved_for_all`, `mod.rs` 488-490. -/
def isApprovedForAll (s : State) (owner operator : Address) : Bool := s.operatorApprovals owner operator

/-- `_require_owned`, `mod.rs` 960-966. -/
def requireOwned (s : State) (id : U256) : Except Err Address :=
  let owner := ownerOfInternal s id
  if owner = ZERO then .error (.nonexistentToken id) else .ok owner

/-- `owner_of`, `mod.rs` 419-421. -/
def ownerOf (s : State) (id : U256) : Except Err Address := requireOwned s id

/-- `get_approved`, `mod.rs` 483-486. -/
def getApproved (s : State) (id : U256) : Except Err Address := do
  let _ ← requireOwned s id
  return getApprovedInternal s id

/-- `_is_authorized`, `mod.rs` 545-555. -/
def isAuthorized (s : State) (owner spender : Address) (id : U256) : Bool :=
  spender ≠ ZERO && (owner = spender || isApprovedForAll s owner spender ||
    getApprovedInternal s id = spender)

/-- `_check_authorized`, `mod.rs` 577-592. -/
def checkAuthorized (s : State) (owner operator : Address) (id : U256) : Except Err Unit :=
  if isAuthorized s owner operator id then .ok ()
  else if owner = ZERO then .error (.nonexistentToken id)
  else .error (.insufficientApproval operator id)

/-- `_approve`, `mod.rs` 886-913. -/
def approveInternal (s : State) (dst : Address) (id : U256) (auth : Address) (emitEvent : Bool) :
    Except Err State := do
  let s1 ← if emitEvent = true ∨ auth ≠ ZERO then do
      let owner ← requireOwned s id
      if auth ≠ ZERO ∧ owner ≠ auth ∧ isApprovedForAll s owner auth = false then
        throw (.invalidApprover auth)
      pure (if emitEvent then { s with log := s.log ++ [.approval owner dst id] } else s)
    else pure s
  return { s1 with tokenApprovals := upd s1.tokenApprovals id dst }

/-- `_update`, `mod.rs` 644-672; returns the previous owner. -/
def update (s : State) (dst : Address) (id : U256) (auth : Address) : Except Err (Address × State) := do
  let src := ownerOfInternal s id
  if auth ≠ ZERO then checkAuthorized s src auth id
  let s1 ← if src ≠ ZERO then do
      let t ← approveInternal s ZERO id ZERO false
      pure { t with balances := upd t.balances src (t.balances src - 1#256) }
    else pure s
  let s2 := if dst ≠ ZERO then { s1 with balances := upd s1.balances dst (s1.balances dst + 1#256) }
    else s1
  return (src, { s2 with owners := upd s2.owners id dst, log := s2.log ++ [.transfer src dst id] })

/-- `_increase_balance`, `mod.rs` 612-614 (`value` is a `U128`). -/
def increaseBalance (s : State) (account : Address) (value : BitVec 128) : State :=
  { s with balances := upd s.balances account (s.balances account + value.setWidth 256) }

/-- `_mint`, `mod.rs` 693-705. -/
def mint (s : State) (dst : Address) (id : U256) : Except Err State := do
  if dst = ZERO then throw (.invalidReceiver ZERO)
  let (previousOwner, s1) ← update s dst id ZERO
  if previousOwner ≠ ZERO then throw (.invalidSender ZERO)
  return s1

/-- `_burn`, `mod.rs` 766-773. -/
def burnInternal (s : State) (id : U256) : Except Err State := do
  let (previousOwner, s1) ← update s ZERO id ZERO
  if previousOwner = ZERO then throw (.nonexistentToken id)
  return s1

/-- `_transfer`, `mod.rs` 796-821. -/
def transferInternal (s : State) (src dst : Address) (id : U256) : Except Err State := do
  if dst = ZERO then throw (.invalidReceiver ZERO)
  let (previousOwner, s1) ← update s dst id ZERO
  if previousOwner = ZERO then throw (.nonexistentToken id)
  if previousOwner ≠ src then throw (.incorrectOwner src id previousOwner)
  return s1

/-- `transfer_from`, `mod.rs` 444-469. -/
def transferFrom (s : State) (caller src dst : Address) (id : U256) : Except Err State := do
  if dst = ZERO then throw (.invalidReceiver ZERO)
  let (previousOwner, s1) ← update s dst id caller
  if previousOwner ≠ src then throw (.incorrectOwner src id previousOwner)
  return s1

/-- `_check_on_erc721_received`, `mod.rs` 993-1035. -/
def checkOnReceived (R : Receivers) (operator src dst : Address) (id : U256) (data : Bytes) :
    Except Err Unit :=
  match R dst with
  | none => .ok ()
  | some f =>
    match f operator src id data with
    | .selector sel => if sel ≠ RECEIVER_FN_SELECTOR then .error (.invalidReceiver dst) else .ok ()
    | .revert reason =>
      if reason ≠ [] then .error (.invalidReceiverWithReason reason) else .error (.invalidReceiver dst)
    | .failure => .error (.invalidReceiver dst)

/-- `safe_transfer_from_with_data`, `mod.rs` 433-442. -/
def safeTransferFromWithData (R : Receivers) (s : State) (caller src dst : Address) (id : U256)
    (data : Bytes) : Except Err State := do
  let s1 ← transferFrom s caller src dst id
  checkOnReceived R caller src dst id data
  return s1

/-- `safe_transfer_from`, `mod.rs` 423-430. -/
def safeTransferFrom (R : Receivers) (s : State) (caller src dst : Address) (id : U256) :
    Except Err State := safeTransferFromWithData R s caller src dst id []

/-- `_safe_mint`, `mod.rs` 732-746. -/
def safeMint (R : Receivers) (s : State) (caller dst : Address) (id : U256) (data : Bytes) :
    Except Err State := do
  let s1 ← mint s dst id
  checkOnReceived R caller ZERO dst id data
  return s1

/-- `_safe_transfer`, `mod.rs` 852-861. -/
def safeTransferInternal (R : Receivers) (s : State) (caller src dst : Address) (id : U256)
    (data : Bytes) : Except Err State := do
  let s1 ← transferInternal s src dst id
  checkOnReceived R caller src dst id data
  return s1

/-- `approve`, `mod.rs` 471-473. -/
def approve (s : State) (caller dst : Address) (id : U256) : Except Err State :=
  approveInternal s dst id caller true

/-- `_set_approval_for_all`, `mod.rs` 931-944. -/
def setApprovalForAllInternal (s : State) (owner operator : Address) (approved : Bool) :
    Except Err State :=
  if operator = ZERO then .error (.invalidOperator operator)
  else .ok { s with
    operatorApprovals := upd2 s.operatorApprovals owner operator approved
    log := s.log ++ [.approvalForAll owner operator approved] }

/-- `set_approval_for_all`, `mod.rs` 475-481. -/
def setApprovalForAll (s : State) (caller operator : Address) (approved : Bool) : Except Err State :=
  setApprovalForAllInternal s caller operator approved

/-- `burn`, `extensions/burnable.rs` 35-44. -/
def burn (s : State) (caller : Address) (id : U256) : Except Err State := do
  let (_, s1) ← update s ZERO id caller
  return s1

/-- Calls by users, `mod.rs` 409-491 and `extensions/burnable.rs` 32-45. -/
inductive UserCall where
  | transferFrom (src dst : Address) (id : U256)
  | safeTransferFrom (src dst : Address) (id : U256)
  | safeTransferFromWithData (src dst : Address) (id : U256) (data : Bytes)
  | approve (dst : Address) (id : U256)
  | setApprovalForAll (operator : Address) (approved : Bool)
  | burn (id : U256)

/-- Calls the integrating contract may make on its own authority.
Models the internal functions `contracts/src/token/erc721/mod.rs` 500-1036. -/
inductive AdminCall where
  | mint (dst : Address) (id : U256)
  | safeMint (dst : Address) (id : U256) (data : Bytes)
  | burn (id : U256)
  | transfer (src dst : Address) (id : U256)
  | safeTransfer (src dst : Address) (id : U256) (data : Bytes)

/-- A user's call.
Models the router for `contracts/src/token/erc721/mod.rs` 409-491 and `extensions/burnable.rs` 32-50. -/
def execUser (R : Receivers) (s : State) (caller : Address) : UserCall → Except Err State
  | .transferFrom src dst id => transferFrom s caller src dst id
  | .safeTransferFrom src dst id => safeTransferFrom R s caller src dst id
  | .safeTransferFromWithData src dst id data => safeTransferFromWithData R s caller src dst id data
  | .approve dst id => approve s caller dst id
  | .setApprovalForAll op b => setApprovalForAll s caller op b
  | .burn id => burn s caller id

/-- A call by the integrating contract on behalf of `caller`.
Models the internal functions `contracts/src/token/erc721/mod.rs` 500-1036. -/
def execAdmin (R : Receivers) (s : State) (caller : Address) : AdminCall → Except Err State
  | .mint dst id => mint s dst id
  | .safeMint dst id data => safeMint R s caller dst id data
  | .burn id => burnInternal s id
  | .transfer src dst id => transferInternal s src dst id
  | .safeTransfer src dst id data => safeTransferInternal R s caller src dst id data

/-- One transaction: who sends it, how receivers behave at that moment, and the call.
A call of `contracts/src/token/erc721/mod.rs` 409-1036. -/
structure Tx where
  caller : Address
  receivers : Receivers
  call : UserCall ⊕ AdminCall

/-- One transaction.  No transaction has the zero address as its sender: such a one is refused here
(as an `invalidSender`).
Models `contracts/src/token/erc721/mod.rs` 409-1036. -/
def exec (s : State) (tx : Tx) : Except Err State :=
  if tx.caller = ZERO then .error (.invalidSender ZERO)
  else match tx.call with
    | .inl c => execUser tx.receivers s tx.caller c
    | .inr c => execAdmin tx.receivers s tx.caller c

/-- A history.
Sequences of such transactions (`contracts/src/token/erc721/mod.rs` 409-1036); a failed transaction leaves no trace (Stylus reverts). -/
def run (s : State) (txs : List Tx) : State := runOf exec s txs

end Verif.Erc721
