import Verif.Model.Erc721
import Verif.Model.Utils
import Verif.Model.Checkpoints
/-!
# Model of `token/erc721/extensions/consecutive.rs`

`Deref` to the base contract is a field.  The events of batch mints are kept in a log of their own, next
to the base contract's log.  Arithmetic on `U96` wraps, as in `ruint`.
-/

namespace Verif.Consecutive
open Verif.Erc721 (Receivers)

/-- `enum Error`, `consecutive.rs` 107-123 (the variants that the code can return). -/
inductive Err where
  | erc721 (e : Erc721.Err)
  | checkpoints (e : Checkpoints.Err)
  | exceededMaxBatchMint (batchSize maxBatch : U256)
  deriving DecidableEq, Repr

/-- `event ConsecutiveTransfer`, `consecutive.rs` 73-78. -/
structure ConsecutiveTransfer where
  fromTokenId : U256
  toTokenId : U256
  fromAddress : Address
  toAddress : Address
  deriving DecidableEq, Repr

/-- Storage, `consecutive.rs` 132-147. -/
structure State where
  erc721 : Erc721.State
  sequentialOwnership : Checkpoints.Trace 96 160
  sequentialBurn : BitMap.State
  firstConsecutiveId : U96
  maxBatchSize : U96
  batchLog : List ConsecutiveTransfer

/-- Newly deployed, before any batch: `examples/erc721-consecutive/src/constructor.sol` 42-43. -/
def init (first maxBatch : U96) : State :=
  { erc721 := Erc721.init, sequentialOwnership := [], sequentialBurn := BitMap.init,
    firstConsecutiveId := first, maxBatchSize := maxBatch, batchLog := [] }

/-- Error conversion.
The `?` on calls of the base contract in `contracts/src/token/erc721/extensions/consecutive.rs` 171-776. -/
def lift {α : Type} : Except Erc721.Err α → Except Err α
  | .ok a => .ok a
  | .error e => .error (.erc721 e)

/-- Error conversion (also carries the panic of a failed index).
The `?` on checkpoint calls in `contracts/src/token/erc721/extensions/consecutive.rs` 263-445. -/
def liftC {α : Type} : Except Checkpoints.Err α → Except Err α
  | .ok a => .ok a
  | .error e => .error (.checkpoints e)

/-- `_next_consecutive_id`, `consecutive.rs` 415-420. -/
def nextConsecutiveId (s : State) : Except Err U96 := do
  match ← liftC (Checkpoints.latestCheckpoint s.sequentialOwnership) with
  | none => return s.firstConsecutiveId
  | some (latestId, _) => return latestId + 1#96

/-- `_owner_of`, `consecutive.rs` 272-291.  `U96::MAX` as a `U256` is `2^96 - 1`. -/
def ownerOfInternal (s : State) (id : U256) : Except Err Address :=
  let owner := Erc721.ownerOfInternal s.erc721 id
  if owner ≠ ZERO ∨ id < s.firstConsecutiveId.setWidth 256 ∨ (BitVec.allOnes 96).setWidth 256 < id then
    .ok owner
  else if BitMap.get s.sequentialBurn id then .ok ZERO
  else liftC (Checkpoints.lowerLookup s.sequentialOwnership (id.setWidth 96))

/-- `_require_owned`, `consecutive.rs` 766-775. -/
def requireOwned (s : State) (id : U256) : Except Err Address := do
  let owner ← ownerOfInternal s id
  if owner = ZERO then throw (.erc721 (.nonexistentToken id))
  return owner

/-- `owner_of`, `consecutive.rs` 178-180. -/
def ownerOf (s : State) (id : U256) : Except Err Address := requireOwned s id

/-- `balance_of`, `consecutive.rs` 174-176. -/
def balanceOf (s : State) (owner : Address) : Except Err U256 := lift (Erc721.balanceOf s.erc721 owner)

/-- `get_approved`, `consecutive.rs` 251-254. -/
def getApproved (s : State) (id : U256) : Except Err Address := do
  let _ ← requireOwned s id
  return Erc721.getApprovedInternal s.erc721 id

/-- `is_approved_for_all`, `consecutive.rs` 256-258. -/
def isApprovedForAll (s : State) (owner operator : Address) : Bool :=
  Erc721.isApprovedForAll s.erc721 owner operator

/-- `_mint_consecutive`, `consecutive.rs` 319-363.  Returns the first id. -/
def mintConsecutive (s : State) (dst : Address) (batchSize : U96) : Except Err (U96 × State) := do
  let next ← nextConsecutiveId s
  if 0#96 < batchSize then do
    if dst = ZERO then throw (.erc721 (.invalidReceiver ZERO))
    if s.maxBatchSize < batchSize then
      throw (.exceededMaxBatchMint (batchSize.setWidth 256) (s.maxBatchSize.setWidth 256))
    let last := next + batchSize - 1#96
    let r ← liftC (Checkpoints.push s.sequentialOwnership last dst)
    return (next, { s with
      sequentialOwnership := r.2.2
      erc721 := Erc721.increaseBalance s.erc721 dst (batchSize.setWidth 128)
      batchLog := s.batchLog ++ [⟨next.setWidth 256, last.setWidth 256, ZERO, dst⟩] })
  else return (next, s)

/-- `_approve`, `consecutive.rs` 723-750. -/
def approveInternal (s : State) (dst : Address) (id : U256) (auth : Address) (emitEvent : Bool) :
    Except Err State := do
  let s1 ← if emitEvent = true ∨ auth ≠ ZERO then do
      let owner ← requireOwned s id
      if auth ≠ ZERO ∧ owner ≠ auth ∧ isApprovedForAll s owner auth = false then
        throw (.erc721 (.invalidApprover auth))
      pure (if emitEvent then
        { s with erc721 := { s.erc721 with log := s.erc721.log ++ [.approval owner dst id] } } else s)
    else pure s
  return { s1 with
    erc721 := { s1.erc721 with tokenApprovals := upd s1.erc721.tokenApprovals id dst } }

/-- `_update_base`, `consecutive.rs` 458-489. -/
def updateBase (s : State) (dst : Address) (id : U256) (auth : Address) :
    Except Err (Address × State) := do
  let src ← ownerOfInternal s id
  if auth ≠ ZERO then lift (Erc721.checkAuthorized s.erc721 src auth id)
  let s1 ← if src ≠ ZERO then do
      let t ← approveInternal s ZERO id ZERO false
      pure { t with erc721 :=
        { t.erc721 with balances := upd t.erc721.balances src (t.erc721.balances src - 1#256) } }
    else pure s
  let s2 := if dst ≠ ZERO then { s1 with erc721 :=
      { s1.erc721 with balances := upd s1.erc721.balances dst (s1.erc721.balances dst + 1#256) } }
    else s1
  return (src, { s2 with erc721 :=
    { s2.erc721 with owners := upd s2.erc721.owners id dst,
                     log := s2.erc721.log ++ [.transfer src dst id] } })

/-- `_update`, `consecutive.rs` 386-406. -/
def update (s : State) (dst : Address) (id : U256) (auth : Address) : Except Err (Address × State) := do
  let (previousOwner, s1) ← updateBase s dst id auth
  let next ← nextConsecutiveId s1
  let s2 := if dst = ZERO ∧ id < next.setWidth 256 ∧ BitMap.get s1.sequentialBurn id = false then
      { s1 with sequentialBurn := BitMap.set s1.sequentialBurn id }
    else s1
  return (previousOwner, s2)

/-- `_mint`, `consecutive.rs` 510-526. -/
def mint (s : State) (dst : Address) (id : U256) : Except Err State := do
  if dst = ZERO then throw (.erc721 (.invalidReceiver ZERO))
  let (previousOwner, s1) ← update s dst id ZERO
  if previousOwner ≠ ZERO then throw (.erc721 (.invalidSender ZERO))
  return s1

/-- `_safe_mint`, `consecutive.rs` 552-566. -/
def safeMint (R : Receivers) (s : State) (caller dst : Address) (id : U256) (data : Bytes) :
    Except Err State := do
  let s1 ← mint s dst id
  lift (Erc721.checkOnReceived R caller ZERO dst id data)
  return s1

/-- `_burn`, `consecutive.rs` 586-596. -/
def burn (s : State) (id : U256) : Except Err State := do
  let (previousOwner, s1) ← update s ZERO id ZERO
  if previousOwner = ZERO then throw (.erc721 (.nonexistentToken id))
  return s1

/-- `_transfer`, `consecutive.rs` 620-649. -/
def transferInternal (s : State) (src dst : Address) (id : U256) : Except Err State := do
  if dst = ZERO then throw (.erc721 (.invalidReceiver ZERO))
  let (previousOwner, s1) ← update s dst id ZERO
  if previousOwner = ZERO then throw (.erc721 (.nonexistentToken id))
  if previousOwner ≠ src then throw (.erc721 (.incorrectOwner src id previousOwner))
  return s1

/-- `_safe_transfer`, `consecutive.rs` 682-697. -/
def safeTransferInternal (R : Receivers) (s : State) (caller src dst : Address) (id : U256)
    (data : Bytes) : Except Err State := do
  let s1 ← transferInternal s src dst id
  lift (Erc721.checkOnReceived R caller src dst id data)
  return s1

/-- `transfer_from`, `consecutive.rs` 211-237. -/
def transferFrom (s : State) (caller src dst : Address) (id : U256) : Except Err State := do
  if dst = ZERO then throw (.erc721 (.invalidReceiver ZERO))
  let (previousOwner, s1) ← update s dst id caller
  if previousOwner ≠ src then throw (.erc721 (.incorrectOwner src id previousOwner))
  return s1

/-- `safe_transfer_from_with_data`, `consecutive.rs` 193-209. -/
def safeTransferFromWithData (R : Receivers) (s : State) (caller src dst : Address) (id : U256)
    (data : Bytes) : Except Err State := do
  let s1 ← transferFrom s caller src dst id
  lift (Erc721.checkOnReceived R caller src dst id data)
  return s1

/-- `safe_transfer_from`, `consecutive.rs` 182-191. -/
def safeTransferFrom (R : Receivers) (s : State) (caller src dst : Address) (id : U256) :
    Except Err State := safeTransferFromWithData R s caller src dst id []

/-- `approve`, `consecutive.rs` 239-241. -/
def approve (s : State) (caller dst : Address) (id : U256) : Except Err State :=
  approveInternal s dst id caller true

/-- `set_approval_for_all`, `consecutive.rs` 243-249. -/
def setApprovalForAll (s : State) (caller operator : Address) (approved : Bool) : Except Err State := do
  return { s with erc721 := (← lift (Erc721.setApprovalForAll s.erc721 caller operator approved)) }

/-- Calls: the public ones, and the internal ones an integrating contract can expose
(`examples/erc721-consecutive/src/lib.rs` 22-33 exposes `burn` and `mint`). -/
inductive Call where
  | transferFrom (src dst : Address) (id : U256)
  | safeTransferFrom (src dst : Address) (id : U256)
  | safeTransferFromWithData (src dst : Address) (id : U256) (data : Bytes)
  | approve (dst : Address) (id : U256)
  | setApprovalForAll (operator : Address) (approved : Bool)
  | mint (dst : Address) (id : U256)
  | safeMint (dst : Address) (id : U256) (data : Bytes)
  | burn (id : U256)
  | transfer (src dst : Address) (id : U256)
  | safeTransfer (src dst : Address) (id : U256) (data : Bytes)

/-- One transaction.
A call of `contracts/src/token/erc721/extensions/consecutive.rs` 171-776. -/
structure Tx where
  caller : Address
  receivers : Receivers
  call : Call

/-- Dispatch; transactions from the zero address are refused.
Models `contracts/src/token/erc721/extensions/consecutive.rs` 171-776. -/
def exec (s : State) (tx : Tx) : Except Err State :=
  if tx.caller = ZERO then .error (.erc721 (.invalidSender ZERO))
  else match tx.call with
  | .transferFrom src dst id => transferFrom s tx.caller src dst id
  | .safeTransferFrom src dst id => safeTransferFrom tx.receivers s tx.caller src dst id
  | .safeTransferFromWithData src dst id data =>
    safeTransferFromWithData tx.receivers s tx.caller src dst id data
  | .approve dst id => approve s tx.caller dst id
  | .setApprovalForAll op b => setApprovalForAll s tx.caller op b
  | .mint dst id => mint s dst id
  | .safeMint dst id data => safeMint tx.receivers s tx.caller dst id data
  | .burn id => burn s id
  | .transfer src dst id => transferInternal s src dst id
  | .safeTransfer src dst id data => safeTransferInternal tx.receivers s tx.caller src dst id data

/-- A history.
Sequences of such transactions (`contracts/src/token/erc721/extensions/consecutive.rs` 171-776); a failed transaction leaves no trace (Stylus reverts). -/
def run (s : State) (txs : List Tx) : State := runOf exec s txs

/-- Batches minted one after the other; any failure fails the deployment
(`examples/erc721-consecutive/src/constructor.sol` 36-47, with the library's `_mint_consecutive`). -/
def mintBatches (s : State) : List (Address × U96) → Except Err State
  | [] => .ok s
  | b :: bs => do
    let r ← mintConsecutive s b.1 b.2
    mintBatches r.2 bs

/-- Deployment with a list of batches.
Models the constructor described in `contracts/src/token/erc721/extensions/consecutive.rs` 9-33 and `examples/erc721-consecutive/src/lib.rs`: `_mint_consecutive` for each batch. -/
def deploy (first maxBatch : U96) (batches : List (Address × U96)) : Except Err State :=
  mintBatches (init first maxBatch) batches

end Verif.Consecutive
