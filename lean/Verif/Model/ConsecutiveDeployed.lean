import Verif.Model.Erc721Words
import Verif.Model.Erc721Consecutive
import Verif.Model.Deployed
import Verif.Model.Contracts
/-!
# Model of a deployed contract: `examples/erc721-consecutive`, calldata in, storage words

The token with batches with nothing left out between the transaction and the storage: its functions as programs on storage cells (the
checkpoints of the batches are a vector of packed structs that is searched, the burnt tokens are bits of words), the router and the
decoder in front, the words of the storage behind, and the constructor that mints the batches as a program on the same words.
Receivers are programs on bytes, as in `Verif.Model.Contracts`.
-/
namespace Verif.ConsecutiveDeployed
open Verif Verif.Storage Verif.Consecutive
open Verif.Abi (Val Handler Decoder Outcome)
open Verif.Contracts (Env)
open Verif.Math (average)

/-- The events of the contract, `contracts/src/token/erc721/mod.rs` 37-66 and
`contracts/src/token/erc721/extensions/consecutive.rs` 73-78. -/
inductive Ev where
  | token (e : Erc721.Event)
  | batch (e : ConsecutiveTransfer)
  deriving DecidableEq

/-- Programs of the contract (`contracts/src/token/erc721/extensions/consecutive.rs` 170-776). -/
abbrev Code (α : Type) := Prog Err Ev α

/-- The field `erc721`, `contracts/src/token/erc721/extensions/consecutive.rs` 134-136. -/
def token : List Step := [.field "erc721_consecutive", .field "erc721"]
/-- `sequential_ownership.checkpoints`, `contracts/src/token/erc721/extensions/consecutive.rs` 137 and
`contracts/src/utils/structs/checkpoints/mod.rs` 54-57; the word of a vector holds its length. -/
def count : List Step := [.field "erc721_consecutive", .field "sequential_ownership", .field "checkpoints"]
/-- The key of a checkpoint, `contracts/src/utils/structs/checkpoints/mod.rs` 61-66. -/
def keyAt (i : Nat) : List Step :=
  [.field "erc721_consecutive", .field "sequential_ownership", .field "checkpoints", .index i, .field "key"]
/-- The value of a checkpoint, `contracts/src/utils/structs/checkpoints/mod.rs` 61-66. -/
def valueAt (i : Nat) : List Step :=
  [.field "erc721_consecutive", .field "sequential_ownership", .field "checkpoints", .index i, .field "value"]
/-- A word of `sequential_burn`, `contracts/src/token/erc721/extensions/consecutive.rs` 139 and
`contracts/src/utils/structs/bitmap.rs` 28-31. -/
def bucket (b : U256) : List Step := [.field "erc721_consecutive", .field "sequential_burn", .field "data", .key b]
/-- `first_consecutive_id`, `contracts/src/token/erc721/extensions/consecutive.rs` 141. -/
def firstCell : List Step := [.field "erc721_consecutive", .field "first_consecutive_id"]
/-- `max_batch_size`, `contracts/src/token/erc721/extensions/consecutive.rs` 146. -/
def maxCell : List Step := [.field "erc721_consecutive", .field "max_batch_size"]

/-- A function of the base token, with `?` (`contracts/src/token/erc721/extensions/consecutive.rs` 175, 248, 466 and the like). -/
def inner {α : Type} (m : Erc721Words.Code α) : Code α := m.lift .erc721 .token

/-- `_index`, `contracts/src/utils/structs/checkpoints/mod.rs` 339-343: `get` compares with the length. -/
def index (pos : U256) : Code Nat :=
  .get count fun n => if pos.toNat < n.toNat then .ret pos.toNat else .fail (.checkpoints .panic)

/-- `_lower_binary_lookup`, `contracts/src/utils/structs/checkpoints/mod.rs` 311-326. -/
def lowerBinaryLookup (key : U96) (low high : U256) : Code U256 :=
  if _h : low < high then
    (index (average low high)).bind fun i =>
    .get (keyAt i) fun k =>
    if k.setWidth 96 < key then lowerBinaryLookup key (average low high + 1#256) high
    else lowerBinaryLookup key low (average low high)
  else .ret high
termination_by high.toNat - low.toNat
decreasing_by
  all_goals
    have h1 := BitVec.lt_def.mp _h
    have h2 := Verif.Math.average_toNat low high
    have _h3 := high.isLt
    try rw [toNat_add_of_lt (by rw [h2]; show _ + 1 < _; omega)]
    rw [h2]
    first
      | omega
      | show high.toNat - ((low.toNat + high.toNat) / 2 + 1) < _; omega

/-- `lower_lookup`, `contracts/src/utils/structs/checkpoints/mod.rs` 103-111. -/
def lowerLookup (key : U96) : Code Address :=
  .get count fun len =>
  (lowerBinaryLookup key 0#256 len).bind fun pos =>
  if pos = len then .ret ZERO
  else (index pos).bind fun i => .get (valueAt i) fun v => .ret (v.setWidth 160)

/-- `latest_checkpoint`, `contracts/src/utils/structs/checkpoints/mod.rs` 187-195. -/
def latestCheckpoint : Code (Option (U96 × Address)) :=
  .get count fun pos =>
  if pos = 0#256 then .ret none
  else (index (pos - 1#256)).bind fun i =>
    .get (keyAt i) fun k => .get (valueAt i) fun v => .ret (some (k.setWidth 96, v.setWidth 160))

/-- `_first_consecutive_id`, `contracts/src/token/erc721/extensions/consecutive.rs` 428-430. -/
def firstConsecutiveId : Code U96 := .get firstCell fun v => .ret (v.setWidth 96)

/-- `_next_consecutive_id`, `contracts/src/token/erc721/extensions/consecutive.rs` 415-420. -/
def nextConsecutiveId : Code U96 :=
  latestCheckpoint.bind fun
  | none => firstConsecutiveId
  | some (latestId, _) => .ret (latestId + 1#96)

/-- `sequential_burn.get`, `contracts/src/utils/structs/bitmap.rs` 40-45. -/
def isBurnt (id : U256) : Code Bool :=
  .get (bucket (BitMap.getBucket id)) fun v => .ret (decide (v &&& BitMap.getMask id ≠ 0#256))

/-- `sequential_burn.set`, `contracts/src/utils/structs/bitmap.rs` 66-72. -/
def markBurnt (id : U256) : Code Unit :=
  .get (bucket (BitMap.getBucket id)) fun v => .set (bucket (BitMap.getBucket id)) (v ||| BitMap.getMask id) (.ret ())

/-- `_owner_of`, `contracts/src/token/erc721/extensions/consecutive.rs` 272-291. -/
def ownerOfInternal (id : U256) : Code Address :=
  (inner (Erc721Words.ownerOfInternal token id)).bind fun owner =>
  if owner ≠ ZERO then .ret owner
  else firstConsecutiveId.bind fun first =>
    if id < first.setWidth 256 ∨ (BitVec.allOnes 96).setWidth 256 < id then .ret owner
    else (isBurnt id).bind fun burnt => if burnt then .ret ZERO else lowerLookup (id.setWidth 96)

/-- `_require_owned`, `contracts/src/token/erc721/extensions/consecutive.rs` 766-775. -/
def requireOwned (id : U256) : Code Address :=
  (ownerOfInternal id).bind fun owner => if owner = ZERO then .fail (.erc721 (.nonexistentToken id)) else .ret owner

/-- `get_approved`, `contracts/src/token/erc721/extensions/consecutive.rs` 251-254. -/
def getApproved (id : U256) : Code Address :=
  (requireOwned id).bind fun _ => inner (Erc721Words.getApprovedInternal token id)

/-- `_approve`, `contracts/src/token/erc721/extensions/consecutive.rs` 723-750. -/
def approveInternal (dst : Address) (id : U256) (auth : Address) (emitEvent : Bool) : Code Unit :=
  let store : Erc721Words.Code Unit := .set (Erc721Words.approved token id) (dst.setWidth 256) (.ret ())
  if emitEvent = true ∨ auth ≠ ZERO then
    (requireOwned id).bind fun owner =>
    (if auth ≠ ZERO ∧ owner ≠ auth then
      (inner (Erc721Words.isApprovedForAll token owner auth)).bind fun all =>
      if all then .ret () else .fail (.erc721 (.invalidApprover auth))
      else .ret ()).bind fun _ =>
    if emitEvent then inner (.emit (.approval owner dst id) store) else inner store
  else inner store

/-- `_update_base`, `contracts/src/token/erc721/extensions/consecutive.rs` 458-489; returns the previous owner. -/
def updateBase (dst : Address) (id : U256) (auth : Address) : Code Address :=
  (ownerOfInternal id).bind fun src =>
  (if auth ≠ ZERO then inner (Erc721Words.checkAuthorized token src auth id) else .ret ()).bind fun _ =>
  (if src ≠ ZERO then
    (approveInternal ZERO id ZERO false).bind fun _ => inner (Erc721Words.change token src fun b => b - 1#256)
    else .ret ()).bind fun _ =>
  (if dst ≠ ZERO then inner (Erc721Words.change token dst fun b => b + 1#256) else .ret ()).bind fun _ =>
  inner (.set (Erc721Words.owner token id) (dst.setWidth 256) (.emit (.transfer src dst id) (.ret src)))

/-- The second half of `_update`, `contracts/src/token/erc721/extensions/consecutive.rs` 394-403: `&&` stops at the first part that
does not hold. -/
def recordBurn (dst : Address) (id : U256) : Code Unit :=
  if dst = ZERO then
    nextConsecutiveId.bind fun next =>
    if id < next.setWidth 256 then (isBurnt id).bind fun burnt => if burnt then .ret () else markBurnt id
    else .ret ()
  else .ret ()

/-- `_update`, `contracts/src/token/erc721/extensions/consecutive.rs` 386-406. -/
def update (dst : Address) (id : U256) (auth : Address) : Code Address :=
  (updateBase dst id auth).bind fun previous => (recordBurn dst id).bind fun _ => .ret previous

/-- `_mint`, `contracts/src/token/erc721/extensions/consecutive.rs` 510-526. -/
def mint (dst : Address) (id : U256) : Code Unit :=
  if dst = ZERO then .fail (.erc721 (.invalidReceiver ZERO))
  else (update dst id ZERO).bind fun previous => if previous ≠ ZERO then .fail (.erc721 (.invalidSender ZERO)) else .ret ()

/-- `_burn`, `contracts/src/token/erc721/extensions/consecutive.rs` 586-596. -/
def burn (id : U256) : Code Unit :=
  (update ZERO id ZERO).bind fun previous => if previous = ZERO then .fail (.erc721 (.nonexistentToken id)) else .ret ()

/-- `_transfer`, `contracts/src/token/erc721/extensions/consecutive.rs` 620-649. -/
def transferInternal (src dst : Address) (id : U256) : Code Unit :=
  if dst = ZERO then .fail (.erc721 (.invalidReceiver ZERO))
  else (update dst id ZERO).bind fun previous =>
    if previous = ZERO then .fail (.erc721 (.nonexistentToken id))
    else if previous ≠ src then .fail (.erc721 (.incorrectOwner src id previous)) else .ret ()

/-- `transfer_from`, `contracts/src/token/erc721/extensions/consecutive.rs` 211-237. -/
def transferFrom (caller src dst : Address) (id : U256) : Code Unit :=
  if dst = ZERO then .fail (.erc721 (.invalidReceiver ZERO))
  else (update dst id caller).bind fun previous =>
    if previous ≠ src then .fail (.erc721 (.incorrectOwner src id previous)) else .ret ()

/-- What changes the token, then the call of a receiver (`contracts/src/token/erc721/extensions/consecutive.rs` 200-208, 558-565 and
688-696). -/
def andAsk (m : Code Unit) (R : Erc721.Receivers) (op src dst : Address) (id : U256) (data : Bytes) : Code Unit :=
  m.bind fun _ => inner (Erc721Words.received R op src dst id data)

/-- The state-changing functions, `contracts/src/token/erc721/extensions/consecutive.rs` 171-259 and 510-697.  No transaction has the
zero address as its sender: such a one is refused, as in `Consecutive.exec`. -/
def code (R : Erc721.Receivers) (caller : Address) (call : Call) : Code Unit :=
  if caller = ZERO then .fail (.erc721 (.invalidSender ZERO))
  else match call with
  | .transferFrom src dst id => transferFrom caller src dst id
  | .safeTransferFrom src dst id => andAsk (transferFrom caller src dst id) R caller src dst id []
  | .safeTransferFromWithData src dst id data => andAsk (transferFrom caller src dst id) R caller src dst id data
  | .approve dst id => approveInternal dst id caller true
  | .setApprovalForAll op b => inner (Erc721Words.setApprovalForAll token caller op b)
  | .mint dst id => mint dst id
  | .safeMint dst id data => andAsk (mint dst id) R caller ZERO dst id data
  | .burn id => burn id
  | .transfer src dst id => transferInternal src dst id
  | .safeTransfer src dst id data => andAsk (transferInternal src dst id) R caller src dst id data

/-- The result of a function, errors as bytes, `none` for a panic (`examples/erc721-consecutive/src/lib.rs` 21-39). -/
def finish {α : Type} (K : Hash) (f : α → List Val) (m : Code α) : Prog (Option Bytes) Ev (List Val) :=
  (m.lift (fun e => (Revert.erc721Consecutive e).data K) id).bind fun a => .ret (f a)

/-- The function of this type and name, on these arguments (`examples/erc721-consecutive/src/lib.rs` 21-22), as `Entry.dispatch`. -/
def dispatch (t f : String) (args : List Val)
    (table : List (String × String × (List Val → Prog (Option Bytes) Ev (List Val)))) : Prog (Option Bytes) Ev (List Val) :=
  match table.find? fun r => decide (r.1 = t) && decide (r.2.1 = f) with
  | some r => r.2.2 args
  | none => .fail none

/-- The functions of `examples/erc721-consecutive/src/lib.rs` 21-39 and of `Erc721Consecutive`
(`contracts/src/token/erc721/extensions/consecutive.rs` 170-259). -/
def program (K : Hash) (D : Decoder) (env : Env) (t f : String) (args : List Val) : Prog (Option Bytes) Ev (List Val) :=
  let go (c : Call) := finish K (fun _ => []) (code (Calls.receivers721 K D env.world) env.caller c)
  dispatch t f args
  [("Erc721ConsecutiveExample", "burn", fun | [.uint256 id] => go (.burn id) | _ => .fail none),
   ("Erc721ConsecutiveExample", "mint", fun | [.address dst, .uint256 id] => go (.mint dst id) | _ => .fail none),
   ("Erc721ConsecutiveExample", "supports_interface", fun
      | [.bytes4 id] => .ret [.bool (Interfaces.erc721ConsecutiveExample K id)]
      | _ => .fail none),
   ("Erc721Consecutive", "transfer_from", fun
      | [.address src, .address dst, .uint256 id] => go (.transferFrom src dst id)
      | _ => .fail none),
   ("Erc721Consecutive", "safe_transfer_from", fun
      | [.address src, .address dst, .uint256 id] => go (.safeTransferFrom src dst id)
      | _ => .fail none),
   ("Erc721Consecutive", "safe_transfer_from_with_data", fun
      | [.address src, .address dst, .uint256 id, .bytes data] => go (.safeTransferFromWithData src dst id data)
      | _ => .fail none),
   ("Erc721Consecutive", "approve", fun | [.address dst, .uint256 id] => go (.approve dst id) | _ => .fail none),
   ("Erc721Consecutive", "set_approval_for_all", fun
      | [.address op, .bool b] => go (.setApprovalForAll op b)
      | _ => .fail none),
   ("Erc721Consecutive", "balance_of", fun
      | [.address a] => finish K (fun v => [.uint256 v]) (inner (Erc721Words.balanceOf token a))
      | _ => .fail none),
   ("Erc721Consecutive", "owner_of", fun
      | [.uint256 id] => finish K (fun a => [.address a]) (requireOwned id)
      | _ => .fail none),
   ("Erc721Consecutive", "get_approved", fun
      | [.uint256 id] => finish K (fun a => [.address a]) (getApproved id)
      | _ => .fail none),
   ("Erc721Consecutive", "is_approved_for_all", fun
      | [.address o, .address p] => finish K (fun b => [.bool b]) (inner (Erc721Words.isApprovedForAll token o p))
      | _ => .fail none)]

/-- The contract on the chain: the words of its storage, and the events so far (`examples/erc721-consecutive/src/lib.rs` 14-19). -/
structure State where
  words : Words
  log : List Ev

/-- The functions on the words (`examples/erc721-consecutive/src/lib.rs` 21-39). -/
def onWords (K : Hash) (D : Decoder) (env : Env) : Handler State := fun t f args w =>
  ((program K D env t f args).onWords K erc721ConsecutiveExample w.words).map fun r =>
    ({ words := r.2.1, log := w.log ++ r.2.2 }, r.1)

/-- `#[entrypoint]`, `examples/erc721-consecutive/src/lib.rs` 14-39. -/
def entry (K : Hash) (D : Decoder) (env : Env) (w : State) (value : U256) (input : Bytes) : Outcome State :=
  Abi.entry K D Router.erc721ConsecutiveExample (onWords K D env) w value input

/-! ## The constructor

Solidity code, `examples/erc721-consecutive/src/constructor.sol`, on the same words: `C99_same_layout` proves that its variables are at
the places of the Rust fields, whose names are used here.  A revert is `.fail ()`; its data is not modelled. -/

/-- Code of the constructor (`examples/erc721-consecutive/src/constructor.sol` 34-129). -/
abbrev Init (α : Type) := Prog Unit Ev α

/-- `_nextConsecutiveId`, `examples/erc721-consecutive/src/constructor.sol` 118-121, with `latestCheckpoint` 47-55. -/
def solNext : Init U96 :=
  .get count fun pos =>
  if pos = 0#256 then .get firstCell fun v => .ret (v.setWidth 96)
  else .get (keyAt (pos.toNat - 1)) fun k => .get (valueAt (pos.toNat - 1)) fun _ =>
    match checkedAdd (k.setWidth 96 : U96) 1#96 with
    | some n => .ret n
    | none => .fail ()

/-- `_checkpoints.push`, `examples/erc721-consecutive/src/constructor.sol` 78 and 82: the length, then the element.  Solidity reverts
when the length is 2^64. -/
def solPush (n : U256) (key : U96) (value : Address) : Init Unit :=
  if n.toNat < 2 ^ 64 then
    .set count (n + 1#256) (.set (keyAt n.toNat) (key.setWidth 256) (.set (valueAt n.toNat) (value.setWidth 256) (.ret ())))
  else .fail ()

/-- `_insert`, `examples/erc721-consecutive/src/constructor.sol` 61-85. -/
def solInsert (key : U96) (value : Address) : Init Unit :=
  .get count fun pos =>
  if pos = 0#256 then solPush pos key value
  else .get (keyAt (pos.toNat - 1)) fun k => .get (valueAt (pos.toNat - 1)) fun _ =>
    if key < k.setWidth 96 then .fail ()
    else if k.setWidth 96 = key then .set (valueAt (pos.toNat - 1)) (value.setWidth 256) (.ret ())
    else solPush pos key value

/-- `_mintConsecutive`, `examples/erc721-consecutive/src/constructor.sol` 87-116, with `_increaseBalance` 123-129.  The contract has
no code while its constructor runs, so the check in 92 passes. -/
def solMint (dst : Address) (batchSize : U96) : Init Unit :=
  solNext.bind fun next =>
  if 0#96 < batchSize then
    if dst = ZERO then .fail ()
    else .get maxCell fun mx =>
      if mx.setWidth 96 < batchSize then .fail ()
      else match checkedAdd next batchSize with
      | none => .fail ()
      | some e => match checkedSub e 1#96 with
        | none => .fail ()
        | some last =>
          (solInsert last dst).bind fun _ =>
          .get (Erc721Words.balance token dst) fun b =>
          .set (Erc721Words.balance token dst) (b + batchSize.setWidth 256)
          (.emit (.batch ⟨next.setWidth 256, last.setWidth 256, ZERO, dst⟩) (.ret ()))
  else .ret ()

/-- The loop of the constructor, `examples/erc721-consecutive/src/constructor.sol` 42-44: reading `amounts` past its end reverts. -/
def solLoop : List Address → List U96 → Init Unit
  | [], _ => .ret ()
  | _ :: _, [] => .fail ()
  | r :: receivers, a :: amounts => (solMint r a).bind fun _ => solLoop receivers amounts

/-- The constructor, `examples/erc721-consecutive/src/constructor.sol` 34-45. -/
def solConstruct (receivers : List Address) (amounts : List U96) (first maxBatch : U96) : Init Unit :=
  .set firstCell (first.setWidth 256) (.set maxCell (maxBatch.setWidth 256) (solLoop receivers amounts))

/-- Deployment: the constructor runs on fresh storage (`examples/erc721-consecutive/src/constructor.sol` 34-45). -/
def deploy (K : Hash) (receivers : List Address) (amounts : List U96) (first maxBatch : U96) : Option State :=
  match (solConstruct receivers amounts first maxBatch).onWords K erc721ConsecutiveExample Constructors.fresh with
  | .ok r => some { words := r.2.1, log := r.2.2 }
  | .error _ => none

end Verif.ConsecutiveDeployed
