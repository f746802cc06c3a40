import Verif.Model.GatesDeployed
/-!
# Model of deployed contracts: `examples/erc1155`, `examples/erc1155-supply`

Multi-token contracts with nothing left out between the transaction and the storage: functions as programs on storage cells, in the
order in which the code reads and writes them, the router and the decoder in front, and the words of the storage behind.  What a
receiver answers comes from the programs of the other contracts, as in `Verif.Model.Contracts`; it does not call back.
-/
namespace Verif.Erc1155Words
open Verif Verif.Storage Verif.Erc1155

/-- ERC-1155 code on storage (`contracts/src/token/erc1155/mod.rs` 361-1050). -/
abbrev Code := Prog Err Event

variable (root : List Step)

/-- `self.balances`, `contracts/src/token/erc1155/mod.rs` 204, at the keys of a token and an account. -/
def balance (id : U256) (a : Address) : List Step := root ++ [.field "balances", .key id, .key (a.setWidth 256)]

/-- `self.operator_approvals`, `contracts/src/token/erc1155/mod.rs` 205-206. -/
def operator (o p : Address) : List Step :=
  root ++ [.field "operator_approvals", .key (o.setWidth 256), .key (p.setWidth 256)]

/-- `balance_of`, `contracts/src/token/erc1155/mod.rs` 364-366. -/
def balanceOf (a : Address) (id : U256) : Code U256 := .get (balance root id a) .ret

/-- `is_approved_for_all`, `contracts/src/token/erc1155/mod.rs` 392-394. -/
def isApprovedForAll (o p : Address) : Code Bool := .get (operator root o p) fun v => .ret (decide (v ≠ 0#256))

/-- `require_equal_arrays_length`, `contracts/src/token/erc1155/mod.rs` 1016-1027. -/
def equalLength {α β : Type} (ids : List α) (vs : List β) : Code Unit :=
  match requireEqualLength ids vs with
  | .ok _ => .ret ()
  | .error e => .fail e

/-- The balances of a list of pairs, `contracts/src/token/erc1155/mod.rs` 375-381. -/
def balances : List (Address × U256) → Code (List U256)
  | [] => .ret []
  | p :: ps => (balanceOf root p.1 p.2).bind fun v => (balances ps).bind fun vs => .ret (v :: vs)

/-- `balance_of_batch`, `contracts/src/token/erc1155/mod.rs` 368-382. -/
def balanceOfBatch (accounts : List Address) (ids : List U256) : Code (List U256) :=
  (equalLength ids accounts).bind fun _ => balances root (accounts.zip ids)

/-- The first half of `do_update`, `contracts/src/token/erc1155/mod.rs` 977-993. -/
def take (src : Address) (id value : U256) : Code Unit :=
  if src ≠ ZERO then
    (balanceOf root src id).bind fun b =>
    if b < value then .fail (.insufficientBalance src b value id)
    else .get (balance root id src) fun b => .set (balance root id src) (b - value) (.ret ())
  else .ret ()

/-- The second half of `do_update`, `contracts/src/token/erc1155/mod.rs` 995-1000. -/
def put (dst : Address) (id value : U256) : Code Unit :=
  if dst ≠ ZERO then
    .get (balance root id dst) fun b =>
    match checkedAdd b value with
    | some b' => .set (balance root id dst) b' (.ret ())
    | none => .fail .panic
  else .ret ()

/-- The loop of `_update`, `contracts/src/token/erc1155/mod.rs` 471-473. -/
def moves (src dst : Address) : List (U256 × U256) → Code Unit
  | [] => .ret ()
  | p :: ps => (take root src p.1 p.2).bind fun _ => (put root dst p.1 p.2).bind fun _ => moves src dst ps

/-- `_update`, `contracts/src/token/erc1155/mod.rs` 460-484. -/
def update (op src dst : Address) (ids vs : List U256) : Code Unit :=
  (equalLength ids vs).bind fun _ =>
  (moves root src dst (ids.zip vs)).bind fun _ => .emit (updateEvent op src dst ids vs) (.ret ())

/-- `_check_on_erc1155_received`, `contracts/src/token/erc1155/mod.rs` 748-792; it does not touch the storage. -/
def received (R : Receivers) (op src dst : Address) (ids vs : List U256) (data : Bytes) : Code Unit :=
  if dst ≠ ZERO then
    match checkOnReceived R dst (receiverData op src ids vs data) with
    | .ok _ => .ret ()
    | .error e => .fail e
  else .ret ()

/-- `_update_with_acceptance_check`, `contracts/src/token/erc1155/mod.rs` 521-542. -/
def updateAccepted (R : Receivers) (op src dst : Address) (ids vs : List U256) (data : Bytes) : Code Unit :=
  (update root op src dst ids vs).bind fun _ => received R op src dst ids vs data

/-- `_do_mint`, `contracts/src/token/erc1155/mod.rs` 829-849. -/
def doMint (R : Receivers) (caller dst : Address) (ids vs : List U256) (data : Bytes) : Code Unit :=
  if dst = ZERO then .fail (.invalidReceiver dst) else updateAccepted root R caller ZERO dst ids vs data

/-- `_do_burn`, `contracts/src/token/erc1155/mod.rs` 874-893. -/
def doBurn (R : Receivers) (caller src : Address) (ids vs : List U256) : Code Unit :=
  if src = ZERO then .fail (.invalidSender src) else updateAccepted root R caller src ZERO ids vs []

/-- `do_safe_transfer_from`, `contracts/src/token/erc1155/mod.rs` 930-949. -/
def doTransfer (R : Receivers) (caller src dst : Address) (ids vs : List U256) (data : Bytes) : Code Unit :=
  if dst = ZERO then .fail (.invalidReceiver dst)
  else if src = ZERO then .fail (.invalidSender src)
  else updateAccepted root R caller src dst ids vs data

/-- `authorize_transfer`, `contracts/src/token/erc1155/mod.rs` 1040-1049; the approval is read only if it is needed. -/
def authorize (caller src : Address) : Code Unit :=
  if src ≠ caller then
    (isApprovedForAll root src caller).bind fun b => if b then .ret () else .fail (.missingApprovalForAll caller src)
  else .ret ()

/-- `_set_approval_for_all`, `contracts/src/token/erc1155/mod.rs` 698-712. -/
def setApprovalForAll (caller op : Address) (b : Bool) : Code Unit :=
  if op = ZERO then .fail (.invalidOperator op)
  else .set (operator root caller op) (if b then 1#256 else 0#256) (.emit (.approvalForAll caller op b) (.ret ()))

/-- The calls, `contracts/src/token/erc1155/mod.rs` 384-418 and 570-678 and
`contracts/src/token/erc1155/extensions/burnable.rs` 71-89. -/
def code (R : Receivers) (caller : Address) : UserCall ⊕ AdminCall → Code Unit
  | .inl (.safeTransferFrom src dst id v data) =>
    (authorize root caller src).bind fun _ => doTransfer root R caller src dst [id] [v] data
  | .inl (.safeBatchTransferFrom src dst ids vs data) =>
    (authorize root caller src).bind fun _ => doTransfer root R caller src dst ids vs data
  | .inl (.setApprovalForAll op b) => setApprovalForAll root caller op b
  | .inl (.burn a id v) => (authorize root caller a).bind fun _ => doBurn root R caller a [id] [v]
  | .inl (.burnBatch a ids vs) => (authorize root caller a).bind fun _ => doBurn root R caller a ids vs
  | .inr (.mint dst id v data) => doMint root R caller dst [id] [v] data
  | .inr (.mintBatch dst ids vs data) => doMint root R caller dst ids vs data
  | .inr (.burn src id v) => doBurn root R caller src [id] [v]
  | .inr (.burnBatch src ids vs) => doBurn root R caller src ids vs

end Verif.Erc1155Words

namespace Verif.PausableWords
open Verif Verif.Storage Verif.Pausable

/-- `Pausable` on storage (`contracts/src/utils/pausable.rs` 79-157). -/
abbrev Code := Prog Err Event

variable (root : List Step)

/-- `self.paused`, `contracts/src/utils/pausable.rs` 76. -/
def flag : List Step := root ++ [.field "paused"]

/-- `when_not_paused`, `contracts/src/utils/pausable.rs` 134-139. -/
def whenNotPaused : Code Unit := .get (flag root) fun v => if v ≠ 0#256 then .fail .enforcedPause else .ret ()

/-- `when_paused`, `contracts/src/utils/pausable.rs` 151-156. -/
def whenPaused : Code Unit := .get (flag root) fun v => if v ≠ 0#256 then .ret () else .fail .expectedPause

/-- `pause` and `unpause`, `contracts/src/utils/pausable.rs` 101-106 and 117-122. -/
def code (caller : Address) : Call → Code Unit
  | .pause => (whenNotPaused root).bind fun _ => .set (flag root) 1#256 (.emit (.paused caller) (.ret ()))
  | .unpause => (whenPaused root).bind fun _ => .set (flag root) 0#256 (.emit (.unpaused caller) (.ret ()))

end Verif.PausableWords

namespace Verif.Erc1155SupplyWords
open Verif Verif.Storage Verif.Erc1155Supply
open Verif.Erc1155 (Receivers)
open Verif.Erc1155Words (Code received authorize)

variable (root : List Step)

/-- The field `erc1155`, `contracts/src/token/erc1155/extensions/supply.rs` 37-38. -/
def base : List Step := root ++ [.field "erc1155"]

/-- `self.total_supply`, `contracts/src/token/erc1155/extensions/supply.rs` 40. -/
def total (id : U256) : List Step := root ++ [.field "total_supply", .key id]

/-- `self.total_supply_all`, `contracts/src/token/erc1155/extensions/supply.rs` 42. -/
def totalAll : List Step := root ++ [.field "total_supply_all"]

/-- `add_assign_checked`, `contracts/src/token/erc1155/extensions/supply.rs` 254-257 and 261-264. -/
def add (p : List Step) (v : U256) : Code Unit :=
  .get p fun t => match checkedAdd t v with
    | some t' => .set p t' (.ret ())
    | none => .fail .panic

/-- `sub_assign_unchecked`, `contracts/src/token/erc1155/extensions/supply.rs` 274 and 283. -/
def sub (p : List Step) (v : U256) : Code Unit := .get p fun t => .set p (t - v) (.ret ())

/-- The loop of a mint, `contracts/src/token/erc1155/extensions/supply.rs` 253-258. -/
def adds : List (U256 × U256) → Code Unit
  | [] => .ret ()
  | p :: ps => (add (total root p.1) p.2).bind fun _ => adds ps

/-- The loop of a burn, `contracts/src/token/erc1155/extensions/supply.rs` 268-275. -/
def subs : List (U256 × U256) → Code Unit
  | [] => .ret ()
  | p :: ps => (sub (total root p.1) p.2).bind fun _ => subs ps

/-- `_update`, `contracts/src/token/erc1155/extensions/supply.rs` 243-286. -/
def update (op src dst : Address) (ids vs : List U256) : Code Unit :=
  (Erc1155Words.update (base root) op src dst ids vs).bind fun _ =>
  (if src = ZERO then (adds root (ids.zip vs)).bind fun _ => add (totalAll root) (wrappingSum vs) else .ret ()).bind fun _ =>
  if dst = ZERO then (subs root (ids.zip vs)).bind fun _ => sub (totalAll root) (wrappingSum vs) else .ret ()

/-- `_update_with_acceptance_check`, `contracts/src/token/erc1155/extensions/supply.rs` 288-309. -/
def updateAccepted (R : Receivers) (op src dst : Address) (ids vs : List U256) (data : Bytes) : Code Unit :=
  (update root op src dst ids vs).bind fun _ => received R op src dst ids vs data

/-- `_do_mint`, `contracts/src/token/erc1155/extensions/supply.rs` 311-331. -/
def doMint (R : Receivers) (caller dst : Address) (ids vs : List U256) (data : Bytes) : Code Unit :=
  if dst = ZERO then .fail (.invalidReceiver dst) else updateAccepted root R caller ZERO dst ids vs data

/-- `_do_burn`, `contracts/src/token/erc1155/extensions/supply.rs` 333-352. -/
def doBurn (R : Receivers) (caller src : Address) (ids vs : List U256) : Code Unit :=
  if src = ZERO then .fail (.invalidSender src) else updateAccepted root R caller src ZERO ids vs []

/-- `do_safe_transfer_from`, `contracts/src/token/erc1155/extensions/supply.rs` 354-373. -/
def doTransfer (R : Receivers) (caller src dst : Address) (ids vs : List U256) (data : Bytes) : Code Unit :=
  if dst = ZERO then .fail (.invalidReceiver dst)
  else if src = ZERO then .fail (.invalidSender src)
  else updateAccepted root R caller src dst ids vs data

/-- The calls, `contracts/src/token/erc1155/extensions/supply.rs` 117-209. -/
def code (R : Receivers) (caller : Address) : Call → Code Unit
  | .safeTransferFrom src dst id v data =>
    (authorize (base root) caller src).bind fun _ => doTransfer root R caller src dst [id] [v] data
  | .safeBatchTransferFrom src dst ids vs data =>
    (authorize (base root) caller src).bind fun _ => doTransfer root R caller src dst ids vs data
  | .setApprovalForAll op b => Erc1155Words.setApprovalForAll (base root) caller op b
  | .mint dst id v data => doMint root R caller dst [id] [v] data
  | .mintBatch dst ids vs data => doMint root R caller dst ids vs data
  | .burn src id v => doBurn root R caller src [id] [v]
  | .burnBatch src ids vs => doBurn root R caller src ids vs

end Verif.Erc1155SupplyWords

namespace Verif.MultiWords
open Verif Verif.Storage
open Verif.Abi (Val)

/-- `balance_of`, `balance_of_batch`, `is_approved_for_all` of `Erc1155` (`contracts/src/token/erc1155/mod.rs` 364-394), by way of the
type `t`; `fe` and `fv` are how the contract passes its errors and events on. -/
def views {V : Type} (K : Hash) (root : List Step) (fv : Erc1155.Event → V) (t : String) : List (OnWords.Row V) :=
  [(t, "balance_of", fun
      | [.address a, .uint256 id] => .get (Erc1155Words.balance root id a) fun v => .ret [.uint256 v]
      | _ => .fail none),
   (t, "balance_of_batch", fun
      | [.addresses as, .uints ids] =>
        OnWords.finish K Revert.erc1155 (fun l => [.uints l]) ((Erc1155Words.balanceOfBatch root as ids).lift id fv)
      | _ => .fail none),
   (t, "is_approved_for_all", fun
      | [.address o, .address p] => .get (Erc1155Words.operator root o p) fun v => .ret [.bool (decide (v ≠ 0#256))]
      | _ => .fail none)]

end Verif.MultiWords

namespace Verif.Erc1155Deployed
open Verif Verif.Storage Verif.Erc1155Example Verif.OnWords
open Verif.Abi (Val Decoder Outcome)
open Verif.Contracts (Env)

/-- Events: of the token, or of `Pausable` (`contracts/src/token/erc1155/mod.rs` 54-82, `contracts/src/utils/pausable.rs` 28-38). -/
abbrev Ev := Erc1155.Event ⊕ Pausable.Event

/-- The field `erc1155`, `examples/erc1155/src/lib.rs` 22-23. -/
def tokens : List Step := [.field "erc1155"]

/-- The field `pausable`, `examples/erc1155/src/lib.rs` 24-25. -/
def gate : List Step := [.field "pausable"]

/-- A call of the token, with `?` (`examples/erc1155/src/lib.rs` 39). -/
def inner (R : Erc1155.Receivers) (caller : Address) (c : Erc1155.UserCall ⊕ Erc1155.AdminCall) : Prog Err Ev Unit :=
  (Erc1155Words.code tokens R caller c).lift .erc1155 .inl

/-- `when_not_paused()?` and then a call of the token, the shape of `examples/erc1155/src/lib.rs` 31-101. -/
def gated (R : Erc1155.Receivers) (caller : Address) (c : Erc1155.UserCall ⊕ Erc1155.AdminCall) : Prog Err Ev Unit :=
  ((PausableWords.whenNotPaused gate).lift .pausable .inr).bind fun _ => inner R caller c

/-- The state-changing functions: `mint` 31-41, `mint_batch` 43-53, `burn` 55-64, `burn_batch` 66-75, `safe_transfer_from` 77-88,
`safe_batch_transfer_from` 90-101, `pause` 111-113, `unpause` 115-117 of `examples/erc1155/src/lib.rs`. -/
def code (R : Erc1155.Receivers) (caller : Address) : Call → Prog Err Ev Unit
  | .mint dst id v data => gated R caller (.inr (.mint dst id v data))
  | .mintBatch dst ids vs data => gated R caller (.inr (.mintBatch dst ids vs data))
  | .burn a id v => gated R caller (.inl (.burn a id v))
  | .burnBatch a ids vs => gated R caller (.inl (.burnBatch a ids vs))
  | .safeTransferFrom src dst id v data => gated R caller (.inl (.safeTransferFrom src dst id v data))
  | .safeBatchTransferFrom src dst ids vs data => gated R caller (.inl (.safeBatchTransferFrom src dst ids vs data))
  | .setApprovalForAll op b => inner R caller (.inl (.setApprovalForAll op b))
  | .pause => (PausableWords.code gate caller .pause).lift .pausable .inr
  | .unpause => (PausableWords.code gate caller .unpause).lift .pausable .inr

/-- The functions of `examples/erc1155/src/lib.rs` 28-118 and of `Erc1155` (`contracts/src/token/erc1155/mod.rs` 360-419) and
`Pausable` (`contracts/src/utils/pausable.rs` 80-88). -/
def program (K : Hash) (D : Decoder) (env : Env) (t f : String) (args : List Val) : Prog (Option Bytes) Ev (List Val) :=
  let go (c : Call) := finish K Contracts.erc1155Reply (fun _ => []) (code (Calls.receivers1155 K D env.world) env.caller c)
  dispatch t f args (
  [("Erc1155Example", "mint", fun
      | [.address dst, .uint256 id, .uint256 v, .bytes data] => go (.mint dst id v data)
      | _ => .fail none),
   ("Erc1155Example", "mint_batch", fun
      | [.address dst, .uints ids, .uints vs, .bytes data] => go (.mintBatch dst ids vs data)
      | _ => .fail none),
   ("Erc1155Example", "burn", fun | [.address a, .uint256 id, .uint256 v] => go (.burn a id v) | _ => .fail none),
   ("Erc1155Example", "burn_batch", fun
      | [.address a, .uints ids, .uints vs] => go (.burnBatch a ids vs)
      | _ => .fail none),
   ("Erc1155Example", "safe_transfer_from", fun
      | [.address src, .address dst, .uint256 id, .uint256 v, .bytes data] => go (.safeTransferFrom src dst id v data)
      | _ => .fail none),
   ("Erc1155Example", "safe_batch_transfer_from", fun
      | [.address src, .address dst, .uints ids, .uints vs, .bytes data] => go (.safeBatchTransferFrom src dst ids vs data)
      | _ => .fail none),
   ("Erc1155Example", "supports_interface", fun
      | [.bytes4 id] => .ret [.bool (Interfaces.erc1155Example K id)]
      | _ => .fail none),
   ("Erc1155Example", "pause", fun | [] => go .pause | _ => .fail none),
   ("Erc1155Example", "unpause", fun | [] => go .unpause | _ => .fail none),
   ("Erc1155", "set_approval_for_all", fun | [.address op, .bool b] => go (.setApprovalForAll op b) | _ => .fail none),
   ("Pausable", "paused", fun
      | [] => .get (PausableWords.flag gate) fun v => .ret [.bool (decide (v ≠ 0#256))]
      | _ => .fail none)] ++
  MultiWords.views K tokens .inl "Erc1155")

/-- `#[entrypoint]`, `examples/erc1155/src/lib.rs` 19-118. -/
def entry (K : Hash) (D : Decoder) (env : Env) (w : State Ev) (value : U256) (input : Bytes) : Outcome (State Ev) :=
  Abi.entry K D Router.erc1155Example (onWords K erc1155Example (program K D env)) w value input

/-- Deployment: the constructor runs on fresh storage (`examples/erc1155/src/constructor.sol` 10-12). -/
def deploy (K : Hash) : Option (State Ev) :=
  Constructors.erc1155Init.bind fun ws =>
  (Constructors.assign K Constructors.erc1155Sol ws Constructors.fresh).map fun st => { words := st, log := [] }

end Verif.Erc1155Deployed

namespace Verif.Erc1155SupplyDeployed
open Verif Verif.Storage Verif.Erc1155Supply Verif.OnWords
open Verif.Abi (Val Decoder Outcome)
open Verif.Contracts (Env)
open Verif.Erc1155 (Event)

/-- The field `erc1155_supply`, `examples/erc1155-supply/src/lib.rs` 20-21. -/
def root : List Step := [.field "erc1155_supply"]

/-- The functions of `examples/erc1155-supply/src/lib.rs` 24-83 and of `Erc1155Supply`
(`contracts/src/token/erc1155/extensions/supply.rs` 101-152). -/
def program (K : Hash) (D : Decoder) (env : Env) (t f : String) (args : List Val) : Prog (Option Bytes) Event (List Val) :=
  let go (c : Call) := finish K Revert.erc1155 (fun _ => []) (Erc1155SupplyWords.code root (Calls.receivers1155 K D env.world) env.caller c)
  dispatch t f args (
  [("Erc1155Example", "total_supply", fun
      | [.uint256 id] => .get (Erc1155SupplyWords.total root id) fun v => .ret [.uint256 v]
      | _ => .fail none),
   ("Erc1155Example", "total_supply_all", fun
      | [] => .get (Erc1155SupplyWords.totalAll root) fun v => .ret [.uint256 v]
      | _ => .fail none),
   ("Erc1155Example", "exists", fun
      | [.uint256 id] => .get (Erc1155SupplyWords.total root id) fun v => .ret [.bool (decide (0#256 < v))]
      | _ => .fail none),
   ("Erc1155Example", "mint", fun
      | [.address dst, .uint256 id, .uint256 v, .bytes data] => go (.mint dst id v data)
      | _ => .fail none),
   ("Erc1155Example", "mint_batch", fun
      | [.address dst, .uints ids, .uints vs, .bytes data] => go (.mintBatch dst ids vs data)
      | _ => .fail none),
   ("Erc1155Example", "burn", fun | [.address a, .uint256 id, .uint256 v] => go (.burn a id v) | _ => .fail none),
   ("Erc1155Example", "burn_batch", fun
      | [.address a, .uints ids, .uints vs] => go (.burnBatch a ids vs)
      | _ => .fail none),
   ("Erc1155Example", "supports_interface", fun
      | [.bytes4 id] => .ret [.bool (Interfaces.erc1155SupplyExample K id)]
      | _ => .fail none),
   ("Erc1155Supply", "set_approval_for_all", fun
      | [.address op, .bool b] => go (.setApprovalForAll op b)
      | _ => .fail none),
   ("Erc1155Supply", "safe_transfer_from", fun
      | [.address src, .address dst, .uint256 id, .uint256 v, .bytes data] => go (.safeTransferFrom src dst id v data)
      | _ => .fail none),
   ("Erc1155Supply", "safe_batch_transfer_from", fun
      | [.address src, .address dst, .uints ids, .uints vs, .bytes data] => go (.safeBatchTransferFrom src dst ids vs data)
      | _ => .fail none)] ++
  MultiWords.views K (Erc1155SupplyWords.base root) id "Erc1155Supply")

/-- `#[entrypoint]`, `examples/erc1155-supply/src/lib.rs` 17-83. -/
def entry (K : Hash) (D : Decoder) (env : Env) (w : State Event) (value : U256) (input : Bytes) : Outcome (State Event) :=
  Abi.entry K D Router.erc1155SupplyExample (onWords K erc1155SupplyExample (program K D env)) w value input

/-- Deployment: there is no constructor, all words are zero (`examples/erc1155-supply/src/lib.rs` 17-22). -/
def deployed : State Event := { words := Constructors.fresh, log := [] }

end Verif.Erc1155SupplyDeployed
