import Verif.Model.StoragePrograms
import Verif.Model.Erc721
/-!
# The ERC-721 token on raw storage

The code of `token/erc721/mod.rs` and `token/erc721/extensions/burnable.rs` as programs on storage cells, in the order in which
it reads and writes them.  What a receiver answers is a parameter, as in `Verif.Model.Erc721`.
-/
namespace Verif.Erc721Words
open Verif Verif.Storage Verif.Erc721

/-- ERC-721 code on storage. -/
abbrev Code := Prog Err Event

variable (root : List Step)

/-- `self.owners`, `contracts/src/token/erc721/mod.rs` 190, at the key of a token. -/
def owner (id : U256) : List Step := root ++ [.field "owners", .key id]

/-- `self.balances`, `contracts/src/token/erc721/mod.rs` 192. -/
def balance (a : Address) : List Step := root ++ [.field "balances", .key (a.setWidth 256)]

/-- `self.token_approvals`, `contracts/src/token/erc721/mod.rs` 194. -/
def approved (id : U256) : List Step := root ++ [.field "token_approvals", .key id]

/-- `self.operator_approvals`, `contracts/src/token/erc721/mod.rs` 196-197. -/
def operator (o p : Address) : List Step :=
  root ++ [.field "operator_approvals", .key (o.setWidth 256), .key (p.setWidth 256)]

/-- `_owner_of`, `contracts/src/token/erc721/mod.rs` 516-518. -/
def ownerOfInternal (id : U256) : Code Address := .get (owner root id) fun v => .ret (v.setWidth 160)

/-- `_get_approved`, `contracts/src/token/erc721/mod.rs` 528-530. -/
def getApprovedInternal (id : U256) : Code Address := .get (approved root id) fun v => .ret (v.setWidth 160)

/-- `is_approved_for_all`, `contracts/src/token/erc721/mod.rs` 488-490. -/
def isApprovedForAll (o p : Address) : Code Bool := .get (operator root o p) fun v => .ret (decide (v ≠ 0#256))

/-- `_require_owned`, `contracts/src/token/erc721/mod.rs` 960-966. -/
def requireOwned (id : U256) : Code Address :=
  (ownerOfInternal root id).bind fun o => if o = ZERO then .fail (.nonexistentToken id) else .ret o

/-- `balance_of`, `contracts/src/token/erc721/mod.rs` 412-417. -/
def balanceOf (a : Address) : Code U256 :=
  if a = ZERO then .fail (.invalidOwner ZERO) else .get (balance root a) .ret

/-- `get_approved`, `contracts/src/token/erc721/mod.rs` 483-486. -/
def getApproved (id : U256) : Code Address := (requireOwned root id).bind fun _ => getApprovedInternal root id

/-- `_is_authorized`, `contracts/src/token/erc721/mod.rs` 545-555. -/
def isAuthorized (o spender : Address) (id : U256) : Code Bool :=
  if spender = ZERO then .ret false
  else if o = spender then .ret true
  else (isApprovedForAll root o spender).bind fun all =>
    if all then .ret true else (getApprovedInternal root id).bind fun a => .ret (decide (a = spender))

/-- `_check_authorized`, `contracts/src/token/erc721/mod.rs` 577-592. -/
def checkAuthorized (o op : Address) (id : U256) : Code Unit :=
  (isAuthorized root o op id).bind fun ok =>
    if ok then .ret ()
    else if o = ZERO then .fail (.nonexistentToken id)
    else .fail (.insufficientApproval op id)

/-- `_approve`, `contracts/src/token/erc721/mod.rs` 886-913. -/
def approveInternal (dst : Address) (id : U256) (auth : Address) (emitEvent : Bool) : Code Unit :=
  let store : Code Unit := .set (approved root id) (dst.setWidth 256) (.ret ())
  if emitEvent = true ∨ auth ≠ ZERO then
    (requireOwned root id).bind fun o =>
    (if auth ≠ ZERO ∧ o ≠ auth then
      (isApprovedForAll root o auth).bind fun all => if all then .ret () else .fail (.invalidApprover auth)
      else .ret ()).bind fun _ =>
    if emitEvent then .emit (.approval o dst id) store else store
  else store

/-- `add_assign_unchecked` and `sub_assign_unchecked` on a balance, `contracts/src/token/erc721/mod.rs` 662, 666. -/
def change (a : Address) (f : U256 → U256) : Code Unit :=
  .get (balance root a) fun b => .set (balance root a) (f b) (.ret ())

/-- `_update`, `contracts/src/token/erc721/mod.rs` 644-672; returns the previous owner. -/
def update (dst : Address) (id : U256) (auth : Address) : Code Address :=
  (ownerOfInternal root id).bind fun src =>
  (if auth ≠ ZERO then checkAuthorized root src auth id else .ret ()).bind fun _ =>
  (if src ≠ ZERO then
    (approveInternal root ZERO id ZERO false).bind fun _ =>
    change root src fun b => b - 1#256
    else .ret ()).bind fun _ =>
  (if dst ≠ ZERO then change root dst fun b => b + 1#256 else .ret ()).bind fun _ =>
  .set (owner root id) (dst.setWidth 256) (.emit (.transfer src dst id) (.ret src))

/-- `_mint`, `contracts/src/token/erc721/mod.rs` 693-705. -/
def mint (dst : Address) (id : U256) : Code Unit :=
  if dst = ZERO then .fail (.invalidReceiver ZERO)
  else (update root dst id ZERO).bind fun previous => if previous ≠ ZERO then .fail (.invalidSender ZERO) else .ret ()

/-- `_burn`, `contracts/src/token/erc721/mod.rs` 766-773. -/
def burnInternal (id : U256) : Code Unit :=
  (update root ZERO id ZERO).bind fun previous => if previous = ZERO then .fail (.nonexistentToken id) else .ret ()

/-- `_transfer`, `contracts/src/token/erc721/mod.rs` 796-821. -/
def transferInternal (src dst : Address) (id : U256) : Code Unit :=
  if dst = ZERO then .fail (.invalidReceiver ZERO)
  else (update root dst id ZERO).bind fun previous =>
    if previous = ZERO then .fail (.nonexistentToken id)
    else if previous ≠ src then .fail (.incorrectOwner src id previous) else .ret ()

/-- `transfer_from`, `contracts/src/token/erc721/mod.rs` 444-469. -/
def transferFrom (caller src dst : Address) (id : U256) : Code Unit :=
  if dst = ZERO then .fail (.invalidReceiver ZERO)
  else (update root dst id caller).bind fun previous =>
    if previous ≠ src then .fail (.incorrectOwner src id previous) else .ret ()

/-- The call of a receiver, `contracts/src/token/erc721/mod.rs` 993-1035; it does not touch the storage. -/
def received (R : Receivers) (op src dst : Address) (id : U256) (data : Bytes) : Code Unit :=
  match checkOnReceived R op src dst id data with
  | .ok _ => .ret ()
  | .error e => .fail e

/-- `safe_transfer_from_with_data`, `contracts/src/token/erc721/mod.rs` 433-442. -/
def safeTransferFromWithData (R : Receivers) (caller src dst : Address) (id : U256) (data : Bytes) : Code Unit :=
  (transferFrom root caller src dst id).bind fun _ => received R caller src dst id data

/-- `_safe_mint`, `contracts/src/token/erc721/mod.rs` 732-746. -/
def safeMint (R : Receivers) (caller dst : Address) (id : U256) (data : Bytes) : Code Unit :=
  (mint root dst id).bind fun _ => received R caller ZERO dst id data

/-- `_safe_transfer`, `contracts/src/token/erc721/mod.rs` 852-861. -/
def safeTransferInternal (R : Receivers) (caller src dst : Address) (id : U256) (data : Bytes) : Code Unit :=
  (transferInternal root src dst id).bind fun _ => received R caller src dst id data

/-- `_set_approval_for_all`, `contracts/src/token/erc721/mod.rs` 931-944. -/
def setApprovalForAll (o op : Address) (b : Bool) : Code Unit :=
  if op = ZERO then .fail (.invalidOperator op)
  else .set (operator root o op) (if b then 1#256 else 0#256) (.emit (.approvalForAll o op b) (.ret ()))

/-- `burn`, `contracts/src/token/erc721/extensions/burnable.rs` 35-44. -/
def burn (caller : Address) (id : U256) : Code Unit := (update root ZERO id caller).bind fun _ => .ret ()

/-- The calls, `contracts/src/token/erc721/mod.rs` 409-491, 500-1036 and `contracts/src/token/erc721/extensions/burnable.rs`
32-45. -/
def code (R : Receivers) (caller : Address) : UserCall ⊕ AdminCall → Code Unit
  | .inl (.transferFrom src dst id) => transferFrom root caller src dst id
  | .inl (.safeTransferFrom src dst id) => safeTransferFromWithData root R caller src dst id []
  | .inl (.safeTransferFromWithData src dst id data) => safeTransferFromWithData root R caller src dst id data
  | .inl (.approve dst id) => approveInternal root dst id caller true
  | .inl (.setApprovalForAll op b) => setApprovalForAll root caller op b
  | .inl (.burn id) => burn root caller id
  | .inr (.mint dst id) => mint root dst id
  | .inr (.safeMint dst id data) => safeMint root R caller dst id data
  | .inr (.burn id) => burnInternal root id
  | .inr (.transfer src dst id) => transferInternal root src dst id
  | .inr (.safeTransfer src dst id data) => safeTransferInternal root R caller src dst id data

/-- A token on raw storage: its words and the events so far. -/
structure State where
  words : Words
  log : List Event

/-- One transaction (`contracts/src/token/erc721/mod.rs` 409-1036).  No transaction has the zero address as its sender: such a one
is refused, as in `Erc721.exec`. -/
def exec (K : Hash) (t : Ty) (s : State) (tx : Tx) : Except Err State :=
  if tx.caller = ZERO then .error (.invalidSender ZERO)
  else ((code root tx.receivers tx.caller tx.call).onWords K t s.words).map fun r => { words := r.2.1, log := s.log ++ r.2.2 }

/-- A history of transactions; failed ones are reverted (`contracts/src/token/erc721/mod.rs` 409-1036). -/
def run (K : Hash) (t : Ty) (s : State) (txs : List Tx) : State := runOf (exec root K t) s txs

end Verif.Erc721Words
