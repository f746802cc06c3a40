import Verif.Model.Deployed
import Verif.Model.Contracts
/-!
# Model of deployed contracts: `examples/ownable`, `examples/ownable-two-step`, `examples/access-control`

An ERC-20 token some functions of which are reserved, with nothing left out between the transaction and the storage: functions as
programs on storage cells, the router and the decoder in front, and the words of the storage behind.
-/
namespace Verif.OnWords
open Verif Verif.Storage
open Verif.Abi (Val Handler Decoder Outcome)

/-- A contract on the chain: the words of its storage, and the events so far (`examples/ownable/src/lib.rs` 19-26 and the like). -/
structure State (V : Type) where
  words : Words
  log : List V

/-- A function of a contract: type, name, what it does (`contracts/src/token/erc20/mod.rs` 270-316). -/
abbrev Row (V : Type) := String × String × (List Val → Prog (Option Bytes) V (List Val))

/-- The function of this type and name, on these arguments (`examples/ownable/src/lib.rs` 28-29), as `Entry.dispatch`. -/
def dispatch {V : Type} (t f : String) (args : List Val) (table : List (Row V)) : Prog (Option Bytes) V (List Val) :=
  match table.find? fun r => decide (r.1 = t) && decide (r.2.1 = f) with
  | some r => r.2.2 args
  | none => .fail none

/-- The result of a function, errors as bytes, `none` for a panic (`examples/ownable/src/lib.rs` 31-35 and the like). -/
def finish {E V α : Type} (K : Hash) (reply : E → Revert.Reply) (f : α → List Val) (m : Prog E V α) :
    Prog (Option Bytes) V (List Val) :=
  (m.lift (fun e => (reply e).data K) id).bind fun a => .ret (f a)

/-- Functions on the words of a storage struct (`examples/ownable/src/lib.rs` 19-36 and the like). -/
def onWords {V : Type} (K : Hash) (s : Ty) (program : String → String → List Val → Prog (Option Bytes) V (List Val)) :
    Handler (State V) := fun t f args w =>
  ((program t f args).onWords K s w.words).map fun r => ({ words := r.2.1, log := w.log ++ r.2.2 }, r.1)

/-- The field `erc20`, `examples/ownable/src/lib.rs` 22-23, `examples/ownable-two-step/src/lib.rs` 22-23,
`examples/access-control/src/lib.rs` 22-23. -/
def token : List Step := [.field "erc20"]

/-- A call of the token, with `?` (`examples/ownable/src/lib.rs` 33). -/
def inner {E G : Type} (fe : Erc20.Err → E) (caller : Address) (c : Erc20.Call) : Prog E (Erc20.Event ⊕ G) Unit :=
  (Erc20Words.code token caller c).lift fe .inl

/-- `total_supply`, `balance_of`, `allowance` of `Erc20` (`contracts/src/token/erc20/mod.rs` 274-297). -/
def erc20Views {V : Type} : List (Row V) :=
  [("Erc20", "total_supply", fun | [] => .get (Erc20Words.supply token) fun v => .ret [.uint256 v] | _ => .fail none),
   ("Erc20", "balance_of", fun
      | [.address a] => .get (Erc20Words.balance token a) fun v => .ret [.uint256 v]
      | _ => .fail none),
   ("Erc20", "allowance", fun
      | [.address o, .address p] => .get (Erc20Words.allowance token o p) fun v => .ret [.uint256 v]
      | _ => .fail none)]

end Verif.OnWords

namespace Verif.OwnableWords
open Verif Verif.Storage Verif.Ownable

/-- `Ownable` on storage (`contracts/src/access/ownable.rs` 128-198). -/
abbrev Code := Prog Err Event

variable (root : List Step)

/-- `self.owner`, `contracts/src/access/ownable.rs` 71. -/
def ownerCell : List Step := root ++ [.field "owner"]

/-- `owner`, `contracts/src/access/ownable.rs` 132-134. -/
def owner : Code Address := .get (ownerCell root) fun v => .ret (v.setWidth 160)

/-- `only_owner`, `contracts/src/access/ownable.rs` 171-180. -/
def onlyOwner (caller : Address) : Code Unit :=
  (owner root).bind fun o => if o ≠ caller then .fail (.unauthorizedAccount caller) else .ret ()

/-- `_transfer_ownership`, `contracts/src/access/ownable.rs` 193-197. -/
def transferInternal (new : Address) : Code Unit :=
  (owner root).bind fun previous => .set (ownerCell root) (new.setWidth 256) (.emit (.transferred previous new) (.ret ()))

/-- The calls, `contracts/src/access/ownable.rs` 136-157. -/
def code (caller : Address) : Call → Code Unit
  | .transferOwnership new => (onlyOwner root caller).bind fun _ =>
    if new = ZERO then .fail (.invalidOwner ZERO) else transferInternal root new
  | .renounceOwnership => (onlyOwner root caller).bind fun _ => transferInternal root ZERO

end Verif.OwnableWords

namespace Verif.Ownable2StepWords
open Verif Verif.Storage Verif.Ownable2Step
open Verif.OwnableWords (Code onlyOwner owner)

variable (root : List Step)

/-- The field `ownable`, `contracts/src/access/ownable_two_step.rs` 55-56. -/
def base : List Step := root ++ [.field "ownable"]

/-- `self.pending_owner`, `contracts/src/access/ownable_two_step.rs` 58. -/
def pendingCell : List Step := root ++ [.field "pending_owner"]

/-- `pending_owner`, `contracts/src/access/ownable_two_step.rs` 168-170. -/
def pendingOwner : Code Address := .get (pendingCell root) fun v => .ret (v.setWidth 160)

/-- `_transfer_ownership`, `contracts/src/access/ownable_two_step.rs` 222-225. -/
def transferInternal (new : Address) : Code Unit :=
  .set (pendingCell root) (ZERO.setWidth 256) (OwnableWords.transferInternal (base root) new)

/-- The calls, `contracts/src/access/ownable_two_step.rs` 172-203. -/
def code (caller : Address) : Call → Code Unit
  | .transferOwnership new => (onlyOwner (base root) caller).bind fun _ =>
    .set (pendingCell root) (new.setWidth 256) ((owner (base root)).bind fun current => .emit (.started current new) (.ret ()))
  | .acceptOwnership => (pendingOwner root).bind fun pending =>
    if caller ≠ pending then .fail (.unauthorizedAccount caller) else transferInternal root caller
  | .renounceOwnership => (onlyOwner (base root) caller).bind fun _ => transferInternal root ZERO

end Verif.Ownable2StepWords

namespace Verif.AccessWords
open Verif Verif.Storage Verif.AccessControl

/-- `AccessControl` on storage (`contracts/src/access/control.rs` 254-406). -/
abbrev Code := Prog Err Event

variable (root : List Step)

/-- `has_role` of a role, `contracts/src/access/control.rs` 127 and 136. -/
def memberCell (r : Role) (a : Address) : List Step :=
  root ++ [.field "roles", .key r, .field "has_role", .key (a.setWidth 256)]

/-- `admin_role` of a role, `contracts/src/access/control.rs` 129 and 136. -/
def adminCell (r : Role) : List Step := root ++ [.field "roles", .key r, .field "admin_role"]

/-- `has_role`, `contracts/src/access/control.rs` 258-260. -/
def hasRole (r : Role) (a : Address) : Code Bool := .get (memberCell root r a) fun v => .ret (decide (v ≠ 0#256))

/-- `get_role_admin`, `contracts/src/access/control.rs` 266-268. -/
def getRoleAdmin (r : Role) : Code Role := .get (adminCell root r) .ret

/-- `only_role` and `_check_role`, `contracts/src/access/control.rs` 262-264 and 345-357. -/
def onlyRole (caller : Address) (r : Role) : Code Unit :=
  (hasRole root r caller).bind fun b => if !b then .fail (.unauthorizedAccount caller r) else .ret ()

/-- `_grant_role`, `contracts/src/access/control.rs` 373-381. -/
def grantInternal (caller : Address) (r : Role) (a : Address) : Code Unit :=
  (hasRole root r a).bind fun b =>
    if b then .ret () else .set (memberCell root r a) 1#256 (.emit (.roleGranted r a caller) (.ret ()))

/-- `_revoke_role`, `contracts/src/access/control.rs` 397-405. -/
def revokeInternal (caller : Address) (r : Role) (a : Address) : Code Unit :=
  (hasRole root r a).bind fun b =>
    if b then .set (memberCell root r a) 0#256 (.emit (.roleRevoked r a caller) (.ret ())) else .ret ()

/-- `_set_role_admin`, `contracts/src/access/control.rs` 323-331. -/
def setRoleAdminInternal (r new : Role) : Code Unit :=
  (getRoleAdmin root r).bind fun previous => .set (adminCell root r) new (.emit (.roleAdminChanged r previous new) (.ret ()))

/-- The calls, `contracts/src/access/control.rs` 270-305. -/
def code (caller : Address) : Call → Code Unit
  | .grantRole r a => (getRoleAdmin root r).bind fun admin => (onlyRole root caller admin).bind fun _ => grantInternal root caller r a
  | .revokeRole r a => (getRoleAdmin root r).bind fun admin => (onlyRole root caller admin).bind fun _ => revokeInternal root caller r a
  | .renounceRole r a => if caller ≠ a then .fail .badConfirmation else revokeInternal root caller r a

end Verif.AccessWords

namespace Verif.OwnableDeployed
open Verif Verif.Storage Verif.OwnableExample Verif.OnWords
open Verif.Abi (Val Decoder Outcome)

/-- Events: of the token, or of `Ownable` (`contracts/src/token/erc20/mod.rs` 39-44, `contracts/src/access/ownable.rs` 26-34). -/
abbrev Ev := Erc20.Event ⊕ Ownable.Event

/-- The field `ownable`, `examples/ownable/src/lib.rs` 24-25. -/
def gate : List Step := [.field "ownable"]

/-- The state-changing functions: `transfer`, `examples/ownable/src/lib.rs` 31-35, and the inherited ones
(`contracts/src/token/erc20/mod.rs` 296-316, `contracts/src/access/ownable.rs` 136-157). -/
def code (caller : Address) : Call → Prog Err Ev Unit
  | .transfer dst v => ((OwnableWords.onlyOwner gate caller).lift .ownable .inr).bind fun _ => inner .erc20 caller (.transfer dst v)
  | .transferFrom src dst v => inner .erc20 caller (.transferFrom src dst v)
  | .approve p v => inner .erc20 caller (.approve p v)
  | .ownable c => (OwnableWords.code gate caller c).lift .ownable .inr

/-- The functions of `examples/ownable/src/lib.rs` 28-36 and of `Erc20` (`contracts/src/token/erc20/mod.rs` 270-316) and `Ownable`
(`contracts/src/access/ownable.rs` 128-158). -/
def program (K : Hash) (caller : Address) (t f : String) (args : List Val) : Prog (Option Bytes) Ev (List Val) :=
  let go (r : List Val) (c : Call) := finish K Contracts.ownableReply (fun _ => r) (code caller c)
  dispatch t f args (
  [("OwnableExample", "transfer", fun | [.address dst, .uint256 v] => go [] (.transfer dst v) | _ => .fail none),
   ("Erc20", "approve", fun | [.address p, .uint256 v] => go [.bool true] (.approve p v) | _ => .fail none),
   ("Erc20", "transfer_from", fun
      | [.address src, .address dst, .uint256 v] => go [.bool true] (.transferFrom src dst v)
      | _ => .fail none),
   ("Ownable", "owner", fun
      | [] => .get (OwnableWords.ownerCell gate) fun v => .ret [.address (v.setWidth 160)]
      | _ => .fail none),
   ("Ownable", "transfer_ownership", fun | [.address a] => go [] (.ownable (.transferOwnership a)) | _ => .fail none),
   ("Ownable", "renounce_ownership", fun | [] => go [] (.ownable .renounceOwnership) | _ => .fail none)] ++
  erc20Views)

/-- `#[entrypoint]`, `examples/ownable/src/lib.rs` 19-36. -/
def entry (K : Hash) (D : Decoder) (caller : Address) (w : State Ev) (value : U256) (input : Bytes) : Outcome (State Ev) :=
  Abi.entry K D Router.ownableExample (onWords K ownableExample (program K caller)) w value input

/-- Deployment: the constructor runs on fresh storage; nothing if it reverts (`examples/ownable/src/constructor.sol` 17-28).  The
log begins after it. -/
def deploy (K : Hash) (owner : Address) : Option (State Ev) :=
  (Constructors.ownableInit owner).bind fun ws =>
  (Constructors.assign K Constructors.ownableSol ws Constructors.fresh).map fun st => { words := st, log := [] }

end Verif.OwnableDeployed

namespace Verif.Ownable2StepDeployed
open Verif Verif.Storage Verif.Ownable2StepExample Verif.OnWords
open Verif.OwnableExample (Err)
open Verif.OwnableDeployed (Ev)
open Verif.Abi (Val Decoder Outcome)

/-- The field `ownable`, `examples/ownable-two-step/src/lib.rs` 24-25. -/
def gate : List Step := [.field "ownable"]

/-- The state-changing functions: `transfer`, `examples/ownable-two-step/src/lib.rs` 31-35 (`only_owner` is that of the embedded
`Ownable`), and the inherited ones (`contracts/src/token/erc20/mod.rs` 296-316, `contracts/src/access/ownable_two_step.rs`
172-203). -/
def code (caller : Address) : Call → Prog Err Ev Unit
  | .transfer dst v =>
    ((OwnableWords.onlyOwner (Ownable2StepWords.base gate) caller).lift .ownable .inr).bind fun _ => inner .erc20 caller (.transfer dst v)
  | .transferFrom src dst v => inner .erc20 caller (.transferFrom src dst v)
  | .approve p v => inner .erc20 caller (.approve p v)
  | .ownable c => (Ownable2StepWords.code gate caller c).lift .ownable .inr

/-- The functions of `examples/ownable-two-step/src/lib.rs` 28-36 and of `Erc20` (`contracts/src/token/erc20/mod.rs` 270-316) and
`Ownable2Step` (`contracts/src/access/ownable_two_step.rs` 160-204). -/
def program (K : Hash) (caller : Address) (t f : String) (args : List Val) : Prog (Option Bytes) Ev (List Val) :=
  let go (r : List Val) (c : Call) := finish K Contracts.ownableReply (fun _ => r) (code caller c)
  dispatch t f args (
  [("Ownable2StepExample", "transfer", fun | [.address dst, .uint256 v] => go [] (.transfer dst v) | _ => .fail none),
   ("Erc20", "approve", fun | [.address p, .uint256 v] => go [.bool true] (.approve p v) | _ => .fail none),
   ("Erc20", "transfer_from", fun
      | [.address src, .address dst, .uint256 v] => go [.bool true] (.transferFrom src dst v)
      | _ => .fail none),
   ("Ownable2Step", "owner", fun
      | [] => .get (OwnableWords.ownerCell (Ownable2StepWords.base gate)) fun v => .ret [.address (v.setWidth 160)]
      | _ => .fail none),
   ("Ownable2Step", "pending_owner", fun
      | [] => .get (Ownable2StepWords.pendingCell gate) fun v => .ret [.address (v.setWidth 160)]
      | _ => .fail none),
   ("Ownable2Step", "transfer_ownership", fun
      | [.address a] => go [] (.ownable (.transferOwnership a))
      | _ => .fail none),
   ("Ownable2Step", "accept_ownership", fun | [] => go [] (.ownable .acceptOwnership) | _ => .fail none),
   ("Ownable2Step", "renounce_ownership", fun | [] => go [] (.ownable .renounceOwnership) | _ => .fail none)] ++
  erc20Views)

/-- `#[entrypoint]`, `examples/ownable-two-step/src/lib.rs` 19-36. -/
def entry (K : Hash) (D : Decoder) (caller : Address) (w : State Ev) (value : U256) (input : Bytes) : Outcome (State Ev) :=
  Abi.entry K D Router.ownableTwoStepExample (onWords K ownableTwoStepExample (program K caller)) w value input

/-- Deployment: the constructor runs on fresh storage; nothing if it reverts (`examples/ownable-two-step/src/constructor.sol`
16-27).  The log begins after it. -/
def deploy (K : Hash) (owner : Address) : Option (State Ev) :=
  (Constructors.ownableInit owner).bind fun ws =>
  (Constructors.assign K Constructors.ownableTwoStepSol ws Constructors.fresh).map fun st => { words := st, log := [] }

end Verif.Ownable2StepDeployed

namespace Verif.AccessDeployed
open Verif Verif.Storage Verif.AccessExample Verif.OnWords
open Verif.Abi (Val Decoder Outcome)

/-- Events: of the token, or of `AccessControl` (`contracts/src/token/erc20/mod.rs` 39-44, `contracts/src/access/control.rs` 60-86). -/
abbrev Ev := Erc20.Event ⊕ AccessControl.Event

/-- The field `access`, `examples/access-control/src/lib.rs` 24-25. -/
def gate : List Step := [.field "access"]

/-- The state-changing functions, `examples/access-control/src/lib.rs` 34-55, and the inherited ones
(`contracts/src/token/erc20/mod.rs` 283-303, `contracts/src/access/control.rs` 270-305). -/
def code (caller : Address) : Call → Prog Err Ev Unit
  | .makeAdmin a =>
    ((AccessWords.onlyRole gate caller AccessControl.DEFAULT_ADMIN_ROLE).lift .access .inr).bind fun _ =>
    (AccessWords.code gate caller (.grantRole TRANSFER_ROLE a)).lift .access .inr
  | .transferFrom src dst v =>
    ((AccessWords.onlyRole gate caller TRANSFER_ROLE).lift .access .inr).bind fun _ => inner .erc20 caller (.transferFrom src dst v)
  | .setRoleAdmin r n => (AccessWords.setRoleAdminInternal gate r n).lift .access .inr
  | .transfer dst v => inner .erc20 caller (.transfer dst v)
  | .approve p v => inner .erc20 caller (.approve p v)
  | .access c => (AccessWords.code gate caller c).lift .access .inr

/-- The functions of `examples/access-control/src/lib.rs` 31-56 and of `Erc20` (`contracts/src/token/erc20/mod.rs` 270-316) and
`AccessControl` (`contracts/src/access/control.rs` 254-306). -/
def program (K : Hash) (caller : Address) (t f : String) (args : List Val) : Prog (Option Bytes) Ev (List Val) :=
  let go (r : List Val) (c : Call) := finish K Contracts.accessReply (fun _ => r) (code caller c)
  dispatch t f args (
  [("AccessControlExample", "make_admin", fun | [.address a] => go [] (.makeAdmin a) | _ => .fail none),
   ("AccessControlExample", "transfer_from", fun
      | [.address src, .address dst, .uint256 v] => go [.bool true] (.transferFrom src dst v)
      | _ => .fail none),
   ("AccessControlExample", "set_role_admin", fun
      | [.bytes32 r, .bytes32 n] => go [] (.setRoleAdmin r n)
      | _ => .fail none),
   ("Erc20", "transfer", fun | [.address dst, .uint256 v] => go [.bool true] (.transfer dst v) | _ => .fail none),
   ("Erc20", "approve", fun | [.address p, .uint256 v] => go [.bool true] (.approve p v) | _ => .fail none),
   ("AccessControl", "has_role", fun
      | [.bytes32 r, .address a] => .get (AccessWords.memberCell gate r a) fun v => .ret [.bool (decide (v ≠ 0#256))]
      | _ => .fail none),
   ("AccessControl", "only_role", fun
      | [.bytes32 r] => finish K Contracts.accessReply (fun _ => []) ((AccessWords.onlyRole gate caller r).lift .access .inr)
      | _ => .fail none),
   ("AccessControl", "get_role_admin", fun
      | [.bytes32 r] => .get (AccessWords.adminCell gate r) fun v => .ret [.bytes32 v]
      | _ => .fail none),
   ("AccessControl", "grant_role", fun | [.bytes32 r, .address a] => go [] (.access (.grantRole r a)) | _ => .fail none),
   ("AccessControl", "revoke_role", fun
      | [.bytes32 r, .address a] => go [] (.access (.revokeRole r a))
      | _ => .fail none),
   ("AccessControl", "renounce_role", fun
      | [.bytes32 r, .address a] => go [] (.access (.renounceRole r a))
      | _ => .fail none)] ++
  erc20Views)

/-- `#[entrypoint]`, `examples/access-control/src/lib.rs` 19-56. -/
def entry (K : Hash) (D : Decoder) (caller : Address) (w : State Ev) (value : U256) (input : Bytes) : Outcome (State Ev) :=
  Abi.entry K D Router.accessControlExample (onWords K accessControlExample (program K caller)) w value input

/-- Deployment: the constructor runs on fresh storage (`examples/access-control/src/constructor.sol` 24-46).  The log begins after
it. -/
def deploy (K : Hash) (deployer : Address) : Option (State Ev) :=
  (Constructors.accessControlInit K deployer).bind fun ws =>
  (Constructors.assign K Constructors.accessControlSol ws Constructors.fresh).map fun st => { words := st, log := [] }

end Verif.AccessDeployed
