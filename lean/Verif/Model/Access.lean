import Verif.Base
/-!
# Model of Ownable, Ownable2Step and AccessControl

Sources: `contracts/src/access/ownable.rs`, `contracts/src/access/ownable_two_step.rs`,
`contracts/src/access/control.rs`.
-/

namespace Verif.Ownable

/-- `ownable.rs` 36-59. -/
inductive Err where
  | unauthorizedAccount (account : Address)
  | invalidOwner (owner : Address)
  deriving DecidableEq, Repr

/-- `ownable.rs` 26-34 (and `ownable_two_step.rs` 36-47 for `started`). -/
inductive Event where
  | transferred (previous new : Address)
  | started (previous new : Address)
  deriving DecidableEq, Repr

/-- Storage of `Ownable`, `ownable.rs` 68-72, plus the event log. -/
structure State where
  owner : Address
  log : List Event

/-- `only_owner`, `ownable.rs` 171-180. -/
def onlyOwner (s : State) (caller : Address) : Except Err Unit :=
  if s.owner ≠ caller then .error (.unauthorizedAccount caller) else .ok ()

/-- `_transfer_ownership`, `ownable.rs` 193-197. -/
def transferInternal (s : State) (newOwner : Address) : State :=
  { s with owner := newOwner, log := s.log ++ [.transferred s.owner newOwner] }

/-- `transfer_ownership`, `ownable.rs` 136-151. -/
def transferOwnership (s : State) (caller newOwner : Address) : Except Err State := do
  onlyOwner s caller
  if newOwner = ZERO then throw (.invalidOwner ZERO)
  return transferInternal s newOwner

/-- `renounce_ownership`, `ownable.rs` 153-157. -/
def renounceOwnership (s : State) (caller : Address) : Except Err State := do
  onlyOwner s caller
  return transferInternal s ZERO

/-- The public calls of `Ownable`.
Models the `#[public]` block `contracts/src/access/ownable.rs` 129-158. -/
inductive Call where
  | transferOwnership (newOwner : Address)
  | renounceOwnership
  deriving DecidableEq, Repr

/-- Dispatch of one transaction.
Models the router generated for `contracts/src/access/ownable.rs` 129-158. -/
def exec (s : State) (op : Address × Call) : Except Err State :=
  match op.2 with
  | .transferOwnership n => transferOwnership s op.1 n
  | .renounceOwnership => renounceOwnership s op.1

/-- A history of transactions.
Sequences of calls of `contracts/src/access/ownable.rs` 129-158; a failed transaction leaves no trace (Stylus reverts). -/
def run (s : State) (ops : List (Address × Call)) : State := runOf exec s ops

end Verif.Ownable

namespace Verif.Ownable2Step
open Verif.Ownable (Err Event)

/-- Storage of `Ownable2Step`, `ownable_two_step.rs` 51-59: the embedded `Ownable` and the pending
owner.  Both contracts share one event log, kept in the embedded `Ownable` state. -/
structure State where
  ownable : Ownable.State
  pendingOwner : Address

/-- After construction: the constructor sets the owner, nobody is pending.
Zero-initialised `Ownable2Step` storage, `contracts/src/access/ownable_two_step.rs` 51-59, with the owner of `ownable.rs` 68-73 set by the constructor. -/
def init (owner : Address) : State :=
  { ownable := { owner := owner, log := [] }, pendingOwner := ZERO }

/-- `owner`, `ownable_two_step.rs` 164-166. -/
def owner (s : State) : Address := s.ownable.owner

/-- `pending_owner`, `ownable_two_step.rs` 168-170. -/
def pendingOwner (s : State) : Address := s.pendingOwner

/-- `_transfer_ownership`, `ownable_two_step.rs` 222-225. -/
def transferInternal (s : State) (newOwner : Address) : State :=
  { pendingOwner := ZERO, ownable := Ownable.transferInternal s.ownable newOwner }

/-- `transfer_ownership`, `ownable_two_step.rs` 172-185. -/
def transferOwnership (s : State) (caller newOwner : Address) : Except Err State := do
  Ownable.onlyOwner s.ownable caller
  return { pendingOwner := newOwner,
           ownable := { s.ownable with log := s.ownable.log ++ [.started s.ownable.owner newOwner] } }

/-- `accept_ownership`, `ownable_two_step.rs` 187-197. -/
def acceptOwnership (s : State) (caller : Address) : Except Err State :=
  if caller ≠ s.pendingOwner then .error (.unauthorizedAccount caller)
  else .ok (transferInternal s caller)

/-- `renounce_ownership`, `ownable_two_step.rs` 199-203. -/
def renounceOwnership (s : State) (caller : Address) : Except Err State := do
  Ownable.onlyOwner s.ownable caller
  return transferInternal s ZERO

/-- The public calls of `Ownable2Step`. -/
inductive Call where
  | transferOwnership (newOwner : Address)
  | acceptOwnership
  | renounceOwnership
  deriving DecidableEq, Repr

/-- Dispatch of one transaction.
Models the router generated for `contracts/src/access/ownable_two_step.rs` 161-204. -/
def exec (s : State) (op : Address × Call) : Except Err State :=
  match op.2 with
  | .transferOwnership n => transferOwnership s op.1 n
  | .acceptOwnership => acceptOwnership s op.1
  | .renounceOwnership => renounceOwnership s op.1

/-- A history of transactions.
Sequences of calls of `contracts/src/access/ownable_two_step.rs` 161-204; a failed transaction leaves no trace (Stylus reverts). -/
def run (s : State) (ops : List (Address × Call)) : State := runOf exec s ops

end Verif.Ownable2Step

namespace Verif.AccessControl

/-- A role identifier, `B256`. -/
abbrev Role := B256

/-- `control.rs` 88-113. -/
inductive Err where
  | unauthorizedAccount (account : Address) (neededRole : Role)
  | badConfirmation
  deriving DecidableEq, Repr

/-- `control.rs` 60-86. -/
inductive Event where
  | roleAdminChanged (role previous new : Role)
  | roleGranted (role : Role) (account sender : Address)
  | roleRevoked (role : Role) (account sender : Address)
  deriving DecidableEq, Repr

/-- Storage of `AccessControl`, `control.rs` 124-137 (membership and admin of each role), plus the
event log. -/
structure State where
  members : Role → Address → Bool
  admin : Role → Role
  log : List Event

/-- `DEFAULT_ADMIN_ROLE`, `control.rs` 310. -/
def DEFAULT_ADMIN_ROLE : Role := 0#256

/-- Zero-initialised storage: no members, every role administered by `DEFAULT_ADMIN_ROLE`.
Models `contracts/src/access/control.rs` 124-138. -/
def init : State :=
  { members := fun _ _ => false, admin := fun _ => DEFAULT_ADMIN_ROLE, log := [] }

/-- `has_role`, `control.rs` 258-260. -/
def hasRole (s : State) (role : Role) (account : Address) : Bool := s.members role account

/-- `get_role_admin`, `control.rs` 266-268. -/
def getRoleAdmin (s : State) (role : Role) : Role := s.admin role

/-- `_check_role`, `control.rs` 345-357. -/
def checkRole (s : State) (role : Role) (account : Address) : Except Err Unit :=
  if !hasRole s role account then .error (.unauthorizedAccount account role) else .ok ()

/-- `only_role`, `control.rs` 262-264. -/
def onlyRole (s : State) (caller : Address) (role : Role) : Except Err Unit := checkRole s role caller

/-- `_grant_role`, `control.rs` 373-381 (the returned boolean is dropped by all callers). -/
def grantInternal (s : State) (caller : Address) (role : Role) (account : Address) : State :=
  if hasRole s role account then s
  else { s with members := upd2 s.members role account true
                log := s.log ++ [.roleGranted role account caller] }

/-- `_revoke_role`, `control.rs` 397-405. -/
def revokeInternal (s : State) (caller : Address) (role : Role) (account : Address) : State :=
  if hasRole s role account then
    { s with members := upd2 s.members role account false
             log := s.log ++ [.roleRevoked role account caller] }
  else s

/-- `_set_role_admin`, `control.rs` 323-331. -/
def setRoleAdminInternal (s : State) (role newAdmin : Role) : State :=
  { s with admin := upd s.admin role newAdmin
           log := s.log ++ [.roleAdminChanged role (getRoleAdmin s role) newAdmin] }

/-- `grant_role`, `control.rs` 270-279. -/
def grantRole (s : State) (caller : Address) (role : Role) (account : Address) :
    Except Err State := do
  onlyRole s caller (getRoleAdmin s role)
  return grantInternal s caller role account

/-- `revoke_role`, `control.rs` 281-290. -/
def revokeRole (s : State) (caller : Address) (role : Role) (account : Address) :
    Except Err State := do
  onlyRole s caller (getRoleAdmin s role)
  return revokeInternal s caller role account

/-- `renounce_role`, `control.rs` 292-305. -/
def renounceRole (s : State) (caller : Address) (role : Role) (confirmation : Address) :
    Except Err State :=
  if caller ≠ confirmation then .error .badConfirmation
  else .ok (revokeInternal s caller role confirmation)

/-- The public calls of `AccessControl`.
Models the `#[public]` block `contracts/src/access/control.rs` 255-306. -/
inductive Call where
  | grantRole (role : Role) (account : Address)
  | revokeRole (role : Role) (account : Address)
  | renounceRole (role : Role) (confirmation : Address)
  deriving DecidableEq, Repr

/-- Dispatch of one transaction.
Models the router generated for `contracts/src/access/control.rs` 255-306. -/
def exec (s : State) (op : Address × Call) : Except Err State :=
  match op.2 with
  | .grantRole r a => grantRole s op.1 r a
  | .revokeRole r a => revokeRole s op.1 r a
  | .renounceRole r a => renounceRole s op.1 r a

/-- A history of transactions.
Sequences of calls of `contracts/src/access/control.rs` 255-306; a failed transaction leaves no trace (Stylus reverts). -/
def run (s : State) (ops : List (Address × Call)) : State := runOf exec s ops

/-- Everything a contract built on `AccessControl` can do: the public calls plus the internal
`_grant_role`, `_revoke_role`, `_set_role_admin` at its own discretion (constructor, admin
functions).
Models `contracts/src/access/control.rs` 255-306 and the internal functions 308-406. -/
inductive Act where
  | call (caller : Address) (c : Call)
  | internalGrant (caller : Address) (role : Role) (account : Address)
  | internalRevoke (caller : Address) (role : Role) (account : Address)
  | internalSetAdmin (role newAdmin : Role)

/-- Dispatch of one action.
Models `contracts/src/access/control.rs` 255-406. -/
def execAct (s : State) : Act → Except Err State
  | .call c k => exec s (c, k)
  | .internalGrant c r a => .ok (grantInternal s c r a)
  | .internalRevoke c r a => .ok (revokeInternal s c r a)
  | .internalSetAdmin r n => .ok (setRoleAdminInternal s r n)

/-- A history of actions.
Sequences of such actions (`contracts/src/access/control.rs` 255-406); a failed transaction leaves no trace (Stylus reverts). -/
def runAct (s : State) (acts : List Act) : State := runOf execAct s acts

end Verif.AccessControl
