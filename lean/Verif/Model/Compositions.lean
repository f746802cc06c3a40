import Verif.Model.Erc20
import Verif.Model.Erc1155
import Verif.Model.Access
import Verif.Model.Utils
/-!
# Model of the compositions `examples/erc1155`, `examples/ownable`, `examples/ownable-two-step` and
`examples/access-control`

A method of the contract itself takes precedence over an inherited one of the same name.
-/

namespace Verif.Erc1155Example

/-- `Error`, `examples/erc1155/src/lib.rs` 12-16. -/
inductive Err where
  | erc1155 (e : Erc1155.Err)
  | pausable (e : Pausable.Err)
  deriving DecidableEq

/-- Storage, `examples/erc1155/src/lib.rs` 19-26. -/
structure State where
  erc1155 : Erc1155.State
  pausable : Pausable.State

/-- Zero-initialised storage of `examples/erc1155/src/lib.rs` 19-26. -/
def init : State := { erc1155 := Erc1155.init, pausable := Pausable.init }

/-- The `?` on calls of the base contract, `examples/erc1155/src/lib.rs` 39-102. -/
def lift {α : Type} : Except Erc1155.Err α → Except Err α
  | .ok a => .ok a
  | .error e => .error (.erc1155 e)

/-- The `?` on calls of the pausable contract, `examples/erc1155/src/lib.rs` 38-117. -/
def liftP {α : Type} : Except Pausable.Err α → Except Err α
  | .ok a => .ok a
  | .error e => .error (.pausable e)

/-- Calls, `examples/erc1155/src/lib.rs` 28-118; `setApprovalForAll` is inherited. -/
inductive Call where
  | mint (dst : Address) (id amount : U256) (data : Bytes)
  | mintBatch (dst : Address) (ids amounts : List U256) (data : Bytes)
  | burn (account : Address) (id value : U256)
  | burnBatch (account : Address) (ids values : List U256)
  | safeTransferFrom (src dst : Address) (id value : U256) (data : Bytes)
  | safeBatchTransferFrom (src dst : Address) (ids values : List U256) (data : Bytes)
  | setApprovalForAll (operator : Address) (approved : Bool)
  | pause
  | unpause

/-- One transaction, `examples/erc1155/src/lib.rs` 28-118. -/
structure Tx where
  caller : Address
  receivers : Erc1155.Receivers
  call : Call

/-- A gated call: `when_not_paused` and then the base contract's function.
The shape of `examples/erc1155/src/lib.rs` 31-102. -/
def gated (s : State) (f : Except Erc1155.Err Erc1155.State) : Except Err State := do
  liftP (Pausable.whenNotPaused s.pausable)
  return { s with erc1155 := (← lift f) }

/-- Dispatch: `mint` 31-41, `mint_batch` 43-53, `burn` 55-64, `burn_batch` 66-75, `safe_transfer_from` 77-88,
`safe_batch_transfer_from` 90-101, `pause` 111-113, `unpause` 115-117 of `examples/erc1155/src/lib.rs`. -/
def exec (s : State) (tx : Tx) : Except Err State :=
  match tx.call with
  | .mint dst id v data => gated s (Erc1155.execAdmin tx.receivers s.erc1155 tx.caller (.mint dst id v data))
  | .mintBatch dst ids vs data =>
    gated s (Erc1155.execAdmin tx.receivers s.erc1155 tx.caller (.mintBatch dst ids vs data))
  | .burn a id v => gated s (Erc1155.execUser tx.receivers s.erc1155 tx.caller (.burn a id v))
  | .burnBatch a ids vs => gated s (Erc1155.execUser tx.receivers s.erc1155 tx.caller (.burnBatch a ids vs))
  | .safeTransferFrom src dst id v data =>
    gated s (Erc1155.execUser tx.receivers s.erc1155 tx.caller (.safeTransferFrom src dst id v data))
  | .safeBatchTransferFrom src dst ids vs data =>
    gated s (Erc1155.execUser tx.receivers s.erc1155 tx.caller (.safeBatchTransferFrom src dst ids vs data))
  | .setApprovalForAll op b => do
    return { s with erc1155 :=
      (← lift (Erc1155.execUser tx.receivers s.erc1155 tx.caller (.setApprovalForAll op b))) }
  | .pause => do return { s with pausable := (← liftP (Pausable.pause s.pausable tx.caller)) }
  | .unpause => do return { s with pausable := (← liftP (Pausable.unpause s.pausable tx.caller)) }

/-- A history of `examples/erc1155/src/lib.rs` 28-118; a failed transaction leaves no trace. -/
def run (s : State) (txs : List Tx) : State := runOf exec s txs

end Verif.Erc1155Example

namespace Verif.OwnableExample

/-- `Error`, `examples/ownable/src/lib.rs` 13-17. -/
inductive Err where
  | erc20 (e : Erc20.Err)
  | ownable (e : Ownable.Err)
  deriving DecidableEq

/-- Storage, `examples/ownable/src/lib.rs` 19-26. -/
structure State where
  erc20 : Erc20.State
  ownable : Ownable.State

/-- The `?` on calls of the token, `examples/ownable/src/lib.rs` 33. -/
def lift {α : Type} : Except Erc20.Err α → Except Err α
  | .ok a => .ok a
  | .error e => .error (.erc20 e)

/-- The `?` on calls of `Ownable`, `examples/ownable/src/lib.rs` 32. -/
def liftO {α : Type} : Except Ownable.Err α → Except Err α
  | .ok a => .ok a
  | .error e => .error (.ownable e)

/-- Calls: `transfer`, `examples/ownable/src/lib.rs` 31-35, and those inherited from the token and `Ownable`. -/
inductive Call where
  | transfer (dst : Address) (value : U256)
  | transferFrom (src dst : Address) (value : U256)
  | approve (spender : Address) (value : U256)
  | ownable (c : Ownable.Call)

/-- `transfer`, `examples/ownable/src/lib.rs` 31-35. -/
def transfer (s : State) (caller dst : Address) (value : U256) : Except Err State := do
  liftO (Ownable.onlyOwner s.ownable caller)
  return { s with erc20 := (← lift (Erc20.transfer s.erc20 caller dst value)) }

/-- Dispatch, `examples/ownable/src/lib.rs` 28-36 (`transfer_from`, `approve` and the `Ownable` calls are
inherited). -/
def exec (s : State) (op : Address × Call) : Except Err State :=
  match op.2 with
  | .transfer dst v => transfer s op.1 dst v
  | .transferFrom src dst v => do
    return { s with erc20 := (← lift (Erc20.transferFrom s.erc20 op.1 src dst v)) }
  | .approve sp v => do return { s with erc20 := (← lift (Erc20.approve s.erc20 op.1 sp v)) }
  | .ownable c => do return { s with ownable := (← liftO (Ownable.exec s.ownable (op.1, c))) }

/-- A history of `examples/ownable/src/lib.rs` 28-36; a failed transaction leaves no trace. -/
def run (s : State) (ops : List (Address × Call)) : State := runOf exec s ops

end Verif.OwnableExample

namespace Verif.Ownable2StepExample
open Verif.OwnableExample (Err lift liftO)

/-- Storage, `examples/ownable-two-step/src/lib.rs` 19-26. -/
structure State where
  erc20 : Erc20.State
  ownable : Ownable2Step.State

/-- Calls: `transfer`, `examples/ownable-two-step/src/lib.rs` 31-35, and the inherited ones. -/
inductive Call where
  | transfer (dst : Address) (value : U256)
  | transferFrom (src dst : Address) (value : U256)
  | approve (spender : Address) (value : U256)
  | ownable (c : Ownable2Step.Call)

/-- `transfer`, `examples/ownable-two-step/src/lib.rs` 31-35; `only_owner` is that of the embedded `Ownable`
(`contracts/src/access/ownable_two_step.rs` 51-59, by deref). -/
def transfer (s : State) (caller dst : Address) (value : U256) : Except Err State := do
  liftO (Ownable.onlyOwner s.ownable.ownable caller)
  return { s with erc20 := (← lift (Erc20.transfer s.erc20 caller dst value)) }

/-- Dispatch, `examples/ownable-two-step/src/lib.rs` 28-36. -/
def exec (s : State) (op : Address × Call) : Except Err State :=
  match op.2 with
  | .transfer dst v => transfer s op.1 dst v
  | .transferFrom src dst v => do
    return { s with erc20 := (← lift (Erc20.transferFrom s.erc20 op.1 src dst v)) }
  | .approve sp v => do return { s with erc20 := (← lift (Erc20.approve s.erc20 op.1 sp v)) }
  | .ownable c => do return { s with ownable := (← liftO (Ownable2Step.exec s.ownable (op.1, c))) }

/-- A history of `examples/ownable-two-step/src/lib.rs` 28-36; a failed transaction leaves no trace. -/
def run (s : State) (ops : List (Address × Call)) : State := runOf exec s ops

end Verif.Ownable2StepExample

namespace Verif.AccessExample
open Verif.AccessControl (Role)

/-- `Error`, `examples/access-control/src/lib.rs` 13-17. -/
inductive Err where
  | access (e : AccessControl.Err)
  | erc20 (e : Erc20.Err)
  deriving DecidableEq

/-- Storage, `examples/access-control/src/lib.rs` 19-26. -/
structure State where
  erc20 : Erc20.State
  access : AccessControl.State

/-- `TRANSFER_ROLE`, `examples/access-control/src/lib.rs` 28-29: keccak256 of the bytes "TRANSFER_ROLE" (C87 checks
the literal). -/
def TRANSFER_ROLE : Role := 0x8502233096d909befbda0999bb8ea2f3a6be3c138b9fbf003752a4c8bce86f6c#256

/-- The `?` on calls of the token, `examples/access-control/src/lib.rs` 47. -/
def lift {α : Type} : Except Erc20.Err α → Except Err α
  | .ok a => .ok a
  | .error e => .error (.erc20 e)

/-- The `?` on calls of `AccessControl`, `examples/access-control/src/lib.rs` 35-46. -/
def liftA {α : Type} : Except AccessControl.Err α → Except Err α
  | .ok a => .ok a
  | .error e => .error (.access e)

/-- Calls, `examples/access-control/src/lib.rs` 31-56 and the inherited ones. -/
inductive Call where
  | makeAdmin (account : Address)
  | transferFrom (src dst : Address) (value : U256)
  | setRoleAdmin (role newAdmin : Role)
  | transfer (dst : Address) (value : U256)
  | approve (spender : Address) (value : U256)
  | access (c : AccessControl.Call)

/-- `make_admin`, `examples/access-control/src/lib.rs` 34-38. -/
def makeAdmin (s : State) (caller account : Address) : Except Err State := do
  liftA (AccessControl.onlyRole s.access caller AccessControl.DEFAULT_ADMIN_ROLE)
  return { s with access := (← liftA (AccessControl.grantRole s.access caller TRANSFER_ROLE account)) }

/-- `transfer_from`, `examples/access-control/src/lib.rs` 40-49. -/
def transferFrom (s : State) (caller src dst : Address) (value : U256) : Except Err State := do
  liftA (AccessControl.onlyRole s.access caller TRANSFER_ROLE)
  return { s with erc20 := (← lift (Erc20.transferFrom s.erc20 caller src dst value)) }

/-- Dispatch, `examples/access-control/src/lib.rs` 31-56. -/
def exec (s : State) (op : Address × Call) : Except Err State :=
  match op.2 with
  | .makeAdmin a => makeAdmin s op.1 a
  | .transferFrom src dst v => transferFrom s op.1 src dst v
  | .setRoleAdmin r n => .ok { s with access := AccessControl.setRoleAdminInternal s.access r n }
  | .transfer dst v => do return { s with erc20 := (← lift (Erc20.transfer s.erc20 op.1 dst v)) }
  | .approve sp v => do return { s with erc20 := (← lift (Erc20.approve s.erc20 op.1 sp v)) }
  | .access c => do return { s with access := (← liftA (AccessControl.exec s.access (op.1, c))) }

/-- A history of `examples/access-control/src/lib.rs` 31-56; a failed transaction leaves no trace. -/
def run (s : State) (ops : List (Address × Call)) : State := runOf exec s ops

end Verif.AccessExample
