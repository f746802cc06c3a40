import Verif.Model.Erc20
import Verif.Model.Utils
/-!
# Model of the capped, pausable, burnable token composition

Source: `examples/erc20/src/lib.rs`, `contracts/src/token/erc20/extensions/capped.rs`.
-/

namespace Verif.Erc20Example

/-- `enum Error`, `lib.rs` 19-24, with `ExceededCap` from `capped.rs` 23-43; `panic` is the failed
`checked_add` of `mint`. -/
inductive Err where
  | exceededCap (increasedSupply cap : U256)
  | erc20 (e : Erc20.Err)
  | pausable (e : Pausable.Err)
  | panic
  deriving DecidableEq, Repr

/-- `struct Erc20Example`, `lib.rs` 26-37 (metadata strings left out; no call changes them). -/
structure State where
  erc20 : Erc20.State
  cap : U256
  pausable : Pausable.State

/-- A freshly deployed contract; the constructor (`src/constructor.sol`) sets the cap.
Models `examples/erc20/src/lib.rs` 27-35. -/
def init (cap : U256) : State := { erc20 := Erc20.init, cap := cap, pausable := Pausable.init }

/-- `self.pausable.when_not_paused()?`.
`examples/erc20/src/lib.rs` 44-123; the call itself is `contracts/src/utils/pausable.rs` 134-139. -/
def whenNotPaused (s : State) : Except Err Unit :=
  match Pausable.whenNotPaused s.pausable with
  | .ok _ => .ok ()
  | .error e => .error (.pausable e)

/-- `map_err(|e| e.into())` of an inner token call, writing the token's new storage back.
`examples/erc20/src/lib.rs` 44-123. -/
def liftErc20 (s : State) : Except Erc20.Err Erc20.State → Except Err State
  | .ok t => .ok { s with erc20 := t }
  | .error e => .error (.erc20 e)

/-- The same for the pausable part.
`examples/erc20/src/lib.rs` 117-123. -/
def liftPausable (s : State) : Except Pausable.Err Pausable.State → Except Err State
  | .ok p => .ok { s with pausable := p }
  | .error e => .error (.pausable e)

/-- `burn`, `lib.rs` 50-53. -/
def burn (s : State) (caller : Address) (value : U256) : Except Err State := do
  whenNotPaused s
  liftErc20 s (Erc20.burn s.erc20 caller value)

/-- `burn_from`, `lib.rs` 55-62. -/
def burnFrom (s : State) (caller account : Address) (value : U256) : Except Err State := do
  whenNotPaused s
  liftErc20 s (Erc20.burnFrom s.erc20 caller account value)

/-- `mint`, `lib.rs` 69-91. -/
def mint (s : State) (account : Address) (value : U256) : Except Err State := do
  whenNotPaused s
  let maxSupply := s.cap
  let supply ← orPanic .panic (checkedAdd (Erc20.totalSupplyOf s.erc20) value)
  if maxSupply < supply then throw (.exceededCap supply maxSupply)
  liftErc20 s (Erc20.mint s.erc20 account value)

/-- `transfer`, `lib.rs` 93-96. -/
def transfer (s : State) (caller dst : Address) (value : U256) : Except Err State := do
  whenNotPaused s
  liftErc20 s (Erc20.transfer s.erc20 caller dst value)

/-- `transfer_from`, `lib.rs` 98-106. -/
def transferFrom (s : State) (caller src dst : Address) (value : U256) : Except Err State := do
  whenNotPaused s
  liftErc20 s (Erc20.transferFrom s.erc20 caller src dst value)

/-- `approve`, inherited from `Erc20` (`lib.rs` 40), not guarded by the pause. -/
def approve (s : State) (caller spender : Address) (value : U256) : Except Err State :=
  liftErc20 s (Erc20.approve s.erc20 caller spender value)

/-- `pause`, `lib.rs` 117-119. -/
def pause (s : State) (caller : Address) : Except Err State :=
  liftPausable s (Pausable.pause s.pausable caller)

/-- `unpause`, `lib.rs` 121-123. -/
def unpause (s : State) (caller : Address) : Except Err State :=
  liftPausable s (Pausable.unpause s.pausable caller)

/-- All state-changing entry points of the composition.
Models the `#[public]` block `examples/erc20/src/lib.rs` 39-124. -/
inductive Call where
  | token (c : Erc20.Call)
  | pause
  | unpause
  deriving DecidableEq, Repr

/-- Dispatch of one transaction.
Models the router for `examples/erc20/src/lib.rs` 39-124. -/
def exec (s : State) (op : Address × Call) : Except Err State :=
  match op.2 with
  | .token (.transfer dst v) => transfer s op.1 dst v
  | .token (.transferFrom src dst v) => transferFrom s op.1 src dst v
  | .token (.approve sp v) => approve s op.1 sp v
  | .token (.mint a v) => mint s a v
  | .token (.burn v) => burn s op.1 v
  | .token (.burnFrom a v) => burnFrom s op.1 a v
  | .pause => pause s op.1
  | .unpause => unpause s op.1

/-- A history of transactions.
Sequences of calls of `examples/erc20/src/lib.rs` 39-124; a failed transaction leaves no trace (Stylus reverts). -/
def run (s : State) (ops : List (Address × Call)) : State := runOf exec s ops

end Verif.Erc20Example
