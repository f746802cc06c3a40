import Verif.Base
/-!
# Model of Nonces, Pausable and BitMap

Sources: `contracts/src/utils/nonces.rs`, `contracts/src/utils/pausable.rs`,
`contracts/src/utils/structs/bitmap.rs`.
-/

namespace Verif.Nonces

/-- `nonces.rs` 18-36; `panic` is the failure of `add_assign_checked`. -/
inductive Err where
  | invalidAccountNonce (account : Address) (current : U256)
  | panic
  deriving DecidableEq, Repr

/-- Storage of `Nonces`, `nonces.rs` 45-49. -/
structure State where
  nonces : Address → U256

/-- Freshly deployed: all nonces zero.
`contracts/src/utils/nonces.rs` 45-49. -/
def init : State := { nonces := fun _ => 0#256 }

/-- `nonces`, `nonces.rs` 60-62. -/
def nonceOf (s : State) (owner : Address) : U256 := s.nonces owner

/-- `use_nonce`, `nonces.rs` 76-84: returns the old nonce, increments with overflow check. -/
def useNonce (s : State) (owner : Address) : Except Err (U256 × State) := do
  let nonce := s.nonces owner
  let next ← orPanic .panic (checkedAdd nonce 1#256)
  return (nonce, { s with nonces := upd s.nonces owner next })

/-- `use_checked_nonce`, `nonces.rs` 103-118. -/
def useCheckedNonce (s : State) (owner : Address) (nonce : U256) : Except Err State := do
  let (current, s1) ← useNonce s owner
  if nonce ≠ current then throw (.invalidAccountNonce owner current)
  return s1

/-- The two ways to consume a nonce.
`contracts/src/utils/nonces.rs` 65-119. -/
inductive Call where
  | use (owner : Address)
  | useChecked (owner : Address) (nonce : U256)

/-- Dispatch of one call.
`contracts/src/utils/nonces.rs` 65-119. -/
def exec (s : State) : Call → Except Err State
  | .use o => do let (_, s1) ← useNonce s o; return s1
  | .useChecked o n => useCheckedNonce s o n

/-- A history of calls.
Sequences of them, `contracts/src/utils/nonces.rs` 65-119. -/
def run (s : State) (ops : List Call) : State := runOf exec s ops

end Verif.Nonces

namespace Verif.Pausable

/-- `pausable.rs` 40-64. -/
inductive Err where
  | enforcedPause
  | expectedPause
  deriving DecidableEq, Repr

/-- `pausable.rs` 28-38. -/
inductive Event where
  | paused (account : Address)
  | unpaused (account : Address)
  deriving DecidableEq, Repr

/-- Storage of `Pausable`, `pausable.rs` 73-77, plus the event log. -/
structure State where
  paused : Bool
  log : List Event

/-- Freshly deployed: not paused.
`contracts/src/utils/pausable.rs` 73-77. -/
def init : State := { paused := false, log := [] }

/-- `when_not_paused`, `pausable.rs` 134-139. -/
def whenNotPaused (s : State) : Except Err Unit :=
  if s.paused then .error .enforcedPause else .ok ()

/-- `when_paused`, `pausable.rs` 151-156. -/
def whenPaused (s : State) : Except Err Unit :=
  if !s.paused then .error .expectedPause else .ok ()

/-- `pause`, `pausable.rs` 101-106. -/
def pause (s : State) (caller : Address) : Except Err State := do
  whenNotPaused s
  return { s with paused := true, log := s.log ++ [.paused caller] }

/-- `unpause`, `pausable.rs` 117-122. -/
def unpause (s : State) (caller : Address) : Except Err State := do
  whenPaused s
  return { s with paused := false, log := s.log ++ [.unpaused caller] }

/-- Toggle calls.
`contracts/src/utils/pausable.rs` 91-157. -/
inductive Call where
  | pause
  | unpause
  deriving DecidableEq, Repr

/-- Dispatch of one call.
`contracts/src/utils/pausable.rs` 91-157. -/
def exec (s : State) (op : Address × Call) : Except Err State :=
  match op.2 with
  | .pause => pause s op.1
  | .unpause => unpause s op.1

/-- A history of calls.
Sequences of them, `contracts/src/utils/pausable.rs` 91-157. -/
def run (s : State) (ops : List (Address × Call)) : State := runOf exec s ops

end Verif.Pausable

namespace Verif.BitMap

/-- Storage of `BitMap`, `bitmap.rs` 27-31. -/
structure State where
  data : U256 → U256

/-- Freshly deployed: all bits clear.
`contracts/src/utils/structs/bitmap.rs` 27-31. -/
def init : State := { data := fun _ => 0#256 }

/-- `get_mask`, `bitmap.rs` 88-90: `ONE << (index & HEX_FF)`. -/
def getMask (index : U256) : U256 := 1#256 <<< (index &&& 0xff#256)

/-- `get_bucket`, `bitmap.rs` 93-95: `index >> 8`. -/
def getBucket (index : U256) : U256 := index >>> 8

/-- `get`, `bitmap.rs` 40-45. -/
def get (s : State) (index : U256) : Bool :=
  (s.data (getBucket index) &&& getMask index) != 0#256

/-- `set`, `bitmap.rs` 66-72. -/
def set (s : State) (index : U256) : State :=
  { data := upd s.data (getBucket index) (s.data (getBucket index) ||| getMask index) }

/-- `unset`, `bitmap.rs` 79-85. -/
def unset (s : State) (index : U256) : State :=
  { data := upd s.data (getBucket index) (s.data (getBucket index) &&& ~~~(getMask index)) }

/-- `set_to`, `bitmap.rs` 53-59. -/
def setTo (s : State) (index : U256) (value : Bool) : State :=
  if value then set s index else unset s index

/-- Write operations.
`contracts/src/utils/structs/bitmap.rs` 33-96. -/
inductive Op where
  | set (i : U256)
  | unset (i : U256)
  | setTo (i : U256) (b : Bool)

/-- One write.
`contracts/src/utils/structs/bitmap.rs` 33-96. -/
def step (s : State) : Op → State
  | .set i => set s i
  | .unset i => unset s i
  | .setTo i b => setTo s i b

/-- A history of writes.
Sequences of them, `contracts/src/utils/structs/bitmap.rs` 33-96. -/
def run (s : State) (ops : List Op) : State := ops.foldl step s

end Verif.BitMap
