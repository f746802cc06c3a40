import Verif.Proofs.Average
/-!
# Model of checkpoint traces

Source: `contracts/src/utils/structs/checkpoints/mod.rs`, `.../generic_size.rs`.

The key and value widths are parameters (`define_checkpoint_size!` instantiates (96,160), (32,224),
(48,208), `generic_size.rs` 63-65).  A `StorageVec` is a list; positions are `U256`.  Simplification: the
32-bit `usize` of `StorageVec::len` on wasm is not modelled (a trace is assumed to have a length
representable in `U256`; this is proved for key widths below 256 bits).
-/

namespace Verif.Checkpoints
open Verif.Math (average)

/-- `struct Checkpoint`, `mod.rs` 60-66. -/
structure Checkpoint (kb vb : Nat) where
  key : BitVec kb
  value : BitVec vb
  deriving DecidableEq, Repr

/-- `struct Trace`, `mod.rs` 53-57. -/
abbrev Trace (kb vb : Nat) := List (Checkpoint kb vb)

/-- `enum Error`, `mod.rs` 40-44; `panic` is the failed `_index`. -/
inductive Err where
  | unorderedInsertion
  | panic
  deriving DecidableEq, Repr

variable {kb vb : Nat}

/-- `length`, `mod.rs` 202-204. -/
def length (t : Trace kb vb) : U256 := BitVec.ofNat 256 (List.length t)

/-- `_index`, `mod.rs` 339-343. -/
def index (t : Trace kb vb) (pos : U256) : Except Err (Checkpoint kb vb) :=
  orPanic .panic (t[pos.toNat]?)

/-- `_unchecked_push`, `mod.rs` 369-373. -/
def uncheckedPush (t : Trace kb vb) (key : BitVec kb) (value : BitVec vb) : Trace kb vb :=
  t ++ [{ key := key, value := value }]

/-- `_insert`, `mod.rs` 237-264 (`_index_mut` 356-360 writes the value of the last entry, which exists
because `_index` at the same position succeeded just before). -/
def insert (t : Trace kb vb) (key : BitVec kb) (value : BitVec vb) :
    Except Err (BitVec vb × BitVec vb × Trace kb vb) :=
  let pos := length t
  if 0#256 < pos then do
    let last ← index t (pos - 1#256)
    if key < last.key then throw .unorderedInsertion
    if last.key = key then
      return (last.value, value, t.set (pos - 1#256).toNat { last with value := value })
    else
      return (last.value, value, uncheckedPush t key value)
  else
    return (0#vb, value, uncheckedPush t key value)

/-- `push`, `mod.rs` 88-94. -/
def push (t : Trace kb vb) (key : BitVec kb) (value : BitVec vb) :
    Except Err (BitVec vb × BitVec vb × Trace kb vb) := insert t key value

/-- `_upper_binary_lookup`, `mod.rs` 280-295. -/
def upperBinaryLookup (t : Trace kb vb) (key : BitVec kb) (low high : U256) : Except Err U256 :=
  if _h : low < high then
    match index t (average low high) with
    | .error e => .error e
    | .ok c =>
      if key < c.key then upperBinaryLookup t key low (average low high)
      else upperBinaryLookup t key (average low high + 1#256) high
  else .ok high
termination_by high.toNat - low.toNat
decreasing_by
  all_goals
    have h1 := BitVec.lt_def.mp _h
    have h2 := Verif.Math.average_toNat low high
    have h3 := high.isLt
    try rw [toNat_add_of_lt (by rw [h2]; show _ + 1 < _; omega)]
    rw [h2]
    first
      | omega
      | show high.toNat - ((low.toNat + high.toNat) / 2 + 1) < _; omega

/-- `_lower_binary_lookup`, `mod.rs` 311-326. -/
def lowerBinaryLookup (t : Trace kb vb) (key : BitVec kb) (low high : U256) : Except Err U256 :=
  if _h : low < high then
    match index t (average low high) with
    | .error e => .error e
    | .ok c =>
      if c.key < key then lowerBinaryLookup t key (average low high + 1#256) high
      else lowerBinaryLookup t key low (average low high)
  else .ok high
termination_by high.toNat - low.toNat
decreasing_by
  all_goals
    have h1 := BitVec.lt_def.mp _h
    have h2 := Verif.Math.average_toNat low high
    have h3 := high.isLt
    try rw [toNat_add_of_lt (by rw [h2]; show _ + 1 < _; omega)]
    rw [h2]
    first
      | omega
      | show high.toNat - ((low.toNat + high.toNat) / 2 + 1) < _; omega

/-- `lower_lookup`, `mod.rs` 103-111. -/
def lowerLookup (t : Trace kb vb) (key : BitVec kb) : Except Err (BitVec vb) := do
  let len := length t
  let pos ← lowerBinaryLookup t key 0#256 len
  if pos = len then return 0#vb
  else do
    let c ← index t pos
    return c.value

/-- `upper_lookup`, `mod.rs` 121-129. -/
def upperLookup (t : Trace kb vb) (key : BitVec kb) : Except Err (BitVec vb) := do
  let len := length t
  let pos ← upperBinaryLookup t key 0#256 len
  if pos = 0#256 then return 0#vb
  else do
    let c ← index t (pos - 1#256)
    return c.value

/-- `upper_lookup_recent`, `mod.rs` 141-163. -/
def upperLookupRecent (t : Trace kb vb) (key : BitVec kb) : Except Err (BitVec vb) := do
  let len := length t
  let (low, high) ←
    if 5#256 < len then do
      let mid := len - Verif.Math.sqrt len
      let c ← index t mid
      if key < c.key then pure (0#256, mid) else pure (mid + 1#256, len)
    else pure (0#256, len)
  let pos ← upperBinaryLookup t key low high
  if pos = 0#256 then return 0#vb
  else do
    let c ← index t (pos - 1#256)
    return c.value

/-- `latest`, `mod.rs` 171-178. -/
def latest (t : Trace kb vb) : Except Err (BitVec vb) :=
  let pos := length t
  if pos = 0#256 then .ok 0#vb
  else do
    let c ← index t (pos - 1#256)
    return c.value

/-- `latest_checkpoint`, `mod.rs` 187-195. -/
def latestCheckpoint (t : Trace kb vb) : Except Err (Option (BitVec kb × BitVec vb)) :=
  let pos := length t
  if pos = 0#256 then .ok none
  else do
    let c ← index t (pos - 1#256)
    return some (c.key, c.value)

/-- `at`, `mod.rs` 216-221 (`pos : U32`). -/
def at' (t : Trace kb vb) (pos : BitVec 32) : Except Err (BitVec kb × BitVec vb) := do
  let c ← orPanic .panic (t[pos.toNat]?)
  return (c.key, c.value)

/-- One push transaction.
Models a transaction that calls `push`, `contracts/src/utils/structs/checkpoints/mod.rs` 88-94. -/
def exec (t : Trace kb vb) (op : BitVec kb × BitVec vb) : Except Err (Trace kb vb) := do
  let r ← push t op.1 op.2
  return r.2.2

/-- A history of pushes, starting from a given trace.
Sequences of `push`, `contracts/src/utils/structs/checkpoints/mod.rs` 88-94; a failed transaction leaves no trace (Stylus reverts). -/
def run (t : Trace kb vb) (ops : List (BitVec kb × BitVec vb)) : Trace kb vb := runOf exec t ops

end Verif.Checkpoints
