import Verif.Model.Erc721Consecutive
/-!
# Model of the constructor of `examples/erc721-consecutive`

The batches of `examples/erc721-consecutive` are minted by Solidity code, which has its own copy of the library's batch mint
and checkpoints, with Solidity's checked arithmetic.  Its state is that of the Rust contract (`C99_same_layout` proves that the
variables are at the same places).  A revert is `none`.
-/
namespace Verif.ConsecutiveConstructor
open Verif Verif.Consecutive

/-- `_insert`, `examples/erc721-consecutive/src/constructor.sol` 61-85; the values it returns are not used. -/
def insert (t : Checkpoints.Trace 96 160) (key : U96) (value : Address) : Option (Checkpoints.Trace 96 160) :=
  match t.getLast? with
  | none => some (t ++ [⟨key, value⟩])
  | some last =>
    if key < last.key then none
    else if last.key = key then some (t.dropLast ++ [{ last with value := value }])
    else some (t ++ [⟨key, value⟩])

/-- `_nextConsecutiveId`, `examples/erc721-consecutive/src/constructor.sol` 118-121, with `latestCheckpoint` 47-55. -/
def nextConsecutiveId (s : State) : Option U96 :=
  match s.sequentialOwnership.getLast? with
  | some c => checkedAdd c.key 1#96
  | none => some s.firstConsecutiveId

/-- `_mintConsecutive`, `examples/erc721-consecutive/src/constructor.sol` 87-116.  The contract has no code while its
constructor runs, so the check in 92 passes. -/
def mintConsecutive (s : State) (dst : Address) (batchSize : U96) : Option State := do
  let next ← nextConsecutiveId s
  if 0#96 < batchSize then
    if dst = ZERO then none
    else if s.maxBatchSize < batchSize then none
    else do
      let e ← checkedAdd next batchSize
      let last ← checkedSub e 1#96
      let t ← insert s.sequentialOwnership last dst
      some { s with
        sequentialOwnership := t
        erc721 := Erc721.increaseBalance s.erc721 dst (batchSize.setWidth 128)
        batchLog := s.batchLog ++ [⟨next.setWidth 256, last.setWidth 256, ZERO, dst⟩] }
  else some s

/-- The loop of the constructor, `examples/erc721-consecutive/src/constructor.sol` 42-44: reading `amounts` past its end
reverts. -/
def loop (s : State) : List Address → List U96 → Option State
  | [], _ => some s
  | _ :: _, [] => none
  | r :: receivers, a :: amounts => do
    let s1 ← mintConsecutive s r a
    loop s1 receivers amounts

/-- The constructor, `examples/erc721-consecutive/src/constructor.sol` 34-45. -/
def construct (receivers : List Address) (amounts : List U96) (first maxBatch : U96) : Option State :=
  loop (init first maxBatch) receivers amounts

end Verif.ConsecutiveConstructor
