import Verif.Model.Utils
import Mathlib.Data.Set.Basic
import Mathlib.Data.Set.Insert
/-! # Specifications for Nonces, Pausable, BitMap -/

namespace Verif.Spec.Nonces
open Verif.Nonces

/-- What one call hands out: `some (owner, nonce)` if it consumed `nonce` of `owner`.  Observable:
`use_nonce` returns the value; a successful `use_checked_nonce` consumed the argument. -/
def handsOut (s : State) : Call → Option (Address × U256)
  | .use o => match useNonce s o with
    | .ok (n, _) => some (o, n)
    | .error _ => none
  | .useChecked o n => match useCheckedNonce s o n with
    | .ok _ => some (o, n)
    | .error _ => none

/-- The nonces of `owner` consumed during a history, in order. -/
def consumed (owner : Address) : State → List Call → List Nat
  | _, [] => []
  | s, c :: cs =>
    (match handsOut s c with
      | some (o, n) => if o = owner then [n.toNat] else []
      | none => []) ++ consumed owner (stepOf exec s c) cs

end Verif.Spec.Nonces

namespace Verif.Spec.Pausable
open Verif.Pausable

/-- Number of calls of a history that succeed. -/
def successes : State → List (Address × Call) → Nat
  | _, [] => 0
  | s, op :: ops =>
    (match exec s op with | .ok _ => 1 | .error _ => 0) + successes (stepOf exec s op) ops

/-- An event log that strictly alternates pause, unpause, pause, ...; the boolean says whether the
next event has to be an unpause. -/
def alternates : Bool → List Event → Prop
  | _, [] => True
  | b, .paused _ :: es => b = false ∧ alternates true es
  | b, .unpaused _ :: es => b = true ∧ alternates false es

end Verif.Spec.Pausable

namespace Verif.Spec.BitMap
open Verif.BitMap

/-- The mathematical set of indices after a history of writes. -/
def asSet : Set U256 → List Op → Set U256
  | S, [] => S
  | S, .set i :: ops => asSet (S ∪ {i}) ops
  | S, .unset i :: ops => asSet (S \ {i}) ops
  | S, .setTo i b :: ops => asSet (if b then S ∪ {i} else S \ {i}) ops

end Verif.Spec.BitMap
