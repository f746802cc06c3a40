import Verif.Model.Checkpoints
/-! # Specification of checkpoint traces: linear lookups in a list -/

namespace Verif.Spec.Checkpoints
open Verif.Checkpoints
variable {kb vb : Nat}

/-- Keys strictly increase. -/
def Sorted (t : Trace kb vb) : Prop := t.Pairwise (fun a b => a.key.toNat < b.key.toNat)

/-- Value of the first checkpoint with key `≥ k`, or zero. -/
def firstAtOrAfter (t : Trace kb vb) (k : BitVec kb) : BitVec vb :=
  match t.find? (fun c => decide (k.toNat ≤ c.key.toNat)) with
  | some c => c.value
  | none => 0#vb

/-- Value of the last checkpoint with key `≤ k`, or zero. -/
def lastAtOrBefore (t : Trace kb vb) (k : BitVec kb) : BitVec vb :=
  match (t.filter (fun c => decide (c.key.toNat ≤ k.toNat))).getLast? with
  | some c => c.value
  | none => 0#vb

/-- The trace as a dictionary of values over time: what a history of pushes leaves, specified
directly: each push with a key below the latest key is refused, one with the latest key replaces the
last entry, any other is appended. -/
def specPush (t : Trace kb vb) (k : BitVec kb) (v : BitVec vb) : Trace kb vb :=
  match t.getLast? with
  | none => [⟨k, v⟩]
  | some c =>
    if k.toNat < c.key.toNat then t
    else if k = c.key then t.dropLast ++ [⟨k, v⟩]
    else t ++ [⟨k, v⟩]

/-- A history of specified pushes. -/
def specRun (t : Trace kb vb) : List (BitVec kb × BitVec vb) → Trace kb vb
  | [] => t
  | (k, v) :: ops => specRun (specPush t k v) ops

end Verif.Spec.Checkpoints
