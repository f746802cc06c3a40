import Verif.Model.Storage
/-! # Specification: which cells of a contract share storage -/

namespace Verif.Spec.Storage
open Verif Verif.Storage

/-- The places on the way to a cell, the first one (the whole contract) left out. -/
def visited (K : Hash) (l : Loc) : List Step → List Loc
  | [] => []
  | s :: p =>
    match l.step K s with
    | none => []
    | some l' => l' :: visited K l' p

/-- The byte strings that are hashed on the way to a cell of a contract with storage struct `t`. -/
def hashed (K : Hash) (t : Ty) (p : List Step) : List Bytes :=
  (visited K ⟨none, 0, 0, t⟩ p).filterMap fun l => l.base

/-- No struct or vector on the way to the cell reaches further than `n` words. -/
def Within (K : Hash) (n : Nat) (t : Ty) (p : List Step) : Prop :=
  ∀ l ∈ visited K ⟨none, 0, 0, t⟩ p, l.disp ≤ n

/-- Two words that are at most `n` apart (modulo 2^256). -/
def Near (n : Nat) (u v : U256) : Prop :=
  ∃ a b : Nat, a ≤ n ∧ b ≤ n ∧ u + BitVec.ofNat 256 a = v + BitVec.ofNat 256 b

/-- A coincidence of hash values on the way to the two cells: two different byte strings whose hashes are at most `n`
apart, or a byte string whose hash is at most `n`. -/
def Coincidence (K : Hash) (n : Nat) (t : Ty) (p q : List Step) : Prop :=
  (∃ x ∈ hashed K t p, ∃ y ∈ hashed K t q, x ≠ y ∧ Near n (K x) (K y)) ∨
  (∃ x ∈ hashed K t p, Near n (K x) 0#256) ∨ (∃ y ∈ hashed K t q, Near n (K y) 0#256)

/-- Cells that hold something by themselves: values, the length of a vector, the head of a string, and the word of a map
(which is never used). -/
def Leaf : Ty → Prop
  | .struct _ => False
  | _ => True

/-- Two places that have a byte in common. -/
def Overlap (K : Hash) (l m : Loc) : Prop :=
  l.slot K = m.slot K ∧ l.low < m.low + m.ty.width ∧ m.low < l.low + l.ty.width

mutual
/-- All values have between 1 and 32 bytes. -/
def Ty.ok : Ty → Bool
  | .scalar b => decide (0 < b ∧ b ≤ 32)
  | .map v => Ty.ok v
  | .vec e => Ty.ok e
  | .string => true
  | .struct fs => Fields.ok fs

/-- All values have between 1 and 32 bytes. -/
def Fields.ok : Fields → Bool
  | .nil => true
  | .cons _ t rest => Ty.ok t && Fields.ok rest
end

end Verif.Spec.Storage
