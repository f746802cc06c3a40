import Verif.Model.Poseidon
import Mathlib.LinearAlgebra.Matrix.Notation
import Mathlib.Data.Fintype.BigOperators
/-!
# Specification vocabulary for Poseidon2

States are vectors of `t` field elements; layers are matrices, as in the Poseidon2 paper.  Only the parameter record
of the model is used.
-/

namespace Verif.Spec.Poseidon
open Verif.Poseidon (Params)
variable {F : Type} [CommRing F]

/-- The matrix `M_4` of the paper. -/
def M4 : Matrix (Fin 4) (Fin 4) F := !![5, 7, 1, 3; 4, 6, 1, 1; 1, 3, 5, 7; 1, 1, 4, 6]

/-- The external matrix: `circ(2, 1)`, `circ(2, 1, 1)`, `M_4`, and for larger multiples of four the block matrix
`circ(2 M_4, M_4, …, M_4)`. -/
def externalMatrix (t : Nat) : Matrix (Fin t) (Fin t) F := fun i j =>
  if t = 2 ∨ t = 3 then (if i = j then 2 else 1)
  else (if t ≠ 4 ∧ i.val / 4 = j.val / 4 then 2 else 1) *
    M4 ⟨i.val % 4, Nat.mod_lt _ (by decide)⟩ ⟨j.val % 4, Nat.mod_lt _ (by decide)⟩

/-- The diagonal of the internal matrix minus one: `1, 2` and `1, 1, 2` for the two small sizes, the parameters'
values otherwise. -/
def internalDiag (P : Params F) (i : Nat) : F :=
  if P.T = 2 then [1, 2].getD i 0 else if P.T = 3 then [1, 1, 2].getD i 0 else P.diag.getD i 0

/-- The internal matrix: ones everywhere, plus a diagonal. -/
def internalMatrix (P : Params F) : Matrix (Fin P.T) (Fin P.T) F := fun i j =>
  1 + if i = j then internalDiag P i else 0

/-- The constant of round `r` for element `i`. -/
def roundConstant (P : Params F) (r i : Nat) : F := (P.rc.getD r []).getD i 0

/-- A full round: constants, power on every element, external matrix. -/
def fullRound (P : Params F) (v : Fin P.T → F) (r : Nat) : Fin P.T → F :=
  (externalMatrix P.T).mulVec fun i => (v i + roundConstant P r i) ^ P.D

/-- A partial round: constant and power on the first element only, internal matrix. -/
def partialRound (P : Params F) (v : Fin P.T → F) (r : Nat) : Fin P.T → F :=
  (internalMatrix P).mulVec fun i => if i.val = 0 then (v i + roundConstant P r 0) ^ P.D else v i

/-- The permutation: external matrix, the first half of the full rounds, the partial rounds, the other full rounds;
constants are numbered through. -/
def permutation (P : Params F) (v : Fin P.T → F) : Fin P.T → F :=
  let h := P.roundsF / 2
  let v := (externalMatrix P.T).mulVec v
  let v := (List.range h).foldl (fullRound P) v
  let v := ((List.range P.roundsP).map (h + ·)).foldl (partialRound P) v
  ((List.range (P.roundsF - h)).map (h + P.roundsP + ·)).foldl (fullRound P) v

/-- Parameter sets the code supports: a supported size, room next to the capacity, enough constants. -/
structure Supported (P : Params F) : Prop where
  size : P.T ∈ [2, 3, 4, 8, 12, 16, 20, 24]
  capacity : P.capacity < P.T
  diag : 4 ≤ P.T → P.T ≤ P.diag.length
  constants : P.roundsF + P.roundsP ≤ P.rc.length
  rows : ∀ row ∈ P.rc, row ≠ []

/-- The vector of a list of elements. -/
def vec (t : Nat) (l : List F) : Fin t → F := fun i => l.getD i 0

/-- Add a block to the part of the state after the capacity (a short block is padded with zeros). -/
def addBlock (P : Params F) (v : Fin P.T → F) (b : List F) : Fin P.T → F :=
  fun i => if P.capacity ≤ i.val then v i + b.getD (i.val - P.capacity) 0 else v i

/-- Number of elements per block. -/
def rate (P : Params F) : Nat := P.T - P.capacity

/-- Element number `i` of a state. -/
def entry {t : Nat} (v : Fin t → F) (i : Nat) : F := if h : i < t then v ⟨i, h⟩ else 0

end Verif.Spec.Poseidon
