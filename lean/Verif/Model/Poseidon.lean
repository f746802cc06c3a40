import Verif.Base
import Mathlib.Algebra.Group.Defs
import Mathlib.Algebra.Ring.Defs
/-!
# Model of `lib/crypto/src/poseidon2/{mod,params}.rs`

`F` is any type with the field operations the code uses; the boxed slice of `T` elements is a list.  Reading out of
range and the explicit `panic!`s are `none`.
-/

namespace Verif.Poseidon

/-- `PoseidonParams`, `params.rs` 10-35. -/
structure Params (F : Type) where
  T : Nat
  D : Nat
  capacity : Nat
  roundsF : Nat
  roundsP : Nat
  /-- `MAT_INTERNAL_DIAG_M_1`. -/
  diag : List F
  /-- `ROUND_CONSTANTS`. -/
  rc : List (List F)

/-- `Mode`, `mod.rs` 21-24. -/
inductive Mode where
  | absorbing
  | squeezing
  deriving DecidableEq, Repr

/-- `Poseidon2`, `mod.rs` 29-34. -/
structure Sponge (F : Type) where
  state : List F
  mode : Mode
  index : Nat

variable {F : Type} [CommRing F] (P : Params F)

/-- `new`, `mod.rs` 46-54. -/
def new : Sponge F := ⟨List.replicate P.T 0, .absorbing, P.capacity⟩

/-- `double_in_place`, of the field (see `Verif.Fp.double`).
`lib/crypto/src/field/fp.rs` 506-510. -/
def dbl (x : F) : F := x + x

/-- The body of the loop of `matmul_m4`, `mod.rs` 231-257. -/
def m4Chunk (x0 x1 x2 x3 : F) : List F :=
  let t0 := x0 + x1
  let t1 := x2 + x3
  let t2 := dbl x1 + t1
  let t3 := dbl x3 + t0
  let t4 := dbl (dbl t1) + t3
  let t5 := dbl (dbl t0) + t2
  let t6 := t3 + t5
  let t7 := t2 + t4
  [t6, t5, t7, t4]

/-- `matmul_m4`, `mod.rs` 226-259: the loop over the `T / 4` groups of four consecutive elements, as recursion over
the list (its length is `T`). -/
def matmulM4 : List F → List F
  | x0 :: x1 :: x2 :: x3 :: rest => m4Chunk x0 x1 x2 x3 ++ matmulM4 rest
  | rest => rest

/-- `stored[l]`, `mod.rs` 209-212. -/
def column (s : List F) (t4 l : Nat) : Option F := do
  let x ← s[l]?
  (List.range' 1 (t4 - 1)).foldlM (fun acc j => (s[4 * j + l]?).map (acc + ·)) x

/-- `matmul_external`, `mod.rs` 183-222. -/
def matmulExternal (s : List F) : Option (List F) :=
  if P.T = 2 then do
    let a ← s[0]?
    let b ← s[1]?
    let sum := a + b
    some ((s.set 0 (a + sum)).set 1 (b + sum))
  else if P.T = 3 then do
    let a ← s[0]?
    let b ← s[1]?
    let c ← s[2]?
    let sum := a + b + c
    some (((s.set 0 (a + sum)).set 1 (b + sum)).set 2 (c + sum))
  else if P.T = 4 then some (matmulM4 s)
  else if P.T = 8 ∨ P.T = 12 ∨ P.T = 16 ∨ P.T = 20 ∨ P.T = 24 then do
    let s := matmulM4 s
    let t4 := P.T / 4
    let stored0 ← column s t4 0
    let stored1 ← column s t4 1
    let stored2 ← column s t4 2
    let stored3 ← column s t4 3
    some (s.mapIdx fun i x => x + [stored0, stored1, stored2, stored3].getD (i % 4) 0)
  else none

/-- `matmul_internal`, `mod.rs` 263-298; `iter().sum()` adds from zero. -/
def matmulInternal (s : List F) : Option (List F) :=
  if P.T = 2 then do
    let a ← s[0]?
    let b ← s[1]?
    let sum := a + b
    some ((s.set 0 (a + sum)).set 1 (dbl b + sum))
  else if P.T = 3 then do
    let a ← s[0]?
    let b ← s[1]?
    let c ← s[2]?
    let sum := a + b + c
    some (((s.set 0 (a + sum)).set 1 (b + sum)).set 2 (dbl c + sum))
  else if P.T = 4 ∨ P.T = 8 ∨ P.T = 12 ∨ P.T = 16 ∨ P.T = 20 ∨ P.T = 24 then
    let sum := s.foldl (· + ·) 0
    if P.diag.length < s.length then none
    else some (List.zipWith (fun x d => x * d + sum) s P.diag)
  else none

/-- `iter_mut().zip(..)` with `+=`, `mod.rs` 303-307: stops at the shorter one. -/
def addZip : List F → List F → List F
  | a :: s, b :: row => (a + b) :: addZip s row
  | s, _ => s

/-- `add_rc_external`, `mod.rs` 302-308. -/
def addRcExternal (round : Nat) (s : List F) : Option (List F) := (P.rc[round]?).map (addZip s)

/-- `add_rc_internal`, `mod.rs` 312-314. -/
def addRcInternal (round : Nat) (s : List F) : Option (List F) := do
  let row ← P.rc[round]?
  let c ← row[0]?
  let x ← s[0]?
  some (s.set 0 (x + c))

/-- `apply_sbox_external`, `mod.rs` 168-172; `pow` is the field's power (see `Verif.Fp.pow`). -/
def sboxExternal (s : List F) : List F := s.map (· ^ P.D)

/-- `apply_sbox_internal`, `mod.rs` 176-178. -/
def sboxInternal (s : List F) : Option (List F) := do
  let x ← s[0]?
  some (s.set 0 (x ^ P.D))

/-- `external_round`, `mod.rs` 132-136. -/
def externalRound (round : Nat) (s : List F) : Option (List F) := do
  let s ← addRcExternal P round s
  matmulExternal P (sboxExternal P s)

/-- `internal_round`, `mod.rs` 140-144. -/
def internalRound (round : Nat) (s : List F) : Option (List F) := do
  let s ← addRcInternal P round s
  let s ← sboxInternal P s
  matmulInternal P s

/-- `partial_round_start`, `partial_round_end`, `rounds`, `mod.rs` 64-78. -/
def partialRoundStart : Nat := P.roundsF / 2
/-- `partial_round_end`, `poseidon2/mod.rs` 70-72. -/
def partialRoundEnd : Nat := partialRoundStart P + P.roundsP
/-- `rounds`, `poseidon2/mod.rs` 76-78. -/
def rounds : Nat := P.roundsF + P.roundsP

/-- `for round in a..b`.
The loops of `permute`, `poseidon2/mod.rs` 110-128. -/
def forRounds (a b : Nat) (body : Nat → List F → Option (List F)) (s : List F) : Option (List F) :=
  (List.range' a (b - a)).foldlM (fun s round => body round s) s

/-- `permute`, `mod.rs` 110-128, on the state. -/
def permute (s : List F) : Option (List F) := do
  let s ← matmulExternal P s
  let s ← forRounds 0 (partialRoundStart P) (externalRound P) s
  let s ← forRounds (partialRoundStart P) (partialRoundEnd P) (internalRound P) s
  forRounds (partialRoundEnd P) (rounds P) (externalRound P) s

/-- `absorb`, `mod.rs` 86-98. -/
def absorb (sp : Sponge F) (elem : F) : Option (Sponge F) :=
  if sp.mode = .squeezing then none
  else do
    let sp ← if sp.index = P.T then (permute P sp.state).map fun s => { sp with state := s, index := P.capacity }
      else some sp
    let x ← sp.state[sp.index]?
    some { sp with state := sp.state.set sp.index (x + elem), index := sp.index + 1 }

/-- `absorb_batch`, `mod.rs` 102-106. -/
def absorbBatch (sp : Sponge F) (elems : List F) : Option (Sponge F) := elems.foldlM (absorb P) sp

/-- `squeeze`, `mod.rs` 148-158. -/
def squeeze (sp : Sponge F) : Option (F × Sponge F) := do
  let sp ← if sp.mode = .absorbing ∨ sp.index = P.T then
      (permute P sp.state).map fun s => { state := s, mode := .squeezing, index := P.capacity }
    else some sp
  let x ← sp.state[sp.index]?
  some (x, { sp with index := sp.index + 1 })

/-- `squeeze_batch`, `mod.rs` 162-164. -/
def squeezeBatch (sp : Sponge F) : Nat → Option (List F × Sponge F)
  | 0 => some ([], sp)
  | n + 1 => do
    let (x, sp) ← squeeze P sp
    let (xs, sp) ← squeezeBatch sp n
    some (x :: xs, sp)

end Verif.Poseidon
