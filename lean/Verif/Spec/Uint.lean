import Verif.Model.Uint
/-! # Specification vocabulary for multi-limb integers -/

namespace Verif.Spec.Uint
open Verif.Uint

/-- The number in the first `n` limbs of an array, least significant first. -/
def value (n : Nat) (f : Nat → BitVec 64) : Nat := ∑ i ∈ Finset.range n, (f i).toNat * 2 ^ (64 * i)

/-- The number represented by a `Uint`. -/
def val {N : Nat} (a : Uint N) : Nat := ∑ i : Fin N, (a.limbs i).toNat * 2 ^ (64 * i.val)

/-- The number represented by a `WideUint`. -/
def wval {N : Nat} (x : WideUint N) : Nat := val x.low + 2 ^ (64 * N) * val x.high

/-- The number whose base-`radix` digits are `ds`, most significant digit first. -/
def numeral (radix : Nat) (ds : List Nat) : Nat := ds.foldl (fun acc d => acc * radix + d) 0

/-- The character with code `c` is the digit `d`: `0`-`9`, then `a`-`z` or `A`-`Z` for ten and above. -/
def IsDigit (c : BitVec 8) (d : Nat) : Prop :=
  (d < 10 ∧ c.toNat = 48 + d) ∨ (10 ≤ d ∧ d < 36 ∧ (c.toNat = 97 + (d - 10) ∨ c.toNat = 65 + (d - 10)))

/-- The text `s` writes the digits `ds` in base `radix`. -/
def Writes (radix : Nat) (s : List (BitVec 8)) (ds : List Nat) : Prop :=
  List.Forall₂ (fun c d => IsDigit c d ∧ d < radix) s ds

/-- The number whose base-256 digits are `bs`, least significant first. -/
def bytesValue (bs : List (BitVec 8)) : Nat := bs.foldr (fun b acc => b.toNat + 256 * acc) 0

/-- The number whose binary digits are `bs`, most significant first. -/
def bitsValue (bs : List Bool) : Nat := bs.foldl (fun acc b => 2 * acc + b.toNat) 0

end Verif.Spec.Uint
