import Verif.Model.Uint
/-!
# Model of the byte, bit and text conversions of `lib/crypto/src/arithmetic/uint.rs` and `bits.rs`

A panic is `none`.
-/

namespace Verif.Uint
open Verif.Limb

variable {N : Nat}

/-- `u8` in `uint.rs` 419-437. -/
abbrev Byte := BitVec 8

/-- `u64::to_le_bytes` (standard library). -/
def toLeBytes (x : L) : List Byte := (List.range 8).map fun j => (x >>> (8 * j)).setWidth 8

/-- `u64::from_le_bytes` (standard library). -/
def fromLeBytes (buf : Nat → Byte) : L :=
  (List.range 8).foldl (fun acc j => acc ||| ((buf j).setWidth 64 <<< (8 * j))) 0#64

/-- `into_bytes_le`, `uint.rs` 678-680. -/
def intoBytesLe (a : Uint N) : List Byte := (List.range N).flatMap fun i => toLeBytes (a.get i)

/-- `ct_from_le_slice`, `uint.rs` 418-437: `none` is the assertion failure. -/
def ctFromLeSlice (bytes : List Byte) : Option (Uint N) :=
  if bytes.length = 8 * N then some (mk fun i => fromLeBytes fun j => bytes.getD (i * 8 + j) 0#8) else none

/-- `bit_be_iter` of a primitive integer, `bits.rs` 16-24. -/
def limbBitsBe {w : Nat} (x : BitVec w) : List Bool :=
  (List.range w).reverse.map fun i => (x &&& (1#w <<< i)) != 0#w

/-- `bit_be_iter` of `Uint`, `uint.rs` 683-687. -/
def bitsBe (a : Uint N) : List Bool := (List.range N).reverse.flatMap fun i => limbBitsBe (a.get i)

/-- `bit_be_iter` of a slice of limbs, `uint.rs` 689-693. -/
def sliceBitsBe (l : List L) : List Bool := l.reverse.flatMap limbBitsBe

/-- `bit_be_trimmed_iter`, `bits.rs` 11-13: `skip_while(|&b| !b)`. -/
def trimmed (l : List Bool) : List Bool := l.dropWhile fun b => !b

/-- `char::to_digit` (standard library) on an ASCII character, for a radix in `2..=36`. -/
def toDigit (c : Byte) (radix : Nat) : Option Nat :=
  let d :=
    if 48 ≤ c.toNat ∧ c.toNat ≤ 57 then c.toNat - 48
    else if 97 ≤ c.toNat ∧ c.toNat ≤ 122 then c.toNat - 97 + 10
    else if 65 ≤ c.toNat ∧ c.toNat ≤ 90 then c.toNat - 65 + 10
    else 36
  if d < radix then some d else none

/-- `parse_utf8_byte` and `parse_digit`, `uint.rs` 782-798: panics on a non-ASCII byte, an invalid digit and
(`to_digit`) a radix outside `2..=36`. -/
def parseDigit (c : Byte) (radix : Nat) : Option Nat :=
  if c.toNat ≤ 0x7F then
    if 2 ≤ radix ∧ radix ≤ 36 then toDigit c radix else none
  else none

/-- Loop of `from_str_radix`, `uint.rs` 718-734, on the remaining bytes, last byte first. -/
def radixLoop (radix : Nat) : List Byte → Uint N → Uint N → Option (Uint N)
  | [], uint, _ => some uint
  | c :: rest, uint, order =>
    match parseDigit c radix with
    | none => none
    | some d =>
      match ctMul (fromU64 (BitVec.ofNat 64 d)) order with
      | none => none
      | some t =>
        match ctAdd uint t with
        | none => none
        | some uint =>
          if rest = [] then some uint
          else
            match ctMul (fromU64 (BitVec.ofNat 64 radix)) order with
            | none => none
            | some order => radixLoop radix rest uint order

/-- `from_str_radix`, `uint.rs` 703-735. -/
def fromStrRadix (s : List Byte) (radix : Nat) : Option (Uint N) :=
  if s = [] then none else radixLoop radix s.reverse (fromU64 0#64) (fromU64 1#64)

/-- Loop of `from_str_hex`, `uint.rs` 762-778; `t` is `num_index` (a `u32`, unbounded here: the array bound
stops the loop first).  Indexing past the array panics. -/
def hexLoop (N : Nat) : List Byte → Nat → Arr → Option Arr
  | [], _, num => some num
  | c :: rest, t, num =>
    match parseDigit c 16 with
    | none => none
    | some d =>
      if t / 16 < N then
        hexLoop N rest (t + 1) (upd num (t / 16) (num (t / 16) ||| (BitVec.ofNat 64 d <<< ((t % 16) * 4))))
      else none

/-- `from_str_hex`, `uint.rs` 745-779. -/
def fromStrHex (s : List Byte) : Option (Uint N) :=
  if s = [] then none else (hexLoop N s.reverse 0 fun _ => 0#64).map mk

/-- An upper-case hexadecimal digit (standard library formatting).
`write!(f, "{:016X}")` and its relatives, `uint.rs` 519-529. -/
def hexDigit (d : Nat) : Byte := if d < 10 then BitVec.ofNat 8 (48 + d) else BitVec.ofNat 8 (55 + d)

/-- `{limb:016X}` (standard library formatting): sixteen digits, most significant first. -/
def hex16 (x : L) : List Byte := (List.range 16).reverse.map fun j => hexDigit ((x >>> (4 * j)).toNat % 16)

/-- `UpperHex::fmt`, `Display::fmt`, `Debug::fmt`, `uint.rs` 519-542. -/
def display (a : Uint N) : List Byte := (List.range N).reverse.flatMap fun i => hex16 (a.get i)

end Verif.Uint
