import Verif.Base
/-!
# Model of `lib/crypto/src/arithmetic/limb.rs`

`Limb` is `u64` and `WideLimb` is `u128`.  Arithmetic on them is modelled as wrapping; that nothing
wraps is part of what is proved.
-/

namespace Verif.Limb

/-- `Limb`, `limb.rs` 11. -/
abbrev L := BitVec 64
/-- `WideLimb`, `limb.rs` 19. -/
abbrev W := BitVec 128

/-- `a as WideLimb`.
As in `limb.rs` 24-130. -/
def wide (a : L) : W := a.setWidth 128
/-- `a as Limb`.
As in `limb.rs` 24-130. -/
def low (a : W) : L := a.setWidth 64
/-- `(a >> Limb::BITS) as Limb`.
As in `limb.rs` 24-130. -/
def high (a : W) : L := (a >>> 64).setWidth 64

/-- `widening_mul`, `limb.rs` 24-33, on targets other than wasm. -/
def wideningMul (a b : L) : W := wide a * wide b

/-- `widening_mul_wasm`, `limb.rs` 42-53. -/
def wideningMulWasm (a b : L) : W :=
  let aLo := (a.setWidth 32).setWidth 64
  let aHi := a >>> 32
  let bLo := (b.setWidth 32).setWidth 64
  let bHi := b >>> 32
  let lolo := wide (aLo * bLo)
  let lohi := wide (aLo * bHi) <<< 32
  let hilo := wide (aHi * bLo) <<< 32
  let hihi := wide (aHi * bHi) <<< 64
  (lolo ||| hihi) + (lohi + hilo)

/-- `mac`, `limb.rs` 59-64. -/
def mac (a b c : L) : L × L :=
  let tmp := wide a + wideningMul b c
  (low tmp, high tmp)

/-- `carrying_mac`, `limb.rs` 70-81. -/
def carryingMac (a b c carry : L) : L × L :=
  let tmp := wide a + wideningMul b c + wide carry
  (low tmp, high tmp)

/-- `adc`, `limb.rs` 87-94. -/
def adc (a b carry : L) : L × L :=
  let tmp := wide a + wide b + wide carry
  (low tmp, high tmp)

/-- `adc_assign`, `limb.rs` 98-103: the new value and the carry. -/
def adcAssign (a b : L) (carry : Bool) : L × Bool :=
  let tmp := wide a + wide b + (if carry then 1#128 else 0#128)
  (low tmp, (tmp >>> 64) != 0#128)

/-- `sbb`, `limb.rs` 108-118. -/
def sbb (a b borrow : L) : L × L :=
  let protection : W := 1#128 <<< 64
  let tmp := protection + wide a - wide b - wide borrow
  (low tmp, if tmp >>> 64 = 0#128 then 1#64 else 0#64)

/-- `u64::overflowing_sub`. -/
def overflowingSub (a b : L) : L × Bool := (a - b, decide (a < b))

/-- `sbb_assign`, `limb.rs` 122-127: the new value and the borrow. -/
def sbbAssign (a b : L) (borrow : Bool) : L × Bool :=
  let r1 := overflowingSub a b
  let r2 := overflowingSub r1.1 (if borrow then 1#64 else 0#64)
  (r2.1, r1.2 || r2.2)

end Verif.Limb
