import Verif.Model.Limb
/-!
# Model of `lib/crypto/src/arithmetic/uint.rs`

`Uint<N>` is an array of `N` limbs, least significant first.  Inside a loop an array is a function from
indices to limbs; `Uint.mk` and `Uint.get` convert.  The loop macros `ct_for` and `ct_for_unrollN`
(`const_helpers.rs` 14-98) run their body for each index of a range in order: `forLoop`.
-/

namespace Verif.Uint
open Verif.Limb

/-- An array inside a loop.
`limbs: [Limb; N]`, `uint.rs` 32-34. -/
abbrev Arr := Nat → L

/-- `ct_for!((i in 0..n) body)`, `const_helpers.rs` 14-98 (the unrolled versions repeat the same cycle). -/
def forLoop {σ : Type} (n : Nat) (s : σ) (body : Nat → σ → σ) : σ :=
  match n with
  | 0 => s
  | n + 1 => body n (forLoop n s body)

/-- `Uint<N>`, `uint.rs` 32-34. -/
structure Uint (N : Nat) where
  limbs : Fin N → L

/-- Derived `PartialEq`, `uint.rs` 30-34. -/
instance {N : Nat} : DecidableEq (Uint N) := fun a b =>
  decidable_of_iff (∀ i, a.limbs i = b.limbs i)
    ⟨fun h => by cases a; cases b; congr; funext i; exact h i, fun h i => by rw [h]⟩

variable {N : Nat}

/-- Read a limb.  Out of range (where Rust panics) the model reads zero; all loops stay in range.
`self.limbs[i]`, `uint.rs` 32-34. -/
def Uint.get (a : Uint N) : Arr := fun i => if h : i < N then a.limbs ⟨i, h⟩ else 0#64

/-- The array as a `Uint`, `new`, `uint.rs` 70-72. -/
def mk (f : Arr) : Uint N := ⟨fun i => f i.val⟩

/-- `BITS`, `arithmetic/mod.rs`: `NUM_LIMBS * LIMB_BITS`.
Line 54. -/
def BITS (N : Nat) : Nat := N * 64

/-- `ZERO`, `uint.rs` 653. -/
def ZERO : Uint N := mk fun _ => 0#64
/-- `ONE`, `uint.rs` 648-652. -/
def ONE : Uint N := mk (upd (fun _ => 0#64) 0 1#64)
/-- `MAX`, `uint.rs` 646. -/
def MAX : Uint N := mk fun _ => 0xFFFFFFFFFFFFFFFF#64

/-- `ct_is_odd`, `uint.rs` 90-92. -/
def ctIsOdd (a : Uint N) : Bool := a.get 0 &&& 1#64 == 1#64
/-- `ct_is_even`, `uint.rs` 98-100. -/
def ctIsEven (a : Uint N) : Bool := a.get 0 &&& 1#64 == 0#64

/-- Loop of `ct_ge`, `uint.rs` 106-115: limbs from index `n - 1` down. -/
def geLoop (a b : Arr) : Nat → Bool
  | 0 => true
  | n + 1 => if b n < a n then true else if a n < b n then false else geLoop a b n
/-- `ct_ge`, `uint.rs` 105-116. -/
def ctGe (a b : Uint N) : Bool := geLoop a.get b.get N

/-- Loop of `ct_gt`, `uint.rs` 122-131. -/
def gtLoop (a b : Arr) : Nat → Bool
  | 0 => false
  | n + 1 => if b n < a n then true else if a n < b n then false else gtLoop a b n
/-- `ct_gt`, `uint.rs` 121-132. -/
def ctGt (a b : Uint N) : Bool := gtLoop a.get b.get N

/-- Loop of `ct_le`, `uint.rs` 138-147. -/
def leLoop (a b : Arr) : Nat → Bool
  | 0 => true
  | n + 1 => if a n < b n then true else if b n < a n then false else leLoop a b n
/-- `ct_le`, `uint.rs` 137-148. -/
def ctLe (a b : Uint N) : Bool := leLoop a.get b.get N

/-- Loop of `ct_lt`, `uint.rs` 153-162. -/
def ltLoop (a b : Arr) : Nat → Bool
  | 0 => false
  | n + 1 => if a n < b n then true else if b n < a n then false else ltLoop a b n
/-- `ct_lt`, `uint.rs` 152-163. -/
def ctLt (a b : Uint N) : Bool := ltLoop a.get b.get N

/-- Loop of `ct_eq`, `uint.rs` 174-179, from index `i`, with `k` indices left. -/
def eqLoop (a b : Arr) : Nat → Nat → Bool
  | _, 0 => true
  | i, k + 1 => if a i ≠ b i then false else eqLoop a b (i + 1) k
/-- `ct_eq`, `uint.rs` 173-180. -/
def ctEq (a b : Uint N) : Bool := eqLoop a.get b.get 0 N
/-- `ct_is_zero`, `uint.rs` 167-169. -/
def ctIsZero (a : Uint N) : Bool := ctEq a ZERO
/-- `ct_ne`, `uint.rs` 185-187. -/
def ctNe (a b : Uint N) : Bool := !ctEq a b

/-- Loop of `cmp`, `uint.rs` 547-556. -/
def cmpLoop (a b : Arr) : Nat → Ordering
  | 0 => .eq
  | n + 1 => match compare (a n).toNat (b n).toNat with
    | .eq => cmpLoop a b n
    | o => o
/-- `Ord::cmp`, `uint.rs` 546-557. -/
def cmp (a b : Uint N) : Ordering := cmpLoop a.get b.get N

/-- `u64::leading_zeros`. -/
def leadingZeros (x : L) : Nat := if x = 0#64 then 64 else 63 - x.toNat.log2

/-- Loop of `ct_num_bits`, `uint.rs` 198-212. -/
def numBitsLoop (a : Arr) : (index : Nat) → (numBits : Nat) → Nat
  | 0, n => n - leadingZeros (a 0)
  | i + 1, n =>
    let leading := leadingZeros (a (i + 1))
    let n := n - leading
    if leading ≠ 64 then n else numBitsLoop a i n
/-- `ct_num_bits`, `uint.rs` 192-216 (for `N ≥ 1`; `N - 1` underflows for `N = 0`). -/
def ctNumBits (a : Uint N) : Nat := numBitsLoop a.get (N - 1) (BITS N)

/-- `ct_get_bit`, `uint.rs` 220-232. -/
def ctGetBit (a : Uint N) (i : Nat) : Bool :=
  if BITS N ≤ i then false
  else
    let limb := i / 64
    let bit := i - 64 * limb
    let mask : L := 1#64 <<< bit
    (a.get limb &&& mask) != 0#64

/-- Loop of `checked_mul2_assign`, `uint.rs` 239-245, and of `ct_checked_mul2`, 253-259. -/
def mul2Loop (n : Nat) (a : Arr) : Arr × L :=
  forLoop n (a, 0#64) fun i s =>
    let x := s.1 i
    let tmp := x >>> 63
    (upd s.1 i ((x <<< 1) ||| s.2), tmp)
/-- `checked_mul2_assign`, `uint.rs` 237-247; `ct_checked_mul2`, 251-261. -/
def checkedMul2 (a : Uint N) : Uint N × Bool :=
  let r := mul2Loop N a.get
  (mk r.1, r.2 != 0#64)

/-- Loop of `div2_assign`, `uint.rs` 266-271: the index runs from the top, so iteration `i` works on limb
`n - 1 - i`. -/
def div2Loop (n : Nat) (a : Arr) : Arr × L :=
  forLoop n (a, 0#64) fun i s =>
    let k := n - 1 - i
    let x := s.1 k
    let t2 := x <<< 63
    (upd s.1 k ((x >>> 1) ||| s.2), t2)
/-- `div2_assign`, `uint.rs` 264-272. -/
def div2 (a : Uint N) : Uint N := mk (div2Loop N a.get).1

/-- Loop of `ct_checked_sub`, `uint.rs` 281-283. -/
def subLoop (n : Nat) (a b : Arr) : Arr × L :=
  forLoop n (a, 0#64) fun i s =>
    let r := sbb (s.1 i) (b i) s.2
    (upd s.1 i r.1, r.2)
/-- `ct_checked_sub`, `uint.rs` 278-286. -/
def ctCheckedSub (a b : Uint N) : Uint N × Bool :=
  let r := subLoop N a.get b.get
  (mk r.1, r.2 != 0#64)
/-- `ct_wrapping_sub`, `uint.rs` 292-294. -/
def ctWrappingSub (a b : Uint N) : Uint N := (ctCheckedSub a b).1

/-- Loop of `ct_checked_add`, `uint.rs` 303-305 (and of `ct_adc`, 410-412, from any carry). -/
def addLoop (n : Nat) (a b : Arr) (carry : L) : Arr × L :=
  forLoop n (a, carry) fun i s =>
    let r := adc (s.1 i) (b i) s.2
    (upd s.1 i r.1, r.2)
/-- `ct_checked_add`, `uint.rs` 300-308. -/
def ctCheckedAdd (a b : Uint N) : Uint N × Bool :=
  let r := addLoop N a.get b.get 0#64
  (mk r.1, r.2 != 0#64)

/-- `checked_add_assign`, `uint.rs` 312-320: the new value and the carry. -/
def checkedAddAssign (a b : Uint N) : Uint N × Bool :=
  let r := forLoop N (a.get, false) fun i s =>
    let r := adcAssign (s.1 i) (b.get i) s.2
    (upd s.1 i r.1, r.2)
  (mk r.1, r.2)

/-- `checked_sub_assign`, `uint.rs` 325-334: the new value and the borrow. -/
def checkedSubAssign (a b : Uint N) : Uint N × Bool :=
  let r := forLoop N (a.get, false) fun i s =>
    let r := sbbAssign (s.1 i) (b.get i) s.2
    (upd s.1 i r.1, r.2)
  (mk r.1, r.2)

/-- State of `ct_widening_mul`.
`uint.rs` 348-379. -/
structure MulState where
  lo : Arr
  hi : Arr
  carry : L

/-- Inner loop of `ct_widening_mul`, `uint.rs` 354-373. -/
def mulRow (N : Nat) (a b : Arr) (i : Nat) (s : MulState) : MulState :=
  forLoop N { s with carry := 0#64 } fun j s =>
    let k := i + j
    if N ≤ k then
      let r := carryingMac (s.hi (k - N)) (a i) (b j) s.carry
      { s with hi := upd s.hi (k - N) r.1, carry := r.2 }
    else
      let r := carryingMac (s.lo k) (a i) (b j) s.carry
      { s with lo := upd s.lo k r.1, carry := r.2 }

/-- `ct_widening_mul`, `uint.rs` 348-379. -/
def ctWideningMul (a b : Uint N) : Uint N × Uint N :=
  let r := forLoop N (MulState.mk (fun _ => 0#64) (fun _ => 0#64) 0#64) fun i s =>
    let s := mulRow N a.get b.get i s
    { s with hi := upd s.hi i s.carry }
  (mk r.lo, mk r.hi)

/-- `ct_mul`, `uint.rs` 383-387: `none` is the assertion failure. -/
def ctMul (a b : Uint N) : Option (Uint N) :=
  let r := ctWideningMul a b
  if ctEq r.2 ZERO then some r.1 else none

/-- `ct_adc`, `uint.rs` 407-415. -/
def ctAdc (a b : Uint N) (carry : L) : Uint N × L :=
  let r := forLoop N ((fun _ => 0#64 : Arr), carry) fun i s =>
    let r := adc (a.get i) (b.get i) s.2
    (upd s.1 i r.1, r.2)
  (mk r.1, r.2)

/-- `ct_add`, `uint.rs` 391-395: `none` is the assertion failure. -/
def ctAdd (a b : Uint N) : Option (Uint N) :=
  let r := ctAdc a b 0#64
  if r.2 = 0#64 then some r.1 else none

/-- `ct_wrapping_add`, `uint.rs` 399-402. -/
def ctWrappingAdd (a b : Uint N) : Uint N := (ctAdc a b 0#64).1

/-- `from_u8` … `from_u64`, `from_usize`, `uint.rs` 443-464: the value as a limb (the assertion `N >= 1` is a
hypothesis of the theorems). -/
def fromU64 (v : L) : Uint N := mk (upd (fun _ => 0#64) 0 v)

/-- `from_u128`, `uint.rs` 473-495: `none` is the panic. -/
def fromU128 (v : W) : Option (Uint N) :=
  let lo := low v
  let hi := high v
  if 2 ≤ N then some (mk (upd (upd (fun _ => 0#64) 0 lo) 1 hi))
  else if hi = 0#64 then some (mk (upd (fun _ => 0#64) 0 lo))
  else none

/-- Bitwise operations, `uint.rs` 581-642. -/
def bitxor (a b : Uint N) : Uint N := mk fun i => a.get i ^^^ b.get i
/-- `BitAnd`, `uint.rs` 598-613. -/
def bitand (a b : Uint N) : Uint N := mk fun i => a.get i &&& b.get i
/-- `BitOr`, `uint.rs` 615-630. -/
def bitor (a b : Uint N) : Uint N := mk fun i => a.get i ||| b.get i
/-- `Not`, `uint.rs` 632-643. -/
def bitnot (a : Uint N) : Uint N := mk fun i => ~~~ a.get i

/-- `WideUint`, `uint.rs` 818-828. -/
structure WideUint (N : Nat) where
  low : Uint N
  high : Uint N

/-- `WideUint::ct_num_bits`, `uint.rs` 866-873. -/
def WideUint.numBits (x : WideUint N) : Nat :=
  let h := ctNumBits x.high
  if h = 0 then ctNumBits x.low else h + BITS N

/-- `WideUint::ct_get_bit`, `uint.rs` 877-883. -/
def WideUint.getBit (x : WideUint N) (i : Nat) : Bool :=
  if BITS N ≤ i then ctGetBit x.high (i - BITS N) else ctGetBit x.low i

/-- One round of `ct_rem`, `uint.rs` 846-855. -/
def remStep (x : WideUint N) (m r : Uint N) (index : Nat) : Uint N :=
  let s := checkedMul2 r
  let r1 : Uint N := mk (upd s.1.get 0 (s.1.get 0 ||| (if x.getBit index then 1#64 else 0#64)))
  if ctGe r1 m || s.2 then (ctCheckedSub r1 m).1 else r1

/-- Loop of `ct_rem`, `uint.rs` 844-861, with `index` the index of this round. -/
def remLoop (x : WideUint N) (m : Uint N) : (index : Nat) → Uint N → Uint N
  | 0, r => remStep x m r 0
  | i + 1, r => remLoop x m i (remStep x m r (i + 1))

/-- `ct_rem`, `uint.rs` 837-862: `none` for a division by zero (assertion) and for a zero dividend, where
`self.ct_num_bits() - 1` underflows. -/
def WideUint.rem (x : WideUint N) (m : Uint N) : Option (Uint N) :=
  if ctIsZero m then none
  else if x.numBits = 0 then none
  else some (remLoop x m (x.numBits - 1) ZERO)

end Verif.Uint
