import Verif.Model.UintText
/-!
# Model of `lib/crypto/src/field/fp.rs` and of the provided methods of `field/mod.rs`

An element is its Montgomery form, as in the code.  Constants of the parameter trait are computed at compile time;
a failing computation (`ct_rem`) is kept visible as `none`.
-/

namespace Verif.Fp
open Verif.Limb Verif.Uint

/-- `FpParams<N>`, `fp.rs` 44-69: the modulus.  The derived constants follow. -/
structure FpParams (N : Nat) where
  modulus : Uint N

variable {N : Nat}

/-- `HAS_MODULUS_SPARE_BIT`, `fp.rs` 52. -/
def FpParams.hasSpareBit (P : FpParams N) : Bool := P.modulus.get (N - 1) >>> 63 == 0#64

/-- `inv`, `fp.rs` 224-243: 63 rounds of square and multiply, then negation, all wrapping. -/
def FpParams.inv (P : FpParams N) : L :=
  -(forLoop 63 1#64 fun _ x => (x * x) * P.modulus.get 0)

/-- `R`, `fp.rs` 60-62; `none` would be a failed compile-time assertion. -/
def FpParams.rOpt (P : FpParams N) : Option (Uint N) :=
  ((WideUint.mk MAX Uint.ZERO).rem P.modulus).map fun r => ctWrappingAdd r ONE
/-- `R2`, `fp.rs` 66-68. -/
def FpParams.r2Opt (P : FpParams N) : Option (Uint N) :=
  ((WideUint.mk MAX MAX).rem P.modulus).map fun r => ctWrappingAdd r ONE
/-- The constants themselves.
`R`, `fp.rs` 61-64. -/
def FpParams.r (P : FpParams N) : Uint N := P.rOpt.getD Uint.ZERO
/-- `R2`, `fp.rs` 67-69. -/
def FpParams.r2 (P : FpParams N) : Uint N := P.r2Opt.getD Uint.ZERO

/-- `Fp<P, N>`, `fp.rs` 251-258. -/
structure Fp (P : FpParams N) where
  mont : Uint N
  deriving DecidableEq

variable {P : FpParams N}

/-- `ZERO`, `fp.rs` 311-312. -/
def zero (P : FpParams N) : Fp P := ⟨Uint.ZERO⟩
/-- `ONE`, `fp.rs` 308. -/
def one (P : FpParams N) : Fp P := ⟨P.r⟩
/-- `is_zero`, `fp.rs` 476-479. -/
def isZero (a : Fp P) : Bool := decide (a = zero P)

/-- `is_ge_modulus`, `fp.rs` 327-329. -/
def isGeModulus (a : Fp P) : Bool := ctGe a.mont P.modulus
/-- `ct_subtract_modulus`, `fp.rs` 332-338. -/
def subtractModulus (a : Fp P) : Fp P := if isGeModulus a then ⟨ctWrappingSub a.mont P.modulus⟩ else a
/-- `ct_carrying_sub_modulus`, `fp.rs` 375-381. -/
def carryingSubModulus (a : Fp P) (carry : Bool) : Fp P :=
  if carry || isGeModulus a then ⟨ctWrappingSub a.mont P.modulus⟩ else a
/-- The branch on `HAS_MODULUS_SPARE_BIT` used by addition, doubling and multiplication.
`fp.rs` 77-81, 100-104 and 361-366. -/
def reduceOnce (a : Fp P) (carry : Bool) : Fp P :=
  if P.hasSpareBit then subtractModulus a else carryingSubModulus a carry

/-- `add_assign`, `fp.rs` 73-82. -/
def add (a b : Fp P) : Fp P :=
  let r := checkedAddAssign a.mont b.mont
  reduceOnce ⟨r.1⟩ r.2

/-- `sub_assign`, `fp.rs` 86-92. -/
def sub (a b : Fp P) : Fp P :=
  let m := if cmp b.mont a.mont = .gt then (checkedAddAssign a.mont P.modulus).1 else a.mont
  ⟨(checkedSubAssign m b.mont).1⟩

/-- `double_in_place`, `fp.rs` 96-105. -/
def double (a : Fp P) : Fp P :=
  let r := checkedMul2 a.mont
  reduceOnce ⟨r.1⟩ r.2

/-- `neg_in_place`, `fp.rs` 109-115. -/
def neg (a : Fp P) : Fp P := if isZero a then a else ⟨(checkedSubAssign P.modulus a.mont).1⟩

/-- State of `widening_montgomery_reduction`.
The variables of `fp.rs` 400-432. -/
structure RedState where
  lo : Arr
  hi : Arr
  carry2 : L

/-- Inner loop of `widening_montgomery_reduction`, `fp.rs` 408-427, for `j` in `1..N` (iteration `j'` is
`j = j' + 1`). -/
def redRow (P : FpParams N) (i : Nat) (s : RedState) : MulState :=
  let tmp := s.lo i * P.inv
  let carry := (mac (s.lo i) tmp (P.modulus.get 0)).2
  forLoop (N - 1) (MulState.mk s.lo s.hi carry) fun j' t =>
    let j := j' + 1
    let k := i + j
    if N ≤ k then
      let r := carryingMac (t.hi (k - N)) tmp (P.modulus.get j) t.carry
      { t with hi := upd t.hi (k - N) r.1, carry := r.2 }
    else
      let r := carryingMac (t.lo k) tmp (P.modulus.get j) t.carry
      { t with lo := upd t.lo k r.1, carry := r.2 }

/-- `widening_montgomery_reduction`, `fp.rs` 400-432: the carry and the result. -/
def wideningReduction (P : FpParams N) (lo hi : Uint N) : Bool × Uint N :=
  let r := forLoop N (RedState.mk lo.get hi.get 0#64) fun i s =>
    let t := redRow P i s
    let u := adc (t.hi i) t.carry s.carry2
    ⟨t.lo, upd t.hi i u.1, u.2⟩
  (r.carry2 != 0#64, mk r.hi)

/-- `ct_mul`, `fp.rs` 359-366 with `ct_mul_without_cond_subtract`, 384-390; `mul_assign` 122-124. -/
def mul (a b : Fp P) : Fp P :=
  let w := ctWideningMul a.mont b.mont
  let r := wideningReduction P w.1 w.2
  reduceOnce ⟨r.2⟩ r.1

/-- `square_in_place`, `fp.rs` 128-130. -/
def square (a : Fp P) : Fp P := mul a a

/-- Inner loop of `montgomery_reduction`, `fp.rs` 447-457. -/
def intRow (P : FpParams N) (i : Nat) (limbs : Arr) : Arr × L :=
  let k := limbs i * P.inv
  let carry := (mac (limbs i) k (P.modulus.get 0)).2
  forLoop (N - 1) (limbs, carry) fun j' t =>
    let j := j' + 1
    let r := carryingMac (t.1 ((j + i) % N)) k (P.modulus.get j) t.2
    (upd t.1 ((j + i) % N) r.1, r.2)

/-- `montgomery_reduction`, `fp.rs` 444-461; `into_bigint`, 218-220. -/
def intoBigint (a : Fp P) : Uint N :=
  mk (forLoop N a.mont.get fun i limbs =>
    let t := intRow P i limbs
    upd t.1 (i % N) t.2)

/-- `from_bigint`, `fp.rs` 206-213. -/
def fromBigint (num : Uint N) : Fp P :=
  if isZero (⟨num⟩ : Fp P) then ⟨num⟩ else mul ⟨num⟩ ⟨P.r2⟩

/-- `new`, `fp.rs` 344-351. -/
def new (element : Uint N) : Fp P :=
  if ctIsZero element then ⟨element⟩ else mul ⟨element⟩ ⟨P.r2⟩

/-- One halving step of `inverse` on the cofactor, `fp.rs` 161-170 and 177-186. -/
def halveMod (b : Fp P) : Fp P :=
  if ctIsEven b.mont then ⟨div2 b.mont⟩
  else
    let r := checkedAddAssign b.mont P.modulus
    let h := div2 r.1
    if !P.hasSpareBit && r.2 then ⟨mk (upd h.get (N - 1) (h.get (N - 1) ||| (1#64 <<< 63)))⟩ else ⟨h⟩

/-- `while u.is_even() { … }`, `fp.rs` 158-171 and 174-187.  `fuel` bounds the number of rounds; `none` means that
the bound was reached. -/
def halveLoop : (fuel : Nat) → Uint N → Fp P → Option (Uint N × Fp P)
  | 0, _, _ => none
  | fuel + 1, u, b => if ctIsEven u then halveLoop fuel (div2 u) (halveMod b) else some (u, b)

/-- The outer loop of `inverse`, `fp.rs` 157-196.  `none`: the bound was reached. -/
def inverseLoop : (fuel : Nat) → (u v : Uint N) → (b c : Fp P) → Option (Fp P)
  | 0, _, _, _, _ => none
  | fuel + 1, u, v, b, c =>
    if u ≠ ONE ∧ v ≠ ONE then
      match halveLoop fuel u b with
      | none => none
      | some (u, b) =>
        match halveLoop fuel v c with
        | none => none
        | some (v, c) =>
          if cmp v u = .lt then inverseLoop fuel (checkedSubAssign u v).1 v (sub b c) c
          else inverseLoop fuel u (checkedSubAssign v u).1 b (sub c b)
    else if u = ONE then some b else some c

/-- `inverse`, `fp.rs` 142-199: the outer `Option` is the fuel, the inner one the code's result. -/
def inverse (fuel : Nat) (a : Fp P) : Option (Option (Fp P)) :=
  if isZero a then some none
  else (inverseLoop fuel a.mont P.modulus ⟨P.r2⟩ (zero P)).map some

/-- `div`, `fp.rs` 708-718: `some none` is the panic on a division by zero. -/
def div (fuel : Nat) (a b : Fp P) : Option (Option (Fp P)) :=
  (inverse fuel b).map fun i => i.map fun i => mul a i

/-- `From<u8>` … `From<u64>`, `fp.rs` 585-615. -/
def fromU64 (v : L) : Fp P := fromBigint (Uint.fromU64 v)
/-- `From<u128>`: `none` is the panic of `Uint::from_u128`. -/
def fromU128 (v : W) : Option (Fp P) := (Uint.fromU128 v).map fromBigint
/-- `From<i64>` and the narrower signed types, `fp.rs` 596-609, 618-621; `v` is the two's complement. -/
def fromI64 (v : L) : Fp P :=
  let abs : Fp P := fromU64 (if v.slt 0#64 then -v else v)
  if (0#64).slt v then abs else neg abs
/-- `From<i128>`, `fp.rs` 617. -/
def fromI128 (v : W) : Option (Fp P) :=
  (fromU128 (if v.slt 0#128 then -v else v)).map fun (abs : Fp P) =>
    if (0#128).slt v then abs else neg abs
/-- `From<bool>`, `fp.rs` 623-627. -/
def fromBool (b : Bool) : Fp P := fromU64 (if b then 1#64 else 0#64)

/-- Conversion to a `w`-bit unsigned integer for `N = 1`, `fp.rs` 633-651: `none` is the panic. -/
def toUnsigned {P : FpParams 1} (w : Nat) (a : Fp P) : Option (BitVec w) :=
  let x := (intoBigint a).get 0
  if x.toNat < 2 ^ w then some (BitVec.ofNat w x.toNat) else none
/-- Conversion to a `w`-bit signed integer for `N = 1`, `fp.rs` 652-656. -/
def toSigned {P : FpParams 1} (w : Nat) (a : Fp P) : Option (BitVec w) :=
  let x := (intoBigint a).get 0
  if 2 * x.toNat < 2 ^ w then some (BitVec.ofNat w x.toNat) else none

/-- `Ord::cmp`, `fp.rs` 571-575. -/
def cmpFp (a b : Fp P) : Ordering := cmp (intoBigint a) (intoBigint b)

/-- `Display`, `fp.rs` 660-666, and `Debug`, 464-468. -/
def displayFp (a : Fp P) : List Byte := display (intoBigint a)

/-- `Sum`, `fp.rs` 818-828. -/
def sum (l : List (Fp P)) : Fp P := l.foldl add (zero P)
/-- `Product`, `fp.rs` 915-925. -/
def product (l : List (Fp P)) : Fp P := l.foldl mul (one P)

/-- One round of `pow`, `field/mod.rs` 134-153. -/
def powStep (a : Fp P) (res : Option (Fp P)) (bit : Bool) : Option (Fp P) :=
  let res := res.map square
  if bit then
    match res with
    | none => some a
    | some r => some (mul r a)
  else res

/-- `pow`, `field/mod.rs` 128-157, for an exponent that iterates over `bits` (`bit_be_iter`). -/
def pow (a : Fp P) (bits : List Bool) : Fp P := ((trimmed bits).foldl (powStep a) none).getD (one P)

/-- `sum_of_products`, `field/mod.rs` 161-167, for two arrays of the same length. -/
def sumOfProducts (l : List (Fp P × Fp P)) : Fp P := l.foldl (fun s x => add s (mul x.1 x.2)) (zero P)

end Verif.Fp
