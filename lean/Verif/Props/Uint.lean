import Verif.Proofs.UintText
/-!
# C61-C65: multi-limb integers

`val a` is the natural number that the limbs of `a` represent (`Spec/Uint.lean`).  All theorems hold for every
number of limbs; where the code asserts `N >= 1` that is a hypothesis.
-/

namespace Verif.Props.Uint
open Verif.Limb Verif.Uint
open Verif.Spec.Uint

variable {N : Nat}

/-- Every natural number below `2^(64N)` is represented by exactly one `Uint`. -/
theorem C61_representation : (∀ a : Uint N, val a < 2 ^ (64 * N)) ∧ (∀ a b : Uint N, val a = val b ↔ a = b) :=
  ⟨val_lt, fun _ _ => ⟨val_inj, fun h => by rw [h]⟩⟩

/-- `ct_checked_add`, `checked_add_assign`: the sum modulo `2^(64N)` and the carry out. -/
theorem C61_add (a b : Uint N) :
    val (ctCheckedAdd a b).1 = (val a + val b) % 2 ^ (64 * N) ∧
    (ctCheckedAdd a b).2 = decide (2 ^ (64 * N) ≤ val a + val b) ∧
    checkedAddAssign a b = ctCheckedAdd a b := by
  have key : ∀ (r : Uint N × Bool), val r.1 + 2 ^ (64 * N) * r.2.toNat = val a + val b →
      val r.1 = (val a + val b) % 2 ^ (64 * N) ∧ r.2 = decide (2 ^ (64 * N) ≤ val a + val b) := by
    intro r h
    have hl := val_lt r.1
    refine ⟨?_, ?_⟩
    · rw [← h, Nat.add_mul_mod_self_left, Nat.mod_eq_of_lt hl]
    · cases hb : r.2
      · rw [hb, Bool.toNat_false] at h
        exact (decide_eq_false (by omega)).symm
      · rw [hb, Bool.toNat_true] at h
        exact (decide_eq_true (by omega)).symm
  obtain ⟨h1, h2⟩ := key _ (ctCheckedAdd_exact a b)
  obtain ⟨h3, h4⟩ := key _ (checkedAddAssign_exact a b)
  exact ⟨h1, h2, Prod.ext (val_inj (h3.trans h1.symm)) (h4.trans h2.symm)⟩

/-- `ct_checked_sub`, `checked_sub_assign`, `ct_wrapping_sub`: the difference modulo `2^(64N)` and the borrow. -/
theorem C61_sub (a b : Uint N) :
    val (ctCheckedSub a b).1 = (val a + 2 ^ (64 * N) - val b) % 2 ^ (64 * N) ∧
    (ctCheckedSub a b).2 = decide (val a < val b) ∧
    checkedSubAssign a b = ctCheckedSub a b ∧ ctWrappingSub a b = (ctCheckedSub a b).1 := by
  have ha := val_lt a
  have hb := val_lt b
  have key : ∀ (r : Uint N × Bool), val r.1 + val b = val a + 2 ^ (64 * N) * r.2.toNat →
      val r.1 = (val a + 2 ^ (64 * N) - val b) % 2 ^ (64 * N) ∧ r.2 = decide (val a < val b) := by
    intro r h
    have hl := val_lt r.1
    have h2 := borrow_iff hl ha h
    refine ⟨?_, h2⟩
    by_cases hc : val a < val b
    · rw [h2, decide_eq_true hc, Bool.toNat_true] at h
      rw [Nat.mod_eq_of_lt (by omega)]; omega
    · rw [h2, decide_eq_false hc, Bool.toNat_false] at h
      rw [show val a + 2 ^ (64 * N) - val b = val r.1 + 2 ^ (64 * N) by omega, Nat.add_mod_right, Nat.mod_eq_of_lt hl]
  obtain ⟨h1, h2⟩ := key _ (ctCheckedSub_exact a b)
  obtain ⟨h3, h4⟩ := key _ (checkedSubAssign_exact a b)
  exact ⟨h1, h2, Prod.ext (val_inj (h3.trans h1.symm)) (h4.trans h2.symm), rfl⟩

/-- `checked_mul2_assign`, `ct_checked_mul2`: doubling modulo `2^(64N)` and the bit shifted out. -/
theorem C61_double (a : Uint N) :
    val (checkedMul2 a).1 = 2 * val a % 2 ^ (64 * N) ∧ (checkedMul2 a).2 = decide (2 ^ (64 * N) ≤ 2 * val a) := by
  have h := checkedMul2_exact a
  have hl := val_lt (checkedMul2 a).1
  refine ⟨?_, ?_⟩
  · rw [← h, Nat.add_mul_mod_self_left, Nat.mod_eq_of_lt hl]
  · cases hb : (checkedMul2 a).2
    · rw [hb, Bool.toNat_false] at h
      exact (decide_eq_false (by omega)).symm
    · rw [hb, Bool.toNat_true] at h
      exact (decide_eq_true (by omega)).symm

/-- `div2_assign`: halving rounds down. -/
theorem C61_halve (a : Uint N) : val (div2 a) = val a / 2 := div2_val a

/-- `ct_adc`: sum with carry in, split into limbs and carry out. -/
theorem C61_adc (a b : Uint N) (c : L) :
    val (ctAdc a b c).1 + 2 ^ (64 * N) * (ctAdc a b c).2.toNat = val a + val b + c.toNat := ctAdc_exact a b c

/-- `ct_wrapping_add`; `ct_add` returns the sum when it fits and panics otherwise. -/
theorem C61_add_variants (a b : Uint N) :
    val (ctWrappingAdd a b) = (val a + val b) % 2 ^ (64 * N) ∧
    (∀ c, ctAdd a b = some c ↔ val c = val a + val b) ∧
    (ctAdd a b = none ↔ 2 ^ (64 * N) ≤ val a + val b) :=
  ⟨ctWrappingAdd_val a b, fun _ => ctAdd_ok, ctAdd_none⟩

/-- The constants and the conversions from primitive integers; a `u128` is refused exactly when it does not fit. -/
theorem C61_constants (hN : 0 < N) :
    val (Uint.ZERO : Uint N) = 0 ∧ val (ONE : Uint N) = 1 ∧ val (MAX : Uint N) = 2 ^ (64 * N) - 1 ∧
    (∀ v : L, val (fromU64 v : Uint N) = v.toNat) ∧
    (∀ (v : W) (x : Uint N), fromU128 v = some x → val x = v.toNat) ∧
    (∀ v : W, (fromU128 v : Option (Uint N)) = none ↔ 2 ^ (64 * N) ≤ v.toNat) := by
  refine ⟨val_ZERO, val_ONE hN, by have := val_MAX (N := N); omega, val_fromU64 hN,
    fun v x h => (val_fromU128 v).1 x h hN, fun v => ⟨(val_fromU128 v).2 hN, fun h => ?_⟩⟩
  cases hc : (fromU128 v : Option (Uint N)) with
  | none => rfl
  | some x => have := (val_fromU128 v).1 x hc hN; have := val_lt x; omega

/-- `ct_widening_mul`: the exact double-width product. -/
theorem C62_widening_mul (a b : Uint N) :
    val (ctWideningMul a b).1 + 2 ^ (64 * N) * val (ctWideningMul a b).2 = val a * val b := ctWideningMul_exact a b

/-- `ct_mul` returns the product when it fits and panics otherwise. -/
theorem C62_mul (a b : Uint N) :
    (∀ c, ctMul a b = some c ↔ val c = val a * val b) ∧ (ctMul a b = none ↔ 2 ^ (64 * N) ≤ val a * val b) :=
  ⟨fun _ => ctMul_ok, ctMul_none⟩

/-- Comparisons. -/
theorem C63_comparisons (a b : Uint N) :
    ctLt a b = decide (val a < val b) ∧ ctLe a b = decide (val a ≤ val b) ∧
    ctGt a b = decide (val a > val b) ∧ ctGe a b = decide (val a ≥ val b) ∧
    ctEq a b = decide (val a = val b) ∧ ctNe a b = decide (val a ≠ val b) ∧
    cmp a b = compare (val a) (val b) ∧ ctIsZero a = decide (val a = 0) := by
  have he : ctEq a b = decide (val a = val b) := by
    by_cases h : a = b
    · rw [ctEq_iff.mpr h, decide_eq_true (by rw [h])]
    · rw [Bool.eq_false_iff.mpr (fun e => h (ctEq_iff.mp e)), decide_eq_false (fun e => h (val_inj e))]
  refine ⟨ctLt_iff, ctLe_iff, ctGt_iff, ctGe_iff, he, ?_, cmp_eq, ?_⟩
  · unfold ctNe; rw [he, decide_not]
  · by_cases h : val a = 0
    · rw [ctIsZero_iff.mpr h, decide_eq_true h]
    · rw [Bool.eq_false_iff.mpr (fun e => h (ctIsZero_iff.mp e)), decide_eq_false h]

/-- Parity. -/
theorem C63_parity (hN : 0 < N) (a : Uint N) :
    ctIsOdd a = decide (val a % 2 = 1) ∧ ctIsEven a = decide (val a % 2 = 0) :=
  ⟨ctIsOdd_iff hN a, ctIsEven_iff hN a⟩

/-- `ct_num_bits` is the length of the binary expansion: the least `k` with `val a < 2^k`. -/
theorem C63_num_bits (hN : 0 < N) (a : Uint N) (k : Nat) : ctNumBits a ≤ k ↔ val a < 2 ^ k := ctNumBits_le hN a k

/-- `ct_get_bit` reads the binary expansion (and is false past the end). -/
theorem C63_get_bit (a : Uint N) (i : Nat) : ctGetBit a i = (val a).testBit i := ctGetBit_eq a i

theorem bitwise_val {f : Nat → Nat → Nat} {g : Bool → Bool → Bool} {h : L → L → L} (a b : Uint N)
    (hf : ∀ x y i, (f x y).testBit i = g (x.testBit i) (y.testBit i)) (hg : g false false = false)
    (hh : ∀ x y : L, (h x y).toNat = f x.toNat y.toNat) :
    val (mk fun i => h (a.get i) (b.get i) : Uint N) = f (val a) (val b) := by
  apply Nat.eq_of_testBit_eq
  intro i
  rw [hf, val_mk, val_eq a, val_eq b]
  by_cases hi : i < 64 * N
  · have e : i = 64 * (i / 64) + i % 64 := by omega
    rw [e, value_testBit _ (by omega) (by omega), value_testBit _ (by omega) (by omega), value_testBit _ (by omega) (by omega), hh, hf]
  · have big : ∀ F : Arr, (value N F).testBit i = false := by
      intro F
      apply Nat.testBit_lt_two_pow
      exact Nat.lt_of_lt_of_le (value_lt N F) (Nat.pow_le_pow_right (by omega) (by omega))
    rw [big, big, big, hg]

/-- Bitwise operations act on the binary expansion. -/
theorem C63_bitwise (a b : Uint N) :
    val (bitxor a b) = val a ^^^ val b ∧ val (bitand a b) = val a &&& val b ∧ val (bitor a b) = val a ||| val b ∧
    val (bitnot a) = 2 ^ (64 * N) - 1 - val a := by
  refine ⟨bitwise_val a b (fun x y i => Nat.testBit_xor x y i) rfl (fun x y => BitVec.toNat_xor x y),
    bitwise_val a b (fun x y i => Nat.testBit_and x y i) rfl (fun x y => BitVec.toNat_and x y),
    bitwise_val a b (fun x y i => Nat.testBit_or x y i) rfl (fun x y => BitVec.toNat_or x y), ?_⟩
  unfold bitnot
  rw [val_mk, val_eq]
  have key : ∀ n, value n (fun i => ~~~ a.get i) + value n a.get + 1 = 2 ^ (64 * n) := by
    intro n
    induction n with
    | zero => rfl
    | succ n ih =>
      rw [value_succ, value_succ, pow_succ64, BitVec.toNat_not]
      have hx := (a.get n).isLt
      have h2 : (2 ^ 64 - 1 - (a.get n).toNat) + (a.get n).toNat + 1 = 2 ^ 64 := by omega
      have h3 := congrArg (· * 2 ^ (64 * n)) h2
      simp only [Nat.add_mul] at h3
      omega
  have := key N
  omega

/-- `WideUint::ct_rem`: the remainder of the `2N`-limb number, for every non-zero modulus (top bit set or not). -/
theorem C64_remainder (hN : 0 < N) (x : WideUint N) (m : Uint N) (hm : val m ≠ 0) (hx : wval x ≠ 0) :
    ∃ r, x.rem m = some r ∧ val r = wval x % val m := wide_rem_ok hN hm hx

/-- It fails for a zero modulus — and, although the answer would be zero, for a zero dividend, where the code
computes `num_bits - 1`. -/
theorem C64_fails (hN : 0 < N) (x : WideUint N) (m : Uint N) : x.rem m = none ↔ val m = 0 ∨ wval x = 0 := by
  constructor
  · intro h
    by_contra hc
    push Not at hc
    obtain ⟨r, hr, -⟩ := wide_rem_ok hN hc.1 hc.2
    rw [h] at hr; cases hr
  · exact wide_rem_none hN

/-- `WideUint::ct_num_bits` and `ct_get_bit` describe the binary expansion of the wide number. -/
theorem C64_wide_bits (hN : 0 < N) (x : WideUint N) :
    (∀ k, x.numBits ≤ k ↔ wval x < 2 ^ k) ∧ (∀ i, x.getBit i = (wval x).testBit i) :=
  ⟨wide_numBits_le hN x, wide_getBit x⟩

/-- `into_bytes_le` writes the `8N` base-256 digits of the number. -/
theorem C65_into_bytes (a : Uint N) : bytesValue (intoBytesLe a) = val a ∧ (intoBytesLe a).length = 8 * N := by
  have h := intoBytes_value N a.get
  rw [← val_eq] at h
  exact h

/-- `from_bytes_le` accepts exactly `8N` bytes and reads the number they write. -/
theorem C65_from_bytes (bs : List (BitVec 8)) (x : Uint N) :
    ctFromLeSlice bs = some x ↔ bs.length = 8 * N ∧ val x = bytesValue bs := ctFromLeSlice_ok

/-- Bytes round-trip. -/
theorem C65_bytes_round_trip (a : Uint N) : ctFromLeSlice (intoBytesLe a) = some a :=
  (C65_from_bytes _ _).mpr ⟨(C65_into_bytes a).2, (C65_into_bytes a).1.symm⟩

/-- `from_str_radix` returns `x` exactly when the text is a non-empty digit string of a radix in `2..=36` that
writes `val x`, and the radix to the power (length - 1) fits as well.  Otherwise it panics. -/
theorem C65_from_str_radix (hN : 0 < N) (s : List (BitVec 8)) (radix : Nat) (x : Uint N) :
    fromStrRadix s radix = some x ↔
      s ≠ [] ∧ 2 ≤ radix ∧ radix ≤ 36 ∧ radix ^ (s.length - 1) < 2 ^ (64 * N) ∧
      ∃ ds, Writes radix s ds ∧ val x = numeral radix ds := fromStrRadix_ok hN

/-- For a numeral without a leading zero the extra condition follows from the number fitting: such a numeral is
parsed exactly, and only rejected when it does not fit. -/
theorem C65_from_str_radix_canonical (hN : 0 < N) {s : List (BitVec 8)} {radix d : Nat} {ds : List Nat}
    (hr : 2 ≤ radix ∧ radix ≤ 36) (hs : Writes radix s (d :: ds)) (hd : d ≠ 0)
    (hfit : numeral radix (d :: ds) < 2 ^ (64 * N)) :
    ∃ x : Uint N, fromStrRadix s radix = some x ∧ val x = numeral radix (d :: ds) := by
  have hlen := writes_length hs
  rw [List.length_cons] at hlen
  have hne : s ≠ [] := by rintro rfl; simp at hlen
  have hpow : radix ^ (s.length - 1) ≤ numeral radix (d :: ds) := by
    have := numeral_append radix [d] ds
    rw [List.singleton_append] at this
    rw [this, hlen, Nat.add_sub_cancel]
    have h1 : numeral radix [d] = d := by simp [numeral]
    rw [h1]
    have := Nat.mul_le_mul_right (radix ^ ds.length) (Nat.pos_of_ne_zero hd)
    omega
  -- the number that fits is some `Uint`
  obtain ⟨x, hx⟩ : ∃ x : Uint N, val x = numeral radix (d :: ds) := by
    refine ⟨mk fun i => BitVec.ofNat 64 (numeral radix (d :: ds) / 2 ^ (64 * i)), ?_⟩
    rw [val_mk]
    generalize numeral radix (d :: ds) = n at hfit
    have key : ∀ k, value k (fun i => BitVec.ofNat 64 (n / 2 ^ (64 * i))) = n % 2 ^ (64 * k) := by
      intro k
      induction k with
      | zero => simp [value_zero, Nat.mod_one]
      | succ k ih =>
        rw [value_succ, ih, BitVec.toNat_ofNat, pow_succ64, Nat.mul_comm (2 ^ 64), Nat.mod_mul]
        ring
    rw [key N, Nat.mod_eq_of_lt hfit]
  exact ⟨x, (C65_from_str_radix hN s radix x).mpr ⟨hne, hr.1, hr.2, by omega, _, hs, hx⟩, hx⟩

/-- The restriction is real: text for a number that fits, but with so many leading zeros that `radix^(length-1)`
does not, is refused. -/
theorem C65_leading_zeros_refused (hN : 0 < N) (s : List (BitVec 8)) (radix : Nat)
    (h : 2 ^ (64 * N) ≤ radix ^ (s.length - 1)) : (fromStrRadix s radix : Option (Uint N)) = none := by
  cases hc : (fromStrRadix s radix : Option (Uint N)) with
  | none => rfl
  | some x => have := ((C65_from_str_radix hN s radix x).mp hc).2.2.2.1; omega

/-- `from_str_hex` returns `x` exactly when the text is non-empty, at most `16N` hexadecimal digits long and
writes `val x`.  Otherwise it panics. -/
theorem C65_from_str_hex (s : List (BitVec 8)) (x : Uint N) :
    fromStrHex s = some x ↔ s ≠ [] ∧ s.length ≤ 16 * N ∧ ∃ ds, Writes 16 s ds ∧ val x = numeral 16 ds := fromStrHex_ok

/-- Printing (`Display`, `UpperHex`) and `from_str_hex` round-trip. -/
theorem C65_hex_round_trip (hN : 0 < N) (a : Uint N) : fromStrHex (display a) = some a := hex_round_trip hN a

/-- `bit_be_iter` lists the `64N` binary digits, most significant first; `bit_be_trimmed_iter` drops the leading
zeros and nothing else. -/
theorem C65_bits (a : Uint N) :
    bitsValue (bitsBe a) = val a ∧ bitsValue (trimmed (bitsBe a)) = val a ∧
    (trimmed (bitsBe a) = [] ∨ ∃ t, trimmed (bitsBe a) = true :: t) := by
  have h : bitsValue (bitsBe a) = val a := by rw [val_eq]; exact bitsBe_value N a.get
  exact ⟨h, by rw [(trimmed_value _).1, h], (trimmed_value _).2⟩

/-- The same for primitive integers of any width and for slices of limbs. -/
theorem C65_bits_primitive {w : Nat} (x : BitVec w) (l : List L) :
    bitsValue (limbBitsBe x) = x.toNat ∧ (limbBitsBe x).length = w ∧
    bitsValue (sliceBitsBe l) = value l.length (fun i => l.getD i 0#64) :=
  ⟨(limbBitsBe_value x).1, (limbBitsBe_value x).2, sliceBitsBe_value l⟩

/-! ## Concrete cases -/

/-- `2^128 - 1` and `2^64 + 5`, two limbs. -/
def top : Uint 2 := mk fun _ => -1#64
def mid : Uint 2 := mk (upd (fun _ => 5#64) 1 1#64)

example : (ctCheckedAdd top mid).2 = true ∧ (ctCheckedAdd top mid).1 = mk (upd (fun _ => 4#64) 1 1#64) := by decide +kernel
example : (ctCheckedSub mid top).2 = true := by decide +kernel
example : checkedMul2 mid = (mk (upd (fun _ => 10#64) 1 2#64), false) := by decide +kernel
example : div2 mid = mk (upd (fun _ => 0x8000000000000002#64) 1 0#64) := by decide +kernel
example : ctWideningMul top top = (mk (upd (fun _ => 1#64) 1 0#64), mk (upd (fun _ => -2#64) 1 (-1#64))) := by decide +kernel
example : ctMul mid top = none ∧ ctMul mid (fromU64 3) = some (mk (upd (fun _ => 15#64) 1 3#64)) := by decide +kernel
example : ctNumBits mid = 65 ∧ ctGetBit mid 64 = true ∧ ctGetBit mid 1 = false := by decide +kernel
example : (WideUint.mk top mid).rem (fromU64 1000003) = some (fromU64 (BitVec.ofNat 64 ((2^128 - 1 + 2^128 * (2^64 + 5)) % 1000003))) := by
  decide +kernel
/-- A modulus with its top bit set. -/
example : (WideUint.mk top mid).rem top = some (mk (upd (fun _ => 5#64) 1 1#64)) := by decide +kernel
example : (WideUint.mk (Uint.ZERO : Uint 2) Uint.ZERO).rem mid = none := by decide +kernel
/-- "1A" in base 16, "26" in base 10, "0x" refused. -/
example : (fromStrHex [0x31, 0x41] : Option (Uint 1)) = some (fromU64 26) ∧
    (fromStrRadix [0x32, 0x36] 10 : Option (Uint 1)) = some (fromU64 26) ∧
    (fromStrHex [0x30, 0x78] : Option (Uint 1)) = none := by decide +kernel
/-- "26" writes the digits two and six. -/
example : Writes 10 [0x32, 0x36] [2, 6] :=
  List.Forall₂.cons ⟨Or.inl (by decide), by decide⟩ (List.Forall₂.cons ⟨Or.inl (by decide), by decide⟩ List.Forall₂.nil)
example : numeral 10 [2, 6] < 2 ^ (64 * 1) := by decide
/-- Twenty-one zeros do not parse in one limb in base ten, seventeen do not in base sixteen. -/
example : (fromStrRadix (List.replicate 21 0x30) 10 : Option (Uint 1)) = none ∧
    (fromStrRadix (List.replicate 20 0x30) 10 : Option (Uint 1)) = some Uint.ZERO ∧
    (fromStrHex (List.replicate 17 0x30) : Option (Uint 1)) = none := by decide +kernel
example : 2 ^ (64 * 1) ≤ 10 ^ ((List.replicate 21 (0x30 : BitVec 8)).length - 1) := by decide
example : ctFromLeSlice (intoBytesLe mid) = some mid ∧ (intoBytesLe mid).length = 16 := by decide +kernel
example : trimmed (bitsBe (fromU64 6 : Uint 2)) = [true, true, false] := by decide +kernel
example : display (fromU64 26 : Uint 1) = List.replicate 14 0x30 ++ [0x31, 0x41] := by decide +kernel

end Verif.Props.Uint
