import Verif.Proofs.FpInv
/-!
# C66 – C70: prime field elements

`order P` is the modulus, `num a` is the number returned by `into_bigint`, `Reduced a` says that the stored
representation is below the modulus.  Every constructor and operation returns a reduced element, so a caller of the
public API (other than `new_unchecked`, documented as taking a Montgomery form) only ever holds reduced elements.
-/

namespace Verif.Props.Fp
open Verif Verif.Fp Verif.Limb Verif.Uint
open Verif.Spec.Uint Verif.Spec.Fp

variable {N : Nat} {P : FpParams N}

/-! ## Concrete parameters for the examples -/

/-- The field of the documentation, `field/mod.rs` 22-28: the integers modulo 17. -/
def P17 : FpParams 1 := ⟨fromU64 17#64⟩
/-- Goldilocks, `instance.rs` 41-46: no spare bit. -/
def PGold : FpParams 1 := ⟨fromU64 18446744069414584321#64⟩
/-- A two-limb modulus without a spare bit, 2^128 - 159. -/
def P128 : FpParams 2 := ⟨Uint.mk (upd (fun _ => 0xFFFFFFFFFFFFFFFF#64) 0 (0#64 - 159#64))⟩
/-- A composite modulus. -/
def P15 : FpParams 1 := ⟨fromU64 15#64⟩

theorem valid17 : Valid P17 := by unfold Valid order; decide +kernel
theorem validGold : Valid PGold := by unfold Valid order; decide +kernel
theorem valid128 : Valid P128 := by unfold Valid order; decide +kernel
theorem valid15 : Valid P15 := by unfold Valid order; decide +kernel
example : PGold.hasSpareBit = false ∧ P128.hasSpareBit = false ∧ P17.hasSpareBit = true := by decide +kernel

/-! ## C66 -/

/-- `INV` is minus the inverse of the modulus modulo 2^64. -/
theorem C66_inv (hP : Valid P) : (P.inv.toNat * order P) % 2 ^ 64 = 2 ^ 64 - 1 := by
  have h := inv_spec hP
  have e : order P ≡ (P.modulus.get 0).toNat [MOD 2 ^ 64] := by
    unfold order
    rw [val_eq, value_one_split hP.1]
    exact Nat.add_mul_mod_self_left _ _ _
  have h2 : P.inv.toNat * order P + 1 ≡ 0 [MOD 2 ^ 64] := ((e.mul_left _).add_right 1).trans h
  have h3 : (P.inv.toNat * order P + 1) % 2 ^ 64 = 0 := h2
  omega

/-- `R` and `R2` are computed without failing and are the residues of 2^(64N) and 2^(128N). -/
theorem C66_radix (hP : Valid P) :
    P.rOpt = some P.r ∧ val P.r = 2 ^ (64 * N) % order P ∧ P.r2Opt = some P.r2 ∧ val P.r2 = 2 ^ (128 * N) % order P :=
  ⟨(r_spec hP).1, (r_spec hP).2, (r2_spec hP).1, (r2_spec hP).2⟩

/-- The spare-bit flag says whether twice the modulus fits. -/
theorem C66_spare_bit (hP : Valid P) : P.hasSpareBit = true ↔ 2 * order P < 2 ^ (64 * N) := spare_iff hP

example : PGold.inv = 18446744069414584319#64 ∧ PGold.r = Uint.fromU64 4294967295#64 := by decide +kernel

/-! ## C67 -/

theorem C67_add (hP : Valid P) {a b : Fp P} (ha : Reduced a) (hb : Reduced b) :
    num (add a b) = (num a + num b) % order P ∧ Reduced (add a b) := num_add hP ha hb

theorem C67_sub (hP : Valid P) {a b : Fp P} (ha : Reduced a) (hb : Reduced b) :
    (num (sub a b) : ℤ) = ((num a : ℤ) - num b) % order P ∧ Reduced (sub a b) := by
  obtain ⟨h1, h2⟩ := num_sub hP ha hb
  have := num_lt hP hb
  refine ⟨?_, h2⟩
  rw [h1, Int.natCast_mod, Nat.cast_add, Int.ofNat_sub (by omega),
    show (num a : ℤ) + ((order P : ℤ) - num b) = ((num a : ℤ) - num b) + order P by ring, Int.add_emod_right]

theorem C67_neg (hP : Valid P) {a : Fp P} (ha : Reduced a) :
    (num (neg a) : ℤ) = (-(num a : ℤ)) % order P ∧ Reduced (neg a) := by
  obtain ⟨h1, h2⟩ := num_neg hP ha
  have := num_lt hP ha
  refine ⟨?_, h2⟩
  rw [h1, Int.natCast_mod, Int.ofNat_sub (by omega),
    show (order P : ℤ) - num a = -(num a : ℤ) + order P by ring, Int.add_emod_right]

theorem C67_double (hP : Valid P) {a : Fp P} (ha : Reduced a) :
    num (double a) = (2 * num a) % order P ∧ Reduced (double a) := num_double hP ha

theorem C67_mul (hP : Valid P) {a b : Fp P} (_ha : Reduced a) (hb : Reduced b) :
    num (mul a b) = (num a * num b) % order P ∧ Reduced (mul a b) := num_mul hP hb

theorem C67_square (hP : Valid P) {a : Fp P} (ha : Reduced a) :
    num (square a) = (num a * num a) % order P ∧ Reduced (square a) := num_mul hP ha

/-- The constants. -/
theorem C67_constants (hP : Valid P) :
    num (zero P) = 0 ∧ Reduced (zero P) ∧ num (one P) = 1 ∧ Reduced (one P) :=
  ⟨num_zero hP, reduced_zero hP, num_one hP, reduced_one hP⟩

/-- Expressions over the public API. -/
inductive Expr (N : Nat)
  | lit (n : Uint N)
  | zero
  | one
  | add (a b : Expr N)
  | sub (a b : Expr N)
  | mul (a b : Expr N)
  | neg (a : Expr N)
  | double (a : Expr N)
  | square (a : Expr N)
  | pow (a : Expr N) (e : Uint N)

/-- What the library computes. -/
def Expr.run (P : FpParams N) : Expr N → Fp P
  | .lit n => fromBigint n
  | .zero => Fp.zero P
  | .one => Fp.one P
  | .add a b => Fp.add (a.run P) (b.run P)
  | .sub a b => Fp.sub (a.run P) (b.run P)
  | .mul a b => Fp.mul (a.run P) (b.run P)
  | .neg a => Fp.neg (a.run P)
  | .double a => Fp.double (a.run P)
  | .square a => Fp.square (a.run P)
  | .pow a e => Fp.pow (a.run P) (bitsBe e)

/-- What it means: plain integer arithmetic, without any reduction. -/
def Expr.meaning : Expr N → ℤ
  | .lit n => val n
  | .zero => 0
  | .one => 1
  | .add a b => a.meaning + b.meaning
  | .sub a b => a.meaning - b.meaning
  | .mul a b => a.meaning * b.meaning
  | .neg a => -a.meaning
  | .double a => 2 * a.meaning
  | .square a => a.meaning * a.meaning
  | .pow a e => a.meaning ^ val e

/-- Any computation with field elements returns the integer result reduced modulo `p`. -/
theorem C67_every_expression (hP : Valid P) (e : Expr N) :
    (num (e.run P) : ℤ) = e.meaning % order P ∧ Reduced (e.run P) := by
  have lift : ∀ {x : Fp P} {m : ℤ}, ((num x : ℤ) = m % order P) → (num x : ℤ) ≡ m [ZMOD (order P : ℤ)] := by
    intro x m h
    rw [h]; exact Int.mod_modEq _ _
  have drop : ∀ {x : Fp P} {m : ℤ}, Reduced x → (num x : ℤ) ≡ m [ZMOD (order P : ℤ)] → (num x : ℤ) = m % order P := by
    intro x m hx h
    have := num_lt hP hx
    rw [← h, Int.emod_eq_of_lt (by omega) (by omega)]
  have natmod : ∀ {x : Fp P} {n : ℕ}, num x = n % order P → (num x : ℤ) ≡ (n : ℤ) [ZMOD (order P : ℤ)] := by
    intro x n h
    rw [h, Int.natCast_mod]; exact Int.mod_modEq _ _
  induction e with
  | lit n =>
    obtain ⟨h1, h2⟩ := num_fromBigint hP n
    exact ⟨by show (num (fromBigint n : Fp P) : ℤ) = _; rw [h1]; exact Int.natCast_mod _ _, h2⟩
  | zero => exact ⟨by show (num (Fp.zero P) : ℤ) = 0 % _; rw [num_zero hP]; simp, reduced_zero hP⟩
  | one =>
    refine ⟨?_, reduced_one hP⟩
    show (num (Fp.one P) : ℤ) = 1 % _
    have := hP.2.2
    rw [num_one hP, Int.emod_eq_of_lt (by omega) (by omega)]; rfl
  | add a b iha ihb =>
    obtain ⟨h1, h2⟩ := num_add hP iha.2 ihb.2
    refine ⟨drop h2 ((natmod h1).trans ?_), h2⟩
    push_cast
    exact (lift iha.1).add (lift ihb.1)
  | sub a b iha ihb =>
    obtain ⟨h1, h2⟩ := C67_sub hP iha.2 ihb.2
    exact ⟨drop h2 ((lift h1).trans ((lift iha.1).sub (lift ihb.1))), h2⟩
  | mul a b iha ihb =>
    obtain ⟨h1, h2⟩ := num_mul hP (a := a.run P) ihb.2
    refine ⟨drop h2 ((natmod h1).trans ?_), h2⟩
    push_cast
    exact (lift iha.1).mul (lift ihb.1)
  | neg a iha =>
    obtain ⟨h1, h2⟩ := C67_neg hP iha.2
    exact ⟨drop h2 ((lift h1).trans (lift iha.1).neg), h2⟩
  | double a iha =>
    obtain ⟨h1, h2⟩ := num_double hP iha.2
    refine ⟨drop h2 ((natmod h1).trans ?_), h2⟩
    push_cast
    exact (lift iha.1).mul_left 2
  | square a iha =>
    obtain ⟨h1, h2⟩ := num_mul hP (a := a.run P) iha.2
    refine ⟨drop h2 ((natmod h1).trans ?_), h2⟩
    push_cast
    exact (lift iha.1).mul (lift iha.1)
  | pow a e iha =>
    obtain ⟨h1, h2⟩ := num_pow hP iha.2 (bitsBe e)
    have hb : bitsValue (bitsBe e) = val e := by unfold bitsBe; rw [bitsBe_value, val_eq]
    rw [hb] at h1
    refine ⟨drop h2 ((natmod h1).trans ?_), h2⟩
    push_cast
    exact (lift iha.1).pow (val e)

-- 9 + 10 = 2 and 9 * 10 = 5 modulo 17; (p - 1)² = 1 for a modulus without a spare bit, where the sums carry out
example : num (add (fromU64 9#64) (fromU64 10#64) : Fp P17) = 2 ∧ num (mul (fromU64 9#64) (fromU64 10#64) : Fp P17) = 5 := by
  decide +kernel
example : num ((Expr.square (Expr.neg Expr.one)).run P128) = 1 ∧
    num ((Expr.add (Expr.neg Expr.one) (Expr.neg Expr.one)).run P128) = order P128 - 2 := by
  decide +kernel

/-! ## C68 -/

/-- Converting any integer, also one not below the modulus, gives its residue. -/
theorem C68_from_then_into (hP : Valid P) (n : Uint N) :
    num (fromBigint n : Fp P) = val n % order P ∧ Reduced (fromBigint n : Fp P) ∧ (new n : Fp P) = fromBigint n :=
  ⟨(num_fromBigint hP n).1, (num_fromBigint hP n).2, new_eq n⟩

/-- Converting out and back is the identity. -/
theorem C68_into_then_from (hP : Valid P) {a : Fp P} (ha : Reduced a) :
    num a < order P ∧ (fromBigint (intoBigint a) : Fp P) = a := by
  have hlt := num_lt hP ha
  obtain ⟨h1, h2⟩ := num_fromBigint hP (intoBigint a)
  refine ⟨hlt, num_inj hP h2 ha ?_⟩
  rw [h1]
  exact Nat.mod_eq_of_lt hlt

/-- Two elements are equal exactly when they stand for the same number; two integers give the same element exactly
when they are congruent. -/
theorem C68_equality (hP : Valid P) :
    (∀ a b : Fp P, Reduced a → Reduced b → (a = b ↔ num a = num b)) ∧
    (∀ m n : Uint N, (fromBigint m : Fp P) = fromBigint n ↔ val m % order P = val n % order P) := by
  refine ⟨fun a b ha hb => ⟨fun h => by rw [h], num_inj hP ha hb⟩, fun m n => ?_⟩
  obtain ⟨h1, h2⟩ := num_fromBigint hP m
  obtain ⟨h3, h4⟩ := num_fromBigint hP n
  rw [← h1, ← h3]
  exact ⟨fun h => by rw [h], num_inj hP h2 h4⟩

/-- The order on elements is the order of the numbers, and the zero test is right. -/
theorem C68_order (hP : Valid P) (a b : Fp P) (ha : Reduced a) :
    cmpFp a b = compare (num a) (num b) ∧ (isZero a = true ↔ num a = 0) := by
  refine ⟨cmp_eq, ?_⟩
  unfold isZero
  rw [decide_eq_true_iff]
  constructor
  · intro h; rw [h]; exact num_zero hP
  · intro h; exact num_inj hP ha (reduced_zero hP) (by rw [h, num_zero hP])

/-- Conversions from machine integers, signed and unsigned, and from booleans. -/
theorem C68_from_integers (hP : Valid P) (u : BitVec 64) (b : Bool) :
    num (fromU64 u : Fp P) = u.toNat % order P ∧
    (num (fromI64 u : Fp P) : ℤ) = u.toInt % order P ∧
    num (fromBool b : Fp P) = b.toNat ∧
    Reduced (fromU64 u : Fp P) ∧ Reduced (fromI64 u : Fp P) ∧ Reduced (fromBool b : Fp P) := by
  have hu : ∀ u : BitVec 64, num (fromU64 u : Fp P) = u.toNat % order P ∧ Reduced (fromU64 u : Fp P) := by
    intro u
    have h := num_fromBigint hP (fromU64 u : Uint N)
    rw [val_fromU64 hP.1] at h
    exact h
  have hi : (num (fromI64 u : Fp P) : ℤ) = u.toInt % order P ∧ Reduced (fromI64 u : Fp P) :=
    signed_num hP u (hu _).2 (hu _).1
  refine ⟨(hu u).1, hi.1, ?_, (hu u).2, hi.2, (hu _).2⟩
  have := hP.2.2
  cases b
  · have h := (hu 0#64).1
    exact h.trans (Nat.zero_mod _)
  · have h := (hu 1#64).1
    exact h.trans (Nat.mod_eq_of_lt this)

/-- 128-bit integers: the conversion of one that does not fit in the limbs panics, otherwise it is exact. -/
theorem C68_from_wide_integers (hP : Valid P) (v : BitVec 128) :
    (∀ x : Fp P, Fp.fromU128 v = some x → num x = v.toNat % order P ∧ Reduced x) ∧
    (∀ x : Fp P, fromI128 v = some x → (num x : ℤ) = v.toInt % order P ∧ Reduced x) ∧
    (v.toNat < 2 ^ (64 * N) → (Fp.fromU128 v : Option (Fp P)) ≠ none) ∧
    (v.toInt.natAbs < 2 ^ (64 * N) → (fromI128 v : Option (Fp P)) ≠ none) := by
  have hu : ∀ (v : BitVec 128) (x : Fp P), Fp.fromU128 v = some x → num x = v.toNat % order P ∧ Reduced x := by
    intro v x h
    unfold Fp.fromU128 at h
    cases hc : (Uint.fromU128 v : Option (Uint N)) with
    | none => rw [hc] at h; cases h
    | some y =>
      rw [hc] at h
      injection h with h
      obtain ⟨h1, h2⟩ := num_fromBigint hP y
      rw [(val_fromU128 v).1 y hc hP.1] at h1
      rw [← h]
      exact ⟨h1, h2⟩
  have hn : ∀ v : BitVec 128, v.toNat < 2 ^ (64 * N) → (Fp.fromU128 v : Option (Fp P)) ≠ none := by
    intro v hv h
    unfold Fp.fromU128 at h
    rw [Option.map_eq_none_iff] at h
    have := (val_fromU128 v).2 hP.1 h
    omega
  refine ⟨hu v, fun x h => ?_, hn v, fun hv h => ?_⟩
  · unfold fromI128 at h
    cases hc : (Fp.fromU128 (if v.slt 0#128 then -v else v) : Option (Fp P)) with
    | none => rw [hc] at h; cases h
    | some y =>
      rw [hc] at h
      injection h with h
      obtain ⟨h1, h2⟩ := hu _ y hc
      rw [← h]
      exact signed_num hP v h2 h1
  · unfold fromI128 at h
    rw [Option.map_eq_none_iff] at h
    refine hn _ ?_ h
    have := abs_toNat v
    zify at hv ⊢
    rw [this]
    split
    · rw [abs_of_neg (by assumption)] at hv; exact hv
    · rw [abs_of_nonneg (by omega)] at hv; exact hv

/-- One-limb fields convert to machine integers: exact, or a panic when the number does not fit. -/
theorem C68_to_integers {P : FpParams 1} (w : Nat) (a : Fp P) :
    (∀ x, toUnsigned w a = some x ↔ num a < 2 ^ w ∧ x.toNat = num a) ∧
    (∀ x, toSigned w a = some x → x.toInt = num a) ∧
    (toSigned w a = none ↔ 2 ^ w ≤ 2 * num a) := by
  have hv : ((intoBigint a).get 0).toNat = num a := by
    unfold num
    rw [val_eq, value_succ, value_zero]; simp
  unfold toUnsigned toSigned
  dsimp only
  rw [hv]
  refine ⟨fun x => ?_, fun x h => ?_, ?_⟩
  · by_cases h : num a < 2 ^ w
    · rw [if_pos h]
      constructor
      · intro e
        injection e with e
        rw [← e, BitVec.toNat_ofNat, Nat.mod_eq_of_lt h]
        exact ⟨h, rfl⟩
      · rintro ⟨-, e⟩
        congr 1
        apply BitVec.eq_of_toNat_eq
        rw [BitVec.toNat_ofNat, Nat.mod_eq_of_lt h, e]
    · rw [if_neg h]
      constructor
      · intro e; cases e
      · rintro ⟨e, -⟩; exact absurd e h
  · by_cases hc : 2 * num a < 2 ^ w
    · rw [if_pos hc] at h
      injection h with h
      rw [← h, BitVec.toInt_eq_toNat_cond, BitVec.toNat_ofNat, Nat.mod_eq_of_lt (by omega), if_pos hc]
    · rw [if_neg hc] at h; cases h
  · by_cases hc : 2 * num a < 2 ^ w
    · rw [if_pos hc]; constructor
      · intro e; cases e
      · intro e; omega
    · rw [if_neg hc]
      exact ⟨fun _ => by omega, fun _ => rfl⟩

/-- The text of an element determines it: parsing it as hexadecimal gives the number back.  (It is hexadecimal,
though the documentation of `Display` announces a decimal string.) -/
theorem C68_display (a : Fp P) (hN : 0 < N) : (fromStrHex (displayFp a) : Option (Uint N)) = some (intoBigint a) :=
  hex_round_trip hN (intoBigint a)

-- 26 = 9 mod 17; -1 = 16 mod 17; an unreduced 2^64 - 1 in Goldilocks; -3 in a two-limb field
example : num (fromU64 26#64 : Fp P17) = 9 ∧ num (fromI64 (-1#64) : Fp P17) = 16 ∧
    num (fromBigint MAX : Fp PGold) = 4294967294 := by decide +kernel
example : (toUnsigned 8 (fromU64 16#64 : Fp P17)) = some 16#8 ∧ (toSigned 8 (fromU64 200#64 : Fp PGold)) = none := by
  decide +kernel

/-! ## C69 -/

/-- Zero has no inverse. -/
theorem C69_zero (hP : Valid P) (fuel : Nat) (a : Fp P) (ha : Reduced a) (h : num a = 0) : inverse fuel a = some none := by
  unfold inverse
  rw [if_pos ((C68_order hP a a ha).2.mpr h)]

/-- In a prime field the algorithm stops after at most `2p` rounds of each loop, and the result is the inverse. -/
theorem C69_inverse (hP : ValidPrime P) {a : Fp P} (ha : Reduced a) (h0 : num a ≠ 0) (fuel : Nat) (hf : 2 * order P ≤ fuel) :
    ∃ x, inverse fuel a = some (some x) ∧ Reduced x ∧ (num a * num x) % order P = 1 := by
  refine inverse_ok hP.1 ha ?_ fuel hf
  have hlt := num_lt hP.1 ha
  exact ((Nat.Prime.coprime_iff_not_dvd hP.2).mpr (fun hd => by
    have := Nat.le_of_dvd (by omega) hd
    omega)).symm

/-- More generally, for any odd modulus and any element that has an inverse. -/
theorem C69_inverse_of_coprime (hP : Valid P) {a : Fp P} (ha : Reduced a) (h : Nat.Coprime (num a) (order P)) (fuel : Nat)
    (hf : 2 * order P ≤ fuel) : ∃ x, inverse fuel a = some (some x) ∧ Reduced x ∧ (num a * num x) % order P = 1 :=
  inverse_ok hP ha h fuel hf

/-- The product of an element and its inverse, as computed by the library, is the library's one. -/
theorem C69_mul_inverse (hP : ValidPrime P) {a x : Fp P} (ha : Reduced a) (h0 : num a ≠ 0) (fuel : Nat) (hf : 2 * order P ≤ fuel)
    (hx : inverse fuel a = some (some x)) : mul a x = one P := by
  obtain ⟨y, e, hy, hv⟩ := C69_inverse hP ha h0 fuel hf
  rw [hx] at e
  injection e with e
  injection e with e
  subst e
  obtain ⟨h1, h2⟩ := num_mul hP.1 (a := a) hy
  exact num_inj hP.1 h2 (reduced_one hP.1) (by rw [h1, hv, num_one hP.1])

/-- For a composite modulus, an element that shares a factor with it makes the loop run forever. -/
theorem C69_composite_does_not_stop (hP : Valid P) {a : Fp P} (h0 : num a ≠ 0) (h : ¬ Nat.Coprime (num a) (order P)) (fuel : Nat) :
    inverse fuel a = none := inverse_stuck hP h0 h fuel

/-- Division by a non-zero element, and division by zero (a panic). -/
theorem C69_div (hP : ValidPrime P) {a b : Fp P} (ha : Reduced a) (hb : Reduced b) (fuel : Nat) (hf : 2 * order P ≤ fuel) :
    (num b = 0 → div fuel a b = some none) ∧
    (num b ≠ 0 → ∃ q, div fuel a b = some (some q) ∧ Reduced q ∧ mul q b = a) := by
  constructor
  · intro h
    unfold div
    rw [C69_zero hP.1 fuel b hb h]
    rfl
  · intro h
    obtain ⟨x, e, hx, hv⟩ := C69_inverse hP hb h fuel hf
    obtain ⟨h1, h2⟩ := num_mul hP.1 (a := a) hx
    refine ⟨mul a x, by unfold div; rw [e]; rfl, h2, ?_⟩
    obtain ⟨h3, h4⟩ := num_mul hP.1 (a := mul a x) hb
    refine num_inj hP.1 h4 ha ?_
    rw [h3, h1, Nat.mod_mul_mod, Nat.mul_assoc, Nat.mul_comm (num x), Nat.mul_mod, hv, Nat.mul_one, Nat.mod_mod,
      Nat.mod_eq_of_lt (num_lt hP.1 ha)]

theorem prime17 : ValidPrime P17 := ⟨valid17, by
  have : order P17 = 17 := by unfold order; decide +kernel
  rw [this]; decide⟩

-- 10 / 9 modulo 17 is 3 (3 * 9 = 27 = 10); six has no inverse modulo 15 and the loop does not stop
example : (inverse 100 (fromU64 9#64 : Fp P17)).map (·.map num) = some (some 2) := by decide +kernel
example : (div 100 (fromU64 10#64) (fromU64 9#64 : Fp P17)).map (·.map num) = some (some 3) := by decide +kernel
example : ∃ x, inverse 34 (fromU64 9#64 : Fp P17) = some (some x) ∧ Reduced x ∧ (num (fromU64 9#64 : Fp P17) * num x) % order P17 = 1 :=
  C69_inverse prime17 (by unfold Reduced; decide +kernel) (by decide +kernel) 34 (by decide +kernel)
example : inverse 1000000 (fromU64 6#64 : Fp P15) = none :=
  C69_composite_does_not_stop valid15 (by decide +kernel) (by
    have : num (fromU64 6#64 : Fp P15) = 6 := by decide +kernel
    have h2 : order P15 = 15 := by unfold order; decide +kernel
    rw [this, h2]; decide) _

/-! ## C70 -/

/-- `pow` with an exponent given by any sequence of bits, most significant first. -/
theorem C70_pow_bits (hP : Valid P) {a : Fp P} (ha : Reduced a) (bits : List Bool) :
    num (pow a bits) = num a ^ bitsValue bits % order P ∧ Reduced (pow a bits) := num_pow hP ha bits

/-- `pow` with a multi-limb exponent. -/
theorem C70_pow_uint (hP : Valid P) {a : Fp P} (ha : Reduced a) {M : Nat} (e : Uint M) :
    num (pow a (bitsBe e)) = num a ^ val e % order P ∧ Reduced (pow a (bitsBe e)) := by
  have h := num_pow hP ha (bitsBe e)
  have hb : bitsValue (bitsBe e) = val e := by unfold bitsBe; rw [bitsBe_value, val_eq]
  rw [hb] at h
  exact h

/-- `pow` with a machine integer exponent of any width. -/
theorem C70_pow_primitive (hP : Valid P) {a : Fp P} (ha : Reduced a) {w : Nat} (e : BitVec w) :
    num (pow a (limbBitsBe e)) = num a ^ e.toNat % order P ∧ Reduced (pow a (limbBitsBe e)) := by
  have h := num_pow hP ha (limbBitsBe e)
  rw [(limbBitsBe_value e).1] at h
  exact h

/-- Sums, products and sums of products of any number of elements. -/
theorem C70_sums_and_products (hP : Valid P) (l : List (Fp P)) (hl : ∀ a ∈ l, Reduced a) (m : List (Fp P × Fp P))
    (hm : ∀ x ∈ m, Reduced x.1 ∧ Reduced x.2) :
    num (sum l) = (l.map num).sum % order P ∧ num (product l) = (l.map num).prod % order P ∧
    num (sumOfProducts m) = (m.map fun x => num x.1 * num x.2).sum % order P ∧
    Reduced (sum l) ∧ Reduced (product l) ∧ Reduced (sumOfProducts m) :=
  ⟨(num_sum hP l hl).1, (num_product hP l hl).1, (num_sumOfProducts hP m hm).1,
    (num_sum hP l hl).2, (num_product hP l hl).2, (num_sumOfProducts hP m hm).2⟩

/-- Fermat: in a prime field, raising to the power `p - 1` gives one. -/
theorem C70_fermat (hP : ValidPrime P) {a : Fp P} (ha : Reduced a) (h0 : num a ≠ 0) {M : Nat} (e : Uint M) (he : val e = order P - 1) :
    pow a (bitsBe e) = one P := by
  obtain ⟨h1, h2⟩ := C70_pow_uint hP.1 ha e
  refine num_inj hP.1 h2 (reduced_one hP.1) ?_
  have hlt := num_lt hP.1 ha
  rw [h1, he, num_one hP.1]
  have hco : Nat.Coprime (num a) (order P) := ((Nat.Prime.coprime_iff_not_dvd hP.2).mpr (fun hd => by
    have := Nat.le_of_dvd (by omega) hd
    omega)).symm
  have := Nat.ModEq.pow_totient hco
  rw [Nat.totient_prime hP.2] at this
  exact Eq.trans this (Nat.mod_eq_of_lt hP.1.2.2)

example : num (pow (fromU64 3#64 : Fp P17) (limbBitsBe 5#8)) = 5 := by decide +kernel
example : pow (fromU64 3#64 : Fp P17) (bitsBe (fromU64 16#64 : Uint 1)) = one P17 :=
  C70_fermat prime17 (by unfold Reduced; decide +kernel) (by decide +kernel) _ (by decide +kernel)

end Verif.Props.Fp
