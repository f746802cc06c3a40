import Verif.Model.UintText
import Verif.Proofs.UintMul
import Mathlib.Data.List.Forall2
/-! # Text, byte and bit conversions of multi-limb integers -/

namespace Verif.Uint
open Verif.Limb
open Verif.Spec.Uint

variable {N : Nat}

/-! ## Bytes -/

theorem bytesValue_append (l m : List Byte) : bytesValue (l ++ m) = bytesValue l + 256 ^ l.length * bytesValue m := by
  induction l with
  | nil => simp [bytesValue]
  | cons b l ih =>
    have e1 : ∀ (b : Byte) t, bytesValue (b :: t) = b.toNat + 256 * bytesValue t := fun _ _ => rfl
    rw [List.cons_append, e1, e1, ih, List.length_cons, Nat.pow_succ]
    ring

theorem byte_toNat (x : L) (j : Nat) : ((x >>> (8 * j)).setWidth 8).toNat = x.toNat / 2 ^ (8 * j) % 256 := by
  rw [BitVec.toNat_setWidth, BitVec.toNat_ushiftRight, Nat.shiftRight_eq_div_pow]

theorem bytesValue_toLe (x : L) : bytesValue (toLeBytes x) = x.toNat := by
  have hx := x.isLt
  have e : toLeBytes x = [(x >>> (8 * 0)).setWidth 8, (x >>> (8 * 1)).setWidth 8, (x >>> (8 * 2)).setWidth 8, (x >>> (8 * 3)).setWidth 8,
    (x >>> (8 * 4)).setWidth 8, (x >>> (8 * 5)).setWidth 8, (x >>> (8 * 6)).setWidth 8, (x >>> (8 * 7)).setWidth 8] := rfl
  rw [e]
  unfold bytesValue
  simp only [List.foldr, byte_toNat]
  norm_num
  omega

theorem intoBytes_value (n : Nat) (f : Arr) :
    bytesValue ((List.range n).flatMap fun i => toLeBytes (f i)) = value n f ∧
    ((List.range n).flatMap fun i => toLeBytes (f i)).length = 8 * n := by
  induction n with
  | zero => exact ⟨rfl, rfl⟩
  | succ n ih =>
    obtain ⟨h1, h2⟩ := ih
    rw [List.range_succ, List.flatMap_append, bytesValue_append, h1, List.length_append, h2, value_succ]
    have : ([n].flatMap fun i => toLeBytes (f i)) = toLeBytes (f n) := by simp
    rw [this, bytesValue_toLe]
    have hp : (256 : Nat) ^ (8 * n) = 2 ^ (64 * n) := by
      rw [show (256 : Nat) = 2 ^ 8 by norm_num, ← Nat.pow_mul]; congr 1; omega
    rw [hp]
    refine ⟨by ring, ?_⟩
    have : (toLeBytes (f n)).length = 8 := by unfold toLeBytes; rw [List.length_map, List.length_range]
    omega

theorem or_shift (x y : L) (s m : Nat) (hs : s + m ≤ 64) (hx : x.toNat < 2 ^ s) (hy : y.toNat < 2 ^ m) :
    (x ||| (y <<< s)).toNat = x.toNat + 2 ^ s * y.toNat := by
  rw [BitVec.toNat_or, BitVec.toNat_shiftLeft, Nat.shiftLeft_eq]
  have h1 : y.toNat * 2 ^ s < 2 ^ 64 := by
    calc y.toNat * 2 ^ s < 2 ^ m * 2 ^ s := Nat.mul_lt_mul_of_pos_right hy (Nat.two_pow_pos s)
      _ = 2 ^ (m + s) := (Nat.pow_add _ _ _).symm
      _ ≤ 2 ^ 64 := Nat.pow_le_pow_right (by omega) (by omega)
  rw [Nat.mod_eq_of_lt h1, Nat.or_comm, Nat.mul_comm, ← Nat.two_pow_add_eq_or_of_lt hx, Nat.add_comm]

theorem fromLe_toNat (buf : Nat → Byte) :
    (fromLeBytes buf).toNat = ∑ j ∈ Finset.range 8, (buf j).toNat * 256 ^ j := by
  have key : ∀ n, n ≤ 8 → ((List.range n).foldl (fun acc j => acc ||| ((buf j).setWidth 64 <<< (8 * j))) 0#64).toNat =
      ∑ j ∈ Finset.range n, (buf j).toNat * 256 ^ j ∧
      ∑ j ∈ Finset.range n, (buf j).toNat * 256 ^ j < 2 ^ (8 * n) := by
    intro n
    induction n with
    | zero => intro _; simp
    | succ n ih =>
      intro hn
      obtain ⟨h1, h2⟩ := ih (by omega)
      rw [List.range_succ, List.foldl_append, Finset.sum_range_succ]
      simp only [List.foldl_cons, List.foldl_nil]
      have hb := (buf n).isLt
      have hw : ((buf n).setWidth 64).toNat = (buf n).toNat := by
        rw [BitVec.toNat_setWidth, Nat.mod_eq_of_lt (by omega)]
      have hp : (256 : Nat) ^ n = 2 ^ (8 * n) := by rw [Nat.pow_mul]
      rw [or_shift _ _ (8 * n) 8 (by omega) (by rw [h1]; exact h2) (by rw [hw]; exact hb), h1, hw, hp]
      refine ⟨by ring, ?_⟩
      rw [show 8 * (n + 1) = 8 * n + 8 by omega, Nat.pow_add]
      generalize 2 ^ (8 * n) = B at *
      have := Nat.mul_le_mul_right B (Nat.succ_le_of_lt hb)
      rw [Nat.succ_mul] at this
      omega
  exact (key 8 (Nat.le_refl 8)).1

theorem bytesValue_sum (bs : List Byte) :
    bytesValue bs = ∑ k ∈ Finset.range bs.length, (bs.getD k 0#8).toNat * 256 ^ k := by
  induction bs with
  | nil => rfl
  | cons b t ih =>
    have e1 : bytesValue (b :: t) = b.toNat + 256 * bytesValue t := rfl
    rw [e1, ih, List.length_cons, Finset.sum_range_succ', Finset.mul_sum]
    simp only [List.getD_cons_zero, List.getD_cons_succ, Nat.pow_zero, Nat.mul_one]
    rw [Nat.add_comm]
    congr 1
    exact Finset.sum_congr rfl fun k _ => by rw [Nat.pow_succ]; ring

theorem value_fromLe (n : Nat) (g : Nat → Byte) :
    value n (fun i => fromLeBytes fun j => g (i * 8 + j)) = ∑ k ∈ Finset.range (8 * n), (g k).toNat * 256 ^ k := by
  induction n with
  | zero => rfl
  | succ n ih =>
    rw [value_succ, ih, fromLe_toNat, show 8 * (n + 1) = 8 * n + 8 by omega, Finset.sum_range_add]
    congr 1
    rw [Finset.sum_mul]
    refine Finset.sum_congr rfl fun k _ => ?_
    have hp : (2 : Nat) ^ (64 * n) = 256 ^ (8 * n) := by
      rw [show (256 : Nat) = 2 ^ 8 by norm_num, ← Nat.pow_mul]; congr 1; omega
    rw [hp, Nat.pow_add, Nat.mul_comm n 8]
    ring

theorem ctFromLeSlice_ok {bs : List Byte} {x : Uint N} :
    ctFromLeSlice bs = some x ↔ bs.length = 8 * N ∧ val x = bytesValue bs := by
  unfold ctFromLeSlice
  by_cases h : bs.length = 8 * N
  · rw [if_pos h, Option.some.injEq]
    have e : val (mk (fun i => fromLeBytes fun j => bs.getD (i * 8 + j) 0#8) : Uint N) = bytesValue bs := by
      rw [val_mk, value_fromLe N (fun k => bs.getD k 0#8), bytesValue_sum, h]
    constructor
    · rintro rfl; exact ⟨h, e⟩
    · rintro ⟨_, h2⟩; exact val_inj (e.trans h2.symm)
  · rw [if_neg h]
    constructor
    · intro e; cases e
    · rintro ⟨h', _⟩; exact absurd h' h

/-! ## Bits -/

theorem bitsValue_append (l m : List Bool) : bitsValue (l ++ m) = bitsValue l * 2 ^ m.length + bitsValue m := by
  have key : ∀ (m : List Bool) (a : Nat), m.foldl (fun acc b => 2 * acc + b.toNat) a = a * 2 ^ m.length + bitsValue m := by
    intro m
    induction m with
    | nil => intro a; simp [bitsValue]
    | cons b m ih =>
      intro a
      have e : bitsValue (b :: m) = m.foldl (fun acc b => 2 * acc + b.toNat) (2 * 0 + b.toNat) := rfl
      rw [e, List.foldl_cons, ih, ih, List.length_cons, Nat.pow_succ]
      ring
  unfold bitsValue
  rw [List.foldl_append, key]
  rfl

theorem mask_bit_w {w : Nat} (x : BitVec w) {b : Nat} (hb : b < w) : ((x &&& (1#w <<< b)) != 0#w) = x.toNat.testBit b := by
  have hbit : x.toNat.testBit b = x.getLsbD b := rfl
  rw [hbit]
  have e : (x &&& (1#w <<< b)) = if x.getLsbD b then 1#w <<< b else 0#w := by
    apply BitVec.eq_of_getLsbD_eq
    intro i hi
    rw [BitVec.getLsbD_and]
    by_cases h : i = b
    · subst h
      cases hx : x.getLsbD i <;> simp
    · have h1 : (1#w <<< b).getLsbD i = false := by
        rw [BitVec.getLsbD_shiftLeft]
        by_cases hib : i < b
        · simp [hib]
        · have : (1#w).getLsbD (i - b) = false := by
            simp [BitVec.getLsbD_one]; omega
          simp [this]
      rw [h1, Bool.and_false]
      split
      · rw [h1]
      · simp
  rw [e]
  cases hx : x.getLsbD b
  · simp
  · simp only [if_true, bne_iff_ne, ne_eq]
    intro h
    have h2 := congrArg BitVec.toNat h
    rw [BitVec.toNat_shiftLeft, Nat.shiftLeft_eq] at h2
    have h3 : (1#w).toNat = 1 := by
      rw [BitVec.toNat_ofNat, Nat.mod_eq_of_lt]
      exact Nat.one_lt_two_pow (by omega)
    rw [h3, Nat.one_mul, Nat.mod_eq_of_lt (Nat.pow_lt_pow_right (by omega) hb)] at h2
    have := Nat.two_pow_pos b
    simp at h2

theorem limbBitsBe_value {w : Nat} (x : BitVec w) : bitsValue (limbBitsBe x) = x.toNat ∧ (limbBitsBe x).length = w := by
  have key : ∀ n, n ≤ w → bitsValue ((List.range n).reverse.map fun i => (x &&& (1#w <<< i)) != 0#w) = x.toNat % 2 ^ n := by
    intro n
    induction n with
    | zero => intro _; simp [bitsValue, Nat.mod_one]
    | succ n ih =>
      intro hn
      rw [List.range_succ, List.reverse_append, List.map_append, bitsValue_append, ih (by omega)]
      simp only [List.reverse_singleton, List.map_cons, List.map_nil, List.length_map, List.length_reverse, List.length_range]
      rw [mask_bit_w x (by omega)]
      have e : ∀ b, bitsValue [b] = b.toNat := by intro b; simp [bitsValue]
      rw [e, Nat.testBit_eq_decide_div_mod_eq, Nat.pow_succ, Nat.mod_mul, Nat.add_comm, Nat.mul_comm]
      congr 2
      by_cases h : x.toNat / 2 ^ n % 2 = 1
      · rw [decide_eq_true h, h]; rfl
      · rw [decide_eq_false h, Bool.toNat_false]; omega
  refine ⟨?_, by unfold limbBitsBe; simp⟩
  unfold limbBitsBe
  rw [key w (Nat.le_refl w), Nat.mod_eq_of_lt x.isLt]

theorem bitsBe_value (n : Nat) (f : Arr) : bitsValue ((List.range n).reverse.flatMap fun i => limbBitsBe (f i)) = value n f := by
  have hlen : ∀ n, ((List.range n).reverse.flatMap fun i => limbBitsBe (f i)).length = 64 * n := by
    intro n
    induction n with
    | zero => rfl
    | succ n ih =>
      rw [List.range_succ, List.reverse_append, List.flatMap_append, List.length_append, ih]
      simp only [List.reverse_singleton, List.flatMap_cons, List.flatMap_nil, List.append_nil]
      rw [(limbBitsBe_value (f n)).2]
      omega
  induction n with
  | zero => rfl
  | succ n ih =>
    rw [List.range_succ, List.reverse_append, List.flatMap_append, bitsValue_append, ih, hlen, value_succ]
    simp only [List.reverse_singleton, List.flatMap_cons, List.flatMap_nil, List.append_nil]
    rw [(limbBitsBe_value (f n)).1]
    ring

theorem sliceBitsBe_value (l : List L) :
    bitsValue (sliceBitsBe l) = value l.length (fun i => l.getD i 0#64) := by
  have e : sliceBitsBe l = (List.range l.length).reverse.flatMap fun i => limbBitsBe (l.getD i 0#64) := by
    unfold sliceBitsBe
    have : l = (List.range l.length).map fun i => l.getD i 0#64 := by
      apply List.ext_getElem
      · simp
      · intro i h1 h2
        simp [List.getElem?_eq_getElem h1]
    conv_lhs => rw [this]
    rw [← List.map_reverse, List.flatMap_map]
  rw [e, bitsBe_value]

theorem trimmed_value (l : List Bool) :
    bitsValue (trimmed l) = bitsValue l ∧ (trimmed l = [] ∨ ∃ t, trimmed l = true :: t) := by
  unfold trimmed
  induction l with
  | nil => exact ⟨rfl, Or.inl rfl⟩
  | cons b l ih =>
    cases b
    · rw [List.dropWhile_cons]
      simp only [Bool.not_false, if_true]
      refine ⟨?_, ih.2⟩
      rw [ih.1]; rfl
    · rw [List.dropWhile_cons]
      simp

/-! ## Digits -/

theorem parseDigit_iff {c : Byte} {radix d : Nat} :
    parseDigit c radix = some d ↔ 2 ≤ radix ∧ radix ≤ 36 ∧ IsDigit c d ∧ d < radix := by
  have hc := c.isLt
  unfold parseDigit toDigit IsDigit
  dsimp only
  constructor
  · intro h
    by_cases h1 : c.toNat ≤ 0x7F
    · rw [if_pos h1] at h
      by_cases h2 : 2 ≤ radix ∧ radix ≤ 36
      · rw [if_pos h2] at h
        generalize hd : (if 48 ≤ c.toNat ∧ c.toNat ≤ 57 then c.toNat - 48
          else if 97 ≤ c.toNat ∧ c.toNat ≤ 122 then c.toNat - 97 + 10
          else if 65 ≤ c.toNat ∧ c.toNat ≤ 90 then c.toNat - 65 + 10 else 36) = e at h
        by_cases h3 : e < radix
        · rw [if_pos h3] at h
          injection h with h
          subst h
          refine ⟨h2.1, h2.2, ?_, h3⟩
          split at hd
          · omega
          · split at hd
            · omega
            · split at hd <;> omega
        · rw [if_neg h3] at h; cases h
      · rw [if_neg h2] at h; cases h
    · rw [if_neg h1] at h; cases h
  · rintro ⟨h1, h2, h3, h4⟩
    rw [if_pos (by omega), if_pos ⟨h1, h2⟩]
    have e : (if 48 ≤ c.toNat ∧ c.toNat ≤ 57 then c.toNat - 48
      else if 97 ≤ c.toNat ∧ c.toNat ≤ 122 then c.toNat - 97 + 10
      else if 65 ≤ c.toNat ∧ c.toNat ≤ 90 then c.toNat - 65 + 10 else 36) = d := by
      split
      · omega
      · split
        · omega
        · split <;> omega
    rw [e, if_pos h4]

/-- Digits, least significant first. -/
def lsNumeral (radix : Nat) : List Nat → Nat
  | [] => 0
  | d :: ds => d + radix * lsNumeral radix ds

theorem lsNumeral_reverse (radix : Nat) (ds : List Nat) : lsNumeral radix ds.reverse = numeral radix ds := by
  have h1 : ∀ l d, lsNumeral radix (l ++ [d]) = lsNumeral radix l + radix ^ l.length * d := by
    intro l d
    induction l with
    | nil => simp [lsNumeral]
    | cons x l ih => rw [List.cons_append, lsNumeral, lsNumeral, ih, List.length_cons, Nat.pow_succ]; ring
  have h2 : ∀ (ds : List Nat) a, ds.foldl (fun acc d => acc * radix + d) a = a * radix ^ ds.length + lsNumeral radix ds.reverse := by
    intro ds
    induction ds with
    | nil => intro a; simp [lsNumeral]
    | cons d ds ih =>
      intro a
      rw [List.foldl_cons, ih, List.reverse_cons, h1, List.length_reverse, List.length_cons, Nat.pow_succ]
      ring
  unfold numeral
  rw [h2]; omega

theorem digit_small {c : Byte} {d : Nat} (h : IsDigit c d) : d < 36 := by
  unfold IsDigit at h; omega

theorem radixLoop_ok (hN : 0 < N) (radix : Nat) (hr : 2 ≤ radix ∧ radix ≤ 36) :
    ∀ (cs : List Byte) (u o x : Uint N), cs ≠ [] →
    (radixLoop radix cs u o = some x ↔
      ∃ ds, Writes radix cs ds ∧ val x = val u + val o * lsNumeral radix ds ∧ val o * radix ^ (cs.length - 1) < 2 ^ (64 * N)) := by
  intro cs
  have hrv : val (fromU64 (BitVec.ofNat 64 radix) : Uint N) = radix := by
    rw [val_fromU64 hN, BitVec.toNat_ofNat, Nat.mod_eq_of_lt (by omega)]
  have hdv : ∀ d, d < 36 → val (fromU64 (BitVec.ofNat 64 d) : Uint N) = d := by
    intro d hd; rw [val_fromU64 hN, BitVec.toNat_ofNat, Nat.mod_eq_of_lt (by omega)]
  induction cs with
  | nil => intro _ _ _ h; exact absurd rfl h
  | cons c cs ih =>
    intro u o x _
    rw [radixLoop]
    constructor
    · intro h
      cases hd : parseDigit c radix with
      | none => rw [hd] at h; cases h
      | some d =>
        rw [hd] at h
        dsimp only at h
        obtain ⟨-, -, hdig, hlt⟩ := parseDigit_iff.mp hd
        cases ht : ctMul (fromU64 (BitVec.ofNat 64 d)) o with
        | none => rw [ht] at h; cases h
        | some t =>
          rw [ht] at h
          dsimp only at h
          have ht := ctMul_ok.mp ht
          rw [hdv d (digit_small hdig)] at ht
          cases hu : ctAdd u t with
          | none => rw [hu] at h; cases h
          | some u' =>
            rw [hu] at h
            dsimp only at h
            have hu := ctAdd_ok.mp hu
            by_cases hcs : cs = []
            · rw [if_pos hcs] at h
              injection h with h
              subst h
              subst hcs
              refine ⟨[d], List.Forall₂.cons ⟨hdig, hlt⟩ List.Forall₂.nil, ?_, ?_⟩
              · rw [hu, ht]; simp only [lsNumeral]; ring
              · simp; exact val_lt o
            · rw [if_neg hcs] at h
              cases ho : ctMul (fromU64 (BitVec.ofNat 64 radix)) o with
              | none => rw [ho] at h; cases h
              | some o' =>
                rw [ho] at h
                dsimp only at h
                have ho := ctMul_ok.mp ho
                rw [hrv] at ho
                obtain ⟨ds, hw, hx, hf⟩ := (ih u' o' x hcs).mp h
                refine ⟨d :: ds, List.Forall₂.cons ⟨hdig, hlt⟩ hw, ?_, ?_⟩
                · rw [hx, hu, ht, ho]; simp only [lsNumeral]; ring
                · have hl : cs.length ≠ 0 := fun e => hcs (List.length_eq_zero_iff.mp e)
                  rw [ho] at hf
                  rw [List.length_cons, show cs.length + 1 - 1 = (cs.length - 1) + 1 by omega, Nat.pow_succ]
                  calc _ = radix * val o * radix ^ (cs.length - 1) := by ring
                    _ < _ := hf
    · rintro ⟨ds, hw, hx, hf⟩
      cases hw with
      | @cons _ d _ ds hd hw =>
      obtain ⟨hdig, hlt⟩ := hd
      rw [parseDigit_iff.mpr ⟨hr.1, hr.2, hdig, hlt⟩]
      dsimp only
      rw [lsNumeral, Nat.mul_add] at hx
      have hxl := val_lt x
      -- the product with the digit fits
      cases ht : ctMul (fromU64 (BitVec.ofNat 64 d)) o with
      | none =>
        have ht := ctMul_none.mp ht
        rw [hdv d (digit_small hdig), Nat.mul_comm d] at ht
        omega
      | some t =>
        dsimp only
        have ht := ctMul_ok.mp ht
        rw [hdv d (digit_small hdig), Nat.mul_comm d] at ht
        cases hu : ctAdd u t with
        | none => have hu := ctAdd_none.mp hu; omega
        | some u' =>
          dsimp only
          have hu := ctAdd_ok.mp hu
          by_cases hcs : cs = []
          · rw [if_pos hcs]
            subst hcs
            cases hw
            rw [Option.some.injEq]
            apply val_inj
            rw [hu, ht, hx, lsNumeral]
            ring
          · rw [if_neg hcs]
            have hl : cs.length ≠ 0 := fun e => hcs (List.length_eq_zero_iff.mp e)
            rw [List.length_cons, show cs.length + 1 - 1 = (cs.length - 1) + 1 by omega, Nat.pow_succ] at hf
            have hf' : radix * val o * radix ^ (cs.length - 1) < 2 ^ (64 * N) := by
              calc _ = val o * (radix ^ (cs.length - 1) * radix) := by ring
                _ < _ := hf
            cases ho : ctMul (fromU64 (BitVec.ofNat 64 radix)) o with
            | none =>
              have ho := ctMul_none.mp ho
              rw [hrv] at ho
              have h1 : 1 ≤ radix ^ (cs.length - 1) := Nat.one_le_pow _ _ (by omega)
              have := Nat.mul_le_mul_left (radix * val o) h1
              omega
            | some o' =>
              dsimp only
              have ho := ctMul_ok.mp ho
              rw [hrv] at ho
              apply (ih u' o' x hcs).mpr
              refine ⟨ds, hw, ?_, by rw [ho]; exact hf'⟩
              rw [hx, hu, ht, ho]
              ring

theorem writes_reverse {radix : Nat} {s : List Byte} {ds : List Nat} :
    Writes radix s.reverse ds ↔ Writes radix s ds.reverse := by
  unfold Writes
  constructor
  · intro h
    have := List.rel_reverse h
    rwa [List.reverse_reverse] at this
  · intro h
    have := List.rel_reverse h
    rwa [List.reverse_reverse] at this

theorem fromStrRadix_ok (hN : 0 < N) {s : List Byte} {radix : Nat} {x : Uint N} :
    fromStrRadix s radix = some x ↔
      s ≠ [] ∧ 2 ≤ radix ∧ radix ≤ 36 ∧ radix ^ (s.length - 1) < 2 ^ (64 * N) ∧
      ∃ ds, Writes radix s ds ∧ val x = numeral radix ds := by
  unfold fromStrRadix
  by_cases hs : s = []
  · rw [if_pos hs]
    constructor
    · intro h; cases h
    · rintro ⟨h, _⟩; exact absurd hs h
  · rw [if_neg hs]
    have hrs : s.reverse ≠ [] := fun e => hs (List.reverse_eq_nil_iff.mp e)
    have h0 : val (fromU64 0#64 : Uint N) = 0 := val_fromU64 hN _
    have h1 : val (fromU64 1#64 : Uint N) = 1 := val_fromU64 hN _
    by_cases hr : 2 ≤ radix ∧ radix ≤ 36
    · rw [radixLoop_ok hN radix hr _ _ _ _ hrs, h0, h1, List.length_reverse]
      simp only [Nat.zero_add, Nat.one_mul]
      constructor
      · rintro ⟨ds, hw, hx, hf⟩
        refine ⟨hs, hr.1, hr.2, hf, ds.reverse, writes_reverse.mp hw, ?_⟩
        rw [hx, ← lsNumeral_reverse, List.reverse_reverse]
      · rintro ⟨-, -, -, hf, ds, hw, hx⟩
        refine ⟨ds.reverse, writes_reverse.mpr (by rwa [List.reverse_reverse]), ?_, hf⟩
        rw [hx, lsNumeral_reverse]
    · constructor
      · intro h
        exfalso
        cases hc : s.reverse with
        | nil => exact hrs hc
        | cons c cs =>
          rw [hc, radixLoop] at h
          cases hd : parseDigit c radix with
          | none => rw [hd] at h; cases h
          | some d =>
            obtain ⟨a, b, _⟩ := parseDigit_iff.mp hd
            exact hr ⟨a, b⟩
      · rintro ⟨_, a, b, _⟩; exact absurd ⟨a, b⟩ hr

/-! ## Hexadecimal -/

theorem value_upd {n k : Nat} (hk : k < n) (f : Arr) (v : L) :
    value n (upd f k v) + (f k).toNat * 2 ^ (64 * k) = value n f + v.toNat * 2 ^ (64 * k) := by
  obtain ⟨m, rfl⟩ : ∃ m, n = k + (1 + m) := ⟨n - k - 1, by omega⟩
  rw [value_split, value_split k, value_split 1 m, value_split 1 m]
  have h1 : value k (upd f k v) = value k f := value_congr fun i hi => upd_ne _ _ (by omega)
  have h2 : value m (fun j => upd f k v (k + (1 + j))) = value m (fun j => f (k + (1 + j))) :=
    value_congr fun i _ => upd_ne _ _ (by omega)
  have h3 : ∀ g : Arr, value 1 g = (g 0).toNat := by intro g; rw [value_succ, value_zero]; simp
  rw [h1, h2, h3, h3]
  simp only [Nat.add_zero, upd_same]
  ring

theorem limb_lt_of_value {n k t : Nat} (f : Arr) (hk : k < n) (h : value n f < 2 ^ (64 * k + t)) :
    (f k).toNat < 2 ^ t := by
  rw [← limb_of_value f hk]
  refine Nat.lt_of_le_of_lt (Nat.mod_le _ _) ?_
  rw [Nat.div_lt_iff_lt_mul (Nat.two_pow_pos _), Nat.mul_comm, ← Nat.pow_add]
  exact h

theorem hexStep_val {t d : Nat} (f : Arr) (hd : d < 16) (ht : t / 16 < N) (hv : value N f < 16 ^ t) :
    value N (upd f (t / 16) (f (t / 16) ||| (BitVec.ofNat 64 d <<< ((t % 16) * 4)))) = value N f + d * 16 ^ t := by
  have hp : (16 : Nat) ^ t = 2 ^ (4 * t) := by rw [Nat.pow_mul]
  have h4 : 4 * t = 64 * (t / 16) + (t % 16) * 4 := by omega
  rw [hp, h4] at hv
  have hl := limb_lt_of_value f ht hv
  have hdv : (BitVec.ofNat 64 d).toNat = d := by rw [BitVec.toNat_ofNat, Nat.mod_eq_of_lt (by omega)]
  have ho := or_shift (f (t / 16)) (BitVec.ofNat 64 d) ((t % 16) * 4) 4 (by omega) hl (by rw [hdv]; omega)
  rw [hdv] at ho
  have hu := value_upd ht f (f (t / 16) ||| (BitVec.ofNat 64 d <<< ((t % 16) * 4)))
  rw [ho] at hu
  rw [hp, h4, Nat.pow_add]
  generalize 2 ^ (64 * (t / 16)) = X at *
  generalize 2 ^ (t % 16 * 4) = Y at *
  have : (BitVec.toNat (f (t / 16)) + Y * d) * X = BitVec.toNat (f (t / 16)) * X + d * (X * Y) := by ring
  omega

theorem hexLoop_ok : ∀ (cs : List Byte) (t : Nat) (num r : Arr), value N num < 16 ^ t →
    hexLoop N cs t num = some r →
      (cs = [] ∨ t + cs.length ≤ 16 * N) ∧ ∃ ds, Writes 16 cs ds ∧ value N r = value N num + 16 ^ t * lsNumeral 16 ds := by
  intro cs
  induction cs with
  | nil =>
    intro t num r _ h
    rw [hexLoop] at h
    injection h with h
    subst h
    exact ⟨Or.inl rfl, [], List.Forall₂.nil, by simp [lsNumeral]⟩
  | cons c cs ih =>
    intro t num r hv h
    rw [hexLoop] at h
    cases hd : parseDigit c 16 with
    | none => rw [hd] at h; cases h
    | some d =>
      rw [hd] at h
      dsimp only at h
      obtain ⟨-, -, hdig, hlt⟩ := parseDigit_iff.mp hd
      by_cases ht : t / 16 < N
      · rw [if_pos ht] at h
        have hs := hexStep_val num hlt ht hv
        have hlt2 : value N (upd num (t / 16) (num (t / 16) ||| (BitVec.ofNat 64 d <<< ((t % 16) * 4)))) < 16 ^ (t + 1) := by
          rw [hs, Nat.pow_succ]
          have := Nat.mul_le_mul_right (16 ^ t) (Nat.le_sub_one_of_lt hlt)
          omega
        obtain ⟨hl, ds, hw, he⟩ := ih (t + 1) _ r hlt2 h
        refine ⟨Or.inr ?_, d :: ds, List.Forall₂.cons ⟨hdig, hlt⟩ hw, ?_⟩
        · rw [List.length_cons]
          rcases hl with rfl | hl
          · simp; omega
          · omega
        · rw [he, hs, lsNumeral, Nat.pow_succ]
          ring
      · rw [if_neg ht] at h; cases h

theorem hexLoop_some : ∀ (cs : List Byte) (ds : List Nat) (t : Nat) (num : Arr), Writes 16 cs ds → t + cs.length ≤ 16 * N →
    ∃ r, hexLoop N cs t num = some r := by
  intro cs
  induction cs with
  | nil => intro ds t num _ _; exact ⟨num, rfl⟩
  | cons c cs ih =>
    intro ds t num hw hl
    cases hw with
    | @cons _ d _ ds hd hw =>
    rw [hexLoop, parseDigit_iff.mpr ⟨by omega, by omega, hd.1, hd.2⟩]
    dsimp only
    rw [List.length_cons] at hl
    rw [if_pos (by omega)]
    exact ih ds (t + 1) _ hw (by omega)

theorem fromStrHex_ok {s : List Byte} {x : Uint N} :
    fromStrHex s = some x ↔ s ≠ [] ∧ s.length ≤ 16 * N ∧ ∃ ds, Writes 16 s ds ∧ val x = numeral 16 ds := by
  unfold fromStrHex
  have h0 : value N (fun _ => 0#64) < 16 ^ 0 := by rw [value_const_zero]; decide
  by_cases hs : s = []
  · rw [if_pos hs]
    constructor
    · intro h; cases h
    · rintro ⟨h, _⟩; exact absurd hs h
  · rw [if_neg hs]
    have hrs : s.reverse ≠ [] := fun e => hs (List.reverse_eq_nil_iff.mp e)
    constructor
    · intro h
      rw [Option.map_eq_some_iff] at h
      obtain ⟨r, hr, hx⟩ := h
      obtain ⟨hl, ds, hw, he⟩ := hexLoop_ok _ 0 _ r h0 hr
      rcases hl with hl | hl
      · exact absurd hl hrs
      rw [List.length_reverse, Nat.zero_add] at hl
      refine ⟨hs, hl, ds.reverse, writes_reverse.mp hw, ?_⟩
      rw [← hx, val_mk, he, value_const_zero, ← lsNumeral_reverse, List.reverse_reverse]
      simp
    · rintro ⟨-, hl, ds, hw, hx⟩
      obtain ⟨r, hr⟩ := hexLoop_some (N := N) s.reverse ds.reverse 0 (fun _ => 0#64)
        (writes_reverse.mpr (by rwa [List.reverse_reverse])) (by rw [List.length_reverse]; omega)
      obtain ⟨-, ds', hw', he⟩ := hexLoop_ok _ 0 _ r h0 hr
      rw [hr, Option.map_some, Option.some.injEq]
      apply val_inj
      -- the digits written are determined by the text
      have huniq : ∀ (cs : List Byte) (d1 d2 : List Nat), Writes 16 cs d1 → Writes 16 cs d2 → d1 = d2 := by
        intro cs
        induction cs with
        | nil => intro d1 d2 h1 h2; cases h1; cases h2; rfl
        | cons c cs ih =>
          intro d1 d2 h1 h2
          cases h1 with
          | @cons _ a _ as ha has =>
          cases h2 with
          | @cons _ b _ bs hb hbs =>
          have e1 := parseDigit_iff.mpr ⟨(by omega : 2 ≤ 16), (by omega : 16 ≤ 36), ha.1, ha.2⟩
          have e2 := parseDigit_iff.mpr ⟨(by omega : 2 ≤ 16), (by omega : 16 ≤ 36), hb.1, hb.2⟩
          rw [e1] at e2
          injection e2 with e2
          rw [e2, ih as bs has hbs]
      have hd := huniq _ _ _ hw' (writes_reverse.mpr (by rwa [List.reverse_reverse]) : Writes 16 s.reverse ds.reverse)
      rw [val_mk, he, hd, lsNumeral_reverse, hx, value_const_zero]
      simp

theorem hexDigit_isDigit {d : Nat} (h : d < 16) : IsDigit (hexDigit d) d := by
  unfold hexDigit IsDigit
  split
  · left; rw [BitVec.toNat_ofNat]; omega
  · right; rw [BitVec.toNat_ofNat]; omega

theorem numeral_append (radix : Nat) (l m : List Nat) : numeral radix (l ++ m) = numeral radix l * radix ^ m.length + numeral radix m := by
  have key : ∀ (m : List Nat) (a : Nat), m.foldl (fun acc d => acc * radix + d) a = a * radix ^ m.length + numeral radix m := by
    intro m
    induction m with
    | nil => intro a; simp [numeral]
    | cons b m ih =>
      intro a
      have e : numeral radix (b :: m) = m.foldl (fun acc d => acc * radix + d) (0 * radix + b) := rfl
      rw [e, List.foldl_cons, ih, ih, List.length_cons, Nat.pow_succ]
      ring
  unfold numeral
  rw [List.foldl_append, key]
  rfl

/-- The digits that `{:016X}` prints. -/
def digits16 (x : L) : List Nat := (List.range 16).reverse.map fun j => (x >>> (4 * j)).toNat % 16

theorem hex16_writes (x : L) : Writes 16 (hex16 x) (digits16 x) := by
  unfold Writes hex16 digits16
  rw [List.forall₂_map_left_iff, List.forall₂_map_right_iff, List.forall₂_same]
  intro j _
  have := Nat.mod_lt (x >>> (4 * j)).toNat (by omega : 16 > 0)
  exact ⟨hexDigit_isDigit this, this⟩

theorem digits16_value (x : L) : numeral 16 (digits16 x) = x.toNat ∧ (digits16 x).length = 16 := by
  refine ⟨?_, by unfold digits16; simp⟩
  have key : ∀ n, numeral 16 ((List.range n).reverse.map fun j => (x >>> (4 * j)).toNat % 16) = x.toNat % 2 ^ (4 * n) := by
    intro n
    induction n with
    | zero => simp [numeral, Nat.mod_one]
    | succ n ih =>
      rw [List.range_succ, List.reverse_append, List.map_append, numeral_append, ih]
      simp only [List.reverse_singleton, List.map_cons, List.map_nil, List.length_map, List.length_reverse, List.length_range]
      have e : ∀ b, numeral 16 [b] = b := by intro b; simp [numeral]
      rw [e, BitVec.toNat_ushiftRight, Nat.shiftRight_eq_div_pow, show 4 * (n + 1) = 4 * n + 4 by omega, Nat.pow_add, Nat.mod_mul]
      rw [show (16 : Nat) ^ n = 2 ^ (4 * n) from (Nat.pow_mul 2 4 n).symm]
      ring
  unfold digits16
  rw [key 16]
  exact Nat.mod_eq_of_lt x.isLt

theorem display_spec (n : Nat) (f : Arr) :
    ∃ ds, Writes 16 ((List.range n).reverse.flatMap fun i => hex16 (f i)) ds ∧ ds.length = 16 * n ∧ numeral 16 ds = value n f := by
  induction n with
  | zero => exact ⟨[], List.Forall₂.nil, rfl, rfl⟩
  | succ n ih =>
    obtain ⟨ds, hw, hl, hv⟩ := ih
    refine ⟨digits16 (f n) ++ ds, ?_, ?_, ?_⟩
    · rw [List.range_succ, List.reverse_append, List.flatMap_append]
      simp only [List.reverse_singleton, List.flatMap_cons, List.flatMap_nil, List.append_nil]
      exact List.rel_append (hex16_writes (f n)) hw
    · rw [List.length_append, (digits16_value _).2, hl]; omega
    · rw [numeral_append, (digits16_value _).1, hl, hv, value_succ]
      have : (16 : Nat) ^ (16 * n) = 2 ^ (64 * n) := by
        rw [show (16 : Nat) = 2 ^ 4 by norm_num, ← Nat.pow_mul]; congr 1; omega
      rw [this]
      ring

theorem writes_length {radix : Nat} {s : List Byte} {ds : List Nat} (h : Writes radix s ds) : s.length = ds.length :=
  List.Forall₂.length_eq h

theorem hex_round_trip (hN : 0 < N) (a : Uint N) : fromStrHex (display a) = some a := by
  obtain ⟨ds, hw, hl, hv⟩ := display_spec N a.get
  have hlen := writes_length hw
  have e : display a = (List.range N).reverse.flatMap fun i => hex16 (a.get i) := rfl
  rw [fromStrHex_ok, e]
  refine ⟨fun h => ?_, by omega, ds, hw, by rw [val_eq, hv]⟩
  rw [h] at hlen
  simp at hlen
  omega

theorem val_fromU128 (v : W) : (∀ x : Uint N, fromU128 v = some x → 0 < N → val x = v.toNat) ∧
    (0 < N → (fromU128 v : Option (Uint N)) = none → 2 ^ (64 * N) ≤ v.toNat) := by
  have hs := split v
  unfold fromU128
  dsimp only
  constructor
  · intro x h hN
    by_cases h2 : 2 ≤ N
    · rw [if_pos h2] at h
      injection h with h
      subst h
      rw [val_mk]
      obtain ⟨m, rfl⟩ : ∃ m, N = 2 + m := ⟨N - 2, by omega⟩
      rw [value_split]
      have hz : value m (fun j => upd (upd (fun _ => 0#64) 0 (low v)) 1 (high v) (2 + j)) = 0 := by
        refine Eq.trans (value_congr fun i _ => ?_) (value_const_zero m)
        rw [upd_ne _ _ (by omega), upd_ne _ _ (by omega)]
      have h2 : value 2 (upd (upd (fun _ => 0#64) 0 (low v)) 1 (high v)) = (low v).toNat + (high v).toNat * 2 ^ 64 := by
        rw [value_succ, value_succ, value_zero, upd_same, upd_ne _ _ (by omega), upd_same]
        simp
      rw [hz, h2]
      omega
    · rw [if_neg h2] at h
      by_cases hh : high v = 0#64
      · rw [if_pos hh] at h
        injection h with h
        subst h
        rw [hh] at hs
        have : val (fromU64 (low v) : Uint N) = (low v).toNat := val_fromU64 hN _
        unfold fromU64 at this
        rw [this]
        simp at hs
        omega
      · rw [if_neg hh] at h; cases h
  · intro hN h
    by_cases h2 : 2 ≤ N
    · rw [if_pos h2] at h; cases h
    · rw [if_neg h2] at h
      by_cases hh : high v = 0#64
      · rw [if_pos hh] at h; cases h
      · have hn : (high v).toNat ≠ 0 := fun e => hh (BitVec.eq_of_toNat_eq e)
        have : N = 1 := by omega
        subst this
        norm_num
        omega

end Verif.Uint
