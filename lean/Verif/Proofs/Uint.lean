import Verif.Spec.Uint
import Verif.Proofs.Limb
import Mathlib.Data.Fin.Tuple.Basic
import Mathlib.Algebra.BigOperators.Fin
import Mathlib.Tactic.Zify
import Mathlib.Tactic.LinearCombination
/-! # Lemmas about multi-limb integers -/

namespace Verif.Uint
open Verif.Limb
open Verif.Spec.Uint

variable {N : Nat}

/-! ## Values -/

theorem value_zero (f : Arr) : value 0 f = 0 := rfl

theorem value_succ (n : Nat) (f : Arr) : value (n + 1) f = value n f + (f n).toNat * 2 ^ (64 * n) := by
  unfold value; rw [Finset.sum_range_succ]

theorem pow_succ64 (n : Nat) : 2 ^ (64 * (n + 1)) = 2 ^ 64 * 2 ^ (64 * n) := by
  rw [Nat.mul_add, Nat.mul_one, Nat.pow_add, Nat.mul_comm]

theorem value_lt (n : Nat) (f : Arr) : value n f < 2 ^ (64 * n) := by
  induction n with
  | zero => simp [value_zero]
  | succ n ih =>
    rw [value_succ, pow_succ64]
    have h := (f n).isLt
    have hp : 0 < 2 ^ (64 * n) := Nat.two_pow_pos _
    generalize 2 ^ (64 * n) = B at *
    have h1 : (f n).toNat + 1 ≤ 2 ^ 64 := h
    have := Nat.mul_le_mul_right B h1
    rw [Nat.add_mul, Nat.one_mul] at this
    omega

theorem value_congr {n : Nat} {f g : Arr} (h : ∀ i, i < n → f i = g i) : value n f = value n g := by
  unfold value
  exact Finset.sum_congr rfl fun i hi => by rw [h i (Finset.mem_range.mp hi)]

theorem value_inj {n : Nat} {f g : Arr} (h : value n f = value n g) : ∀ i, i < n → f i = g i := by
  induction n with
  | zero => intro i hi; omega
  | succ n ih =>
    rw [value_succ, value_succ] at h
    have h1 := value_lt n f
    have h2 := value_lt n g
    have hp : 0 < 2 ^ (64 * n) := Nat.two_pow_pos _
    have hm : value n f = value n g := by
      have := congrArg (· % 2 ^ (64 * n)) h
      simp only [Nat.add_mul_mod_self_right] at this
      rwa [Nat.mod_eq_of_lt h1, Nat.mod_eq_of_lt h2] at this
    have hd : (f n).toNat = (g n).toNat := by
      rw [hm] at h
      exact Nat.eq_of_mul_eq_mul_right hp (Nat.add_left_cancel h)
    intro i hi
    by_cases e : i = n
    · subst e; exact BitVec.eq_of_toNat_eq hd
    · exact ih hm i (by omega)

theorem get_mk (f : Arr) {i : Nat} (h : i < N) : (mk f : Uint N).get i = f i := by
  unfold Uint.get mk; rw [dif_pos h]

theorem get_lt (a : Uint N) {i : Nat} (h : i < N) : a.get i = a.limbs ⟨i, h⟩ := by
  unfold Uint.get; rw [dif_pos h]

theorem val_eq (a : Uint N) : val a = value N a.get := by
  unfold val value
  rw [Finset.sum_range]
  exact Finset.sum_congr rfl fun i _ => by rw [get_lt a i.isLt]

theorem val_mk (f : Arr) : val (mk f : Uint N) = value N f := by
  rw [val_eq]; exact value_congr fun i hi => get_mk f hi

theorem val_lt (a : Uint N) : val a < 2 ^ (64 * N) := by rw [val_eq]; exact value_lt N a.get

theorem val_inj {a b : Uint N} (h : val a = val b) : a = b := by
  rw [val_eq, val_eq] at h
  have := value_inj h
  cases a with
  | mk la =>
    cases b with
    | mk lb =>
      congr 1
      funext i
      have := this i.val i.isLt
      rwa [get_lt _ i.isLt, get_lt _ i.isLt] at this

theorem value_const_zero (n : Nat) : value n (fun _ => 0#64) = 0 := by
  unfold value; exact Finset.sum_eq_zero fun i _ => by simp

theorem val_ZERO : val (ZERO : Uint N) = 0 := by
  unfold ZERO; rw [val_mk, value_const_zero]

theorem value_low {n : Nat} {f : Arr} (hn : 0 < n) (h : ∀ i, 0 < i → f i = 0#64) : value n f = (f 0).toNat := by
  induction n with
  | zero => omega
  | succ n ih =>
    rw [value_succ]
    by_cases e : n = 0
    · subst e; simp [value_zero]
    · rw [ih (by omega), h n (by omega)]; simp

theorem val_fromU64 (hN : 0 < N) (v : L) : val (fromU64 v : Uint N) = v.toNat := by
  unfold fromU64
  rw [val_mk]
  have := value_low (f := upd (fun _ => 0#64) 0 v) hN (fun i hi => upd_ne _ _ (by omega))
  rw [this, upd_same]

theorem val_ONE (hN : 0 < N) : val (ONE : Uint N) = 1 := val_fromU64 hN 1#64

theorem val_MAX : val (MAX : Uint N) + 1 = 2 ^ (64 * N) := by
  unfold MAX
  rw [val_mk]
  have : ∀ n, value n (fun _ => 0xFFFFFFFFFFFFFFFF#64) + 1 = 2 ^ (64 * n) := by
    intro n
    induction n with
    | zero => simp [value_zero]
    | succ n ih =>
      rw [value_succ, pow_succ64]
      have e : (0xFFFFFFFFFFFFFFFF#64).toNat = 2 ^ 64 - 1 := by decide
      rw [e]
      omega
  exact this N

/-! ## Carry loops -/

/-- Weighted sums over the integers. -/
def S (n : Nat) (g : Nat → ℤ) : ℤ := ∑ i ∈ Finset.range n, g i * (2 : ℤ) ^ (64 * i)

theorem S_zero (g : Nat → ℤ) : S 0 g = 0 := rfl
theorem S_succ (n : Nat) (g : Nat → ℤ) : S (n + 1) g = S n g + g n * 2 ^ (64 * n) := by
  unfold S; rw [Finset.sum_range_succ]
theorem S_congr {n : Nat} {f g : Nat → ℤ} (h : ∀ i, i < n → f i = g i) : S n f = S n g := by
  unfold S
  exact Finset.sum_congr rfl fun i hi => by rw [h i (Finset.mem_range.mp hi)]
theorem S_add (n : Nat) (f g : Nat → ℤ) : S n (fun i => f i + g i) = S n f + S n g := by
  unfold S; rw [← Finset.sum_add_distrib]; exact Finset.sum_congr rfl fun i _ => by ring
theorem S_sub (n : Nat) (f g : Nat → ℤ) : S n (fun i => f i - g i) = S n f - S n g := by
  unfold S; rw [← Finset.sum_sub_distrib]; exact Finset.sum_congr rfl fun i _ => by ring
theorem S_mul (n : Nat) (c : ℤ) (f : Nat → ℤ) : S n (fun i => c * f i) = c * S n f := by
  unfold S; rw [Finset.mul_sum]; exact Finset.sum_congr rfl fun i _ => by ring
theorem value_cast (n : Nat) (f : Arr) : (value n f : ℤ) = S n (fun i => ((f i).toNat : ℤ)) := by
  unfold value S; push_cast; rfl

/-- A loop that walks over the limbs `off, off+1, …` of an array with a carry. -/
theorem scan {κ : Type} (F : Nat → L → κ → L × κ) (G : Nat → L → ℤ) (w : κ → ℤ) (P : κ → Prop)
    (hF : ∀ j x k, P k → ((F j x k).1.toNat : ℤ) + 2 ^ 64 * w (F j x k).2 = G j x + w k ∧ P (F j x k).2)
    (off : Nat) (T : Arr) (c : κ) (hc : P c) (n : Nat) :
    let r := forLoop n (T, c) (fun j s => (upd s.1 (off + j) (F j (s.1 (off + j)) s.2).1, (F j (s.1 (off + j)) s.2).2))
    S n (fun j => ((r.1 (off + j)).toNat : ℤ)) + 2 ^ (64 * n) * w r.2 = S n (fun j => G j (T (off + j))) + w c ∧
    (∀ k, k < off ∨ off + n ≤ k → r.1 k = T k) ∧ P r.2 := by
  induction n with
  | zero => simp [forLoop, S_zero, hc]
  | succ n ih =>
    dsimp only at ih ⊢
    rw [forLoop]
    generalize forLoop n (T, c) (fun j s => (upd s.1 (off + j) (F j (s.1 (off + j)) s.2).1, (F j (s.1 (off + j)) s.2).2)) = r at *
    obtain ⟨h1, h2, h3⟩ := ih
    have hT : r.1 (off + n) = T (off + n) := h2 _ (Or.inr (Nat.le_refl _))
    obtain ⟨e1, e2⟩ := hF n (r.1 (off + n)) r.2 h3
    dsimp only
    refine ⟨?_, fun k hk => ?_, e2⟩
    · rw [S_succ, S_succ, upd_same]
      have hcong : S n (fun j => ((upd r.1 (off + n) (F n (r.1 (off + n)) r.2).1 (off + j)).toNat : ℤ)) =
          S n (fun j => ((r.1 (off + j)).toNat : ℤ)) :=
        S_congr fun i hi => by rw [upd_ne _ _ (by omega)]
      rw [hcong]
      have hp : (2 : ℤ) ^ (64 * (n + 1)) = 2 ^ 64 * 2 ^ (64 * n) := by
        rw [Nat.mul_add, Nat.mul_one, pow_add, mul_comm]
      rw [hp]
      rw [hT] at e1 ⊢
      linear_combination h1 + 2 ^ (64 * n) * e1
    · rw [upd_ne _ _ (by omega)]
      exact h2 k (by omega)

/-- The same for a loop over a whole array. -/
theorem scan0 {κ : Type} (F : Nat → L → κ → L × κ) (G : Nat → L → ℤ) (w : κ → ℤ) (P : κ → Prop)
    (hF : ∀ j x k, P k → ((F j x k).1.toNat : ℤ) + 2 ^ 64 * w (F j x k).2 = G j x + w k ∧ P (F j x k).2)
    (T : Arr) (c : κ) (hc : P c) (n : Nat) :
    let r := forLoop n (T, c) (fun j s => (upd s.1 j (F j (s.1 j) s.2).1, (F j (s.1 j) s.2).2))
    (value n r.1 : ℤ) + 2 ^ (64 * n) * w r.2 = S n (fun j => G j (T j)) + w c ∧ P r.2 := by
  have h := scan F G w P hF 0 T c hc n
  simp only [Nat.zero_add] at h
  dsimp only at h ⊢
  rw [value_cast]
  exact ⟨h.1, h.2.2⟩

theorem bool_ne_zero {x : L} (h : x.toNat ≤ 1) : (x != 0#64).toNat = x.toNat := by
  by_cases e : x = 0#64
  · subst e; rfl
  · have : x.toNat ≠ 0 := fun h => e (BitVec.eq_of_toNat_eq h)
    rw [show (x != 0#64) = true from by simpa using e]
    simp
    omega

theorem addLoop_exact (n : Nat) (a b : Arr) (c : L) :
    value n (addLoop n a b c).1 + 2 ^ (64 * n) * (addLoop n a b c).2.toNat = value n a + value n b + c.toNat := by
  have h := (scan0 (fun i x k => adc x (b i) k) (fun i x => (x.toNat : ℤ) + (b i).toNat) (fun k => (k.toNat : ℤ)) (fun _ => True)
    (fun j x k _ => ⟨by exact_mod_cast adc_exact x (b j) k, trivial⟩) a c trivial n).1
  rw [S_add, ← value_cast, ← value_cast] at h
  exact_mod_cast h

theorem add_carry_le {n x y c r k : Nat} (hx : x < 2 ^ n) (hy : y < 2 ^ n) (hc : c ≤ 1) (h : r + 2 ^ n * k = x + y + c) :
    k ≤ 1 := by
  by_contra hk
  have : 2 ^ n * 2 ≤ 2 ^ n * k := Nat.mul_le_mul_left _ (by omega)
  omega

theorem ctCheckedAdd_exact (a b : Uint N) :
    val (ctCheckedAdd a b).1 + 2 ^ (64 * N) * (ctCheckedAdd a b).2.toNat = val a + val b := by
  have h := addLoop_exact N a.get b.get 0#64
  have e0 : (0#64).toNat = 0 := rfl
  rw [e0, Nat.add_zero] at h
  unfold ctCheckedAdd
  dsimp only
  rw [val_mk, val_eq a, val_eq b, bool_ne_zero (add_carry_le (c := 0) (value_lt _ _) (value_lt _ _) (by omega) (by rw [Nat.add_zero]; exact h))]
  exact h

theorem checkedAddAssign_exact (a b : Uint N) :
    val (checkedAddAssign a b).1 + 2 ^ (64 * N) * (checkedAddAssign a b).2.toNat = val a + val b := by
  have h := (scan0 (fun i x k => adcAssign x (b.get i) k) (fun i x => (x.toNat : ℤ) + (b.get i).toNat) (fun k => (k.toNat : ℤ)) (fun _ => True)
    (fun j x k _ => ⟨by exact_mod_cast adcAssign_exact x (b.get j) k, trivial⟩) a.get false trivial N).1
  rw [S_add, ← value_cast, ← value_cast] at h
  unfold checkedAddAssign
  dsimp only
  rw [val_mk, val_eq a, val_eq b]
  have e : ((false.toNat : ℕ) : ℤ) = 0 := rfl
  rw [e, add_zero] at h
  exact_mod_cast h

/-- `ct_adc` writes into a fresh array, so it is described separately. -/
theorem adcLoop_fresh (n : Nat) (a b : Arr) (c : L) (z : Arr) :
    let r := forLoop n (z, c) (fun i s => (upd s.1 i (adc (a i) (b i) s.2).1, (adc (a i) (b i) s.2).2))
    value n r.1 + 2 ^ (64 * n) * r.2.toNat = value n a + value n b + c.toNat := by
  have h := (scan0 (fun i _ k => adc (a i) (b i) k) (fun i _ => ((a i).toNat : ℤ) + (b i).toNat) (fun k => (k.toNat : ℤ)) (fun _ => True)
    (fun j _ k _ => ⟨by exact_mod_cast adc_exact (a j) (b j) k, trivial⟩) z c trivial n).1
  rw [S_add, ← value_cast, ← value_cast] at h
  exact_mod_cast h

theorem ctAdc_exact (a b : Uint N) (c : L) :
    val (ctAdc a b c).1 + 2 ^ (64 * N) * (ctAdc a b c).2.toNat = val a + val b + c.toNat := by
  have h := adcLoop_fresh N a.get b.get c (fun _ => 0#64)
  unfold ctAdc
  dsimp only at h ⊢
  rw [val_mk, val_eq a, val_eq b]
  exact h

theorem ctWrappingAdd_val (a b : Uint N) : val (ctWrappingAdd a b) = (val a + val b) % 2 ^ (64 * N) := by
  have h := ctAdc_exact a b 0#64
  have e0 : (0#64).toNat = 0 := rfl
  rw [e0, Nat.add_zero] at h
  unfold ctWrappingAdd
  rw [← h, Nat.add_mul_mod_self_left, Nat.mod_eq_of_lt (val_lt _)]

theorem ctAdd_ok {a b c : Uint N} : ctAdd a b = some c ↔ val c = val a + val b := by
  have h := ctAdc_exact a b 0#64
  have e0 : (0#64).toNat = 0 := rfl
  rw [e0, Nat.add_zero] at h
  have hl := val_lt (ctAdc a b 0#64).1
  unfold ctAdd
  dsimp only
  by_cases hz : (ctAdc a b 0#64).2 = 0#64
  · rw [if_pos hz]
    rw [hz, e0, Nat.mul_zero, Nat.add_zero] at h
    rw [Option.some.injEq]
    constructor
    · rintro rfl; exact h
    · intro e; exact val_inj (h.trans e.symm)
  · rw [if_neg hz]
    constructor
    · intro e; cases e
    · intro e
      have hc := val_lt c
      have : (ctAdc a b 0#64).2.toNat ≠ 0 := fun h => hz (BitVec.eq_of_toNat_eq h)
      have : 2 ^ (64 * N) * 1 ≤ 2 ^ (64 * N) * (ctAdc a b 0#64).2.toNat := Nat.mul_le_mul_left _ (by omega)
      omega

theorem subLoop_exact (n : Nat) (a b : Arr) :
    value n (subLoop n a b).1 + value n b = value n a + 2 ^ (64 * n) * (subLoop n a b).2.toNat ∧
    (subLoop n a b).2.toNat ≤ 1 := by
  have h := scan0 (fun i x k => sbb x (b i) k) (fun i x => (x.toNat : ℤ) - (b i).toNat) (fun k => -(k.toNat : ℤ)) (fun k => k.toNat ≤ 1)
    (fun j x k hk => ⟨by have := (sbb_exact x (b j) k hk).1; zify at this; linarith, (sbb_exact x (b j) k hk).2⟩)
    a 0#64 (by decide) n
  dsimp only at h
  obtain ⟨h1, h2⟩ := h
  rw [S_sub, ← value_cast, ← value_cast] at h1
  have e0 : ((0#64 : L).toNat : ℤ) = 0 := rfl
  rw [e0] at h1
  refine ⟨?_, h2⟩
  unfold subLoop
  zify
  linarith

theorem ctCheckedSub_exact (a b : Uint N) :
    val (ctCheckedSub a b).1 + val b = val a + 2 ^ (64 * N) * (ctCheckedSub a b).2.toNat := by
  obtain ⟨h, hc⟩ := subLoop_exact N a.get b.get
  unfold ctCheckedSub
  dsimp only
  rw [val_mk, val_eq a, val_eq b, bool_ne_zero hc]
  exact h

theorem checkedSubAssign_exact (a b : Uint N) :
    val (checkedSubAssign a b).1 + val b = val a + 2 ^ (64 * N) * (checkedSubAssign a b).2.toNat := by
  have h := (scan0 (fun i x k => sbbAssign x (b.get i) k) (fun i x => (x.toNat : ℤ) - (b.get i).toNat) (fun k => -(k.toNat : ℤ)) (fun _ => True)
    (fun j x k _ => ⟨by have := sbbAssign_exact x (b.get j) k; zify at this; linarith, trivial⟩) a.get false trivial N).1
  rw [S_sub, ← value_cast, ← value_cast] at h
  unfold checkedSubAssign
  dsimp only
  rw [val_mk, val_eq a, val_eq b]
  have e : ((false.toNat : ℕ) : ℤ) = 0 := rfl
  rw [e] at h
  zify
  linarith

/-- A borrow happens exactly when the second number is larger. -/
theorem borrow_iff {n x y r : Nat} {k : Bool} (hr : r < 2 ^ n) (hx : x < 2 ^ n) (h : r + y = x + 2 ^ n * k.toNat) :
    k = decide (x < y) := by
  cases k
  · simp at h; simp; omega
  · simp at h; simp; omega

theorem sub_of_le {a b : Uint N} (h : val b ≤ val a) : val (ctCheckedSub a b).1 = val a - val b := by
  have e := ctCheckedSub_exact a b
  have hb := borrow_iff (val_lt _) (val_lt a) e
  rw [hb, decide_eq_false (by omega)] at e
  simp at e
  omega

theorem subAssign_of_le {a b : Uint N} (h : val b ≤ val a) : val (checkedSubAssign a b).1 = val a - val b := by
  have e := checkedSubAssign_exact a b
  have hb := borrow_iff (val_lt _) (val_lt a) e
  rw [hb, decide_eq_false (by omega)] at e
  simp at e
  omega

/-! ## Doubling and halving -/

theorem shl1_or (x k : L) (hk : k.toNat ≤ 1) :
    ((x <<< 1) ||| k).toNat + 2 ^ 64 * (x >>> 63).toNat = 2 * x.toNat + k.toNat ∧ (x >>> 63).toNat ≤ 1 := by
  have hx := x.isLt
  have e1 : (x >>> 63).toNat = x.toNat / 2 ^ 63 := by
    rw [BitVec.toNat_ushiftRight, Nat.shiftRight_eq_div_pow]
  have e2 : ((x <<< 1) ||| k).toNat = 2 * x.toNat % 2 ^ 64 + k.toNat := by
    rw [BitVec.toNat_or, BitVec.toNat_shiftLeft, Nat.shiftLeft_eq]
    have : x.toNat * 2 ^ 1 % 2 ^ 64 = 2 ^ 1 * (x.toNat % 2 ^ 63) := by omega
    rw [this, ← Nat.two_pow_add_eq_or_of_lt (by omega)]
    omega
  rw [e1, e2]
  omega

theorem mul2Loop_exact (n : Nat) (a : Arr) :
    value n (mul2Loop n a).1 + 2 ^ (64 * n) * (mul2Loop n a).2.toNat = 2 * value n a ∧ (mul2Loop n a).2.toNat ≤ 1 := by
  have h := scan0 (fun _ x k => ((x <<< 1) ||| k, x >>> 63)) (fun _ x => 2 * (x.toNat : ℤ)) (fun k => (k.toNat : ℤ)) (fun k => k.toNat ≤ 1)
    (fun _ x k hk => ⟨by have := (shl1_or x k hk).1; exact_mod_cast this, (shl1_or x k hk).2⟩) a 0#64 (by decide) n
  dsimp only at h
  obtain ⟨h1, h2⟩ := h
  rw [S_mul, ← value_cast] at h1
  have e0 : ((0#64 : L).toNat : ℤ) = 0 := rfl
  rw [e0, add_zero] at h1
  refine ⟨?_, h2⟩
  unfold mul2Loop
  exact_mod_cast h1

theorem checkedMul2_exact (a : Uint N) :
    val (checkedMul2 a).1 + 2 ^ (64 * N) * (checkedMul2 a).2.toNat = 2 * val a := by
  obtain ⟨h, hc⟩ := mul2Loop_exact N a.get
  unfold checkedMul2
  dsimp only
  rw [val_mk, val_eq a, bool_ne_zero hc]
  exact h

/-- A limb of the halved array. -/
def half (n : Nat) (a : Arr) (j : Nat) : L := (a j >>> 1) ||| (if j + 1 < n then a (j + 1) <<< 63 else 0#64)

theorem div2Loop_limbs (n : Nat) (a : Arr) (i : Nat) (hi : i ≤ n) :
    let r := forLoop i (a, 0#64) (fun i s =>
      (upd s.1 (n - 1 - i) ((s.1 (n - 1 - i) >>> 1) ||| s.2), s.1 (n - 1 - i) <<< 63))
    (∀ j, r.1 j = if n - i ≤ j ∧ j < n then half n a j else a j) ∧
    r.2 = (if i = 0 then 0#64 else a (n - i) <<< 63) := by
  induction i with
  | zero =>
    simp only [forLoop]
    refine ⟨fun j => ?_, by simp⟩
    rw [if_neg (by omega)]
  | succ i ih =>
    dsimp only at ih ⊢
    rw [forLoop]
    obtain ⟨h1, h2⟩ := ih (by omega)
    generalize forLoop i (a, 0#64) (fun i s =>
      (upd s.1 (n - 1 - i) ((s.1 (n - 1 - i) >>> 1) ||| s.2), s.1 (n - 1 - i) <<< 63)) = r at *
    have hk : r.1 (n - 1 - i) = a (n - 1 - i) := by rw [h1, if_neg (by omega)]
    have hidx : n - (i + 1) = n - 1 - i := by omega
    dsimp only
    refine ⟨fun j => ?_, ?_⟩
    · by_cases e : j = n - 1 - i
      · subst e
        rw [upd_same, hk, if_pos (by omega), h2]
        unfold half
        by_cases hz : i = 0
        · subst hz
          rw [if_pos rfl, if_neg (by omega)]
        · rw [if_neg hz, if_pos (by omega), show n - 1 - i + 1 = n - i by omega]
      · rw [upd_ne _ _ e, h1]
        by_cases hj : n - i ≤ j ∧ j < n
        · rw [if_pos hj, if_pos (by omega)]
        · rw [if_neg hj, if_neg (by omega)]
    · rw [if_neg (by omega), hk, hidx]

theorem half_toNat (n : Nat) (a : Arr) (j : Nat) :
    2 * (half n a j).toNat + (a j).toNat % 2 = (a j).toNat + 2 ^ 64 * (if j + 1 < n then (a (j + 1)).toNat % 2 else 0) := by
  have hx := (a j).isLt
  have key : ∀ (x y : L), ((x >>> 1) ||| (y <<< 63)).toNat = x.toNat / 2 + 2 ^ 63 * (y.toNat % 2) := by
    intro x y
    have hx := x.isLt
    rw [BitVec.toNat_or, BitVec.toNat_ushiftRight, BitVec.toNat_shiftLeft, Nat.shiftRight_eq_div_pow, Nat.shiftLeft_eq]
    have e : y.toNat * 2 ^ 63 % 2 ^ 64 = 2 ^ 63 * (y.toNat % 2) := by omega
    have e2 : x.toNat / 2 ^ 1 < 2 ^ 63 := by omega
    rw [e, Nat.or_comm, ← Nat.two_pow_add_eq_or_of_lt e2]
    omega
  unfold half
  by_cases h : j + 1 < n
  · rw [if_pos h, if_pos h, key]
    omega
  · rw [if_neg h, if_neg h]
    have : (a j >>> 1 ||| 0#64) = (a j >>> 1 ||| (0#64 <<< 63)) := by simp
    rw [this, key]
    simp
    omega

theorem half_value (m : Nat) (a : Arr) : ∀ n, n ≤ m →
    2 * value n (half m a) + (if 0 < n then (a 0).toNat % 2 else 0) =
      value n a + 2 ^ (64 * n) * (if 0 < n ∧ n < m then (a n).toNat % 2 else 0) := by
  intro n
  induction n with
  | zero => intro _; simp [value_zero]
  | succ n ih =>
    intro hn
    have h0 := ih (by omega)
    have h1 := half_toNat m a n
    rw [value_succ, value_succ, pow_succ64]
    generalize hB : 2 ^ (64 * n) = B at *
    have h2 := congrArg (· * B) h1
    beta_reduce at h2
    rw [if_pos (by omega)]
    by_cases hz : n = 0
    · subst hz
      simp only [value_zero, Nat.mul_zero, Nat.pow_zero] at *
      subst hB
      by_cases hm : 0 + 1 < m
      · rw [if_pos hm] at h1
        rw [if_pos ⟨by omega, hm⟩]
        omega
      · rw [if_neg hm] at h1
        rw [if_neg (fun h => hm h.2)]
        omega
    · rw [if_pos (by omega), if_pos ⟨by omega, by omega⟩] at h0
      by_cases hm : n + 1 < m
      · rw [if_pos hm] at h2
        rw [if_pos ⟨by omega, hm⟩]
        nlinarith
      · rw [if_neg hm] at h2
        rw [if_neg (fun h => hm h.2)]
        nlinarith

theorem value_mod_two {n : Nat} (hn : 0 < n) (a : Arr) : value n a % 2 = (a 0).toNat % 2 := by
  have h := half_value n a n (Nat.le_refl n)
  rw [if_pos hn, if_neg (by omega)] at h
  omega

theorem div2_val (a : Uint N) : val (div2 a) = val a / 2 := by
  unfold div2
  rw [val_mk, val_eq]
  by_cases hN : N = 0
  · subst hN; simp [value_zero]
  have h := (div2Loop_limbs N a.get N (Nat.le_refl N)).1
  have e : value N (div2Loop N a.get).1 = value N (half N a.get) := by
    apply value_congr
    intro i hi
    have := h i
    rw [if_pos (by omega)] at this
    exact this
  rw [e]
  have h2 := half_value N a.get N (Nat.le_refl N)
  rw [if_pos (by omega), if_neg (by omega)] at h2
  have h3 := value_mod_two (by omega : 0 < N) a.get
  omega

/-! ## Comparisons -/

theorem top_lt {n : Nat} {a b : Arr} (h : a n < b n) : value (n + 1) a < value (n + 1) b := by
  rw [value_succ, value_succ]
  have h1 := value_lt n a
  rw [BitVec.lt_def] at h
  have : ((a n).toNat + 1) * 2 ^ (64 * n) ≤ (b n).toNat * 2 ^ (64 * n) := Nat.mul_le_mul_right _ h
  rw [Nat.add_mul, Nat.one_mul] at this
  omega

theorem limb_eq {x y : L} (h1 : ¬ x < y) (h2 : ¬ y < x) : x = y := by
  rw [BitVec.lt_def] at h1 h2
  exact BitVec.eq_of_toNat_eq (by omega)

theorem geLoop_iff (a b : Arr) (n : Nat) : geLoop a b n = decide (value n b ≤ value n a) := by
  induction n with
  | zero => simp [geLoop, value_zero]
  | succ n ih =>
    rw [geLoop]
    by_cases h1 : b n < a n
    · rw [if_pos h1, decide_eq_true (Nat.le_of_lt (top_lt h1))]
    · rw [if_neg h1]
      by_cases h2 : a n < b n
      · rw [if_pos h2, decide_eq_false (Nat.not_le.mpr (top_lt h2))]
      · rw [if_neg h2, ih, value_succ, value_succ, limb_eq h1 h2, decide_eq_decide]
        omega

theorem gtLoop_iff (a b : Arr) (n : Nat) : gtLoop a b n = decide (value n b < value n a) := by
  induction n with
  | zero => simp [gtLoop, value_zero]
  | succ n ih =>
    rw [gtLoop]
    by_cases h1 : b n < a n
    · rw [if_pos h1, decide_eq_true (top_lt h1)]
    · rw [if_neg h1]
      by_cases h2 : a n < b n
      · rw [if_pos h2, decide_eq_false (Nat.not_lt.mpr (Nat.le_of_lt (top_lt h2)))]
      · rw [if_neg h2, ih, value_succ, value_succ, limb_eq h1 h2, decide_eq_decide]
        omega

theorem leLoop_iff (a b : Arr) (n : Nat) : leLoop a b n = decide (value n a ≤ value n b) := by
  induction n with
  | zero => simp [leLoop, value_zero]
  | succ n ih =>
    rw [leLoop]
    by_cases h1 : a n < b n
    · rw [if_pos h1, decide_eq_true (Nat.le_of_lt (top_lt h1))]
    · rw [if_neg h1]
      by_cases h2 : b n < a n
      · rw [if_pos h2, decide_eq_false (Nat.not_le.mpr (top_lt h2))]
      · rw [if_neg h2, ih, value_succ, value_succ, limb_eq h1 h2, decide_eq_decide]
        omega

theorem ltLoop_iff (a b : Arr) (n : Nat) : ltLoop a b n = decide (value n a < value n b) := by
  induction n with
  | zero => simp [ltLoop, value_zero]
  | succ n ih =>
    rw [ltLoop]
    by_cases h1 : a n < b n
    · rw [if_pos h1, decide_eq_true (top_lt h1)]
    · rw [if_neg h1]
      by_cases h2 : b n < a n
      · rw [if_pos h2, decide_eq_false (Nat.not_lt.mpr (Nat.le_of_lt (top_lt h2)))]
      · rw [if_neg h2, ih, value_succ, value_succ, limb_eq h1 h2, decide_eq_decide]
        omega

theorem cmpLoop_eq (a b : Arr) (n : Nat) : cmpLoop a b n = compare (value n a) (value n b) := by
  induction n with
  | zero => simp [cmpLoop, value_zero]
  | succ n ih =>
    rw [cmpLoop]
    rcases Nat.lt_trichotomy (a n).toNat (b n).toNat with h | h | h
    · rw [Nat.compare_eq_lt.mpr h, Nat.compare_eq_lt.mpr (top_lt (by rw [BitVec.lt_def]; exact h))]
    · rw [Nat.compare_eq_eq.mpr h]
      dsimp only
      rw [ih, value_succ, value_succ, h]
      rcases Nat.lt_trichotomy (value n a) (value n b) with h' | h' | h'
      · rw [Nat.compare_eq_lt.mpr h', Nat.compare_eq_lt.mpr (by omega)]
      · rw [Nat.compare_eq_eq.mpr h', Nat.compare_eq_eq.mpr (by omega)]
      · rw [Nat.compare_eq_gt.mpr h', Nat.compare_eq_gt.mpr (by omega)]
    · rw [Nat.compare_eq_gt.mpr h, Nat.compare_eq_gt.mpr (top_lt (by rw [BitVec.lt_def]; exact h))]

theorem eqLoop_iff (a b : Arr) (k : Nat) : ∀ i, eqLoop a b i k = true ↔ ∀ j, i ≤ j → j < i + k → a j = b j := by
  induction k with
  | zero => intro i; simp [eqLoop]; intro j h1 h2; omega
  | succ k ih =>
    intro i
    rw [eqLoop]
    by_cases h : a i = b i
    · rw [if_neg (not_not.mpr h), ih]
      constructor
      · intro h' j h1 h2
        by_cases e : j = i
        · subst e; exact h
        · exact h' j (by omega) (by omega)
      · intro h' j h1 h2; exact h' j (by omega) (by omega)
    · rw [if_pos h]
      constructor
      · intro e; cases e
      · intro h'; exact absurd (h' i (Nat.le_refl i) (by omega)) h

theorem ctEq_iff {a b : Uint N} : ctEq a b = true ↔ a = b := by
  unfold ctEq
  rw [eqLoop_iff]
  constructor
  · intro h
    apply val_inj
    rw [val_eq, val_eq]
    exact value_congr fun i hi => h i (by omega) (by omega)
  · rintro rfl j _ _; rfl

theorem ctIsZero_iff {a : Uint N} : ctIsZero a = true ↔ val a = 0 := by
  unfold ctIsZero
  rw [ctEq_iff]
  constructor
  · rintro rfl; exact val_ZERO
  · intro h; exact val_inj (h.trans val_ZERO.symm)

theorem ctGe_iff {a b : Uint N} : ctGe a b = decide (val b ≤ val a) := by
  unfold ctGe; rw [geLoop_iff, val_eq, val_eq]
theorem ctGt_iff {a b : Uint N} : ctGt a b = decide (val b < val a) := by
  unfold ctGt; rw [gtLoop_iff, val_eq, val_eq]
theorem ctLe_iff {a b : Uint N} : ctLe a b = decide (val a ≤ val b) := by
  unfold ctLe; rw [leLoop_iff, val_eq, val_eq]
theorem ctLt_iff {a b : Uint N} : ctLt a b = decide (val a < val b) := by
  unfold ctLt; rw [ltLoop_iff, val_eq, val_eq]
theorem cmp_eq {a b : Uint N} : cmp a b = compare (val a) (val b) := by
  unfold cmp; rw [cmpLoop_eq, val_eq, val_eq]

theorem and_one_toNat (x : L) : (x &&& 1#64).toNat = x.toNat % 2 := by
  rw [BitVec.toNat_and]
  exact Nat.and_one_is_mod _

theorem ctIsOdd_iff (hN : 0 < N) (a : Uint N) : ctIsOdd a = decide (val a % 2 = 1) := by
  unfold ctIsOdd
  rw [val_eq, value_mod_two hN, ← and_one_toNat, beq_eq_decide, decide_eq_decide]
  constructor
  · intro h; rw [h]; rfl
  · intro h; exact BitVec.eq_of_toNat_eq h

theorem ctIsEven_iff (hN : 0 < N) (a : Uint N) : ctIsEven a = decide (val a % 2 = 0) := by
  unfold ctIsEven
  rw [val_eq, value_mod_two hN, ← and_one_toNat, beq_eq_decide, decide_eq_decide]
  constructor
  · intro h; rw [h]; rfl
  · intro h; exact BitVec.eq_of_toNat_eq h

end Verif.Uint
