import Verif.Proofs.Uint
/-! # Multiplication, bits and remainder of multi-limb integers -/

namespace Verif.Uint
open Verif.Limb
open Verif.Spec.Uint

variable {N : Nat}

theorem value_split (m n : Nat) (f : Arr) :
    value (m + n) f = value m f + 2 ^ (64 * m) * value n (fun j => f (m + j)) := by
  induction n with
  | zero => simp [value_zero]
  | succ n ih =>
    rw [← Nat.add_assoc, value_succ, value_succ, ih, Nat.mul_add 64 m n, Nat.pow_add]
    ring

/-- Two loops in step. -/
theorem forLoop_sim {σ τ : Type} (R : σ → τ → Prop) (f : Nat → σ → σ) (g : Nat → τ → τ) (n : Nat)
    (hstep : ∀ i s t, i < n → R s t → R (f i s) (g i t)) {s : σ} {t : τ} (h : R s t) :
    R (forLoop n s f) (forLoop n t g) := by
  induction n with
  | zero => exact h
  | succ n ih => exact hstep n _ _ (by omega) (ih fun i s t hi => hstep i s t (by omega))

/-- Two halves as one array. -/
def cat (N : Nat) (lo hi : Arr) : Arr := fun k => if k < N then lo k else hi (k - N)

theorem cat_lo {N : Nat} {lo hi : Arr} {k : Nat} (h : k < N) : cat N lo hi k = lo k := if_pos h
theorem cat_hi {N : Nat} {lo hi : Arr} {k : Nat} (h : N ≤ k) : cat N lo hi k = hi (k - N) := if_neg (by omega)

theorem cat_upd_lo {N : Nat} {lo hi : Arr} {k : Nat} {v : L} (h : k < N) :
    cat N (upd lo k v) hi = upd (cat N lo hi) k v := by
  funext j
  by_cases e : j = k
  · subst e; rw [cat_lo h, upd_same, upd_same]
  · rw [upd_ne _ _ e]
    unfold cat
    split
    · rw [upd_ne _ _ e]
    · rfl

theorem cat_upd_hi {N : Nat} {lo hi : Arr} {k : Nat} {v : L} (h : N ≤ k) :
    cat N lo (upd hi (k - N) v) = upd (cat N lo hi) k v := by
  funext j
  by_cases e : j = k
  · subst e; rw [cat_hi h, upd_same, upd_same]
  · rw [upd_ne _ _ e]
    unfold cat
    split
    · rfl
    · rw [upd_ne _ _ (by omega)]

theorem value_cat (N : Nat) (lo hi : Arr) :
    value (N + N) (cat N lo hi) = value N lo + 2 ^ (64 * N) * value N hi := by
  rw [value_split]
  have h1 : value N (cat N lo hi) = value N lo := value_congr fun i hi => cat_lo hi
  have h2 : value N (fun j => cat N lo hi (N + j)) = value N hi := value_congr fun i _ => by
    rw [cat_hi (by omega), Nat.add_sub_cancel_left]
  rw [h1, h2]

/-- One row on a single array. -/
def rowT (n : Nat) (x : L) (b : Arr) (i : Nat) (T : Arr) : Arr × L :=
  forLoop n (T, 0#64) fun j s =>
    (upd s.1 (i + j) (carryingMac (s.1 (i + j)) x (b j) s.2).1, (carryingMac (s.1 (i + j)) x (b j) s.2).2)

theorem rowT_exact (n : Nat) (x : L) (b : Arr) (i : Nat) (T : Arr) :
    value n (fun j => (rowT n x b i T).1 (i + j)) + 2 ^ (64 * n) * (rowT n x b i T).2.toNat =
      value n (fun j => T (i + j)) + x.toNat * value n b ∧
    ∀ k, k < i ∨ i + n ≤ k → (rowT n x b i T).1 k = T k := by
  have h := scan (fun j y k => carryingMac y x (b j) k) (fun j y => (y.toNat : ℤ) + x.toNat * (b j).toNat) (fun k => (k.toNat : ℤ)) (fun _ => True)
    (fun j y k _ => ⟨by exact_mod_cast carryingMac_exact y x (b j) k, trivial⟩) i T 0#64 trivial n
  dsimp only at h
  obtain ⟨h1, h2, -⟩ := h
  refine ⟨?_, h2⟩
  have e0 : ((0#64 : L).toNat : ℤ) = 0 := rfl
  rw [S_add, S_mul, ← value_cast n b, e0, add_zero] at h1
  have g1 := value_cast n (fun j => (rowT n x b i T).1 (i + j))
  have g2 := value_cast n (fun j => T (i + j))
  zify
  rw [g1, g2]
  exact h1

theorem mulRow_sim (a b : Arr) (i : Nat) (s : MulState) :
    cat N (mulRow N a b i s).lo (mulRow N a b i s).hi = (rowT N (a i) b i (cat N s.lo s.hi)).1 ∧
    (mulRow N a b i s).carry = (rowT N (a i) b i (cat N s.lo s.hi)).2 := by
  unfold mulRow rowT
  apply forLoop_sim (R := fun (s : MulState) (t : Arr × L) => cat N s.lo s.hi = t.1 ∧ s.carry = t.2)
  · rintro j s ⟨T, c⟩ _ ⟨h1, h2⟩
    dsimp only at h1 h2 ⊢
    by_cases hk : N ≤ i + j
    · rw [if_pos hk]
      dsimp only
      rw [cat_upd_hi hk, ← h1, ← h2, cat_hi hk]
      exact ⟨rfl, rfl⟩
    · rw [if_neg hk]
      dsimp only
      rw [cat_upd_lo (by omega), ← h1, ← h2, cat_lo (by omega)]
      exact ⟨rfl, rfl⟩
  · exact ⟨rfl, rfl⟩

theorem ctWideningMul_exact (a b : Uint N) :
    val (ctWideningMul a b).1 + 2 ^ (64 * N) * val (ctWideningMul a b).2 = val a * val b := by
  unfold ctWideningMul
  dsimp only
  rw [val_mk, val_mk, ← value_cat, val_eq a, val_eq b]
  have key : ∀ n, n ≤ N →
      let r := forLoop n (MulState.mk (fun _ => 0#64) (fun _ => 0#64) 0#64) fun i s =>
        let s := mulRow N a.get b.get i s
        { s with hi := upd s.hi i s.carry }
      value (n + N) (cat N r.lo r.hi) = value n a.get * value N b.get ∧
      ∀ k, n + N ≤ k → cat N r.lo r.hi k = 0#64 := by
    intro n
    induction n with
    | zero =>
      intro _
      simp only [forLoop]
      have hz : cat N (fun _ => 0#64) (fun _ => 0#64) = fun _ => 0#64 := by
        funext k; unfold cat; split <;> rfl
      rw [hz, value_const_zero, value_zero, Nat.zero_mul]
      exact ⟨rfl, fun _ _ => rfl⟩
    | succ n ih =>
      intro hn
      have ih := ih (by omega)
      dsimp only at ih ⊢
      rw [forLoop]
      generalize forLoop n (MulState.mk (fun _ => 0#64) (fun _ => 0#64) 0#64) (fun i s =>
        { mulRow N a.get b.get i s with hi := upd (mulRow N a.get b.get i s).hi i (mulRow N a.get b.get i s).carry }) = r at *
      obtain ⟨ih1, ih2⟩ := ih
      dsimp only
      obtain ⟨s1, s2⟩ := mulRow_sim (N := N) a.get b.get n r
      obtain ⟨e1, e2⟩ := rowT_exact N (a.get n) b.get n (cat N r.lo r.hi)
      have hu : cat N (mulRow N a.get b.get n r).lo (upd (mulRow N a.get b.get n r).hi n (mulRow N a.get b.get n r).carry) =
          upd (rowT N (a.get n) b.get n (cat N r.lo r.hi)).1 (n + N) (rowT N (a.get n) b.get n (cat N r.lo r.hi)).2 := by
        have := cat_upd_hi (N := N) (lo := (mulRow N a.get b.get n r).lo) (hi := (mulRow N a.get b.get n r).hi) (k := n + N)
          (v := (mulRow N a.get b.get n r).carry) (by omega)
        rw [Nat.add_sub_cancel] at this
        rw [this, s1, s2]
      rw [hu]
      generalize cat N r.lo r.hi = T at *
      generalize rowT N (a.get n) b.get n T = t at *
      refine ⟨?_, fun k hk => ?_⟩
      · rw [show n + 1 + N = (n + N) + 1 by omega, value_succ, upd_same]
        have hv : value (n + N) (upd t.1 (n + N) t.2) = value (n + N) t.1 :=
          value_congr fun i hi => upd_ne _ _ (by omega)
        rw [hv, value_split, value_succ]
        rw [value_split] at ih1
        have hlow : value n t.1 = value n T := value_congr fun i hi => e2 i (Or.inl hi)
        rw [hlow, Nat.mul_add 64 n N, Nat.pow_add]
        generalize 2 ^ (64 * n) = X at *
        generalize 2 ^ (64 * N) = Y at *
        zify at *
        linear_combination X * e1 + ih1
      · rw [upd_ne _ _ (by omega), e2 k (Or.inr (by omega))]
        exact ih2 k (by omega)
  exact (key N (Nat.le_refl N)).1

theorem ctMul_ok {a b c : Uint N} : ctMul a b = some c ↔ val c = val a * val b := by
  have h := ctWideningMul_exact a b
  unfold ctMul
  dsimp only
  have hl := val_lt (ctWideningMul a b).1
  by_cases hz : ctEq (ctWideningMul a b).2 ZERO = true
  · rw [if_pos hz]
    rw [ctEq_iff.mp hz, val_ZERO, Nat.mul_zero, Nat.add_zero] at h
    rw [Option.some.injEq]
    constructor
    · rintro rfl; exact h
    · intro e; exact val_inj (h.trans e.symm)
  · rw [if_neg hz]
    constructor
    · intro e; cases e
    · intro e
      have hc := val_lt c
      have : val (ctWideningMul a b).2 ≠ 0 := fun h => hz (ctEq_iff.mpr (val_inj (h.trans val_ZERO.symm)))
      have : 2 ^ (64 * N) * 1 ≤ 2 ^ (64 * N) * val (ctWideningMul a b).2 := Nat.mul_le_mul_left _ (by omega)
      omega

theorem ctMul_none {a b : Uint N} : ctMul a b = none ↔ 2 ^ (64 * N) ≤ val a * val b := by
  constructor
  · intro h
    by_contra hlt
    have e := ctWideningMul_exact a b
    have hz : val (ctWideningMul a b).2 = 0 := by
      by_contra hn
      have : 2 ^ (64 * N) * 1 ≤ 2 ^ (64 * N) * val (ctWideningMul a b).2 := Nat.mul_le_mul_left _ (by omega)
      omega
    rw [hz, Nat.mul_zero, Nat.add_zero] at e
    rw [ctMul_ok.mpr e] at h
    cases h
  · intro h
    cases hc : ctMul a b with
    | none => rfl
    | some c => have := ctMul_ok.mp hc; have := val_lt c; omega

theorem ctAdd_none {a b : Uint N} : ctAdd a b = none ↔ 2 ^ (64 * N) ≤ val a + val b := by
  constructor
  · intro h
    by_contra hlt
    have e := ctAdc_exact a b 0#64
    have e0 : (0#64).toNat = 0 := rfl
    rw [e0, Nat.add_zero] at e
    have hz : (ctAdc a b 0#64).2.toNat = 0 := by
      by_contra hn
      have : 2 ^ (64 * N) * 1 ≤ 2 ^ (64 * N) * (ctAdc a b 0#64).2.toNat := Nat.mul_le_mul_left _ (by omega)
      omega
    rw [hz, Nat.mul_zero, Nat.add_zero] at e
    rw [ctAdd_ok.mpr e] at h
    cases h
  · intro h
    cases hc : ctAdd a b with
    | none => rfl
    | some c => have := ctAdd_ok.mp hc; have := val_lt c; omega

/-! ## Bits -/

theorem limb_of_value {n k : Nat} (f : Arr) (h : k < n) : value n f / 2 ^ (64 * k) % 2 ^ 64 = (f k).toNat := by
  obtain ⟨m, rfl⟩ : ∃ m, n = k + (1 + m) := ⟨n - k - 1, by omega⟩
  rw [value_split, Nat.add_mul_div_left _ _ (Nat.two_pow_pos _), Nat.div_eq_of_lt (value_lt k f), Nat.zero_add, value_split]
  have : value 1 (fun j => f (k + j)) = (f k).toNat := by
    rw [value_succ, value_zero]; simp
  rw [this, Nat.mul_one, Nat.add_mul_mod_self_left, Nat.mod_eq_of_lt (f k).isLt]

theorem value_testBit {n k b : Nat} (f : Arr) (h : k < n) (hb : b < 64) :
    (value n f).testBit (64 * k + b) = (f k).toNat.testBit b := by
  rw [← limb_of_value f h, Nat.testBit_mod_two_pow, decide_eq_true hb, Bool.true_and, Nat.testBit_div_two_pow]
  congr 1
  omega

theorem mask_bit (x : L) {b : Nat} (hb : b < 64) : ((x &&& (1#64 <<< b)) != 0#64) = x.toNat.testBit b := by
  have e : (x &&& (1#64 <<< b)) = if x.toNat.testBit b then 1#64 <<< b else 0#64 := by
    apply BitVec.eq_of_getLsbD_eq
    intro i hi
    rw [BitVec.getLsbD_and]
    by_cases h : i = b
    · subst h
      cases hx : x.toNat.testBit i
      · simp [BitVec.getLsbD, hx]
      · simp [BitVec.getLsbD, hx]
    · have h1 : (1#64 <<< b).getLsbD i = false := by
        rw [BitVec.getLsbD_shiftLeft]
        by_cases hib : i < b
        · simp [hib]
        · have : (1#64).getLsbD (i - b) = false := by
            simp [BitVec.getLsbD_one]; omega
          simp [this]
      rw [h1, Bool.and_false]
      split
      · rw [h1]
      · simp
  rw [e]
  cases hx : x.toNat.testBit b
  · simp
  · simp only [if_true, bne_iff_ne, ne_eq]
    intro h
    have h2 := congrArg BitVec.toNat h
    rw [BitVec.toNat_shiftLeft, Nat.shiftLeft_eq] at h2
    have h3 : (1#64).toNat = 1 := rfl
    rw [h3, Nat.one_mul, Nat.mod_eq_of_lt (Nat.pow_lt_pow_right (by omega) hb)] at h2
    have := Nat.two_pow_pos b
    simp at h2

theorem ctGetBit_eq (a : Uint N) (i : Nat) : ctGetBit a i = (val a).testBit i := by
  unfold ctGetBit BITS
  by_cases h : N * 64 ≤ i
  · rw [if_pos h]
    symm
    apply Nat.testBit_lt_two_pow
    exact Nat.lt_of_lt_of_le (val_lt a) (Nat.pow_le_pow_right (by omega) (by omega))
  · rw [if_neg h]
    dsimp only
    rw [mask_bit _ (by omega), val_eq, ← value_testBit a.get (by omega : i / 64 < N) (by omega)]
    congr 1
    omega

theorem lz_spec (x : L) : ∀ k, 64 - leadingZeros x ≤ k ↔ x.toNat < 2 ^ k := by
  intro k
  unfold leadingZeros
  by_cases h : x = 0#64
  · rw [if_pos h, h]
    simp
  · rw [if_neg h]
    have hx : x.toNat ≠ 0 := fun e => h (BitVec.eq_of_toNat_eq e)
    have h64 : x.toNat.log2 < 64 := (Nat.log2_lt hx).mpr x.isLt
    have h1 := Nat.log2_lt (k := k) hx
    omega

theorem lz_le (x : L) : leadingZeros x ≤ 64 := by
  unfold leadingZeros; split <;> omega

theorem lz_eq_64 (x : L) : leadingZeros x = 64 ↔ x.toNat = 0 := by
  have h := lz_spec x 0
  have h1 := lz_le x
  simp at h
  constructor
  · intro e; exact h.mp (by omega)
  · intro e
    have := h.mpr e
    omega

theorem numBitsLoop_spec (a : Arr) (i : Nat) :
    ∀ k, numBitsLoop a i ((i + 1) * 64) ≤ k ↔ value (i + 1) a < 2 ^ k := by
  induction i with
  | zero =>
    intro k
    rw [numBitsLoop, value_succ, value_zero]
    simp only [Nat.zero_add, Nat.mul_zero, Nat.pow_zero, Nat.mul_one]
    exact lz_spec (a 0) k
  | succ i ih =>
    intro k
    rw [numBitsLoop]
    have hl := lz_le (a (i + 1))
    by_cases h : leadingZeros (a (i + 1)) = 64
    · rw [if_neg (not_not.mpr h), h, show (i + 1 + 1) * 64 - 64 = (i + 1) * 64 by omega, ih]
      rw [value_succ (i + 1), (lz_eq_64 _).mp h, Nat.zero_mul]
      exact Iff.rfl
    · rw [if_pos h]
      have hnz : (a (i + 1)).toNat ≠ 0 := fun e => h ((lz_eq_64 _).mpr e)
      have hs := lz_spec (a (i + 1))
      rw [value_succ (i + 1)]
      have hv := value_lt (i + 1) a
      by_cases hk : k < 64 * (i + 1)
      · constructor
        · intro hle
          exfalso
          have h0 := hs 0
          simp only [Nat.pow_zero] at h0
          omega
        · intro hlt
          exfalso
          have : 2 ^ k ≤ 2 ^ (64 * (i + 1)) := Nat.pow_le_pow_right (by omega) (by omega)
          have : 1 * 2 ^ (64 * (i + 1)) ≤ (a (i + 1)).toNat * 2 ^ (64 * (i + 1)) := Nat.mul_le_mul_right _ (by omega)
          omega
      · obtain ⟨m, rfl⟩ : ∃ m, k = m + 64 * (i + 1) := ⟨k - 64 * (i + 1), by omega⟩
        have e : value (i + 1) a + (a (i + 1)).toNat * 2 ^ (64 * (i + 1)) < 2 ^ (m + 64 * (i + 1)) ↔ (a (i + 1)).toNat < 2 ^ m := by
          rw [Nat.pow_add]
          generalize 2 ^ (64 * (i + 1)) = B at *
          constructor
          · intro hlt
            by_contra hge
            have := Nat.mul_le_mul_right B (Nat.not_lt.mp hge)
            omega
          · intro hlt
            have := Nat.mul_le_mul_right B (Nat.succ_le_of_lt hlt)
            rw [Nat.succ_mul] at this
            omega
        rw [e, ← hs m]
        omega

/-- `ct_num_bits` is the bit length. -/
theorem ctNumBits_le (hN : 0 < N) (a : Uint N) (k : Nat) : ctNumBits a ≤ k ↔ val a < 2 ^ k := by
  unfold ctNumBits BITS
  have h := numBitsLoop_spec a.get (N - 1) k
  rw [show N - 1 + 1 = N by omega, ← val_eq] at h
  exact h

theorem ctNumBits_zero (hN : 0 < N) (a : Uint N) : ctNumBits a = 0 ↔ val a = 0 := by
  have := ctNumBits_le hN a 0
  rw [Nat.pow_zero] at this
  omega

theorem wide_numBits_le (hN : 0 < N) (x : WideUint N) (k : Nat) : x.numBits ≤ k ↔ wval x < 2 ^ k := by
  unfold WideUint.numBits wval BITS
  dsimp only
  have hl := val_lt x.low
  by_cases h : ctNumBits x.high = 0
  · rw [if_pos h, ctNumBits_le hN, (ctNumBits_zero hN _).mp h, Nat.mul_zero, Nat.add_zero]
  · rw [if_neg h]
    have hh : val x.high ≠ 0 := fun e => h ((ctNumBits_zero hN _).mpr e)
    have hp : 1 * 2 ^ (64 * N) ≤ val x.high * 2 ^ (64 * N) := Nat.mul_le_mul_right _ (by omega)
    rw [Nat.mul_comm (2 ^ (64 * N))]
    by_cases hk : k < 64 * N
    · constructor
      · intro _; omega
      · intro hlt
        exfalso
        have : 2 ^ k ≤ 2 ^ (64 * N) := Nat.pow_le_pow_right (by omega) (by omega)
        omega
    · obtain ⟨m, rfl⟩ : ∃ m, k = m + 64 * N := ⟨k - 64 * N, by omega⟩
      have hm := ctNumBits_le hN x.high m
      have e : val x.low + val x.high * 2 ^ (64 * N) < 2 ^ (m + 64 * N) ↔ val x.high < 2 ^ m := by
        rw [Nat.pow_add]
        generalize 2 ^ (64 * N) = B at *
        constructor
        · intro hlt
          by_contra hge
          have := Nat.mul_le_mul_right B (Nat.not_lt.mp hge)
          omega
        · intro hlt
          have := Nat.mul_le_mul_right B (Nat.succ_le_of_lt hlt)
          rw [Nat.succ_mul] at this
          omega
      rw [e, ← hm]
      omega

theorem wide_getBit (x : WideUint N) (i : Nat) : x.getBit i = (wval x).testBit i := by
  unfold WideUint.getBit wval BITS
  have hl := val_lt x.low
  rw [Nat.add_comm]
  by_cases h : N * 64 ≤ i
  · rw [if_pos h, ctGetBit_eq, Nat.testBit_two_pow_mul_add _ hl, if_neg (by omega)]
    congr 1
    omega
  · rw [if_neg h, ctGetBit_eq, Nat.testBit_two_pow_mul_add _ hl, if_pos (by omega)]

/-! ## Remainder -/

theorem value_upd_zero {n : Nat} (hn : 0 < n) (f : Arr) (v : L) :
    value n (upd f 0 v) + (f 0).toNat = value n f + v.toNat := by
  obtain ⟨m, rfl⟩ : ∃ m, n = 1 + m := ⟨n - 1, by omega⟩
  rw [value_split, value_split]
  have h : value m (fun j => upd f 0 v (1 + j)) = value m (fun j => f (1 + j)) :=
    value_congr fun i _ => upd_ne _ _ (by omega)
  rw [h]
  have h1 : ∀ g : Arr, value 1 g = (g 0).toNat := by intro g; rw [value_succ, value_zero]; simp
  rw [h1, h1, upd_same]
  omega

theorem or_low_bit (x : L) (b : Bool) (hx : x.toNat % 2 = 0) :
    (x ||| (if b then 1#64 else 0#64)).toNat = x.toNat + b.toNat := by
  cases b
  · simp
  · have e : x.toNat = 2 ^ 1 * (x.toNat / 2) := by omega
    rw [if_pos rfl, BitVec.toNat_or]
    have h1 : (1#64).toNat = 1 := rfl
    rw [h1]
    conv_lhs => rw [e]
    rw [← Nat.two_pow_add_eq_or_of_lt (by decide : 1 < 2 ^ 1)]
    rw [Bool.toNat_true]
    omega

theorem even_pow_mul {N : Nat} (hN : 0 < N) (k : Nat) : (2 ^ (64 * N) * k) % 2 = 0 := by
  obtain ⟨m, rfl⟩ : ∃ m, N = m + 1 := ⟨N - 1, by omega⟩
  rw [pow_succ64, show (2 : Nat) ^ 64 = 2 * 2 ^ 63 by norm_num, Nat.mul_assoc, Nat.mul_assoc]
  exact Nat.mul_mod_right _ _

theorem remStep_val (hN : 0 < N) (x : WideUint N) (m r : Uint N) (i : Nat) (hr : val r < val m) :
    val (remStep x m r i) = (2 * val r + ((wval x).testBit i).toNat) % val m := by
  have hd := checkedMul2_exact r
  unfold remStep
  dsimp only
  rw [wide_getBit]
  generalize (wval x).testBit i = b
  generalize checkedMul2 r = s at *
  have hev : (s.1.get 0).toNat % 2 = 0 := by
    rw [← value_mod_two hN, ← val_eq]
    have := even_pow_mul hN s.2.toNat
    omega
  have hv : val (mk (upd s.1.get 0 (s.1.get 0 ||| (if b then 1#64 else 0#64))) : Uint N) = val s.1 + b.toNat := by
    rw [val_mk, val_eq s.1]
    have h1 := value_upd_zero hN s.1.get (s.1.get 0 ||| (if b then 1#64 else 0#64))
    rw [or_low_bit _ _ hev] at h1
    omega
  generalize (mk (upd s.1.get 0 (s.1.get 0 ||| (if b then 1#64 else 0#64))) : Uint N) = r1 at *
  have hb : b.toNat ≤ 1 := Bool.toNat_le b
  have hm := val_lt m
  have h1 := val_lt r1
  have hs := ctCheckedSub_exact r1 m
  have hsl := val_lt (ctCheckedSub r1 m).1
  generalize ctCheckedSub r1 m = t at *
  have hmod : ∀ y, y < val m → 2 * val r + b.toNat = val m + y → (2 * val r + b.toNat) % val m = y := by
    intro y hy e; rw [e, Nat.add_mod_left, Nat.mod_eq_of_lt hy]
  rw [ctGe_iff]
  by_cases hc : s.2 = true
  · rw [hc] at hd ⊢
    rw [Bool.or_true, if_pos rfl]
    rw [Bool.toNat_true, Nat.mul_one] at hd
    symm
    apply hmod
    · cases ht : t.2 <;> rw [ht] at hs <;> simp at hs <;> omega
    · cases ht : t.2 <;> rw [ht] at hs <;> simp at hs <;> omega
  · rw [Bool.eq_false_iff.mpr hc] at hd ⊢
    rw [Bool.or_false]
    rw [Bool.toNat_false, Nat.mul_zero, Nat.add_zero] at hd
    by_cases hge : val m ≤ val r1
    · rw [decide_eq_true hge, if_pos rfl]
      symm
      apply hmod
      · cases ht : t.2 <;> rw [ht] at hs <;> simp at hs <;> omega
      · cases ht : t.2 <;> rw [ht] at hs <;> simp at hs <;> omega
    · rw [decide_eq_false hge, if_neg (by decide)]
      rw [Nat.mod_eq_of_lt (by omega)]
      omega

theorem shift_step (X i : Nat) : X >>> i = 2 * (X >>> (i + 1)) + (X.testBit i).toNat := by
  rw [Nat.shiftRight_succ, Nat.testBit_eq_decide_div_mod_eq, Nat.shiftRight_eq_div_pow]
  generalize X / 2 ^ i = q
  by_cases h : q % 2 = 1
  · rw [decide_eq_true h, Bool.toNat_true]; omega
  · rw [decide_eq_false h, Bool.toNat_false]; omega

theorem remLoop_val (hN : 0 < N) (x : WideUint N) (m : Uint N) (hm : 0 < val m) :
    ∀ i (r : Uint N), val r = (wval x >>> (i + 1)) % val m → val (remLoop x m i r) = wval x % val m := by
  have step : ∀ i (r : Uint N), val r = (wval x >>> (i + 1)) % val m →
      val (remStep x m r i) = (wval x >>> i) % val m := by
    intro i r h
    rw [remStep_val hN x m r i (by rw [h]; exact Nat.mod_lt _ hm), h, shift_step (wval x) i, Nat.add_mod, Nat.mul_mod, Nat.mod_mod,
      ← Nat.mul_mod, ← Nat.add_mod]
  intro i
  induction i with
  | zero => intro r h; rw [remLoop, step 0 r h, Nat.shiftRight_zero]
  | succ i ih => intro r h; rw [remLoop]; exact ih _ (step (i + 1) r h)

theorem wide_rem_ok (hN : 0 < N) {x : WideUint N} {m : Uint N} (hm : val m ≠ 0) (hx : wval x ≠ 0) :
    ∃ r, x.rem m = some r ∧ val r = wval x % val m := by
  unfold WideUint.rem
  have hz : ¬ ctIsZero m = true := fun h => hm (ctIsZero_iff.mp h)
  have hb : x.numBits ≠ 0 := by
    intro h
    have := (wide_numBits_le hN x 0).mp (by omega)
    rw [Nat.pow_zero] at this
    omega
  rw [if_neg hz, if_neg hb]
  refine ⟨_, rfl, remLoop_val hN x m (by omega) _ _ ?_⟩
  have := (wide_numBits_le hN x x.numBits).mp (Nat.le_refl _)
  rw [show x.numBits - 1 + 1 = x.numBits by omega, val_ZERO, Nat.shiftRight_eq_div_pow, Nat.div_eq_of_lt this, Nat.zero_mod]

theorem wide_rem_none (hN : 0 < N) {x : WideUint N} {m : Uint N} (h : val m = 0 ∨ wval x = 0) : x.rem m = none := by
  unfold WideUint.rem
  by_cases hm : val m = 0
  · rw [if_pos (ctIsZero_iff.mpr hm)]
  · rw [if_neg (fun e => hm (ctIsZero_iff.mp e)), if_pos]
    have := (wide_numBits_le hN x 0).mpr (by rw [Nat.pow_zero]; omega)
    omega

end Verif.Uint
