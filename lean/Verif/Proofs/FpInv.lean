import Verif.Proofs.Fp
/-! # Lemmas about inversion, powers, sums and signed conversions -/

namespace Verif.Fp
open Verif.Limb Verif.Uint
open Verif.Spec.Uint Verif.Spec.Fp

variable {N : Nat} {P : FpParams N}

/-! ## Halving modulo `p` -/

theorem pow_even (hN : 0 < N) : 2 ^ (64 * N) = 2 * 2 ^ (64 * N - 1) := by
  rw [← Nat.pow_succ']; congr 1; omega

theorem halveMod_val (hP : Valid P) {b : Fp P} (hb : Reduced b) :
    Reduced (halveMod b) ∧ (2 * val (halveMod b).mont = val b.mont ∨ 2 * val (halveMod b).mont = val b.mont + order P) := by
  have hN := hP.1
  have hodd := hP.2.1
  unfold Reduced at *
  unfold halveMod
  rw [ctIsEven_iff hN]
  by_cases he : val b.mont % 2 = 0
  · rw [decide_eq_true he, if_pos rfl]
    dsimp only
    rw [div2_val]
    omega
  · rw [decide_eq_false he, if_neg (by decide)]
    dsimp only
    have e := checkedAddAssign_exact b.mont P.modulus
    have hd := div2_val (checkedAddAssign b.mont P.modulus).1
    have hl := val_lt (checkedAddAssign b.mont P.modulus).1
    have hpe := pow_even hN
    have hop : val P.modulus = order P := rfl
    rw [hop] at e
    generalize checkedAddAssign b.mont P.modulus = r at *
    generalize div2 r.1 = h at *
    have hsp := spare_iff hP
    by_cases hc : r.2 = true
    · have hns : P.hasSpareBit = false := by
        rw [Bool.eq_false_iff]
        intro hs
        have := hsp.mp hs
        rw [hc, Bool.toNat_true] at e
        omega
      rw [hns, hc, if_pos (by decide)]
      dsimp only
      rw [val_mk]
      rw [hc, Bool.toNat_true] at e
      have hh : val h < 2 ^ (64 * (N - 1) + 63) := by
        rw [show 64 * (N - 1) + 63 = 64 * N - 1 by omega]; omega
      have htop : (h.get (N - 1)).toNat < 2 ^ 63 := limb_lt_of_value (n := N) h.get (by omega) (by rw [← val_eq]; exact hh)
      have hor := or_shift (h.get (N - 1)) 1#64 63 1 (by omega) htop (by decide)
      have hu := value_upd (n := N) (k := N - 1) (by omega) h.get (h.get (N - 1) ||| (1#64 <<< 63))
      rw [hor, ← val_eq, Nat.add_mul] at hu
      have hp2 : 2 ^ 63 * (1#64).toNat * 2 ^ (64 * (N - 1)) = 2 ^ (64 * N - 1) := by
        rw [show (1#64).toNat = 1 from rfl, Nat.mul_one, ← Nat.pow_add]; congr 1; omega
      rw [hp2] at hu
      omega
    · have hc : r.2 = false := by simpa using hc
      rw [hc, if_neg (by simp)]
      dsimp only
      rw [hc, Bool.toNat_false] at e
      omega

/-! ## The binary extended Euclidean algorithm -/

/-- `b * A = u * R²` modulo `p`. -/
def Bez (A : ZMod (order P)) (u : Uint N) (b : Fp P) : Prop :=
  Reduced b ∧ (val b.mont : ZMod (order P)) * A = (val u : ZMod (order P)) * (radix P * radix P)

theorem bez_halve (hP : Valid P) {A : ZMod (order P)} {u : Uint N} {b : Fp P} (h : Bez A u b) (he : val u % 2 = 0) :
    Bez A (div2 u) (halveMod b) := by
  obtain ⟨h1, h2⟩ := h
  obtain ⟨g1, g2⟩ := halveMod_val hP h1
  refine ⟨g1, ?_⟩
  have e1 : ((2 : ℕ) : ZMod (order P)) * (val (halveMod b).mont : ZMod (order P)) = val b.mont := by
    rw [← Nat.cast_mul]
    rcases g2 with g2 | g2 <;> rw [g2]
    rw [Nat.cast_add, ZMod.natCast_self, add_zero]
  have e2 : ((2 : ℕ) : ZMod (order P)) * (val (div2 u) : ZMod (order P)) = val u := by
    rw [← Nat.cast_mul, div2_val]
    congr 1
    omega
  apply (two_unit hP).mul_left_cancel
  rw [← mul_assoc, e1, h2, ← e2, mul_assoc]

theorem halveLoop_ok (hP : Valid P) (A : ZMod (order P)) :
    ∀ (fuel : Nat) (u : Uint N) (b : Fp P), val u ≠ 0 → val u ≤ fuel → Bez A u b →
      ∃ u' b', halveLoop fuel u b = some (u', b') ∧ val u' % 2 = 1 ∧ val u' ∣ val u ∧ Bez A u' b' := by
  intro fuel
  induction fuel with
  | zero => intro u b h1 h2; omega
  | succ fuel ih =>
    intro u b h1 h2 h3
    rw [halveLoop, ctIsEven_iff hP.1]
    by_cases he : val u % 2 = 0
    · rw [decide_eq_true he, if_pos rfl]
      obtain ⟨u', b', g1, g2, g3, g4⟩ := ih (div2 u) (halveMod b) (by rw [div2_val]; omega) (by rw [div2_val]; omega) (bez_halve hP h3 he)
      refine ⟨u', b', g1, g2, ?_, g4⟩
      rw [div2_val] at g3
      exact g3.trans ⟨2, by omega⟩
    · rw [decide_eq_false he, if_neg (by decide)]
      exact ⟨u, b, rfl, by omega, Nat.dvd_refl _, h3⟩

theorem bez_sub (hP : Valid P) {A : ZMod (order P)} {u v : Uint N} {b c : Fp P} (h1 : Bez A u b) (h2 : Bez A v c)
    (hle : val v ≤ val u) : Bez A (checkedSubAssign u v).1 (sub b c) := by
  obtain ⟨g1, g2⟩ := sub_mont hP h1.1 h2.1
  refine ⟨g2, ?_⟩
  have hc := h2.1
  unfold Reduced at hc
  rw [g1, cast_mod, cast_sub_mod (by omega), subAssign_of_le hle, Nat.cast_sub hle, sub_mul, sub_mul, h1.2, h2.2]

theorem one_iff (hN : 0 < N) (u : Uint N) : u = ONE ↔ val u = 1 := by
  rw [← val_ONE hN]
  exact ⟨fun h => by rw [h], fun h => val_inj h⟩

theorem inverseLoop_ok (hP : Valid P) (A : ZMod (order P)) :
    ∀ (fuel : Nat) (u v : Uint N) (b c : Fp P), val u ≠ 0 → val v ≠ 0 → Nat.Coprime (val u) (val v) →
      val u + val v < fuel → Bez A u b → Bez A v c →
      ∃ x, inverseLoop fuel u v b c = some x ∧ Reduced x ∧ (val x.mont : ZMod (order P)) * A = radix P * radix P := by
  intro fuel
  induction fuel with
  | zero => intro u v b c _ _ _ h; omega
  | succ fuel ih =>
    intro u v b c hu hv hco hf hb hc
    rw [inverseLoop]
    by_cases h : u ≠ ONE ∧ v ≠ ONE
    · rw [if_pos h]
      obtain ⟨u', b', e1, o1, d1, z1⟩ := halveLoop_ok hP A fuel u b hu (by omega) hb
      obtain ⟨v', c', e2, o2, d2, z2⟩ := halveLoop_ok hP A fuel v c hv (by omega) hc
      have hco' : Nat.Coprime (val u') (val v') := (hco.coprime_dvd_left d1).coprime_dvd_right d2
      have hu' := Nat.le_of_dvd (by omega) d1
      have hv' := Nat.le_of_dvd (by omega) d2
      rw [e1]
      dsimp only
      rw [e2]
      dsimp only
      rw [cmp_eq]
      by_cases hlt : val v' < val u'
      · rw [if_pos (Nat.compare_eq_lt.mpr hlt)]
        have hs := subAssign_of_le (a := u') (b := v') (by omega)
        apply ih
        · rw [hs]; omega
        · omega
        · rw [hs]; exact (Nat.coprime_sub_self_left (by omega)).mpr hco'
        · rw [hs]; omega
        · exact bez_sub hP z1 z2 (by omega)
        · exact z2
      · rw [if_neg (fun e => hlt (Nat.compare_eq_lt.mp e))]
        by_cases heq : val u' = val v'
        · -- both are one
          have h1 : val u' = 1 := by
            rw [← heq] at hco'
            exact (Nat.coprime_self _).mp hco'
          refine ⟨b', ?_, z1.1, ?_⟩
          · have hf1 : ∃ k, fuel = k + 1 := ⟨fuel - 1, by omega⟩
            obtain ⟨k, rfl⟩ := hf1
            have hone : u' = ONE := (one_iff hP.1 u').mpr h1
            rw [inverseLoop, if_neg (fun h => h.1 hone), if_pos hone]
          · rw [z1.2, h1, Nat.cast_one, one_mul]
        · have hs := subAssign_of_le (a := v') (b := u') (by omega)
          apply ih
          · omega
          · rw [hs]; omega
          · rw [hs]; exact (Nat.coprime_sub_self_right (by omega)).mpr hco'
          · rw [hs]; omega
          · exact z1
          · exact bez_sub hP z2 z1 (by omega)
    · rw [if_neg h]
      by_cases h1 : u = ONE
      · rw [if_pos h1]
        refine ⟨b, rfl, hb.1, ?_⟩
        rw [hb.2, (one_iff hP.1 u).mp h1, Nat.cast_one, one_mul]
      · rw [if_neg h1]
        have h2 : v = ONE := by
          by_contra hv
          exact h ⟨h1, hv⟩
        refine ⟨c, rfl, hc.1, ?_⟩
        rw [hc.2, (one_iff hP.1 v).mp h2, Nat.cast_one, one_mul]

theorem coprime_mont (hP : Valid P) {a : Fp P} (h : Nat.Coprime (num a) (order P)) : Nat.Coprime (val a.mont) (order P) := by
  rw [← ZMod.isUnit_iff_coprime] at h ⊢
  rw [← num_radix hP]
  exact h.mul (radix_unit hP)

theorem inverse_ok (hP : Valid P) {a : Fp P} (ha : Reduced a) (hco : Nat.Coprime (num a) (order P)) (fuel : Nat)
    (hf : 2 * order P ≤ fuel) :
    ∃ x, inverse fuel a = some (some x) ∧ Reduced x ∧ (num a * num x) % order P = 1 := by
  have hp := hP.2.2
  have hm := coprime_mont hP hco
  have hz : val a.mont ≠ 0 := by
    intro e
    rw [e, Nat.coprime_zero_left] at hm
    omega
  obtain ⟨x, e, hx, hv⟩ := inverseLoop_ok hP (val a.mont : ZMod (order P)) fuel a.mont P.modulus ⟨P.r2⟩ (zero P) hz
    (by unfold order at hp; omega) hm (by unfold Reduced order at *; omega)
    ⟨reduced_r2 hP, by rw [r2_cast hP, mul_comm]⟩
    ⟨reduced_zero hP, by
      unfold zero; rw [val_ZERO, Nat.cast_zero, zero_mul]
      have : (val P.modulus : ZMod (order P)) = 0 := ZMod.natCast_self _
      rw [this, zero_mul]⟩
  refine ⟨x, ?_, hx, ?_⟩
  · unfold inverse
    rw [if_neg (fun h => hz ((isZero_iff a).mp h)), e]
    rfl
  · rw [← num_radix hP x, ← num_radix hP a] at hv
    have h2 : ((num a * num x : ℕ) : ZMod (order P)) = ((1 : ℕ) : ZMod (order P)) := by
      apply ((radix_unit hP).mul (radix_unit hP)).mul_right_cancel
      push_cast
      linear_combination hv
    rw [ZMod.natCast_eq_natCast_iff', Nat.mod_eq_of_lt hp] at h2
    exact h2

/-- A common factor of the two numbers is never removed, so the loop does not end. -/
theorem halveLoop_dvd (hP : Valid P) {g : Nat} (hg : g % 2 = 1) :
    ∀ (fuel : Nat) (u : Uint N) (b : Fp P) (u' : Uint N) (b' : Fp P), g ∣ val u → halveLoop fuel u b = some (u', b') → g ∣ val u' := by
  intro fuel
  induction fuel with
  | zero => intro u b u' b' _ h; rw [halveLoop] at h; cases h
  | succ fuel ih =>
    intro u b u' b' hd h
    rw [halveLoop, ctIsEven_iff hP.1] at h
    by_cases he : val u % 2 = 0
    · rw [decide_eq_true he, if_pos rfl] at h
      refine ih _ _ _ _ ?_ h
      rw [div2_val]
      have hc : Nat.Coprime g 2 := Nat.coprime_two_right.mpr (Nat.odd_iff.mpr hg)
      refine hc.dvd_of_dvd_mul_left ?_
      rwa [show 2 * (val u / 2) = val u by omega]
    · rw [decide_eq_false he, if_neg (by decide)] at h
      injection h with h
      injection h with h1 h2
      rw [← h1]; exact hd

theorem subAssign_dvd {g : Nat} {u v : Uint N} (hle : val v ≤ val u) (h1 : g ∣ val u) (h2 : g ∣ val v) :
    g ∣ val (checkedSubAssign u v).1 := by
  rw [subAssign_of_le hle]
  exact Nat.dvd_sub h1 h2

theorem inverseLoop_stuck (hP : Valid P) {g : Nat} (hg : g % 2 = 1) (hg1 : 1 < g) :
    ∀ (fuel : Nat) (u v : Uint N) (b c : Fp P), g ∣ val u → g ∣ val v → inverseLoop fuel u v b c = none := by
  intro fuel
  induction fuel with
  | zero => intros; rw [inverseLoop]
  | succ fuel ih =>
    intro u v b c hu hv
    rw [inverseLoop]
    have hne : ∀ w : Uint N, g ∣ val w → w ≠ ONE := by
      intro w hw e
      rw [(one_iff hP.1 w).mp e] at hw
      have := Nat.le_of_dvd (by omega) hw
      omega
    rw [if_pos ⟨hne u hu, hne v hv⟩]
    cases h1 : halveLoop fuel u b with
    | none => rfl
    | some p =>
      obtain ⟨u', b'⟩ := p
      have d1 := halveLoop_dvd hP hg _ _ _ _ _ hu h1
      dsimp only
      cases h2 : halveLoop fuel v c with
      | none => rfl
      | some q =>
        obtain ⟨v', c'⟩ := q
        have d2 := halveLoop_dvd hP hg _ _ _ _ _ hv h2
        dsimp only
        rw [cmp_eq]
        by_cases hlt : val v' < val u'
        · rw [if_pos (Nat.compare_eq_lt.mpr hlt)]
          exact ih _ _ _ _ (subAssign_dvd (by omega) d1 d2) d2
        · rw [if_neg (fun e => hlt (Nat.compare_eq_lt.mp e))]
          exact ih _ _ _ _ d1 (subAssign_dvd (by omega) d2 d1)

theorem inverse_stuck (hP : Valid P) {a : Fp P} (hz : num a ≠ 0) (hnc : ¬ Nat.Coprime (num a) (order P)) (fuel : Nat) :
    inverse fuel a = none := by
  have hg : Nat.gcd (val a.mont) (order P) ≠ 1 := by
    intro h
    apply hnc
    have h : Nat.Coprime (val a.mont) (order P) := h
    rw [← ZMod.isUnit_iff_coprime, ← num_radix hP] at h
    rw [← ZMod.isUnit_iff_coprime]
    exact isUnit_of_mul_isUnit_left h
  have hzm : val a.mont ≠ 0 := by
    intro e
    apply hz
    have : a = zero P := by
      cases a with
      | mk m => exact congrArg Fp.mk (val_inj (e.trans val_ZERO.symm))
    rw [this, num_zero hP]
  unfold inverse
  rw [if_neg (fun h => hzm ((isZero_iff a).mp h))]
  have hodd : Nat.gcd (val a.mont) (order P) % 2 = 1 := by
    have hd : Nat.gcd (val a.mont) (order P) ∣ order P := Nat.gcd_dvd_right _ _
    have := Odd.of_dvd_nat (Nat.odd_iff.mpr hP.2.1) hd
    exact Nat.odd_iff.mp this
  rw [inverseLoop_stuck hP hodd (by omega) fuel _ _ _ _ (Nat.gcd_dvd_left _ _) (Nat.gcd_dvd_right _ _)]
  rfl

/-! ## Sums, products, powers -/

theorem num_sum (hP : Valid P) (l : List (Fp P)) (hl : ∀ a ∈ l, Reduced a) :
    num (sum l) = (l.map num).sum % order P ∧ Reduced (sum l) := by
  have key : ∀ (l : List (Fp P)) (acc : Fp P), Reduced acc → (∀ a ∈ l, Reduced a) →
      num (l.foldl add acc) = (num acc + (l.map num).sum) % order P ∧ Reduced (l.foldl add acc) := by
    intro l
    induction l with
    | nil => intro acc hacc _; simp [Nat.mod_eq_of_lt (num_lt hP hacc), hacc]
    | cons x l ih =>
      intro acc hacc h
      obtain ⟨h1, h2⟩ := num_add hP hacc (h x (by simp))
      obtain ⟨g1, g2⟩ := ih (add acc x) h2 fun a ha => h a (by simp [ha])
      refine ⟨?_, g2⟩
      rw [List.foldl_cons, g1, h1, List.map_cons, List.sum_cons, Nat.mod_add_mod, Nat.add_assoc]
  have := key l (zero P) (reduced_zero hP) hl
  rw [num_zero hP, Nat.zero_add] at this
  exact this

theorem num_product (hP : Valid P) (l : List (Fp P)) (hl : ∀ a ∈ l, Reduced a) :
    num (product l) = (l.map num).prod % order P ∧ Reduced (product l) := by
  have key : ∀ (l : List (Fp P)) (acc : Fp P), Reduced acc → (∀ a ∈ l, Reduced a) →
      num (l.foldl mul acc) = (num acc * (l.map num).prod) % order P ∧ Reduced (l.foldl mul acc) := by
    intro l
    induction l with
    | nil => intro acc hacc _; simp [Nat.mod_eq_of_lt (num_lt hP hacc), hacc]
    | cons x l ih =>
      intro acc hacc h
      obtain ⟨h1, h2⟩ := num_mul hP (a := acc) (h x (by simp))
      obtain ⟨g1, g2⟩ := ih (mul acc x) h2 fun a ha => h a (by simp [ha])
      refine ⟨?_, g2⟩
      rw [List.foldl_cons, g1, h1, List.map_cons, List.prod_cons, Nat.mod_mul_mod, Nat.mul_assoc]
  have := key l (one P) (reduced_one hP) hl
  rw [num_one hP, Nat.one_mul] at this
  exact this

theorem num_sumOfProducts (hP : Valid P) (l : List (Fp P × Fp P)) (hl : ∀ a ∈ l, Reduced a.1 ∧ Reduced a.2) :
    num (sumOfProducts l) = (l.map fun x => num x.1 * num x.2).sum % order P ∧ Reduced (sumOfProducts l) := by
  have key : ∀ (l : List (Fp P × Fp P)) (acc : Fp P), Reduced acc → (∀ a ∈ l, Reduced a.1 ∧ Reduced a.2) →
      num (l.foldl (fun s x => add s (mul x.1 x.2)) acc) = (num acc + (l.map fun x => num x.1 * num x.2).sum) % order P ∧
        Reduced (l.foldl (fun s x => add s (mul x.1 x.2)) acc) := by
    intro l
    induction l with
    | nil => intro acc hacc _; simp [Nat.mod_eq_of_lt (num_lt hP hacc), hacc]
    | cons x l ih =>
      intro acc hacc h
      obtain ⟨m1, m2⟩ := num_mul hP (a := x.1) (h x (by simp)).2
      obtain ⟨h1, h2⟩ := num_add hP hacc m2
      obtain ⟨g1, g2⟩ := ih (add acc (mul x.1 x.2)) h2 fun a ha => h a (by simp [ha])
      refine ⟨?_, g2⟩
      rw [List.foldl_cons, g1, h1, List.map_cons, List.sum_cons, m1, Nat.mod_add_mod, Nat.add_assoc,
        Nat.add_left_comm, Nat.mod_add_mod, Nat.add_left_comm]
  have := key l (zero P) (reduced_zero hP) hl
  rw [num_zero hP, Nat.zero_add] at this
  exact this

theorem pow_fold (hP : Valid P) {a : Fp P} (ha : Reduced a) :
    ∀ (bits : List Bool) (r : Fp P) (e : Nat), Reduced r → num r = num a ^ e % order P →
      ∃ x, bits.foldl (powStep a) (some r) = some x ∧ Reduced x ∧
        num x = num a ^ (bits.foldl (fun acc b => 2 * acc + b.toNat) e) % order P := by
  intro bits
  induction bits with
  | nil => intro r e hr h; exact ⟨r, rfl, hr, h⟩
  | cons b bits ih =>
    intro r e hr h
    obtain ⟨h1, h2⟩ := num_mul hP (a := r) hr
    have hs : num (square r) = num a ^ (2 * e) % order P := by
      unfold square
      rw [h1, h, ← Nat.mul_mod, ← Nat.pow_add]
      congr 2; omega
    rw [List.foldl_cons, List.foldl_cons]
    cases b with
    | false =>
      exact ih (square r) (2 * e + false.toNat) h2 hs
    | true =>
      obtain ⟨g1, g2⟩ := num_mul hP (a := square r) ha
      refine ih (mul (square r) a) (2 * e + true.toNat) g2 ?_
      rw [g1, hs, Nat.mod_mul_mod, ← Nat.pow_succ]
      rfl

theorem num_pow (hP : Valid P) {a : Fp P} (ha : Reduced a) (bits : List Bool) :
    num (pow a bits) = num a ^ bitsValue bits % order P ∧ Reduced (pow a bits) := by
  unfold pow
  obtain ⟨h1, h2⟩ := trimmed_value bits
  rw [← h1]
  rcases h2 with h2 | ⟨t, h2⟩ <;> rw [h2]
  · simp only [List.foldl_nil, Option.getD_none]
    refine ⟨?_, reduced_one hP⟩
    rw [num_one hP]
    show 1 = num a ^ 0 % order P
    rw [Nat.pow_zero, Nat.mod_eq_of_lt hP.2.2]
  · obtain ⟨x, e, hx, hv⟩ := pow_fold hP ha t a 1 ha (by rw [Nat.pow_one, Nat.mod_eq_of_lt (num_lt hP ha)])
    have : List.foldl (powStep a) none (true :: t) = some x := e
    rw [this]
    exact ⟨hv, hx⟩

/-! ## Conversions from signed integers -/

/-- Changing the sign when the input was not positive gives the residue of the signed number. -/
theorem num_signed (hP : Valid P) {abs : Fp P} (habs : Reduced abs) {n : Nat} (hn : num abs = n % order P) (neg? : Bool) :
    ((num (if neg? then neg abs else abs) : ℕ) : ℤ) = (if neg? then -(n : ℤ) else n) % (order P : ℤ) ∧
      Reduced (if neg? then neg abs else abs) := by
  have hp := hP.2.2
  cases neg?
  · simp only [Bool.false_eq_true, if_false]
    refine ⟨?_, habs⟩
    rw [hn]; exact_mod_cast rfl
  · simp only [if_true]
    obtain ⟨h1, h2⟩ := num_neg hP habs
    refine ⟨?_, h2⟩
    rw [h1, hn]
    have hlt := Nat.mod_lt n (by omega : order P > 0)
    rw [Int.natCast_mod, Int.ofNat_sub (by omega), Int.natCast_mod]
    rw [show ((order P : ℤ) - (n : ℤ) % (order P : ℤ)) = -((n : ℤ) % (order P : ℤ)) + (order P : ℤ) by ring, Int.add_emod_right]
    exact ((Int.mod_modEq _ _).neg : -((n : ℤ) % (order P : ℤ)) ≡ -(n : ℤ) [ZMOD (order P : ℤ)])

theorem slt_zero {w : Nat} (v : BitVec w) : v.slt 0#w = decide (v.toInt < 0) := by
  rw [BitVec.slt, BitVec.toInt_zero]

theorem zero_slt {w : Nat} (v : BitVec w) : (0#w).slt v = decide (0 < v.toInt) := by
  rw [BitVec.slt, BitVec.toInt_zero]

theorem abs_toNat {w : Nat} (v : BitVec w) :
    (((if v.slt 0#w then -v else v).toNat : ℕ) : ℤ) = if v.toInt < 0 then -v.toInt else v.toInt := by
  rw [slt_zero]
  by_cases h : v.toInt < 0
  · rw [decide_eq_true h, if_pos rfl, if_pos h, BitVec.toNat_neg]
    rw [BitVec.toInt_eq_toNat_cond] at h ⊢
    have := v.isLt
    split at h
    · omega
    · rename_i hc
      rw [if_neg hc, Nat.mod_eq_of_lt (by omega)]
      omega
  · rw [decide_eq_false h, if_neg (by decide), if_neg h]
    rw [BitVec.toInt_eq_toNat_cond] at h ⊢
    have := v.isLt
    split
    · rfl
    · rename_i hc
      rw [if_neg hc] at h
      omega

theorem signed_num (hP : Valid P) {w : Nat} (v : BitVec w) {abs : Fp P} (habs : Reduced abs)
    (hn : num abs = (if v.slt 0#w then -v else v).toNat % order P) :
    ((num (if (0#w).slt v then abs else neg abs) : ℕ) : ℤ) = v.toInt % (order P : ℤ) ∧
      Reduced (if (0#w).slt v then abs else neg abs) := by
  have h := num_signed hP habs hn (!(0#w).slt v)
  have e : (if (!(0#w).slt v) = true then neg abs else abs) = (if (0#w).slt v then abs else neg abs) := by
    cases (0#w).slt v <;> rfl
  rw [e] at h
  refine ⟨?_, h.2⟩
  rw [h.1, abs_toNat, zero_slt]
  by_cases h0 : 0 < v.toInt
  · rw [decide_eq_true h0]
    simp only [Bool.not_true, Bool.false_eq_true, if_false]
    rw [if_neg (by omega)]
  · rw [decide_eq_false h0]
    simp only [Bool.not_false, if_true]
    split
    · rw [neg_neg]
    · rw [show v.toInt = 0 by omega, neg_zero]

end Verif.Fp
