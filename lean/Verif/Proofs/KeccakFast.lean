import Verif.Spec.Keccak
/-!
# Keccak-256 on one large number

The state is a single number, lane `i` being bits `64 i … 64 i + 63`.  The kernel evaluates it much faster than the
specification; `keccak256_eq` says that it is the same function.
-/

namespace Verif.Proofs.KeccakFast
open Verif.Spec.Keccak

/-- Evaluate a number before going on. -/
def force {α : Type} (x : Nat) (k : Nat → α) : α :=
  match x with
  | 0 => k 0
  | n + 1 => k (n + 1)

/-- Lane `i`. -/
def ln (n i : Nat) : Nat := (n >>> (64 * i)) % 18446744073709551616

/-- The number with the given lanes, `f 0` lowest. -/
def pack (f : Nat → Nat) : Nat → Nat → Nat
  | 0, acc => acc
  | n + 1, acc => pack f n (acc * 18446744073709551616 + f n)

/-- Rotation of a lane. -/
def rotl (x k : Nat) : Nat := (x <<< k) % 18446744073709551616 ||| x >>> (64 - k)

/-- The rounds. -/
def rounds : List Lane → Nat → Nat
  | [], n => n
  | rc :: rcs, n =>
    force (pack (fun x => ln n x ^^^ ln n (x + 5) ^^^ ln n (x + 10) ^^^ ln n (x + 15) ^^^ ln n (x + 20)) 5 0) fun c =>
    force (pack (fun x => ln c ((x + 4) % 5) ^^^ rotl (ln c ((x + 1) % 5)) 1) 5 0) fun d =>
    force (pack (fun i => ln n i ^^^ ln d (i % 5)) 25 0) fun n =>
    force (pack (fun i =>
      let x' := (i % 5 + 3 * (i / 5)) % 5
      let j := x' + 5 * (i % 5)
      rotl (ln n j) (offsets.getD j 0)) 25 0) fun n =>
    force (pack (fun i =>
      let y := 5 * (i / 5)
      ln n i ^^^ ((18446744073709551615 - ln n ((i % 5 + 1) % 5 + y)) &&& ln n ((i % 5 + 2) % 5 + y))) 25 0 ^^^ rc.toNat) fun n =>
    rounds rcs n

def absorbAll : List (List U8) → Nat → Nat
  | [], n => n
  | b :: bs, n => force (n ^^^ leNat b) fun n => absorbAll bs (rounds roundConstants n)

def digestFast (n : Nat) : BitVec 256 :=
  BitVec.ofNat 256 ((List.range 32).foldl (fun acc i => (n >>> (8 * i)) % 256 + 256 * acc) 0)

def fast (m : List U8) : BitVec 256 :=
  digestFast (absorbAll (blocks (m.length / 136 + 1) (pad m)) 0)


/-! ## Equality with the specification -/

theorem force_eq {α : Type} (x : Nat) (k : Nat → α) : force x k = k x := by cases x <;> rfl

theorem pack_div (f : Nat → Nat) (hf : ∀ i, f i < 2 ^ 64) (k a : Nat) : pack f k a / 2 ^ (64 * k) = a := by
  induction k generalizing a with
  | zero => simp [pack]
  | succ k ih =>
    rw [pack, show 64 * (k + 1) = 64 * k + 64 by omega, Nat.pow_add, ← Nat.div_div_eq_div_mul, ih]
    have := hf k
    omega

theorem ln_pack (f : Nat → Nat) (hf : ∀ i, f i < 2 ^ 64) (k a i : Nat) (hi : i < k) : ln (pack f k a) i = f i := by
  induction k generalizing a with
  | zero => omega
  | succ k ih =>
    by_cases h : i = k
    · subst h
      unfold ln
      rw [pack, Nat.shiftRight_eq_div_pow, pack_div f hf]
      have := hf i
      omega
    · rw [pack]
      exact ih _ (by omega)

theorem ln_lt (n i : Nat) : ln n i < 2 ^ 64 := Nat.mod_lt _ (by decide)

theorem rotl_eq (x : Lane) (k : Nat) (hk : k < 64) : rotl x.toNat k = (x.rotateLeft k).toNat := by
  unfold rotl
  rw [BitVec.toNat_rotateLeft, Nat.mod_eq_of_lt hk]

theorem rotl_lt (x k : Nat) (hx : x < 2 ^ 64) : rotl x k < 2 ^ 64 := by
  unfold rotl
  refine Nat.or_lt_two_pow (Nat.mod_lt _ (by decide)) ?_
  rw [Nat.shiftRight_eq_div_pow]
  exact lt_of_le_of_lt (Nat.div_le_self _ _) hx

/-- The number holds the lanes of the list. -/
def Rep (s : List Lane) (n : Nat) : Prop := s.length = 25 ∧ ∀ i < 25, ln n i = (s.getD i 0#64).toNat

theorem tabulate_getD (f : Nat → Nat → Lane) (i : Nat) (hi : i < 25) : (tabulate f).getD i 0#64 = f (i % 5) (i / 5) := by
  unfold tabulate
  rw [List.getD_eq_getElem?_getD, List.getElem?_map, List.getElem?_range hi]
  rfl

theorem rep_pack {f : Nat → Nat → Lane} {g : Nat → Nat} (hg : ∀ i, g i < 2 ^ 64)
    (h : ∀ i < 25, g i = (f (i % 5) (i / 5)).toNat) : Rep (tabulate f) (pack g 25 0) := by
  refine ⟨by simp [tabulate], fun i hi => ?_⟩
  rw [ln_pack g hg 25 0 i hi, tabulate_getD f i hi, h i hi]

theorem theta_rep {s : List Lane} {n : Nat} (h : Rep s n) :
    Rep (theta s) (pack (fun i => ln n i ^^^ ln (pack (fun x => ln (pack (fun x => ln n x ^^^ ln n (x + 5) ^^^ ln n (x + 10) ^^^ ln n (x + 15) ^^^ ln n (x + 20)) 5 0) ((x + 4) % 5) ^^^ rotl (ln (pack (fun x => ln n x ^^^ ln n (x + 5) ^^^ ln n (x + 10) ^^^ ln n (x + 15) ^^^ ln n (x + 20)) 5 0) ((x + 1) % 5)) 1) 5 0) (i % 5)) 25 0) := by
  have hx : ∀ {a b : Nat}, a < 2 ^ 64 → b < 2 ^ 64 → a ^^^ b < 2 ^ 64 := fun ha hb => Nat.xor_lt_two_pow ha hb
  have hc : ∀ x < 5, ln (pack (fun x => ln n x ^^^ ln n (x + 5) ^^^ ln n (x + 10) ^^^ ln n (x + 15) ^^^ ln n (x + 20)) 5 0) x =
      (((List.range 5).map fun x => lane s x 0 ^^^ lane s x 1 ^^^ lane s x 2 ^^^ lane s x 3 ^^^ lane s x 4).getD x 0#64).toNat := by
    intro x hx5
    rw [ln_pack _ (fun i => hx (hx (hx (hx (ln_lt _ _) (ln_lt _ _)) (ln_lt _ _)) (ln_lt _ _)) (ln_lt _ _)) 5 0 x hx5,
      List.getD_eq_getElem?_getD, List.getElem?_map, List.getElem?_range hx5]
    simp only [Option.map_some, Option.getD_some, lane, BitVec.toNat_xor]
    rw [Nat.mod_eq_of_lt hx5]
    rw [h.2 x (by omega), h.2 (x + 5) (by omega), h.2 (x + 10) (by omega), h.2 (x + 15) (by omega), h.2 (x + 20) (by omega)]
    rfl
  generalize pack (fun x => ln n x ^^^ ln n (x + 5) ^^^ ln n (x + 10) ^^^ ln n (x + 15) ^^^ ln n (x + 20)) 5 0 = c at *
  unfold theta
  dsimp only
  generalize (List.map (fun x => lane s x 0 ^^^ lane s x 1 ^^^ lane s x 2 ^^^ lane s x 3 ^^^ lane s x 4) (List.range 5)) = cl at *
  refine rep_pack (fun i => hx (ln_lt _ _) (ln_lt _ _)) fun i hi => ?_
  rw [ln_pack _ (fun i => hx (ln_lt _ _) (rotl_lt _ _ (ln_lt _ _))) 5 0 (i % 5) (Nat.mod_lt _ (by decide))]
  rw [hc _ (Nat.mod_lt _ (by decide)), hc _ (Nat.mod_lt _ (by decide)), rotl_eq _ _ (by decide)]
  simp only [lane, BitVec.toNat_xor, h.2 i hi]
  rw [show i % 5 % 5 + 5 * (i / 5 % 5) = i by omega]
  rw [Nat.xor_assoc]

theorem offsets_lt : ∀ j, offsets.getD j 0 < 64 := by
  intro j
  by_cases h : j < 25
  · revert j; decide
  · rw [List.getD_eq_getElem?_getD, List.getElem?_eq_none (by simp [offsets]; omega)]
    decide

theorem rhoPi_rep {s : List Lane} {n : Nat} (h : Rep s n) :
    Rep (rhoPi s) (pack (fun i => rotl (ln n ((i % 5 + 3 * (i / 5)) % 5 + 5 * (i % 5))) (offsets.getD ((i % 5 + 3 * (i / 5)) % 5 + 5 * (i % 5)) 0)) 25 0) := by
  unfold rhoPi
  refine rep_pack (fun i => rotl_lt _ _ (ln_lt _ _)) fun i hi => ?_
  dsimp only [lane]
  rw [h.2 _ (by omega), rotl_eq _ _ (offsets_lt _)]
  rw [show (i % 5 + 3 * (i / 5)) % 5 % 5 + 5 * (i % 5 % 5) = (i % 5 + 3 * (i / 5)) % 5 + 5 * (i % 5) by omega]

theorem chi_rep {s : List Lane} {n : Nat} (h : Rep s n) :
    Rep (chi s) (pack (fun i => ln n i ^^^ ((18446744073709551615 - ln n ((i % 5 + 1) % 5 + 5 * (i / 5))) &&& ln n ((i % 5 + 2) % 5 + 5 * (i / 5)))) 25 0) := by
  unfold chi
  refine rep_pack (fun i => Nat.xor_lt_two_pow (ln_lt _ _) (Nat.and_lt_two_pow _ (ln_lt _ _))) fun i hi => ?_
  dsimp only [lane]
  rw [h.2 _ (by omega), h.2 _ (by omega), h.2 _ (by omega)]
  rw [BitVec.toNat_xor, BitVec.toNat_and, BitVec.toNat_not]
  rw [show i % 5 % 5 + 5 * (i / 5 % 5) = i by omega, show i / 5 % 5 = i / 5 by omega]

theorem xor_ln (n r i : Nat) : ln (n ^^^ r) i = ln n i ^^^ ln r i := by
  unfold ln
  rw [Nat.shiftRight_xor_distrib, show (18446744073709551616 : Nat) = 2 ^ 64 from rfl, Nat.xor_mod_two_pow]

theorem iota_rep {s : List Lane} {n : Nat} (h : Rep s n) (rc : Lane) : Rep (iota rc s) (n ^^^ rc.toNat) := by
  obtain ⟨hl, hs⟩ := h
  refine ⟨by simp [iota, hl], fun i hi => ?_⟩
  rw [xor_ln, hs i hi]
  cases i with
  | zero =>
    have : ln rc.toNat 0 = rc.toNat := by unfold ln; simpa using rc.isLt
    rw [this]
    simp [iota, lane, BitVec.toNat_xor]
  | succ i =>
    have : ln rc.toNat (i + 1) = 0 := by
      unfold ln
      rw [Nat.shiftRight_eq_div_pow, Nat.div_eq_of_lt]
      exact lt_of_lt_of_le rc.isLt (Nat.pow_le_pow_right (by decide) (by omega))
    rw [this, Nat.xor_zero]
    cases s with
    | nil => simp at hl
    | cons a s => simp [iota]

theorem rounds_rep (rcs : List Lane) {s : List Lane} {n : Nat} (h : Rep s n) :
    Rep (rcs.foldl (fun s rc => iota rc (chi (rhoPi (theta s)))) s) (rounds rcs n) := by
  induction rcs generalizing s n with
  | nil => exact h
  | cons rc rcs ih =>
    rw [List.foldl_cons, rounds]
    simp only [force_eq]
    exact ih (iota_rep (chi_rep (rhoPi_rep (theta_rep h))) rc)

theorem leNat_lt (l : List U8) : leNat l < 2 ^ (8 * l.length) := by
  induction l with
  | nil => simp [leNat]
  | cons b l ih =>
    have e : leNat (b :: l) = b.toNat + 256 * leNat l := rfl
    rw [e, List.length_cons, show 8 * (l.length + 1) = 8 * l.length + 8 by omega, Nat.pow_add]
    have := b.isLt
    omega

theorem leNat_append (a b : List U8) : leNat (a ++ b) = leNat a + 2 ^ (8 * a.length) * leNat b := by
  induction a with
  | nil => simp [leNat]
  | cons x a ih =>
    have e : ∀ l : List U8, leNat (x :: l) = x.toNat + 256 * leNat l := fun _ => rfl
    rw [List.cons_append, e, ih, e, List.length_cons, show 8 * (a.length + 1) = 8 * a.length + 8 by omega, Nat.pow_add,
      Nat.mul_add, Nat.add_assoc, ← Nat.mul_assoc, Nat.mul_comm 256 (2 ^ (8 * a.length))]

theorem leNat_drop (l : List U8) (k : Nat) : leNat l / 2 ^ (8 * k) = leNat (l.drop k) := by
  by_cases h : k ≤ l.length
  · conv_lhs => rw [← List.take_append_drop k l, leNat_append, List.length_take, Nat.min_eq_left h]
    rw [Nat.add_mul_div_left _ _ (Nat.pow_pos (by decide)), Nat.div_eq_of_lt, Nat.zero_add]
    have := leNat_lt (l.take k)
    rwa [List.length_take, Nat.min_eq_left h] at this
  · rw [List.drop_eq_nil_of_le (by omega), Nat.div_eq_of_lt]
    · rfl
    · exact lt_of_lt_of_le (leNat_lt l) (Nat.pow_le_pow_right (by decide) (by omega))

theorem leNat_take (l : List U8) : leNat l % 2 ^ 64 = leNat (l.take 8) := by
  by_cases h : 8 ≤ l.length
  · conv_lhs => rw [← List.take_append_drop 8 l, leNat_append, List.length_take, Nat.min_eq_left h]
    rw [show 8 * 8 = 64 from rfl, Nat.add_mul_mod_self_left, Nat.mod_eq_of_lt]
    have := leNat_lt (l.take 8)
    rwa [List.length_take, Nat.min_eq_left h] at this
  · rw [List.take_of_length_le (by omega), Nat.mod_eq_of_lt]
    exact lt_of_lt_of_le (leNat_lt l) (Nat.pow_le_pow_right (by decide) (by omega))

theorem absorb_rep {s : List Lane} {n : Nat} (h : Rep s n) (b : List U8) :
    Rep (absorb s b) (rounds roundConstants (n ^^^ leNat b)) := by
  refine rounds_rep _ ⟨by simp, fun i hi => ?_⟩
  rw [xor_ln, h.2 i hi]
  conv_rhs => rw [List.getD_eq_getElem?_getD, List.getElem?_map, List.getElem?_range hi]
  simp only [Option.map_some, Option.getD_some, BitVec.toNat_xor, BitVec.toNat_ofNat]
  congr 1
  unfold ln
  rw [Nat.shiftRight_eq_div_pow, show 64 * i = 8 * (8 * i) by omega, leNat_drop,
    show (18446744073709551616 : Nat) = 2 ^ 64 from rfl, leNat_take, Nat.mod_eq_of_lt]
  have := leNat_lt ((b.drop (8 * i)).take 8)
  exact lt_of_lt_of_le this (Nat.pow_le_pow_right (by decide) (by simp; omega))

theorem absorbAll_rep (bs : List (List U8)) {s : List Lane} {n : Nat} (h : Rep s n) :
    Rep (bs.foldl absorb s) (absorbAll bs n) := by
  induction bs generalizing s n with
  | nil => exact h
  | cons b bs ih =>
    rw [List.foldl_cons, absorbAll, force_eq]
    exact ih (absorb_rep h b)

theorem byte_eq (n i j : Nat) (x : Lane) (h : ln n i = x.toNat) (hj : j < 8) :
    (n >>> (8 * (8 * i + j))) % 256 = (x.extractLsb' (8 * j) 8).toNat := by
  rw [BitVec.extractLsb'_toNat, ← h]
  unfold ln
  rw [Nat.shiftRight_eq_div_pow, Nat.shiftRight_eq_div_pow, Nat.shiftRight_eq_div_pow,
    show 8 * (8 * i + j) = 64 * i + 8 * j by omega, Nat.pow_add, ← Nat.div_div_eq_div_mul]
  generalize n / 2 ^ (64 * i) = m
  rw [show (18446744073709551616 : Nat) = 2 ^ (8 * j) * 2 ^ (64 - 8 * j) by
    rw [← Nat.pow_add, show 8 * j + (64 - 8 * j) = 64 by omega], Nat.mod_mul_right_div_self]
  rw [Nat.mod_mod_of_dvd]
  exact Nat.pow_dvd_pow 2 (by omega : 8 ≤ 64 - 8 * j)

theorem digest_rep {s : List Lane} {n : Nat} (h : Rep s n) : digest s = digestFast n := by
  unfold digest digestFast
  refine congrArg (BitVec.ofNat 256) ?_
  have hf : ∀ (l : List U8) (acc : Nat), l.foldl (fun n (b : U8) => b.toNat + 256 * n) acc =
      (l.map fun b : U8 => b.toNat).foldl (fun n b => b + 256 * n) acc := by
    intro l acc; rw [List.foldl_map]
  have hg : ∀ (l : List Nat) (acc : Nat), l.foldl (fun acc i => (n >>> (8 * i)) % 256 + 256 * acc) acc =
      (l.map fun i => (n >>> (8 * i)) % 256).foldl (fun n b => b + 256 * n) acc := by
    intro l acc; rw [List.foldl_map]
  rw [hf, hg]
  refine congrArg (List.foldl _ 0) ?_
  obtain ⟨hl, hs⟩ := h
  match s, hl, hs with
  | a :: b :: c :: d :: rest, _, hs =>
    have h0 := hs 0 (by decide)
    have h1 := hs 1 (by decide)
    have h2 := hs 2 (by decide)
    have h3 := hs 3 (by decide)
    simp only [List.getD_cons_zero, List.getD_cons_succ] at h0 h1 h2 h3
    have e : (List.range 32).map (fun i => (n >>> (8 * i)) % 256) =
        (List.range 8).map (fun j => (n >>> (8 * (8 * 0 + j))) % 256) ++
        ((List.range 8).map (fun j => (n >>> (8 * (8 * 1 + j))) % 256) ++
        ((List.range 8).map (fun j => (n >>> (8 * (8 * 2 + j))) % 256) ++
        (List.range 8).map (fun j => (n >>> (8 * (8 * 3 + j))) % 256))) := rfl
    rw [e]
    have g : ∀ (i : Nat) (x : Lane), ln n i = x.toNat → (List.range 8).map (fun j => (n >>> (8 * (8 * i + j))) % 256) =
        (List.range 8).map (fun j => (x.extractLsb' (8 * j) 8).toNat) := by
      intro i x hx
      refine List.map_congr_left fun j hj => byte_eq n i j x hx (List.mem_range.mp hj)
    rw [g 0 a h0, g 1 b h1, g 2 c h2, g 3 d h3]
    simp only [List.take_succ_cons, List.take_zero, List.flatMap_cons, List.flatMap_nil, List.map_append, List.map_map,
      List.append_nil, List.map_nil]
    rfl

/-- The two functions are equal. -/
theorem keccak256_eq : keccak256 = fast := by
  funext m
  unfold keccak256 fast
  refine digest_rep (absorbAll_rep _ ⟨by simp, fun i hi => ?_⟩)
  unfold ln
  rw [Nat.zero_shiftRight, List.getD_eq_getElem?_getD, List.getElem?_replicate, if_pos hi]
  rfl

end Verif.Proofs.KeccakFast
