import Mathlib.Algebra.BigOperators.Group.Finset.Basic
import Mathlib.Algebra.BigOperators.Group.Finset.Piecewise
import Mathlib.Algebra.BigOperators.Ring.Finset
import Mathlib.Algebra.Order.BigOperators.Group.Finset
import Mathlib.Data.Fintype.Card
import Mathlib.Data.Fintype.EquivFin
import Mathlib.Data.Fintype.BigOperators
import Mathlib.Tactic.Ring
import Mathlib.Tactic.Linarith
/-!
# Base definitions shared by all models

Machine words, addresses, checked arithmetic, storage maps and histories.

Words are `BitVec n`; `+`, `-`, `*` on them wrap modulo `2^n`, which is the behaviour of the operators
of alloy's `Uint` (ruint).  `checked_*` operations are partial, as in Rust.
-/

namespace Verif

/-- alloy `U256`. -/
abbrev U256 := BitVec 256
/-- alloy `U96` (checkpoint keys, vesting-free sizes). -/
abbrev U96 := BitVec 96
/-- alloy `U160` (an address stored as integer). -/
abbrev U160 := BitVec 160
/-- Rust `u64`. -/
abbrev U64 := BitVec 64
/-- Rust `u8`. -/
abbrev U8 := BitVec 8
/-- alloy `Address` (20 bytes). -/
abbrev Address := BitVec 160
/-- `Address::ZERO`. -/
def ZERO : Address := 0#160
/-- alloy `B256` (32 bytes), big-endian value. -/
abbrev B256 := BitVec 256

/-- There are finitely many words of each width, so sums over all addresses make sense. -/
instance instFintypeBitVec (n : Nat) : Fintype (BitVec n) :=
  Fintype.ofEquiv (Fin (2 ^ n)) ⟨BitVec.ofFin, BitVec.toFin, fun _ => rfl, fun _ => rfl⟩

/-- `U256::MAX`. -/
def maxU256 : U256 := BitVec.allOnes 256

@[simp] theorem maxU256_toNat : maxU256.toNat = 2 ^ 256 - 1 := by
  simp [maxU256]

/-- `Uint::checked_add`. -/
def checkedAdd {n : Nat} (a b : BitVec n) : Option (BitVec n) :=
  if a.toNat + b.toNat < 2 ^ n then some (a + b) else none

/-- `Uint::checked_sub`. -/
def checkedSub {n : Nat} (a b : BitVec n) : Option (BitVec n) :=
  if b.toNat ≤ a.toNat then some (a - b) else none

/-- `Uint::checked_mul`. -/
def checkedMul {n : Nat} (a b : BitVec n) : Option (BitVec n) :=
  if a.toNat * b.toNat < 2 ^ n then some (a * b) else none

/-- `Option::expect`: a missing value is a panic, modelled as the given error value. -/
def orPanic {ε α : Type} (e : ε) : Option α → Except ε α
  | some a => .ok a
  | none => .error e

/-- Write to a storage mapping. -/
def upd {κ ν : Type} [DecidableEq κ] (f : κ → ν) (k : κ) (v : ν) : κ → ν :=
  fun x => if x = k then v else f x

/-- Write to a two-level storage mapping. -/
def upd2 {κ₁ κ₂ ν : Type} [DecidableEq κ₁] [DecidableEq κ₂] (f : κ₁ → κ₂ → ν) (a : κ₁) (b : κ₂)
    (v : ν) : κ₁ → κ₂ → ν :=
  fun x y => if x = a ∧ y = b then v else f x y

/-- One transaction: on error (or panic) the state is left unchanged. -/
def stepOf {σ ι ε : Type} (exec : σ → ι → Except ε σ) (s : σ) (i : ι) : σ :=
  match exec s i with
  | .ok s' => s'
  | .error _ => s

/-- A history: transactions executed in order. -/
def runOf {σ ι ε : Type} (exec : σ → ι → Except ε σ) (s : σ) (ops : List ι) : σ :=
  ops.foldl (stepOf exec) s

/-! ## Basic lemmas -/

@[simp] theorem upd_same {κ ν : Type} [DecidableEq κ] (f : κ → ν) (k : κ) (v : ν) :
    upd f k v k = v := by simp [upd]

theorem upd_apply {κ ν : Type} [DecidableEq κ] (f : κ → ν) (k : κ) (v : ν) (x : κ) :
    upd f k v x = if x = k then v else f x := rfl

theorem upd_ne {κ ν : Type} [DecidableEq κ] (f : κ → ν) {k x : κ} (v : ν) (h : x ≠ k) :
    upd f k v x = f x := by simp [upd, h]

theorem upd2_apply {κ₁ κ₂ ν : Type} [DecidableEq κ₁] [DecidableEq κ₂] (f : κ₁ → κ₂ → ν) (a : κ₁)
    (b : κ₂) (v : ν) (x : κ₁) (y : κ₂) :
    upd2 f a b v x y = if x = a ∧ y = b then v else f x y := rfl

@[simp] theorem upd2_same {κ₁ κ₂ ν : Type} [DecidableEq κ₁] [DecidableEq κ₂] (f : κ₁ → κ₂ → ν)
    (a : κ₁) (b : κ₂) (v : ν) : upd2 f a b v a b = v := by simp [upd2]

@[simp] theorem except_bind_ok {ε α β : Type} (a : α) (f : α → Except ε β) :
    ((Except.ok a : Except ε α) >>= f) = f a := rfl

@[simp] theorem except_bind_error {ε α β : Type} (e : ε) (f : α → Except ε β) :
    ((Except.error e : Except ε α) >>= f) = .error e := rfl

@[simp] theorem except_pure {ε α : Type} (a : α) : (pure a : Except ε α) = .ok a := rfl

@[simp] theorem except_throw {ε α : Type} (e : ε) : (throw e : Except ε α) = .error e := rfl

@[simp] theorem orPanic_some {ε α : Type} (e : ε) (a : α) : orPanic e (some a) = .ok a := rfl

@[simp] theorem orPanic_none {ε α : Type} (e : ε) :
    (orPanic e (none : Option α) : Except ε α) = .error e := rfl

/-- Inversion of sequencing: the first part succeeded and the second succeeded on its result. -/
theorem bind_eq_ok {ε α β : Type} {x : Except ε α} {f : α → Except ε β} {b : β} :
    (x >>= f) = .ok b ↔ ∃ a, x = .ok a ∧ f a = .ok b := by
  cases x <;> simp

/-- Inversion of a guard. -/
theorem guard_eq_ok {ε β : Type} {c : Prop} [Decidable c] {e : ε} {x : Except ε β} {b : β} :
    (if c then .error e else x) = .ok b ↔ ¬ c ∧ x = .ok b := by
  split <;> simp_all

@[simp] theorem runOf_nil {σ ι ε : Type} (exec : σ → ι → Except ε σ) (s : σ) :
    runOf exec s [] = s := rfl

@[simp] theorem runOf_cons {σ ι ε : Type} (exec : σ → ι → Except ε σ) (s : σ) (i : ι)
    (ops : List ι) : runOf exec s (i :: ops) = runOf exec (stepOf exec s i) ops := rfl

theorem runOf_append {σ ι ε : Type} (exec : σ → ι → Except ε σ) (s : σ) (xs ys : List ι) :
    runOf exec s (xs ++ ys) = runOf exec (runOf exec s xs) ys := by
  simp [runOf, List.foldl_append]

theorem stepOf_ok {σ ι ε : Type} {exec : σ → ι → Except ε σ} {s s' : σ} {i : ι}
    (h : exec s i = .ok s') : stepOf exec s i = s' := by simp [stepOf, h]

theorem stepOf_error {σ ι ε : Type} {exec : σ → ι → Except ε σ} {s : σ} {i : ι} {e : ε}
    (h : exec s i = .error e) : stepOf exec s i = s := by simp [stepOf, h]

/-- Invariant rule for histories: a property of the start state preserved by every successful
transaction holds after every history. -/
theorem run_invariant {σ ι ε : Type} {exec : σ → ι → Except ε σ} {Inv : σ → Prop}
    (hstep : ∀ s i s', Inv s → exec s i = .ok s' → Inv s') :
    ∀ (ops : List ι) (s : σ), Inv s → Inv (runOf exec s ops) := by
  intro ops
  induction ops with
  | nil => intro s h; exact h
  | cons i ops ih =>
    intro s h
    rw [runOf_cons]
    apply ih
    cases hx : exec s i with
    | ok s' => rw [stepOf_ok hx]; exact hstep s i s' h hx
    | error e => rw [stepOf_error hx]; exact h

theorem checkedAdd_eq_some {n : Nat} {a b c : BitVec n} :
    checkedAdd a b = some c ↔ a.toNat + b.toNat < 2 ^ n ∧ c.toNat = a.toNat + b.toNat := by
  unfold checkedAdd
  split
  · rename_i h
    simp only [Option.some.injEq, h, true_and]
    constructor
    · rintro rfl; rw [BitVec.toNat_add, Nat.mod_eq_of_lt h]
    · intro hc; apply BitVec.eq_of_toNat_eq; rw [BitVec.toNat_add, Nat.mod_eq_of_lt h, hc]
  · rename_i h; simp [h]

theorem checkedAdd_eq_none {n : Nat} {a b : BitVec n} :
    checkedAdd a b = none ↔ 2 ^ n ≤ a.toNat + b.toNat := by
  unfold checkedAdd; split <;> simp <;> omega

theorem checkedSub_eq_some {n : Nat} {a b c : BitVec n} :
    checkedSub a b = some c ↔ b.toNat ≤ a.toNat ∧ c.toNat = a.toNat - b.toNat := by
  unfold checkedSub
  split
  · rename_i h
    simp only [Option.some.injEq, h, true_and]
    constructor
    · rintro rfl; exact BitVec.toNat_sub_of_le h
    · intro hc; apply BitVec.eq_of_toNat_eq; rw [BitVec.toNat_sub_of_le h, hc]
  · rename_i h; simp [h]

theorem checkedSub_eq_none {n : Nat} {a b : BitVec n} :
    checkedSub a b = none ↔ a.toNat < b.toNat := by
  unfold checkedSub; split <;> simp <;> omega

theorem checkedMul_eq_some {n : Nat} {a b c : BitVec n} :
    checkedMul a b = some c ↔ a.toNat * b.toNat < 2 ^ n ∧ c.toNat = a.toNat * b.toNat := by
  unfold checkedMul
  split
  · rename_i h
    simp only [Option.some.injEq, h, true_and]
    constructor
    · rintro rfl; rw [BitVec.toNat_mul, Nat.mod_eq_of_lt h]
    · intro hc; apply BitVec.eq_of_toNat_eq; rw [BitVec.toNat_mul, Nat.mod_eq_of_lt h, hc]
  · rename_i h; simp [h]

theorem checkedMul_eq_none {n : Nat} {a b : BitVec n} :
    checkedMul a b = none ↔ 2 ^ n ≤ a.toNat * b.toNat := by
  unfold checkedMul; split <;> simp <;> omega

theorem toNat_add_of_lt {n : Nat} {a b : BitVec n} (h : a.toNat + b.toNat < 2 ^ n) :
    (a + b).toNat = a.toNat + b.toNat := by
  rw [BitVec.toNat_add, Nat.mod_eq_of_lt h]

theorem toNat_sub_of_ge {n : Nat} {a b : BitVec n} (h : b.toNat ≤ a.toNat) :
    (a - b).toNat = a.toNat - b.toNat := BitVec.toNat_sub_of_le h

theorem bv_eq_zero_iff {n : Nat} (a : BitVec n) : a = 0 ↔ a.toNat = 0 := by
  constructor
  · rintro rfl; simp
  · intro h; apply BitVec.eq_of_toNat_eq; simpa using h

theorem eq_maxU256_iff (a : U256) : a = maxU256 ↔ a.toNat = 2 ^ 256 - 1 := by
  constructor
  · rintro rfl; simp
  · intro h; apply BitVec.eq_of_toNat_eq; simpa using h

/-! ## Sums over all keys of a storage map -/

/-- Changing one entry of a map changes its sum by the difference. -/
theorem sum_upd_add {κ : Type} [DecidableEq κ] [Fintype κ] (f : κ → Nat) (k : κ) (v : Nat) :
    (∑ a, upd f k v a) + f k = (∑ a, f a) + v := by
  classical
  rw [← Finset.add_sum_erase _ _ (Finset.mem_univ k), ← Finset.add_sum_erase _ f (Finset.mem_univ k)]
  have : ∑ x ∈ Finset.univ.erase k, upd f k v x = ∑ x ∈ Finset.univ.erase k, f x := by
    apply Finset.sum_congr rfl
    intro x hx
    exact upd_ne _ _ (Finset.ne_of_mem_erase hx)
  rw [this, upd_same]; omega

theorem sum_toNat_upd {κ : Type} [DecidableEq κ] [Fintype κ] {n : Nat} (f : κ → BitVec n) (k : κ)
    (v : BitVec n) :
    (∑ a, (upd f k v a).toNat) + (f k).toNat = (∑ a, (f a).toNat) + v.toNat := by
  have h := sum_upd_add (fun a => (f a).toNat) k v.toNat
  have h2 : (fun a => (upd f k v a).toNat) = upd (fun a => (f a).toNat) k v.toNat := by
    funext a; simp only [upd_apply]; split <;> rfl
  rw [h2]; exact h

/-- A single entry is at most the sum. -/
theorem le_sum_toNat {κ : Type} [DecidableEq κ] [Fintype κ] {n : Nat} (f : κ → BitVec n) (k : κ) :
    (f k).toNat ≤ ∑ a, (f a).toNat :=
  Finset.single_le_sum (f := fun a => (f a).toNat) (fun _ _ => Nat.zero_le _) (Finset.mem_univ k)

/-- Two different entries together are at most the sum. -/
theorem add_le_sum_toNat {κ : Type} [DecidableEq κ] [Fintype κ] {n : Nat} (f : κ → BitVec n)
    {k l : κ} (h : k ≠ l) : (f k).toNat + (f l).toNat ≤ ∑ a, (f a).toNat := by
  classical
  rw [← Finset.add_sum_erase _ _ (Finset.mem_univ k)]
  apply Nat.add_le_add_left
  exact Finset.single_le_sum (f := fun a => (f a).toNat) (fun _ _ => Nat.zero_le _)
    (Finset.mem_erase.mpr ⟨fun e => h e.symm, Finset.mem_univ _⟩)

end Verif
