import Verif.Proofs.Poseidon
import Mathlib.LinearAlgebra.Matrix.ToLin
import Mathlib.LinearAlgebra.FiniteDimensional.Lemmas
import Mathlib.LinearAlgebra.Matrix.NonsingularInverse
import Mathlib.FieldTheory.Finite.Basic
import Mathlib.GroupTheory.OrderOfElement
import Mathlib.Tactic.FieldSimp
/-! # The Poseidon2 permutation is a bijection -/

namespace Verif.Proofs.Poseidon
open Verif Verif.Poseidon Verif.Spec.Poseidon
variable {F : Type} [Field F]

/-- A square matrix with trivial kernel is a bijection of vectors. -/
theorem bijective_of_kernel {t : Nat} (M : Matrix (Fin t) (Fin t) F) (h : ∀ v, M.mulVec v = 0 → v = 0) :
    Function.Bijective M.mulVec := by
  have hinj : Function.Injective M.mulVecLin := by
    rw [← LinearMap.ker_eq_bot, LinearMap.ker_eq_bot']
    intro v hv
    exact h v hv
  have hsurj : Function.Surjective M.mulVecLin := LinearMap.injective_iff_surjective.mp hinj
  exact ⟨hinj, hsurj⟩

theorem m4_kernel (h2 : (2 : F) ≠ 0) (v : Fin 4 → F) (h : (M4 (F := F)).mulVec v = 0) : v = 0 := by
  have e : ∀ r : Fin 4, M4 (F := F) r 0 * v 0 + M4 (F := F) r 1 * v 1 + M4 (F := F) r 2 * v 2 + M4 (F := F) r 3 * v 3 = 0 := by
    intro r
    have := congrFun h r
    unfold Matrix.mulVec dotProduct at this
    rw [Fin.sum_univ_four] at this
    exact this
  have e0 := e 0
  have e1 := e 1
  have e2 := e 2
  have e3 := e 3
  simp only [M4, Matrix.of_apply, Matrix.cons_val] at e0 e1 e2 e3
  have h4 : (4 : F) ≠ 0 := by rw [show (4 : F) = 2 * 2 from by norm_num]; exact mul_ne_zero h2 h2
  have h8 : (8 : F) ≠ 0 := by rw [show (8 : F) = 2 * 4 from by norm_num]; exact mul_ne_zero h2 h4
  have z : ∀ x : F, 8 * x = 0 → x = 0 := fun x hx => (mul_eq_zero.mp hx).resolve_left h8
  have v0 : v 0 = 0 := z _ (by linear_combination -e0 + 3 * e1 - 6 * e2 + 7 * e3)
  have v1 : v 1 = 0 := z _ (by linear_combination e0 - e1 + 4 * e2 - 5 * e3)
  have v2 : v 2 = 0 := z _ (by linear_combination -6 * e0 + 7 * e1 - e2 + 3 * e3)
  have v3 : v 3 = 0 := z _ (by linear_combination 4 * e0 - 5 * e1 + e2 - e3)
  funext i
  fin_cases i
  · exact v0
  · exact v1
  · exact v2
  · exact v3

theorem vec_ofFn {t : Nat} (v : Fin t → F) : vec t (List.ofFn v) = v := by
  funext i
  unfold vec
  rw [List.getD_eq_getElem?_getD, List.getElem?_ofFn, dif_pos i.isLt]; rfl

theorem vec_inj {t : Nat} {a b : List F} (ha : a.length = t) (hb : b.length = t) (h : vec t a = vec t b) : a = b := by
  apply List.ext_getElem? 
  intro i
  by_cases hi : i < t
  · rw [getElem?_getD a i (by omega), getElem?_getD b i (by omega)]
    exact congrArg some (congrFun h ⟨i, hi⟩)
  · rw [List.getElem?_eq_none (by omega), List.getElem?_eq_none (by omega)]

theorem external_kernel_blocks (k : Nat) (hk : 2 ≤ k) (h2 : (2 : F) ≠ 0) (hk1 : ((k + 1 : Nat) : F) ≠ 0)
    (v : Fin (4 * k) → F) (h : (externalMatrix (4 * k)).mulVec v = 0) : v = 0 := by
  set s := List.ofFn v with hs
  have hsl : s.length = 4 * k := by rw [hs, List.length_ofFn]
  have hv : vec (4 * k) s = v := vec_ofFn v
  have hz : ∀ i, i < 4 * k →
      (matmulM4 s).getD i 0 + (∑ q ∈ Finset.range k, (matmulM4 s).getD (4 * q + i % 4) 0) = 0 := by
    intro i hi
    have := external_blocks k s hsl hk i hi
    simp only at this
    rw [this, hv, h]; rfl
  have hS : ∀ r < 4, (∑ q ∈ Finset.range k, (matmulM4 s).getD (4 * q + r) 0) = 0 := by
    intro r hr
    have h1 : ∀ q ∈ Finset.range k, (matmulM4 s).getD (4 * q + r) 0 =
        -(∑ q ∈ Finset.range k, (matmulM4 s).getD (4 * q + r) 0) := by
      intro q hq
      have := hz (4 * q + r) (by have := Finset.mem_range.mp hq; omega)
      rw [show (4 * q + r) % 4 = r from by omega] at this
      exact eq_neg_of_add_eq_zero_left this
    have h2' := Finset.sum_congr rfl h1
    rw [Finset.sum_const, Finset.card_range, nsmul_eq_mul] at h2'
    generalize (∑ q ∈ Finset.range k, (matmulM4 s).getD (4 * q + r) 0) = S at h2'
    have : ((k + 1 : Nat) : F) * S = 0 := by push_cast; linear_combination h2'
    exact (mul_eq_zero.mp this).resolve_left hk1
  have hu : ∀ i, i < 4 * k → (matmulM4 s).getD i 0 = 0 := by
    intro i hi
    have := hz i hi
    rw [hS (i % 4) (Nat.mod_lt _ (by decide)), add_zero] at this
    exact this
  rw [← hv]
  funext i
  have hi4 : i.val % 4 < 4 := Nat.mod_lt _ (by decide)
  have hb : i.val / 4 < k := by have := i.isLt; omega
  have hc := m4_kernel h2 (fun c : Fin 4 => s.getD (4 * (i.val / 4) + c.val) 0) (by
    funext r
    have := m4_entry k s hsl (i.val / 4) hb r
    rw [hu _ (by omega)] at this
    exact this.symm)
  have := congrFun hc ⟨i.val % 4, hi4⟩
  simp only at this
  unfold vec
  rw [show i.val = 4 * (i.val / 4) + i.val % 4 from by omega]
  exact this

/-- The external matrix is invertible when the characteristic is not 2, nor 3 for `t = 2`, nor divides `t / 4 + 1`
for the larger sizes. -/
theorem external_bijective (t : Nat) (ht : t ∈ [2, 3, 4, 8, 12, 16, 20, 24]) (h2 : (2 : F) ≠ 0)
    (h3 : t = 2 → (3 : F) ≠ 0) (hk : 8 ≤ t → ((t / 4 + 1 : Nat) : F) ≠ 0) :
    Function.Bijective (externalMatrix (F := F) t).mulVec := by
  apply bijective_of_kernel
  intro v h
  simp only [List.mem_cons, List.not_mem_nil, or_false] at ht
  rcases ht with rfl | rfl | rfl | rfl | rfl | rfl | rfl | rfl
  · have e0 := congrFun h 0
    have e1 := congrFun h 1
    simp [externalMatrix, Matrix.mulVec, dotProduct, Fin.sum_univ_two] at e0 e1
    have z : ∀ x : F, 3 * x = 0 → x = 0 := fun x hx => (mul_eq_zero.mp hx).resolve_left (h3 rfl)
    have v0 : v 0 = 0 := z _ (by linear_combination 2 * e0 - e1)
    have v1 : v 1 = 0 := z _ (by linear_combination 2 * e1 - e0)
    funext i
    fin_cases i
    · exact v0
    · exact v1
  · have e0 := congrFun h 0
    have e1 := congrFun h 1
    have e2 := congrFun h 2
    simp [externalMatrix, Matrix.mulVec, dotProduct, Fin.sum_univ_three] at e0 e1 e2
    have z : ∀ x : F, 2 * (2 * x) = 0 → x = 0 := fun x hx =>
      (mul_eq_zero.mp ((mul_eq_zero.mp hx).resolve_left h2)).resolve_left h2
    have v0 : v 0 = 0 := z _ (by linear_combination 3 * e0 - e1 - e2)
    have v1 : v 1 = 0 := z _ (by linear_combination 3 * e1 - e0 - e2)
    have v2 : v 2 = 0 := z _ (by linear_combination 3 * e2 - e0 - e1)
    funext i
    fin_cases i
    · exact v0
    · exact v1
    · exact v2
  · apply m4_kernel h2
    rw [← h]
    congr 1
    funext i j
    unfold externalMatrix
    fin_cases i <;> fin_cases j <;> simp
  · exact external_kernel_blocks 2 (by omega) h2 (hk (by omega)) v h
  · exact external_kernel_blocks 3 (by omega) h2 (hk (by omega)) v h
  · exact external_kernel_blocks 4 (by omega) h2 (hk (by omega)) v h
  · exact external_kernel_blocks 5 (by omega) h2 (hk (by omega)) v h
  · exact external_kernel_blocks 6 (by omega) h2 (hk (by omega)) v h

/-- Ones plus a diagonal is invertible when `e i` are inverses of the diagonal and `1 + ∑ e i` is not zero. -/
theorem internal_bijective (P : Params F) (e : Nat → F) (he : ∀ i < P.T, internalDiag P i * e i = 1)
    (hS : 1 + ∑ i ∈ Finset.range P.T, e i ≠ 0) : Function.Bijective (internalMatrix P).mulVec := by
  apply bijective_of_kernel
  intro v h
  have hi : ∀ i : Fin P.T, (∑ j, v j) + internalDiag P i * v i = 0 := by
    intro i; rw [← internal_mulVec, h]; rfl
  have hv : ∀ i : Fin P.T, v i = -(e i.val * ∑ j, v j) := by
    intro i
    have h1 := hi i
    have h2 := he i.val i.isLt
    linear_combination e i.val * h1 - v i * h2
  have hsum : (∑ j, v j) = 0 := by
    have h1 : (∑ j, v j) = ∑ j : Fin P.T, -(e j.val * ∑ j, v j) := Finset.sum_congr rfl fun j _ => hv j
    rw [Finset.sum_neg_distrib, ← Finset.sum_mul, Fin.sum_univ_eq_sum_range e P.T] at h1
    have : (1 + ∑ i ∈ Finset.range P.T, e i) * ∑ j, v j = 0 := by linear_combination h1
    exact (mul_eq_zero.mp this).resolve_left hS
  funext i
  rw [hv i, hsum]; simp

theorem fullRound_bijective (P : Params F) (r : Nat) (hD : Function.Bijective fun x : F => x ^ P.D)
    (hE : Function.Bijective (externalMatrix (F := F) P.T).mulVec) : Function.Bijective fun v => fullRound P v r := by
  have h1 : Function.Bijective fun (v : Fin P.T → F) (i : Fin P.T) => (v i + roundConstant P r i) ^ P.D := by
    constructor
    · intro a b h
      funext i
      have := hD.1 (congrFun h i)
      exact add_right_cancel this
    · intro w
      choose g hg using hD.2
      refine ⟨fun i => g (w i) - roundConstant P r i, ?_⟩
      funext i
      simp only [sub_add_cancel]
      exact hg (w i)
  exact hE.comp h1

theorem partialRound_bijective (P : Params F) (r : Nat) (hD : Function.Bijective fun x : F => x ^ P.D)
    (hI : Function.Bijective (internalMatrix P).mulVec) : Function.Bijective fun v => partialRound P v r := by
  have h1 : Function.Bijective fun (v : Fin P.T → F) (i : Fin P.T) =>
      if i.val = 0 then (v i + roundConstant P r 0) ^ P.D else v i := by
    constructor
    · intro a b h
      funext i
      have := congrFun h i
      simp only at this
      by_cases h0 : i.val = 0
      · rw [if_pos h0, if_pos h0] at this
        exact add_right_cancel (hD.1 this)
      · rw [if_neg h0, if_neg h0] at this
        exact this
    · intro w
      choose g hg using hD.2
      refine ⟨fun i => if i.val = 0 then g (w i) - roundConstant P r 0 else w i, ?_⟩
      funext i
      by_cases h0 : i.val = 0
      · simp only [if_pos h0, sub_add_cancel]; exact hg (w i)
      · simp only [if_neg h0]
  exact hI.comp h1

theorem foldl_bijective {α : Type} (g : α → Nat → α) (l : List Nat) (h : ∀ r, Function.Bijective fun a => g a r) :
    Function.Bijective fun a => l.foldl g a := by
  induction l with
  | nil => exact Function.bijective_id
  | cons r l ih => exact ih.comp (h r)

theorem permutation_bijective (P : Params F) (hD : Function.Bijective fun x : F => x ^ P.D)
    (hE : Function.Bijective (externalMatrix (F := F) P.T).mulVec)
    (hI : Function.Bijective (internalMatrix P).mulVec) : Function.Bijective (permutation P) := by
  have hf := fun r => fullRound_bijective P r hD hE
  have hp := fun r => partialRound_bijective P r hD hI
  exact (foldl_bijective _ _ hf).comp ((foldl_bijective _ _ hp).comp ((foldl_bijective _ _ hf).comp hE))

/-- The power map is a bijection when the exponent is prime to the order of the multiplicative group. -/
theorem pow_bijective [Fintype F] (D : Nat) (h : Nat.Coprime (Fintype.card F - 1) D) (h0 : D ≠ 0) :
    Function.Bijective fun x : F => x ^ D := by
  classical
  apply Finite.injective_iff_bijective.mp
  intro a b hab
  simp only at hab
  by_cases ha : a = 0
  · subst ha
    rw [zero_pow h0] at hab
    exact (eq_zero_of_pow_eq_zero hab.symm).symm
  · have hb : b ≠ 0 := by
      rintro rfl
      rw [zero_pow h0] at hab
      exact ha (eq_zero_of_pow_eq_zero hab)
    have hc : (Nat.card Fˣ).Coprime D := by
      rw [Nat.card_eq_fintype_card, Fintype.card_units]; exact h
    have := (powCoprime hc).injective (a₁ := Units.mk0 a ha) (a₂ := Units.mk0 b hb) (by
      apply Units.ext
      simpa using hab)
    simpa using congrArg Units.val this

end Verif.Proofs.Poseidon
