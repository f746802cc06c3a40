import Verif.Spec.Poseidon
import Verif.Model.PoseidonInstances
import Mathlib.Data.Matrix.Mul
/-! # The Poseidon2 permutation commutes with homomorphisms of the field -/

namespace Verif.Proofs.PoseidonMap
open Verif.Poseidon Verif.Poseidon.Instances Verif.Spec.Poseidon
variable {F G : Type} [CommRing F] [CommRing G]

theorem external_map (f : F →+* G) (t : Nat) : (externalMatrix t : Matrix (Fin t) (Fin t) F).map f = externalMatrix t := by
  ext i j
  simp only [Matrix.map_apply, externalMatrix]
  have h4 : ∀ a b : Fin 4, f ((M4 : Matrix _ _ F) a b) = M4 a b := by
    intro a b

    fin_cases a <;> fin_cases b <;> simp [M4] <;> exact map_ofNat f _
  have h2 : f 2 = 2 := map_ofNat f 2
  split_ifs <;> simp [h4, h2]

theorem getD_map (f : F →+* G) (l : List F) (i : Nat) : (l.map f).getD i 0 = f (l.getD i 0) := by
  rw [List.getD_eq_getElem?_getD, List.getD_eq_getElem?_getD, List.getElem?_map]
  cases l[i]? <;> simp

theorem cast_list (f : F →+* G) (l : List Nat) : l.map (fun n : Nat => (n : G)) = (l.map (fun n : Nat => (n : F))).map f := by
  simp

theorem internal_map (f : F →+* G) (R : Raw) :
    (internalMatrix (R.params F)).map f = internalMatrix (R.params G) := by
  ext i j
  have hd : ∀ k : Nat, f (internalDiag (R.params F) k) = internalDiag (R.params G) k := by
    intro k
    have h2 : f 2 = 2 := map_ofNat f 2
    have ha : f (([1, 2] : List F).getD k 0) = ([1, 2] : List G).getD k 0 := by rw [← getD_map]; simp [h2]
    have hb : f (([1, 1, 2] : List F).getD k 0) = ([1, 1, 2] : List G).getD k 0 := by rw [← getD_map]; simp [h2]
    have hc : f ((R.params F).diag.getD k 0) = (R.params G).diag.getD k 0 := by
      show _ = (R.diag.map (fun n : Nat => (n : G))).getD k 0
      rw [cast_list f, getD_map]; rfl
    have ite_map : ∀ (p q : Prop) [Decidable p] [Decidable q] (x y z : F) (x' y' z' : G), f x = x' → f y = y' → f z = z' →
        f (if p then x else if q then y else z) = if p then x' else if q then y' else z' := by
      intro p q _ _ x y z x' y' z' h1 h2 h3
      split_ifs <;> assumption
    exact ite_map _ _ _ _ _ _ _ _ ha hb hc
  show f (1 + if i = j then internalDiag (R.params F) i else 0) = 1 + if i = j then internalDiag (R.params G) i else 0
  rw [map_add, map_one]
  congr 1
  by_cases h : i = j
  · rw [if_pos h, if_pos h]; exact hd _
  · rw [if_neg h, if_neg h]; exact map_zero f

theorem getD_map_map (f : F →+* G) (l : List (List Nat)) (r i : Nat) :
    f (((l.map fun row => row.map fun n : Nat => (n : F)).getD r []).getD i 0) =
      ((l.map fun row => row.map fun n : Nat => (n : G)).getD r []).getD i 0 := by
  simp only [List.getD_eq_getElem?_getD, List.getElem?_map]
  cases l[r]? with
  | none => simp
  | some row =>
    simp only [Option.map_some, Option.getD_some, List.getElem?_map]
    cases row[i]? <;> simp

theorem const_map (f : F →+* G) (R : Raw) (r i : Nat) :
    f (roundConstant (R.params F) r i) = roundConstant (R.params G) r i := getD_map_map f R.rc r i

theorem mulVec_map (f : F →+* G) {n : Nat} (M : Matrix (Fin n) (Fin n) F) (v : Fin n → F) :
    f ∘ M.mulVec v = (M.map f).mulVec (f ∘ v) := by
  funext i
  exact RingHom.map_mulVec f M v i

theorem full_map (f : F →+* G) (R : Raw) (v : Fin R.T → F) (r : Nat) :
    f ∘ fullRound (R.params F) v r = fullRound (R.params G) (f ∘ v) r := by
  unfold fullRound
  refine (mulVec_map f _ _).trans ?_
  rw [external_map]
  refine congrArg _ (funext fun i => ?_)
  show f ((v i + roundConstant (R.params F) r i) ^ R.D) = (f (v i) + roundConstant (R.params G) r i) ^ R.D
  rw [map_pow, map_add, const_map]

theorem partial_map (f : F →+* G) (R : Raw) (v : Fin R.T → F) (r : Nat) :
    f ∘ partialRound (R.params F) v r = partialRound (R.params G) (f ∘ v) r := by
  unfold partialRound
  refine (mulVec_map f _ _).trans ?_
  rw [internal_map]
  refine congrArg _ (funext fun i => ?_)
  show f (if i.val = 0 then (v i + roundConstant (R.params F) r 0) ^ R.D else v i) =
    if i.val = 0 then (f (v i) + roundConstant (R.params G) r 0) ^ R.D else f (v i)
  split_ifs
  · rw [map_pow, map_add, const_map]
  · rfl

theorem foldl_map {A B : Type} (g : A → B) (s : A → Nat → A) (s' : B → Nat → B) (h : ∀ a n, g (s a n) = s' (g a) n)
    (l : List Nat) (a : A) : g (l.foldl s a) = l.foldl s' (g a) := by
  induction l generalizing a with
  | nil => rfl
  | cons n l ih => rw [List.foldl_cons, List.foldl_cons, ih, h]

theorem permutation_map (f : F →+* G) (R : Raw) (v : Fin R.T → F) :
    f ∘ permutation (R.params F) v = permutation (R.params G) (f ∘ v) := by
  unfold permutation
  dsimp only
  have e : f ∘ (externalMatrix R.T).mulVec v = (externalMatrix R.T).mulVec (f ∘ v) := by
    rw [mulVec_map, external_map]
  have hF := foldl_map (fun w : Fin R.T → F => f ∘ w) (fullRound (R.params F)) (fullRound (R.params G)) (full_map f R)
  have hP := foldl_map (fun w : Fin R.T → F => f ∘ w) (partialRound (R.params F)) (partialRound (R.params G)) (partial_map f R)
  have cong : ∀ {A : Type} (g : A → Nat → A) (l : List Nat) {a b : A}, a = b → l.foldl g a = l.foldl g b := by
    rintro A g l a b rfl; rfl
  refine (hF _ _).trans (cong _ _ ((hP _ _).trans (cong _ _ ((hF _ _).trans (cong _ _ e)))))

end Verif.Proofs.PoseidonMap
