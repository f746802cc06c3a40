import Verif.Proofs.PoseidonPerm
import Mathlib.Data.ZMod.Basic
/-!
# C78–C80: Poseidon2

`F` is any commutative ring, or any field where inverses are needed; the library's fields are instances
(`Verif.Props.FpField`).
-/

namespace Verif.Props.Poseidon
open Verif Verif.Poseidon Verif.Spec.Poseidon

section ring
variable {F : Type} [CommRing F]

/-! ## C78 -/

/-- C78: `matmul_external` multiplies the state by the external matrix, for every supported size. -/
theorem C78_external (P : Params F) (hT : P.T ∈ [2, 3, 4, 8, 12, 16, 20, 24]) (s : List F) (hs : s.length = P.T) :
    ∃ s', matmulExternal P s = some s' ∧ s'.length = P.T ∧ vec P.T s' = (externalMatrix P.T).mulVec (vec P.T s) :=
  Proofs.Poseidon.external_ok P hT s hs

/-- C78: `matmul_internal` multiplies the state by the internal matrix. -/
theorem C78_internal (P : Params F) (hT : P.T ∈ [2, 3, 4, 8, 12, 16, 20, 24]) (hd : 4 ≤ P.T → P.T ≤ P.diag.length)
    (s : List F) (hs : s.length = P.T) :
    ∃ s', matmulInternal P s = some s' ∧ s'.length = P.T ∧ vec P.T s' = (internalMatrix P).mulVec (vec P.T s) :=
  Proofs.Poseidon.internal_ok P hT hd s hs

/-- C78: other sizes are refused by both. -/
theorem C78_other_sizes (P : Params F) (hT : P.T ∉ [2, 3, 4, 8, 12, 16, 20, 24]) (s : List F) :
    matmulExternal P s = none ∧ matmulInternal P s = none := by
  simp only [List.mem_cons, List.not_mem_nil, or_false, not_or] at hT
  obtain ⟨h1, h2, h3, h4, h5, h6, h7, h8⟩ := hT
  unfold matmulExternal matmulInternal
  simp [h1, h2, h3, h4, h5, h6, h7, h8]

/-- Eight elements, one partial round and two full ones, over the integers modulo 17. -/
def toy : Params (ZMod 17) := ⟨8, 3, 2, 2, 1, [1, 2, 3, 4, 5, 6, 7, 9], [[1, 2, 3, 4, 5, 6, 7, 8], [9], [3, 1]]⟩

theorem toy_supported : Supported toy := ⟨by decide, by decide, by decide, by decide, by decide⟩

example : matmulExternal toy [1, 0, 0, 0, 0, 0, 0, 1] = some [13, 9, 9, 8, 11, 6, 15, 13] := by decide +kernel

/-! ## C80: the permutation -/

/-- C80: `permute` is the permutation of the specification: it never panics and computes the rounds with the
matrices above. -/
theorem C80_permute_is_specified {P : Params F} (hP : Supported P) (s : List F) (hs : s.length = P.T) :
    ∃ s', permute P s = some s' ∧ s'.length = P.T ∧ vec P.T s' = permutation P (vec P.T s) :=
  Proofs.Poseidon.permute_ok hP s hs

/-! ## C79: the sponge -/

/-- C79: hashing.  Split the input into blocks: full ones and a last one that is not empty (or no full block at all).
Starting from zero, each block is added after the capacity part and the permutation is applied between blocks.  Then
the outputs are, block by block, the elements after the capacity part of the successive permutations of that state. -/
theorem C79_hash {P : Params F} (hP : Supported P) (full : List (List F)) (hf : ∀ b ∈ full, b.length = rate P)
    (last : List F) (hl : last.length ≤ rate P) (h0 : last ≠ [] ∨ full = []) (n : Nat) :
    ((absorbBatch P (new P) (full.flatten ++ last)).bind fun sp => (squeezeBatch P sp n).map (·.1)) =
      some ((List.range n).map fun k =>
        entry ((permutation P)^[k / rate P + 1]
          (addBlock P (full.foldl (fun v b => permutation P (addBlock P v b)) fun _ => 0) last))
          (P.capacity + k % rate P)) := by
  have hcap := hP.capacity
  have hr : rate P = P.T - P.capacity := rfl
  have hready : Proofs.Poseidon.Ready P (new P) (fun _ => 0) :=
    ⟨rfl, List.length_replicate, .inl ⟨rfl, Proofs.Poseidon.vec_replicate P.T⟩⟩
  obtain ⟨sp, h1, h2⟩ := Proofs.Poseidon.ready_blocks hP full hf _ _ hready
  rw [Proofs.Poseidon.absorbBatch_append, h1]
  simp only [Option.bind_some]
  obtain ⟨s', i, h3, h4, h5⟩ : ∃ s' i, absorbBatch P sp last = some ⟨s', .absorbing, i⟩ ∧ s'.length = P.T ∧
      vec P.T s' = addBlock P (full.foldl (fun v b => permutation P (addBlock P v b)) fun _ => 0) last := by
    by_cases hn : last = []
    · subst hn
      have hfull : full = [] := h0.resolve_left (by simp)
      subst hfull
      have : sp = new P := by
        unfold absorbBatch at h1; simp at h1; exact h1.symm
      subst this
      refine ⟨_, _, rfl, List.length_replicate, ?_⟩
      simp only [List.foldl_nil]
      rw [Proofs.Poseidon.vec_replicate]
      funext j; unfold addBlock; simp
    · obtain ⟨s', g1, g2, g3⟩ := Proofs.Poseidon.ready_block hP h2 last hn hl
      exact ⟨s', _, g1, g2, g3⟩
  rw [h3]
  simp only [Option.bind_some]
  rw [Proofs.Poseidon.squeezeBatch_first]
  obtain ⟨s'', m', g1, _, _⟩ := Proofs.Poseidon.squeeze_run hP n s' (rate P) h4 (Nat.le_refl _)
  rw [show P.capacity + rate P = P.T from by omega] at g1
  rw [g1]
  have hpos : 0 < rate P := by omega
  simp only [Option.map_some, h5, Nat.add_div_left _ hpos, Nat.add_mod_left]

/-- Every input can be split that way. -/
theorem C79_blocks_exist (P : Params F) (hP : Supported P) (l : List F) :
    ∃ full last, l = full.flatten ++ last ∧ (∀ b ∈ full, b.length = rate P) ∧ last.length ≤ rate P ∧
      (last ≠ [] ∨ full = []) := by
  have hr : 0 < rate P := by have := hP.capacity; unfold rate; omega
  generalize hn : l.length = n
  induction n using Nat.strong_induction_on generalizing l with
  | _ n ih =>
    by_cases hle : l.length ≤ rate P
    · exact ⟨[], l, rfl, by simp, hle, .inr rfl⟩
    · obtain ⟨full, last, h1, h2, h3, h4⟩ := ih (l.length - rate P) (by omega) (l.drop (rate P)) (by simp)
      refine ⟨l.take (rate P) :: full, last, ?_, ?_, h3, ?_⟩
      · rw [List.flatten_cons, List.append_assoc, ← h1, List.take_append_drop]
      · intro b hb
        rcases List.mem_cons.mp hb with rfl | hb
        · rw [List.length_take]; omega
        · exact h2 b hb
      · left
        rintro rfl
        have hf : full = [] := h4.resolve_left (by simp)
        subst hf
        have := congrArg List.length h1
        simp at this
        omega

/-- C79: batches are sequences of single operations, and can be cut anywhere. -/
theorem C79_batches (P : Params F) (sp : Sponge F) (a b : List F) (n m : Nat) :
    absorbBatch P sp (a ++ b) = ((absorbBatch P sp a).bind fun sp => absorbBatch P sp b) ∧
    squeezeBatch P sp (n + m) = ((squeezeBatch P sp n).bind fun r =>
      (squeezeBatch P r.2 m).map fun r' => (r.1 ++ r'.1, r'.2)) := by
  refine ⟨Proofs.Poseidon.absorbBatch_append P sp a b, ?_⟩
  induction n generalizing sp with
  | zero => rw [Nat.zero_add]; simp [squeezeBatch]
  | succ n ih =>
    rw [show n + 1 + m = (n + m) + 1 from by omega]
    simp only [squeezeBatch]
    cases hs : squeeze P sp with
    | none => rfl
    | some r =>
      simp only [Option.bind_eq_bind, Option.bind_some]
      rw [ih r.2]
      cases hq : squeezeBatch P r.2 n with
      | none => rfl
      | some r' =>
        simp only [Option.bind_some]
        cases squeezeBatch P r'.2 m with
        | none => rfl
        | some r'' => rfl

/-- C79: absorbing when the block is not full adds to one element after the capacity part; nothing else changes. -/
theorem C79_absorb_effect {P : Params F} (hP : Supported P) (sp : Sponge F) (e : F) (hs : sp.state.length = P.T)
    (hm : sp.mode = .absorbing) (hlo : P.capacity ≤ sp.index) (hi : sp.index < P.T) :
    ∃ sp', absorb P sp e = some sp' ∧ sp'.mode = .absorbing ∧ sp'.index = sp.index + 1 ∧
      vec P.T sp'.state = (fun j => if j.val = sp.index then vec P.T sp.state j + e else vec P.T sp.state j) ∧
      sp'.state.take P.capacity = sp.state.take P.capacity := by
  obtain ⟨s, m, i⟩ := sp
  simp only at hs hm hlo hi
  subst hm
  refine ⟨_, Proofs.Poseidon.absorb_room P s i e hs hi, rfl, rfl, ?_, ?_⟩
  · funext j
    unfold vec
    rw [Proofs.Poseidon.getD_set _ _ _ _ (by omega)]
    by_cases h : i = j.val
    · rw [if_pos h, if_pos h.symm, h]
    · rw [if_neg h, if_neg (fun e => h e.symm)]
  · simp only
    rw [List.take_set_of_le hlo]

/-- One call. -/
inductive Op (F : Type) where
  | absorb (e : F)
  | squeeze

/-- The effect of a call; `none` is a panic. -/
def step (P : Params F) (sp : Sponge F) : Op F → Option (Sponge F)
  | .absorb e => absorb P sp e
  | .squeeze => (squeeze P sp).map (·.2)

/-- C79: over any history of calls, a panic occurs exactly when something is absorbed after something has been squeezed;
otherwise the index stays between the capacity and the size, and every element squeezed out is one after the capacity. -/
theorem C79_histories {P : Params F} (hP : Supported P) (ops : List (Op F)) :
    (ops.foldlM (step P) (new P) = none ↔ ∃ a b c e, ops = a ++ .squeeze :: b ++ .absorb e :: c) ∧
    ∀ sp, ops.foldlM (step P) (new P) = some sp →
      sp.state.length = P.T ∧ P.capacity ≤ sp.index ∧ sp.index ≤ P.T ∧
      (sp.mode = .squeezing ↔ ∃ a b, ops = a ++ .squeeze :: b) := by
  have hcap := hP.capacity
  -- one step keeps the invariant
  have hstep : ∀ (sp : Sponge F), sp.state.length = P.T → P.capacity ≤ sp.index → sp.index ≤ P.T → ∀ o : Op F,
      (step P sp o = none ∧ sp.mode = .squeezing ∧ ∃ e, o = .absorb e) ∨
      ∃ sp', step P sp o = some sp' ∧ sp'.state.length = P.T ∧ P.capacity ≤ sp'.index ∧ sp'.index ≤ P.T ∧
        ((o = .squeeze ∧ sp'.mode = .squeezing) ∨ (∃ e, o = .absorb e ∧ sp.mode = .absorbing ∧ sp'.mode = .absorbing)) := by
    rintro ⟨s, m, i⟩ hs h1 h2 o
    simp only at hs h1 h2
    obtain ⟨s', p1, p2, p3⟩ := Proofs.Poseidon.permute_ok hP s hs
    cases o with
    | absorb e =>
      cases m with
      | squeezing => left; exact ⟨by simp [step, absorb], rfl, e, rfl⟩
      | absorbing =>
        right
        rcases Nat.lt_or_ge i P.T with hlt | hge
        · refine ⟨_, Proofs.Poseidon.absorb_room P s i e hs hlt, ?_, ?_, ?_, .inr ⟨e, rfl, rfl, rfl⟩⟩
          · simp [hs]
          · simp only; omega
          · simp only; omega
        · have hi : i = P.T := by omega
          subst hi
          refine ⟨_, (Proofs.Poseidon.absorb_full hP s s' e p1).trans
            (Proofs.Poseidon.absorb_room P s' P.capacity e p2 hcap), ?_, ?_, ?_, .inr ⟨e, rfl, rfl, rfl⟩⟩
          · simp [p2]
          · simp only; omega
          · simp only; omega
    | squeeze =>
      right
      by_cases hc : m = .absorbing ∨ i = P.T
      · refine ⟨⟨s', .squeezing, P.capacity + 1⟩, ?_, p2, by simp, by simp only; omega, .inl ⟨rfl, rfl⟩⟩
        unfold step squeeze
        simp only
        rw [if_pos hc, p1]
        simp only [Option.map_some, Option.bind_eq_bind, Option.bind_some]
        rw [Proofs.Poseidon.getElem?_getD s' _ (by omega)]
        rfl
      · have hm : m = .squeezing := by cases m <;> simp_all
        subst hm
        have hlt : i < P.T := by
          have : i ≠ P.T := fun e => hc (.inr e)
          omega
        refine ⟨⟨s, .squeezing, i + 1⟩, ?_, hs, by simp only; omega, by simp only; omega, .inl ⟨rfl, rfl⟩⟩
        unfold step squeeze
        simp only
        rw [if_neg hc]
        simp only [Option.bind_eq_bind, Option.bind_some]
        rw [Proofs.Poseidon.getElem?_getD s _ (by omega)]
        rfl
  have key : ∀ (ops : List (Op F)) (sp : Sponge F), sp.state.length = P.T → P.capacity ≤ sp.index → sp.index ≤ P.T →
      (ops.foldlM (step P) sp = none ↔ (sp.mode = .squeezing ∧ ∃ a c e, ops = a ++ .absorb e :: c) ∨
        ∃ a b c e, ops = a ++ .squeeze :: b ++ .absorb e :: c) ∧
      ∀ sp', ops.foldlM (step P) sp = some sp' →
        sp'.state.length = P.T ∧ P.capacity ≤ sp'.index ∧ sp'.index ≤ P.T ∧
        (sp'.mode = .squeezing ↔ sp.mode = .squeezing ∨ ∃ a b, ops = a ++ .squeeze :: b) := by
    intro ops
    induction ops with
    | nil =>
      intro sp h1 h2 h3
      refine ⟨by simp, ?_⟩
      intro sp' h
      simp at h
      subst h
      exact ⟨h1, h2, h3, by simp⟩
    | cons o ops ih =>
      intro sp h1 h2 h3
      rw [List.foldlM_cons]
      rcases hstep sp h1 h2 h3 o with ⟨hn, hm, e, rfl⟩ | ⟨sp1, hs, g1, g2, g3, hcase⟩
      · rw [hn]
        simp only [Option.bind_eq_bind, Option.bind_none, true_iff, reduceCtorEq, false_implies, implies_true, and_true]
        exact .inl ⟨hm, [], ops, e, rfl⟩
      · rw [hs]
        simp only [Option.bind_eq_bind, Option.bind_some]
        obtain ⟨i1, i2⟩ := ih sp1 g1 g2 g3
        rcases hcase with ⟨rfl, hsq⟩ | ⟨e, rfl, hm, hm'⟩
        · constructor
          · rw [i1]
            constructor
            · rintro (⟨_, a, c, e, rfl⟩ | ⟨a, b, c, e, rfl⟩)
              · exact .inr ⟨[], a, c, e, rfl⟩
              · exact .inr ⟨[], a ++ .squeeze :: b, c, e, rfl⟩
            · rintro (⟨_, a, c, e, h⟩ | ⟨a, b, c, e, h⟩)
              · cases a with
                | nil => simp at h
                | cons o' a => simp at h; exact .inl ⟨hsq, a, c, e, h.2⟩
              · cases a with
                | nil => simp at h; exact .inl ⟨hsq, b, c, e, h⟩
                | cons o' a => simp at h; exact .inl ⟨hsq, a ++ .squeeze :: b, c, e, by simpa using h.2⟩
          · intro sp' hsp'
            obtain ⟨k1, k2, k3, k4⟩ := i2 sp' hsp'
            exact ⟨k1, k2, k3, by rw [k4]; exact ⟨fun _ => .inr ⟨[], ops, rfl⟩, fun _ => .inl hsq⟩⟩
        · constructor
          · rw [i1, hm, hm']
            simp only [reduceCtorEq, false_and, false_or]
            constructor
            · rintro ⟨a, b, c, e', rfl⟩; exact ⟨.absorb e :: a, b, c, e', rfl⟩
            · rintro ⟨a, b, c, e', h⟩
              cases a with
              | nil => simp at h
              | cons o' a => simp at h; exact ⟨a, b, c, e', by simpa using h.2⟩
          · intro sp' hsp'
            obtain ⟨k1, k2, k3, k4⟩ := i2 sp' hsp'
            refine ⟨k1, k2, k3, ?_⟩
            rw [k4, hm, hm']
            simp only [reduceCtorEq, false_or]
            constructor
            · rintro ⟨a, b, rfl⟩; exact ⟨.absorb e :: a, b, rfl⟩
            · rintro ⟨a, b, h⟩
              cases a with
              | nil => simp at h
              | cons o' a => simp at h; exact ⟨a, b, h.2⟩
  obtain ⟨k1, k2⟩ := key ops (new P) List.length_replicate (Nat.le_refl _) (by show P.capacity ≤ P.T; omega)
  refine ⟨?_, ?_⟩
  · rw [k1]; simp [new]
  · intro sp h
    obtain ⟨a, b, c, d⟩ := k2 sp h
    exact ⟨a, b, c, by rw [d]; simp [new]⟩

example : ([.absorb 3, .absorb 5, .squeeze, .squeeze] : List (Op (ZMod 17))).foldlM (step toy) (new toy) ≠ none ∧
    ([.absorb 3, .squeeze, .absorb 5] : List (Op (ZMod 17))).foldlM (step toy) (new toy) = none := by
  constructor
  · intro h
    obtain ⟨a, b, c, e, h⟩ := (C79_histories toy_supported _).1.mp h
    rcases a with _ | ⟨_, _ | ⟨_, _ | ⟨_, _ | ⟨_, a⟩⟩⟩⟩ <;> simp at h
    · rcases b with _ | ⟨_, b⟩ <;> simp at h
  · exact (C79_histories toy_supported _).1.mpr ⟨[.absorb 3], [], [], 5, rfl⟩

/-- C79, a limit users must know: there is no padding, so appending zeros within the last block does not change any
output.  Inputs of different lengths that end in zeros therefore have the same hash. -/
theorem C79_trailing_zeros {P : Params F} (hP : Supported P) (full : List (List F)) (hf : ∀ b ∈ full, b.length = rate P)
    (last : List F) (h0 : last ≠ [] ∨ full = []) (z : Nat) (hz : last.length + z ≤ rate P) (n : Nat) :
    ((absorbBatch P (new P) (full.flatten ++ (last ++ List.replicate z 0))).bind fun sp => (squeezeBatch P sp n).map (·.1)) =
    ((absorbBatch P (new P) (full.flatten ++ last)).bind fun sp => (squeezeBatch P sp n).map (·.1)) := by
  rw [C79_hash hP full hf _ (by simpa using hz) (by
      rcases h0 with h | h
      · left; simp [h]
      · right; exact h), C79_hash hP full hf last (by omega) h0]
  have : ∀ v, addBlock P v (last ++ List.replicate z 0) = addBlock P v last := by
    intro v
    funext i
    unfold addBlock
    have : ∀ j, (last ++ List.replicate z (0 : F)).getD j 0 = last.getD j 0 := by
      intro j
      rw [List.getD_eq_getElem?_getD, List.getD_eq_getElem?_getD, List.getElem?_append]
      by_cases hj : j < last.length
      · rw [if_pos hj]
      · rw [if_neg hj, List.getElem?_replicate, List.getElem?_eq_none (by omega : last.length ≤ j)]
        split <;> rfl
    rw [this]
  rw [this]

end ring

/-! ## C80: it is a permutation -/

section field
variable {F : Type} [Field F]

/-- C80: `permute` is a bijection of states, when raising to the power `D` is a bijection of the field and the two
matrices are invertible. -/
theorem C80_bijective {P : Params F} (hP : Supported P) (hD : Function.Bijective fun x : F => x ^ P.D)
    (hE : Function.Bijective (externalMatrix (F := F) P.T).mulVec) (hI : Function.Bijective (internalMatrix P).mulVec) :
    ∀ s' : List F, s'.length = P.T → ∃! s, s.length = P.T ∧ permute P s = some s' := by
  intro s' hs'
  have hb := Proofs.Poseidon.permutation_bijective P hD hE hI
  obtain ⟨v, hv⟩ := hb.2 (vec P.T s')
  obtain ⟨s1, h1, h2, h3⟩ := C80_permute_is_specified hP (List.ofFn v) (List.length_ofFn)
  rw [Proofs.Poseidon.vec_ofFn, hv] at h3
  have hs1 : s1 = s' := Proofs.Poseidon.vec_inj h2 hs' h3
  subst hs1
  refine ⟨List.ofFn v, ⟨List.length_ofFn, h1⟩, ?_⟩
  rintro t ⟨ht, hpt⟩
  obtain ⟨s2, h4, h5, h6⟩ := C80_permute_is_specified hP t ht
  rw [hpt] at h4
  injection h4 with h4
  subst h4
  refine Proofs.Poseidon.vec_inj ht List.length_ofFn ?_
  rw [Proofs.Poseidon.vec_ofFn]
  exact hb.1 (h6.symm.trans hv.symm)

/-- C80: when the matrices are invertible: no supported size is a problem unless the characteristic is 2, or 3 for two
elements, or divides `T / 4 + 1` for eight or more; the internal matrix is invertible when the diagonal has no zero and
one plus the sum of its inverses is not zero. -/
theorem C80_matrices (P : Params F) (hT : P.T ∈ [2, 3, 4, 8, 12, 16, 20, 24]) (h2 : (2 : F) ≠ 0)
    (h3 : P.T = 2 → (3 : F) ≠ 0) (hk : 8 ≤ P.T → ((P.T / 4 + 1 : Nat) : F) ≠ 0)
    (hd : ∀ i < P.T, internalDiag P i ≠ 0) (hS : 1 + ∑ i ∈ Finset.range P.T, (internalDiag P i)⁻¹ ≠ 0) :
    Function.Bijective (externalMatrix (F := F) P.T).mulVec ∧ Function.Bijective (internalMatrix P).mulVec :=
  ⟨Proofs.Poseidon.external_bijective P.T hT h2 h3 hk,
    Proofs.Poseidon.internal_bijective P (fun i => (internalDiag P i)⁻¹) (fun i hi => mul_inv_cancel₀ (hd i hi)) hS⟩

/-- C80: in a finite field, raising to the power `D` is a bijection when `D` is prime to the number of non-zero
elements. -/
theorem C80_power [Fintype F] (D : Nat) (h : Nat.Coprime (Fintype.card F - 1) D) (h0 : D ≠ 0) :
    Function.Bijective fun x : F => x ^ D := Proofs.Poseidon.pow_bijective D h h0

end field

end Verif.Props.Poseidon
