import Verif.Spec.Checkpoints
import Verif.Proofs.Sqrt
import Mathlib.Data.List.Basic
/-! # Helper lemmas for checkpoint traces -/

namespace Verif.Checkpoints
open Verif.Spec.Checkpoints Verif.Math
variable {kb vb : Nat}

theorem card_bitVec (n : Nat) : Fintype.card (BitVec n) = 2 ^ n := by
  rw [Fintype.ofEquiv_card]; simp

theorem sorted_length_le {t : Trace kb vb} (h : Sorted t) : List.length t ≤ 2 ^ kb := by
  have hn : (t.map (·.key)).Nodup := by
    rw [List.Nodup, List.pairwise_map]
    exact h.imp (fun hlt he => by rw [he] at hlt; omega)
  have := hn.length_le_card
  rw [card_bitVec] at this
  simpa using this

theorem sorted_length_lt {t : Trace kb vb} (hkb : kb < 256) (h : Sorted t) :
    List.length t < 2 ^ 256 :=
  lt_of_le_of_lt (sorted_length_le h) (Nat.pow_lt_pow_right (by decide) hkb)

theorem length_toNat {t : Trace kb vb} (hl : List.length t < 2 ^ 256) :
    (length t).toNat = List.length t := by
  unfold length
  rw [BitVec.toNat_ofNat, Nat.mod_eq_of_lt hl]

theorem index_ok {t : Trace kb vb} {pos : U256} (h : pos.toNat < List.length t) :
    index t pos = .ok (t[pos.toNat]'h) := by
  unfold index
  rw [List.getElem?_eq_getElem h]; rfl

theorem insert_nil (k : BitVec kb) (v : BitVec vb) :
    insert ([] : Trace kb vb) k v = .ok (0#vb, v, [⟨k, v⟩]) := by
  simp [insert, length, uncheckedPush]

theorem insert_snoc {l : Trace kb vb} {c : Checkpoint kb vb} (hl : List.length (l ++ [c]) < 2 ^ 256)
    (k : BitVec kb) (v : BitVec vb) :
    insert (l ++ [c]) k v =
      if k.toNat < c.key.toNat then .error .unorderedInsertion
      else if k = c.key then .ok (c.value, v, l ++ [⟨k, v⟩])
      else .ok (c.value, v, l ++ [c] ++ [⟨k, v⟩]) := by
  have hlen := length_toNat hl
  have hlen' : List.length (l ++ [c]) = List.length l + 1 := by simp
  have hpos : 0#256 < length (l ++ [c]) := by
    rw [BitVec.lt_def, hlen, hlen']; exact Nat.succ_pos _
  have hidx : (length (l ++ [c]) - 1#256).toNat = List.length l := by
    rw [toNat_sub_of_ge (by rw [hlen, hlen']; show 1 ≤ _; omega), hlen, hlen']
    show _ + 1 - 1 = _; omega
  have hi : index (l ++ [c]) (length (l ++ [c]) - 1#256) = .ok c := by
    rw [index_ok (by rw [hidx, hlen']; omega)]
    simp [hidx]
  unfold insert
  simp only [hpos, if_true, hi, except_bind_ok, except_throw, except_pure]
  by_cases h1 : k < c.key
  · have := BitVec.lt_def.mp h1
    simp [h1, this]
  · have h1' : ¬ k.toNat < c.key.toNat := fun h => h1 (BitVec.lt_def.mpr h)
    by_cases h2 : c.key = k
    · have h2' : k = c.key := h2.symm
      subst h2'
      simp [hidx]
    · have h2' : ¬ k = c.key := fun h => h2 h.symm
      simp [h1, h1', h2, h2', uncheckedPush]

theorem exec_eq {t : Trace kb vb} (hl : List.length t < 2 ^ 256) (k : BitVec kb) (v : BitVec vb) :
    stepOf exec t (k, v) = specPush t k v := by
  rcases List.eq_nil_or_concat t with rfl | ⟨l, c, rfl⟩
  · simp [stepOf, exec, push, insert_nil, specPush]
  · rw [List.concat_eq_append] at *
    simp only [stepOf, exec, push, insert_snoc hl, specPush]
    by_cases h1 : k.toNat < c.key.toNat
    · simp [h1]
    · by_cases h2 : k = c.key
      · simp [h2]
      · simp [h1, h2]

theorem sorted_specPush {t : Trace kb vb} (h : Sorted t) (k : BitVec kb) (v : BitVec vb) :
    Sorted (specPush t k v) := by
  rcases List.eq_nil_or_concat t with rfl | ⟨l, c, rfl⟩
  · simp [specPush, Sorted]
  · rw [List.concat_eq_append] at *
    have hh := h
    unfold Sorted at hh
    rw [List.pairwise_append] at hh
    obtain ⟨hp, -, hlt⟩ := hh
    by_cases h1 : k.toNat < c.key.toNat
    · simp [specPush, h1]; exact h
    · by_cases h2 : k = c.key
      · subst h2
        simp only [specPush, List.getLast?_append, List.getLast?_singleton, Option.some_or, h1,
          if_false, if_true, List.dropLast_concat]
        unfold Sorted
        rw [List.pairwise_append]
        refine ⟨hp, by simp, ?_⟩
        intro a ha b hb
        simp at hb; subst hb
        exact hlt a ha c (by simp)
      · have h3 : c.key.toNat < k.toNat := by
          rcases Nat.lt_or_ge c.key.toNat k.toNat with h | h
          · exact h
          · exact absurd (BitVec.eq_of_toNat_eq (by omega)) h2
        simp only [specPush, List.getLast?_append, List.getLast?_singleton, Option.some_or, h1,
          if_false, h2]
        unfold Sorted
        rw [List.pairwise_append]
        refine ⟨h, by simp, ?_⟩
        intro a ha b hb
        simp at hb; subst hb
        rcases List.mem_append.mp ha with ha | ha
        · exact lt_trans (hlt a ha c (by simp)) h3
        · simp at ha; subst ha; exact h3

theorem sorted_specRun (ops : List (BitVec kb × BitVec vb)) : ∀ {t : Trace kb vb}, Sorted t →
    Sorted (specRun t ops) := by
  induction ops with
  | nil => intro t h; exact h
  | cons op ops ih => intro t h; exact ih (sorted_specPush h _ _)

theorem run_eq_specRun (hkb : kb < 256) (ops : List (BitVec kb × BitVec vb)) :
    ∀ {t : Trace kb vb}, Sorted t → run t ops = specRun t ops := by
  induction ops with
  | nil => intro t _; rfl
  | cons op ops ih =>
    intro t h
    obtain ⟨k, v⟩ := op
    show run (stepOf exec t (k, v)) ops = _
    rw [exec_eq (sorted_length_lt hkb h)]
    exact ih (sorted_specPush h _ _)

/-! ## Binary search -/

/-- `pos` splits the trace at `p`: true before, false from `pos` on. -/
def Splits (t : Trace kb vb) (p : Checkpoint kb vb → Bool) (pos : Nat) : Prop :=
  (∀ i, (h : i < List.length t) → i < pos → p t[i] = true) ∧
  (∀ i, (h : i < List.length t) → pos ≤ i → p t[i] = false)

theorem sorted_getElem_lt {t : Trace kb vb} (h : Sorted t) {i j : Nat} (hij : i < j)
    (hj : j < List.length t) : (t[i]'(by omega)).key.toNat < t[j].key.toNat :=
  List.pairwise_iff_getElem.mp h i j (by omega) hj hij

theorem sorted_getElem_le {t : Trace kb vb} (h : Sorted t) {i j : Nat} (hij : i ≤ j)
    (hj : j < List.length t) : (t[i]'(by omega)).key.toNat ≤ t[j].key.toNat := by
  rcases Nat.lt_or_ge i j with h1 | h1
  · exact le_of_lt (sorted_getElem_lt h h1 hj)
  · have : i = j := by omega
    subst this; exact le_refl _

theorem avg_bounds {low high : U256} (h : low < high) :
    low.toNat ≤ (average low high).toNat ∧ (average low high).toNat < high.toNat ∧
    (average low high + 1#256).toNat = (average low high).toNat + 1 := by
  have h1 := BitVec.lt_def.mp h
  have h2 := average_toNat low high
  have h3 := high.isLt
  refine ⟨by omega, by omega, ?_⟩
  rw [toNat_add_of_lt]
  · rfl
  · show _ + 1 < _; omega

theorem upper_spec {t : Trace kb vb} (hs : Sorted t) (key : BitVec kb) : ∀ (n : Nat) (low high : U256),
    high.toNat - low.toNat = n → low.toNat ≤ high.toNat → high.toNat ≤ List.length t →
    (∀ i, (h : i < List.length t) → i < low.toNat → t[i].key.toNat ≤ key.toNat) →
    (∀ i, (h : i < List.length t) → high.toNat ≤ i → key.toNat < t[i].key.toNat) →
    ∃ pos, upperBinaryLookup t key low high = .ok pos ∧ pos.toNat ≤ List.length t ∧
      low.toNat ≤ pos.toNat ∧
      Splits t (fun c => decide (c.key.toNat ≤ key.toNat)) pos.toNat := by
  intro n
  induction n using Nat.strongRecOn with
  | _ n ih =>
    intro low high hn hle hlen hlow hhigh
    rw [upperBinaryLookup]
    by_cases h : low < high
    · obtain ⟨a1, a2, a3⟩ := avg_bounds h
      have hmid : (average low high).toNat < List.length t := by omega
      simp only [h, dif_pos, index_ok hmid]
      by_cases hc : key < t[(average low high).toNat].key
      · rw [if_pos hc]
        have hc' := BitVec.lt_def.mp hc
        apply ih ((average low high).toNat - low.toNat) (by omega) low (average low high) rfl a1
          (by omega) hlow
        intro i hi hge
        exact lt_of_lt_of_le hc' (sorted_getElem_le hs hge hi)
      · rw [if_neg hc]
        have hc' : t[(average low high).toNat].key.toNat ≤ key.toNat := by
          rw [BitVec.lt_def] at hc; omega
        obtain ⟨pos, h1, h2, h3, h4⟩ := ih (high.toNat - (average low high + 1#256).toNat)
          (by omega) (average low high + 1#256) high rfl (by omega) hlen
          (by
            intro i hi hlt
            exact le_trans (sorted_getElem_le hs (by omega : i ≤ (average low high).toNat) hmid) hc')
          hhigh
        exact ⟨pos, h1, h2, by omega, h4⟩
    · have heq : low.toNat = high.toNat := by
        have : ¬ low.toNat < high.toNat := fun h' => h (BitVec.lt_def.mpr h')
        omega
      simp only [h, dif_neg, not_false_eq_true]
      refine ⟨high, rfl, hlen, hle, ?_, ?_⟩
      · intro i hi hlt; exact decide_eq_true (hlow i hi (by omega))
      · intro i hi hge; exact decide_eq_false (by have := hhigh i hi hge; omega)

theorem lower_spec {t : Trace kb vb} (hs : Sorted t) (key : BitVec kb) : ∀ (n : Nat) (low high : U256),
    high.toNat - low.toNat = n → low.toNat ≤ high.toNat → high.toNat ≤ List.length t →
    (∀ i, (h : i < List.length t) → i < low.toNat → t[i].key.toNat < key.toNat) →
    (∀ i, (h : i < List.length t) → high.toNat ≤ i → key.toNat ≤ t[i].key.toNat) →
    ∃ pos, lowerBinaryLookup t key low high = .ok pos ∧ pos.toNat ≤ List.length t ∧
      Splits t (fun c => decide (c.key.toNat < key.toNat)) pos.toNat := by
  intro n
  induction n using Nat.strongRecOn with
  | _ n ih =>
    intro low high hn hle hlen hlow hhigh
    rw [lowerBinaryLookup]
    by_cases h : low < high
    · obtain ⟨a1, a2, a3⟩ := avg_bounds h
      have hmid : (average low high).toNat < List.length t := by omega
      simp only [h, dif_pos, index_ok hmid]
      by_cases hc : t[(average low high).toNat].key < key
      · rw [if_pos hc]
        have hc' := BitVec.lt_def.mp hc
        apply ih (high.toNat - (average low high + 1#256).toNat)
          (by omega) (average low high + 1#256) high rfl (by omega) hlen _ hhigh
        intro i hi hlt
        exact lt_of_le_of_lt (sorted_getElem_le hs (by omega : i ≤ (average low high).toNat) hmid) hc'
      · rw [if_neg hc]
        have hc' : key.toNat ≤ t[(average low high).toNat].key.toNat := by
          rw [BitVec.lt_def] at hc; omega
        apply ih ((average low high).toNat - low.toNat) (by omega) low (average low high) rfl a1
          (by omega) hlow
        intro i hi hge
        exact le_trans hc' (sorted_getElem_le hs hge hi)
    · have heq : low.toNat = high.toNat := by
        have : ¬ low.toNat < high.toNat := fun h' => h (BitVec.lt_def.mpr h')
        omega
      simp only [h, dif_neg, not_false_eq_true]
      refine ⟨high, rfl, hlen, ?_, ?_⟩
      · intro i hi hlt; exact decide_eq_true (hlow i hi (by omega))
      · intro i hi hge; exact decide_eq_false (by have := hhigh i hi hge; omega)

theorem splits_filter {p : Checkpoint kb vb → Bool} : ∀ {t : Trace kb vb} {pos : Nat},
    Splits t p pos → t.filter p = t.take pos := by
  intro t
  induction t with
  | nil => intro pos _; simp
  | cons c t ih =>
    intro pos h
    cases pos with
    | zero =>
      rw [List.take_zero, List.filter_eq_nil_iff]
      intro a ha
      obtain ⟨i, hi, rfl⟩ := List.getElem_of_mem ha
      rw [h.2 i hi (Nat.zero_le _)]; simp
    | succ pos =>
      have hc : p c = true := h.1 0 (by simp) (by omega)
      rw [List.filter_cons_of_pos hc, List.take_succ_cons]
      congr 1
      apply ih
      refine ⟨fun i hi hlt => ?_, fun i hi hge => ?_⟩
      · exact h.1 (i + 1) (by simpa using hi) (by omega)
      · exact h.2 (i + 1) (by simpa using hi) (by omega)

theorem splits_find {p : Checkpoint kb vb → Bool} : ∀ {t : Trace kb vb} {pos : Nat},
    Splits t p pos → t.find? (fun c => !p c) = t[pos]? := by
  intro t
  induction t with
  | nil => intro pos _; simp
  | cons c t ih =>
    intro pos h
    cases pos with
    | zero =>
      have hc : p c = false := h.2 0 (by simp) (by omega)
      rw [List.find?_cons_of_pos (by simp [hc])]
      rfl
    | succ pos =>
      have hc : p c = true := h.1 0 (by simp) (by omega)
      rw [List.find?_cons_of_neg (by simp [hc])]
      rw [List.getElem?_cons_succ]
      apply ih
      refine ⟨fun i hi hlt => ?_, fun i hi hge => ?_⟩
      · exact h.1 (i + 1) (by simpa using hi) (by omega)
      · exact h.2 (i + 1) (by simpa using hi) (by omega)

/-- The tail common to both upper lookups. -/
theorem upper_tail {t : Trace kb vb} {key : BitVec kb} {pos : U256}
    (hpl : pos.toNat ≤ List.length t)
    (hsp : Splits t (fun c => decide (c.key.toNat ≤ key.toNat)) pos.toNat) :
    (if pos = 0#256 then (.ok 0#vb : Except Err (BitVec vb)) else do
      let c ← index t (pos - 1#256)
      return c.value) = .ok (lastAtOrBefore t key) := by
  unfold lastAtOrBefore
  rw [splits_filter hsp]
  by_cases h0 : pos = 0#256
  · subst h0; simp
  · have hp : 0 < pos.toNat := by
      rcases Nat.eq_zero_or_pos pos.toNat with h | h
      · exact absurd (BitVec.eq_of_toNat_eq (by simpa using h)) h0
      · exact h
    have hm : (pos - 1#256).toNat = pos.toNat - 1 := by
      rw [toNat_sub_of_ge (by show 1 ≤ _; omega)]; rfl
    have hlt : (pos - 1#256).toNat < List.length t := by omega
    rw [if_neg h0, index_ok hlt]
    have : (t.take pos.toNat).getLast? = some t[(pos - 1#256).toNat] := by
      rw [List.getLast?_eq_getElem?, List.length_take, Nat.min_eq_left hpl,
        List.getElem?_take_of_lt (by omega), List.getElem?_eq_getElem (by omega)]
      simp [hm]
    rw [this]; rfl

end Verif.Checkpoints
