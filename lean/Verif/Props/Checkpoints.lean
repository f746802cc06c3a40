import Verif.Proofs.Checkpoints
import Verif.Props.Math
/-! # C35, C36, C37: checkpoint traces -/

namespace Verif.Props.Checkpoints
open Verif.Checkpoints Verif.Spec.Checkpoints Verif.Math
variable {kb vb : Nat}

/-- **C35** Keys strictly increase after every history of pushes, and the trace is exactly the one the
specification builds (refuse lower keys, overwrite equal key, append greater key). -/
theorem C35_history (hkb : kb < 256) (ops : List (BitVec kb × BitVec vb)) :
    Sorted (run ([] : Trace kb vb) ops) ∧ run ([] : Trace kb vb) ops = specRun [] ops := by
  have h0 : Sorted ([] : Trace kb vb) := List.Pairwise.nil
  rw [run_eq_specRun hkb ops h0]
  exact ⟨sorted_specRun ops h0, rfl⟩

/-- **C35** Result of `push` on a non-empty sorted trace whose last entry is `c`. -/
theorem C35_push_nonempty (hkb : kb < 256) {t : Trace kb vb} (hs : Sorted t) {c : Checkpoint kb vb}
    (hc : t.getLast? = some c) (k : BitVec kb) (v : BitVec vb) :
    (k.toNat < c.key.toNat → push t k v = .error .unorderedInsertion) ∧
    (k = c.key → push t k v = .ok (c.value, v, t.dropLast ++ [⟨k, v⟩])) ∧
    (c.key.toNat < k.toNat → push t k v = .ok (c.value, v, t ++ [⟨k, v⟩])) := by
  rcases List.eq_nil_or_concat t with rfl | ⟨l, d, rfl⟩
  · simp at hc
  · rw [List.concat_eq_append] at *
    simp at hc
    subst hc
    unfold push
    rw [insert_snoc (sorted_length_lt hkb hs)]
    refine ⟨fun h => by simp [h], fun h => ?_, fun h => ?_⟩
    · subst h; simp
    · have h1 : ¬ k.toNat < d.key.toNat := by omega
      have h2 : ¬ k = d.key := fun e => by rw [e] at h; omega
      simp [h1, h2]

/-- **C35** The first `push`. -/
theorem C35_push_empty (k : BitVec kb) (v : BitVec vb) :
    push ([] : Trace kb vb) k v = .ok (0#vb, v, [⟨k, v⟩]) := insert_nil k v

/-- **C35** `length`, `latest`, `latest_checkpoint`, `at` read the list (never panicking except `at`
outside the trace). -/
theorem C35_observers (hkb : kb < 256) {t : Trace kb vb} (hs : Sorted t) :
    (length t).toNat = List.length t ∧
    latest t = .ok ((t.getLast?.map (·.value)).getD 0#vb) ∧
    latestCheckpoint t = .ok (t.getLast?.map (fun c => (c.key, c.value))) ∧
    (∀ pos : BitVec 32, at' t pos = match t[pos.toNat]? with
      | some c => .ok (c.key, c.value)
      | none => .error .panic) := by
  have hl := sorted_length_lt hkb hs
  have hlen := length_toNat hl
  refine ⟨hlen, ?_, ?_, ?_⟩
  · rcases List.eq_nil_or_concat t with rfl | ⟨l, c, rfl⟩
    · simp [latest, length]
    · rw [List.concat_eq_append] at *
      have h0 : ¬ length (l ++ [c]) = 0#256 := by
        intro h
        have := congrArg BitVec.toNat h
        rw [hlen] at this; simp at this
      have hidx : (length (l ++ [c]) - 1#256).toNat = List.length l := by
        rw [toNat_sub_of_ge (by rw [hlen]; simp), hlen]; simp
      unfold latest
      simp only [h0, if_false]
      rw [index_ok (by rw [hidx]; simp)]
      simp [hidx]
  · rcases List.eq_nil_or_concat t with rfl | ⟨l, c, rfl⟩
    · simp [latestCheckpoint, length]
    · rw [List.concat_eq_append] at *
      have h0 : ¬ length (l ++ [c]) = 0#256 := by
        intro h
        have := congrArg BitVec.toNat h
        rw [hlen] at this; simp at this
      have hidx : (length (l ++ [c]) - 1#256).toNat = List.length l := by
        rw [toNat_sub_of_ge (by rw [hlen]; simp), hlen]; simp
      unfold latestCheckpoint
      simp only [h0, if_false]
      rw [index_ok (by rw [hidx]; simp)]
      simp [hidx]
  · intro pos
    unfold at'
    cases t[pos.toNat]? <;> rfl

/-! ## C36 -/

/-- **C36** `lower_lookup(k)` is the value of the first checkpoint with key `≥ k`, or zero; it never
panics. -/
theorem C36_lower_lookup (hkb : kb < 256) {t : Trace kb vb} (hs : Sorted t) (k : BitVec kb) :
    lowerLookup t k = .ok (firstAtOrAfter t k) := by
  have hl := sorted_length_lt hkb hs
  have hlen := length_toNat hl
  obtain ⟨pos, h1, h2, h3⟩ := lower_spec hs k _ 0#256 (length t) rfl (by simp)
    (by rw [hlen]) (by intro i _ h; simp at h) (by intro i h h'; rw [hlen] at h'; omega)
  unfold lowerLookup firstAtOrAfter
  have hf := splits_find h3
  have hfun : (fun c : Checkpoint kb vb => decide (k.toNat ≤ c.key.toNat))
      = (fun c => !decide (c.key.toNat < k.toNat)) := by
    funext c
    by_cases h : c.key.toNat < k.toNat
    · have : ¬ k.toNat ≤ c.key.toNat := by omega
      simp [h]
    · have : k.toNat ≤ c.key.toNat := by omega
      simp [this]
  rw [hfun, hf]
  simp only [h1, except_bind_ok]
  by_cases hp : pos = length t
  · subst hp
    simp only [if_true, hlen]
    rw [List.getElem?_eq_none (le_refl _)]
    rfl
  · have : pos.toNat < List.length t := by
      rcases Nat.lt_or_ge pos.toNat (List.length t) with h | h
      · exact h
      · exact absurd (BitVec.eq_of_toNat_eq (by rw [hlen]; omega)) hp
    simp only [hp, if_false]
    rw [index_ok this, List.getElem?_eq_getElem this]
    rfl

/-- **C36** `upper_lookup(k)` is the value of the last checkpoint with key `≤ k`, or zero; it never
panics. -/
theorem C36_upper_lookup (hkb : kb < 256) {t : Trace kb vb} (hs : Sorted t) (k : BitVec kb) :
    upperLookup t k = .ok (lastAtOrBefore t k) := by
  have hlen := length_toNat (sorted_length_lt hkb hs)
  obtain ⟨pos, h1, h2, _, h3⟩ := upper_spec hs k _ 0#256 (length t) rfl (by simp)
    (by rw [hlen]) (by intro i _ h; simp at h) (by intro i h h'; rw [hlen] at h'; omega)
  unfold upperLookup
  simp only [h1, except_bind_ok]
  exact upper_tail h2 h3

/-- **C36** `upper_lookup_recent` gives the same answer as `upper_lookup`, for all traces of all
lengths; it never panics. -/
theorem C36_upper_lookup_recent (hkb : kb < 256) {t : Trace kb vb} (hs : Sorted t) (k : BitVec kb) :
    upperLookupRecent t k = .ok (lastAtOrBefore t k) := by
  have hl := sorted_length_lt hkb hs
  have hlen := length_toNat hl
  unfold upperLookupRecent
  by_cases h5 : 5#256 < length t
  · have h5' : 5 < List.length t := by rw [← hlen]; exact BitVec.lt_def.mp h5
    obtain ⟨q1, q2⟩ := Verif.Props.Math.C28_sqrt_exact (length t)
    have hsq : 0 < (sqrt (length t)).toNat := by
      rcases Nat.eq_zero_or_pos (sqrt (length t)).toNat with h | h
      · rw [h, hlen] at q2; omega
      · exact h
    have hsqle : (sqrt (length t)).toNat ≤ List.length t := by
      rw [hlen] at q1
      nlinarith
    have hmid : (length t - sqrt (length t)).toNat = List.length t - (sqrt (length t)).toNat := by
      rw [toNat_sub_of_ge (by rw [hlen]; exact hsqle), hlen]
    generalize hm : length t - sqrt (length t) = mid at *
    have hmlt : mid.toNat < List.length t := by omega
    simp only [h5, if_true, hm]
    rw [index_ok hmlt]
    simp only [except_bind_ok, except_pure]
    by_cases hc : k < t[mid.toNat].key
    · have hc' := BitVec.lt_def.mp hc
      obtain ⟨pos, h1, h2, _, h3⟩ := upper_spec hs k _ 0#256 mid rfl (by simp)
        (by omega) (by intro i _ h; simp at h)
        (by intro i hi hge; exact lt_of_lt_of_le hc' (sorted_getElem_le hs hge hi))
      simp only [hc, if_true, except_bind_ok, h1]
      exact upper_tail h2 h3
    · have hc' : t[mid.toNat].key.toNat ≤ k.toNat := by rw [BitVec.lt_def] at hc; omega
      have hadd : (mid + 1#256).toNat = mid.toNat + 1 := by
        rw [toNat_add_of_lt]
        · rfl
        · show _ + 1 < _; omega
      obtain ⟨pos, h1, h2, _, h3⟩ := upper_spec hs k _ (mid + 1#256) (length t) rfl
        (by rw [hadd, hlen]; omega) (by rw [hlen])
        (by
          intro i hi hlt
          rw [hadd] at hlt
          exact le_trans (sorted_getElem_le hs (by omega : i ≤ mid.toNat) hmlt) hc')
        (by intro i h h'; rw [hlen] at h'; omega)
      simp only [hc, if_false, except_bind_ok, h1]
      exact upper_tail h2 h3
  · obtain ⟨pos, h1, h2, _, h3⟩ := upper_spec hs k _ 0#256 (length t) rfl (by simp)
      (by rw [hlen]) (by intro i _ h; simp at h) (by intro i h h'; rw [hlen] at h'; omega)
    simp only [h5, if_false, except_bind_ok, except_pure, h1]
    exact upper_tail h2 h3

/-- A concrete trace with more than five entries, in one of the shipped sizes. -/
def sampleTrace : Trace 96 160 :=
  [⟨1#96, 10#160⟩, ⟨3#96, 30#160⟩, ⟨5#96, 50#160⟩, ⟨7#96, 70#160⟩, ⟨8#96, 80#160⟩, ⟨9#96, 90#160⟩,
   ⟨20#96, 200#160⟩]
example : Sorted sampleTrace := by unfold Sorted sampleTrace; decide
example : upperLookupRecent sampleTrace 6#96 = .ok 50#160 :=
  (C36_upper_lookup_recent (by decide) (by unfold Sorted sampleTrace; decide) _).trans (by decide)
example : lowerLookup sampleTrace 6#96 = .ok 70#160 :=
  (C36_lower_lookup (by decide) (by unfold Sorted sampleTrace; decide) _).trans (by decide)

/-! ## C37 -/

theorem last_specPush {t : Trace kb vb} {c : Checkpoint kb vb} (hc : t.getLast? = some c)
    (k : BitVec kb) (v : BitVec vb) :
    ∃ c', (specPush t k v).getLast? = some c' ∧ c.key.toNat ≤ c'.key.toNat := by
  unfold specPush
  rw [hc]
  by_cases h1 : k.toNat < c.key.toNat
  · simp only [h1, if_true]; exact ⟨c, hc, le_refl _⟩
  · simp only [h1, if_false]
    by_cases h2 : k = c.key
    · simp [h2]
    · simp [h2]; omega

theorem lookup_specPush {t : Trace kb vb} {c : Checkpoint kb vb} (hc : t.getLast? = some c)
    {q : BitVec kb} (hq : q.toNat < c.key.toNat) (k : BitVec kb) (v : BitVec vb) :
    lastAtOrBefore (specPush t k v) q = lastAtOrBefore t q := by
  rcases List.eq_nil_or_concat t with rfl | ⟨l, d, rfl⟩
  · simp at hc
  · rw [List.concat_eq_append] at *
    simp at hc
    subst hc
    have hd : ¬ d.key.toNat ≤ q.toNat := by omega
    unfold specPush lastAtOrBefore
    by_cases h1 : k.toNat < d.key.toNat
    · simp [h1]
    · have hk : ¬ k.toNat ≤ q.toNat := by omega
      by_cases h2 : k = d.key
      · subst h2; simp [hd]
      · simp [h1, h2, hd, hk]

/-- **C37** The past is immutable: once the latest key is above `q`, no later history of pushes changes
`upper_lookup(q)` (and it keeps succeeding). -/
theorem C37_past_immutable (hkb : kb < 256) (before after : List (BitVec kb × BitVec vb))
    {c : Checkpoint kb vb} (hc : (run ([] : Trace kb vb) before).getLast? = some c)
    {q : BitVec kb} (hq : q.toNat < c.key.toNat) :
    upperLookup (run [] (before ++ after)) q = upperLookup (run ([] : Trace kb vb) before) q := by
  have hs := (C35_history hkb before).1
  have hs2 := (C35_history hkb (before ++ after)).1
  rw [C36_upper_lookup hkb hs2, C36_upper_lookup hkb hs]
  congr 1
  have hrun : run ([] : Trace kb vb) (before ++ after) = specRun (run [] before) after := by
    rw [← run_eq_specRun hkb after hs]
    exact runOf_append exec [] before after
  rw [hrun]
  clear hrun hs2
  generalize run ([] : Trace kb vb) before = t at *
  clear hs
  induction after generalizing t c with
  | nil => rfl
  | cons op ops ih =>
    obtain ⟨k, v⟩ := op
    obtain ⟨c', h1, h2⟩ := last_specPush hc k v
    show lastAtOrBefore (specRun (specPush t k v) ops) q = _
    rw [ih (c := c') (by omega) _ h1, lookup_specPush hc hq]

example : (run ([] : Trace 96 160) [(1#96, 5#160), (4#96, 6#160)]).getLast? = some ⟨4#96, 6#160⟩ := by
  decide

end Verif.Props.Checkpoints
