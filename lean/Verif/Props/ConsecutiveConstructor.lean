import Verif.Model.ConsecutiveConstructor
import Verif.Props.Erc721Consecutive
/-! # C99: the constructor of the consecutive ERC-721 example -/

namespace Verif.Props.ConsecutiveConstructor
open Verif Verif.Consecutive Verif.Spec.Consecutive Verif.Props.Consecutive

theorem insert_eq {s : State} {n : Nat} (h : D s n) (a : Address) {b : U96} (h0 : 0 < b.toNat)
    (hb : n + b.toNat < 2 ^ 96) :
    ConsecutiveConstructor.insert s.sequentialOwnership (nextOf s + b - 1#96) a
      = some (s.sequentialOwnership ++ [⟨nextOf s + b - 1#96, a⟩]) := by
  have hl := last_toNat h.next h0 hb
  unfold ConsecutiveConstructor.insert
  rcases h.last with ⟨h1, h2⟩ | ⟨c, h1, h2⟩
  · rw [h1]; rfl
  · rw [h1]
    dsimp only
    rw [if_neg (by rw [BitVec.lt_def]; omega), if_neg]
    intro e
    have := congrArg BitVec.toNat e
    omega

theorem next_eq {s : State} {n : Nat} (h : D s n) : ConsecutiveConstructor.nextConsecutiveId s = some (nextOf s) := by
  unfold ConsecutiveConstructor.nextConsecutiveId nextOf
  rcases h.last with ⟨h1, h2⟩ | ⟨c, h1, h2⟩
  · rw [h1]; rfl
  · rw [h1]
    have := h.small
    dsimp only
    unfold checkedAdd
    rw [if_pos (by show _ + 1 < _; omega)]

theorem mint_eq {s : State} {n : Nat} (h : D s n) (a : Address) (b : U96) :
    ConsecutiveConstructor.mintConsecutive s a b =
      if b = 0#96 then some s
      else if a = ZERO then none
      else if s.maxBatchSize < b then none
      else if n + b.toNat < 2 ^ 96 then some (batched s a b) else none := by
  unfold ConsecutiveConstructor.mintConsecutive
  rw [next_eq h]
  show (if 0#96 < b then _ else _) = _
  by_cases hz : b = 0#96
  · rw [if_pos hz, if_neg (by rw [hz]; decide)]
  · have h0 : 0 < b.toNat := by
      rcases Nat.eq_zero_or_pos b.toNat with e | e
      · exact absurd (BitVec.eq_of_toNat_eq e) hz
      · exact e
    rw [if_neg hz, if_pos (by rw [BitVec.lt_def]; exact h0)]
    by_cases ha : a = ZERO
    · rw [if_pos ha, if_pos ha]
    rw [if_neg ha, if_neg ha]
    by_cases hm : s.maxBatchSize < b
    · rw [if_pos hm, if_pos hm]
    rw [if_neg hm, if_neg hm]
    unfold checkedAdd
    rw [h.next]
    by_cases hr : n + b.toNat < 2 ^ 96
    · rw [if_pos hr, if_pos hr]
      have e : (nextOf s + b).toNat = n + b.toNat := by rw [toNat_add_of_lt (by rw [h.next]; omega), h.next]
      show (checkedSub (nextOf s + b) 1#96).bind _ = _
      unfold checkedSub
      rw [if_pos (by rw [e]; show 1 ≤ _; omega)]
      show (ConsecutiveConstructor.insert s.sequentialOwnership (nextOf s + b - 1#96) a).bind _ = _
      rw [insert_eq h a h0 hr]
      rfl
    · rw [if_neg hr, if_neg hr]
      rfl

theorem loop_eq : ∀ (bs : List (Address × U96)) {s : State} {n : Nat}, D s n → ∀ s' : State,
    ConsecutiveConstructor.loop s (bs.map fun b => b.1) (bs.map fun b => b.2) = some s' ↔
      n + total bs < 2 ^ 96 ∧ mintBatches s bs = .ok s'
  | [], s, n, h, s' => by
    have := h.small
    show some s = some s' ↔ n + 0 < 2 ^ 96 ∧ Except.ok s = Except.ok s'
    constructor
    · intro e; cases e; exact ⟨this, rfl⟩
    · rintro ⟨_, e⟩; cases e; rfl
  | (a, b) :: bs, s, n, h, s' => by
    have htot : total ((a, b) :: bs) = b.toNat + total bs := by simp [total]
    rw [htot, List.map_cons, List.map_cons, ConsecutiveConstructor.loop, mint_eq h, mintBatches]
    by_cases hz : b = 0#96
    · have hb0 : b.toNat = 0 := by rw [hz]; rfl
      rw [if_pos hz, mintConsecutive_eq h a b (by have := h.small; omega), if_pos hz, except_bind_ok, hb0, Nat.zero_add]
      exact loop_eq bs h s'
    · have h0 : 0 < b.toNat := by
        rcases Nat.eq_zero_or_pos b.toNat with e | e
        · exact absurd (BitVec.eq_of_toNat_eq e) hz
        · exact e
      by_cases hr : n + b.toNat < 2 ^ 96
      · rw [if_neg hz, mintConsecutive_eq h a b hr, if_neg hz]
        by_cases ha : a = ZERO
        · rw [if_pos ha, if_pos ha]
          constructor
          · intro e; cases e
          · rintro ⟨_, e⟩; cases e
        rw [if_neg ha, if_neg ha]
        by_cases hm : s.maxBatchSize < b
        · rw [if_pos hm, if_pos hm]
          constructor
          · intro e; cases e
          · rintro ⟨_, e⟩; cases e
        rw [if_neg hm, if_neg hm, if_pos hr, except_bind_ok, ← Nat.add_assoc]
        exact loop_eq bs (h.batched h0 hr) s'
      · constructor
        · intro e
          rw [if_neg hz, if_neg hr] at e
          simp at e
        · rintro ⟨e, _⟩
          omega

/-- C99: `examples/erc721-consecutive`: with batches given as two lists, the Solidity constructor succeeds and leaves a state
exactly when the ids fit below 2^96 and the library's own batch mints leave that state.  So the hypothesis on ids of the
theorems of C53 holds in every deployment of the example. -/
theorem C99_consecutive (first maxBatch : U96) (bs : List (Address × U96)) (s : State) :
    ConsecutiveConstructor.construct (bs.map fun b => b.1) (bs.map fun b => b.2) first maxBatch = some s ↔
      first.toNat + total bs < 2 ^ 96 ∧ deploy first maxBatch bs = .ok s :=
  loop_eq bs (D_init first maxBatch) s

/-- C99: the lists need not have the same length: amounts that are left over are ignored, missing ones make the constructor
revert. -/
theorem C99_consecutive_lengths (receivers : List Address) (amounts : List U96) (first maxBatch : U96) :
    (amounts.length < receivers.length → ConsecutiveConstructor.construct receivers amounts first maxBatch = none) ∧
    (receivers.length ≤ amounts.length → ConsecutiveConstructor.construct receivers amounts first maxBatch =
      ConsecutiveConstructor.construct receivers (amounts.take receivers.length) first maxBatch) := by
  have key : ∀ (receivers : List Address) (amounts : List U96) (s : State),
      (amounts.length < receivers.length → ConsecutiveConstructor.loop s receivers amounts = none) ∧
      (receivers.length ≤ amounts.length → ConsecutiveConstructor.loop s receivers amounts =
        ConsecutiveConstructor.loop s receivers (amounts.take receivers.length)) := by
    intro receivers
    induction receivers with
    | nil => intro amounts s; exact ⟨fun h => (by cases h), fun _ => rfl⟩
    | cons r receivers ih =>
      intro amounts s
      cases amounts with
      | nil => exact ⟨fun _ => rfl, fun h => (by cases h)⟩
      | cons a amounts =>
        constructor
        · intro h
          rw [ConsecutiveConstructor.loop]
          cases ConsecutiveConstructor.mintConsecutive s r a with
          | none => rfl
          | some s1 => exact (ih amounts s1).1 (Nat.lt_of_succ_lt_succ h)
        · intro h
          rw [List.length_cons, List.take_succ_cons, ConsecutiveConstructor.loop, ConsecutiveConstructor.loop]
          cases ConsecutiveConstructor.mintConsecutive s r a with
          | none => rfl
          | some s1 => exact (ih amounts s1).2 (Nat.le_of_succ_le_succ h)
  exact key receivers amounts _

/-- A batch that the Rust code would let run past the last id (`C53_first_batch_wraps`) is refused by the constructor. -/
example : ConsecutiveConstructor.construct [7#160] [2#96] MAX 5#96 = none ∧ deploy MAX 5#96 [(7#160, 2#96)] = .ok pastMax :=
  ⟨rfl, C53_first_batch_wraps.1⟩

/-- A deployment with two batches. -/
example : ∃ s, ConsecutiveConstructor.construct [7#160, 9#160] [3#96, 2#96] 0#96 10#96 = some s ∧ total [(7#160, 3#96), (9#160, 2#96)] = 5 :=
  ⟨_, rfl, rfl⟩

end Verif.Props.ConsecutiveConstructor
