import Verif.Spec.Utils
/-! # C32 Nonces, C33 Pausable, C34 BitMap -/

namespace Verif.Props.Utils

/-! ## C32 -/
section
open Verif.Nonces Verif.Spec.Nonces

/-- **C32** `use_nonce` returns the current nonce and increments exactly this owner's nonce by one. -/
theorem C32_use_nonce {s s' : State} {o : Address} {n : U256} (h : useNonce s o = .ok (n, s')) :
    n = nonceOf s o ∧ (nonceOf s' o).toNat = (nonceOf s o).toNat + 1 ∧
      ∀ a, a ≠ o → nonceOf s' a = nonceOf s a := by
  unfold useNonce at h
  cases hc : checkedAdd (s.nonces o) 1#256 with
  | none => simp [hc, orPanic, bind, Except.bind] at h
  | some x =>
    simp [hc, orPanic, bind, Except.bind, pure, Except.pure] at h
    obtain ⟨rfl, rfl⟩ := h
    have := (checkedAdd_eq_some.mp hc).2
    refine ⟨rfl, ?_, fun a ha => ?_⟩
    · simpa [nonceOf] using this
    · simp [nonceOf, upd_ne _ _ ha]

/-- **C32** `use_nonce` fails only when all `2^256 - 1` increments are used up. -/
theorem C32_use_nonce_fails_iff {s : State} {o : Address} :
    (∃ e, useNonce s o = .error e) ↔ nonceOf s o = maxU256 := by
  unfold useNonce nonceOf
  rw [eq_maxU256_iff]
  have hlt := (s.nonces o).isLt
  cases hc : checkedAdd (s.nonces o) 1#256 with
  | none =>
    have h := checkedAdd_eq_none.mp hc
    have h1 : (1#256).toNat = 1 := rfl
    constructor
    · intro _; omega
    · intro _; exact ⟨.panic, by simp [hc, orPanic]⟩
  | some x =>
    have h := (checkedAdd_eq_some.mp hc).1
    have h1 : (1#256).toNat = 1 := rfl
    constructor
    · rintro ⟨e, he⟩; simp [hc, orPanic] at he
    · intro h; omega

/-- **C32** `use_checked_nonce` accepts exactly the current nonce (and does what `use_nonce` does),
otherwise reports the current nonce. -/
theorem C32_use_checked_nonce {s : State} {o : Address} {n : U256} (hm : nonceOf s o ≠ maxU256) :
    (n = nonceOf s o → ∃ s', useCheckedNonce s o n = .ok s' ∧ useNonce s o = .ok (n, s')) ∧
    (n ≠ nonceOf s o →
      useCheckedNonce s o n = .error (.invalidAccountNonce o (nonceOf s o))) := by
  cases hu : useNonce s o with
  | error e => exact absurd (C32_use_nonce_fails_iff.mp ⟨e, hu⟩) hm
  | ok p =>
    obtain ⟨m, s'⟩ := p
    obtain ⟨rfl, -, -⟩ := C32_use_nonce hu
    constructor
    · rintro rfl
      exact ⟨s', by simp [useCheckedNonce, hu, bind, Except.bind, pure, Except.pure], rfl⟩
    · intro hne
      simp [useCheckedNonce, hu, bind, Except.bind, hne, throw, throwThe, MonadExceptOf.throw]

theorem checked_ok {s s' : State} {o : Address} {n : U256} (h : useCheckedNonce s o n = .ok s') :
    useNonce s o = .ok (n, s') := by
  cases hu : useNonce s o with
  | error e => simp [useCheckedNonce, hu, bind, Except.bind] at h
  | ok p =>
    obtain ⟨m, s1⟩ := p
    by_cases hn : n = m
    · subst hn
      simp [useCheckedNonce, hu, bind, Except.bind, pure, Except.pure] at h
      subst h; rfl
    · simp [useCheckedNonce, hu, bind, Except.bind, pure, Except.pure, hn, throw, throwThe,
        MonadExceptOf.throw] at h

/-- One call either consumes a nonce through `use_nonce` or leaves the state alone. -/
theorem step_cases (s : State) (c : Call) :
    (∃ o n s', useNonce s o = .ok (n, s') ∧ handsOut s c = some (o, n) ∧ stepOf exec s c = s') ∨
    (handsOut s c = none ∧ stepOf exec s c = s) := by
  cases c with
  | use o =>
    cases hu : useNonce s o with
    | error e => right; simp [handsOut, hu, stepOf, exec, bind, Except.bind]
    | ok p =>
      left
      refine ⟨o, p.1, p.2, hu, ?_, ?_⟩ <;>
        simp [handsOut, hu, stepOf, exec, bind, Except.bind, pure, Except.pure]
  | useChecked o n =>
    cases hu : useCheckedNonce s o n with
    | error e => right; simp [handsOut, hu, stepOf, exec]
    | ok s' => left; exact ⟨o, n, s', checked_ok hu, by simp [handsOut, hu], by simp [stepOf, exec, hu]⟩

theorem consumed_from (owner : Address) (cs : List Call) : ∀ s : State,
    consumed owner s cs = List.range' (nonceOf s owner).toNat
        ((nonceOf (run s cs) owner).toNat - (nonceOf s owner).toNat) ∧
      (nonceOf s owner).toNat ≤ (nonceOf (run s cs) owner).toNat := by
  induction cs with
  | nil => intro s; simp [consumed, run]
  | cons c cs ih =>
    intro s
    have hrun : run s (c :: cs) = run (stepOf exec s c) cs := rfl
    rw [hrun]
    obtain ⟨ih1, ih2⟩ := ih (stepOf exec s c)
    rcases step_cases s c with ⟨o, n, s', hu, hh, hs⟩ | ⟨hh, hs⟩
    · obtain ⟨hn, hinc, hoth⟩ := C32_use_nonce hu
      simp only [consumed, hh]
      rw [hs] at ih1 ih2 ⊢
      rw [ih1]
      by_cases ho : o = owner
      · subst ho
        rw [if_pos rfl, hn]
        rw [hinc] at ih2 ⊢
        constructor
        · have : (nonceOf (run s' cs) o).toNat - (nonceOf s o).toNat
              = ((nonceOf (run s' cs) o).toNat - ((nonceOf s o).toNat + 1)) + 1 := by omega
          rw [this, List.range'_succ]; rfl
        · omega
      · rw [if_neg ho]
        have := hoth owner (fun e => ho e.symm)
        rw [this] at ih2 ⊢
        exact ⟨rfl, ih2⟩
    · simp only [consumed, hh]
      rw [hs] at ih1 ih2 ⊢
      exact ⟨by simpa using ih1, ih2⟩

/-- **C32** Over any history the nonces of an owner that are handed out are exactly
`0, 1, ..., k-1` in this order, where `k` is the owner's final nonce: no repetition, no gap. -/
theorem C32_consumed_sequential (owner : Address) (cs : List Call) :
    consumed owner init cs = List.range (nonceOf (run init cs) owner).toNat := by
  have := (consumed_from owner cs init).1
  simpa [nonceOf, init, List.range_eq_range'] using this

example : consumed 5#160 init [.use 5#160, .useChecked 5#160 7#256, .use 6#160,
    .useChecked 5#160 1#256, .use 5#160] = [0, 1, 2] := by decide
example : ∃ s', useNonce init 5#160 = .ok (0#256, s') := ⟨_, rfl⟩
example : useCheckedNonce init 5#160 3#256 = .error (.invalidAccountNonce 5#160 0#256) := rfl

end

/-! ## C33 -/
section
open Verif.Pausable Verif.Spec.Pausable

/-- **C33** `pause` succeeds iff not paused; it sets the flag and emits `Paused(caller)`. -/
theorem C33_pause (s : State) (c : Address) :
    pause s c = if s.paused then .error .enforcedPause
      else .ok { paused := true, log := s.log ++ [.paused c] } := by
  unfold pause whenNotPaused
  cases s.paused <;> rfl

/-- **C33** `unpause` succeeds iff paused; it clears the flag and emits `Unpaused(caller)`. -/
theorem C33_unpause (s : State) (c : Address) :
    unpause s c = if s.paused then .ok { paused := false, log := s.log ++ [.unpaused c] }
      else .error .expectedPause := by
  unfold unpause whenPaused
  cases s.paused <;> rfl

/-- **C33** The guards pass exactly in the named state. -/
theorem C33_guards (s : State) :
    (whenNotPaused s = .ok () ↔ s.paused = false) ∧ (whenPaused s = .ok () ↔ s.paused = true) := by
  unfold whenNotPaused whenPaused
  cases s.paused <;> simp

theorem paused_parity_from (ops : List (Address × Call)) : ∀ s : State,
    (run s ops).paused = (s.paused ^^ (successes s ops % 2 == 1)) := by
  induction ops with
  | nil => intro s; simp [run, successes]
  | cons op ops ih =>
    intro s
    have hrun : run s (op :: ops) = run (stepOf exec s op) ops := rfl
    obtain ⟨c, k⟩ := op
    have key : ∀ n : Nat, (true ^^ (n % 2 == 1)) = ((1 + n) % 2 == 1) := by
      intro n
      rcases Nat.mod_two_eq_zero_or_one n with h | h <;>
        simp [Nat.add_mod, h]
    have key2 : ∀ n : Nat, (n % 2 == 1) = (true ^^ ((1 + n) % 2 == 1)) := by
      intro n; rw [← key]; cases (n % 2 == 1) <;> rfl
    rw [hrun, ih]
    cases k <;> cases hp : s.paused <;>
      simp [successes, stepOf, exec, C33_pause, C33_unpause, hp]
    · rw [← key]; simp
    · simpa using key2 _

/-- **C33** After any history the flag is the parity of the successful toggles. -/
theorem C33_paused_is_parity (ops : List (Address × Call)) :
    (run init ops).paused = (successes init ops % 2 == 1) := by
  simpa [init] using paused_parity_from ops init

theorem alternates_append (l : List Event) : ∀ (b : Bool) (e : Event),
    alternates b l → (alternates (b ^^ (l.length % 2 == 1)) [e]) → alternates b (l ++ [e]) := by
  induction l with
  | nil => intro b e _ h; simpa using h
  | cons x l ih =>
    intro b e h1 h2
    have key : ∀ b, (b ^^ ((l.length + 1) % 2 == 1)) = (!b ^^ (l.length % 2 == 1)) := by
      intro b
      rcases Nat.mod_two_eq_zero_or_one l.length with h | h <;> cases b <;>
        simp [Nat.add_mod, h]
    rw [List.length_cons, key] at h2
    cases x with
    | paused a => obtain ⟨rfl, h⟩ := h1; exact ⟨rfl, ih _ _ h h2⟩
    | unpaused a => obtain ⟨rfl, h⟩ := h1; exact ⟨rfl, ih _ _ h h2⟩

/-- **C33** The event log of any history strictly alternates `Paused`, `Unpaused`, starting with
`Paused`, has one event per successful toggle, and its length's parity is the flag. -/
theorem C33_log_alternates (ops : List (Address × Call)) :
    alternates false (run init ops).log ∧
      (run init ops).paused = ((run init ops).log.length % 2 == 1) := by
  apply run_invariant (exec := exec)
    (Inv := fun s => alternates false s.log ∧ s.paused = (s.log.length % 2 == 1))
  · rintro s ⟨c, k⟩ s' ⟨h1, h2⟩ h
    have key : ∀ n : Nat, ((n + 1) % 2 == 1) = !(n % 2 == 1) := by
      intro n
      rcases Nat.mod_two_eq_zero_or_one n with h | h <;> simp [Nat.add_mod, h]
    cases k <;> cases hp : s.paused <;>
      simp only [exec, C33_pause, C33_unpause, hp, if_true, if_false, Bool.false_eq_true] at h <;>
      cases h
    · refine ⟨alternates_append _ _ _ h1 ?_, ?_⟩
      · rw [← h2, hp]; exact ⟨rfl, trivial⟩
      · simp only [List.length_append, List.length_singleton, key]; rw [← h2, hp]; rfl
    · refine ⟨alternates_append _ _ _ h1 ?_, ?_⟩
      · rw [← h2, hp]; exact ⟨rfl, trivial⟩
      · simp only [List.length_append, List.length_singleton, key]; rw [← h2, hp]; rfl
  · exact ⟨trivial, rfl⟩

example : (run init [(1#160, .pause), (2#160, .pause), (3#160, .unpause), (3#160, .pause)]).log
    = [.paused 1#160, .unpaused 3#160, .paused 3#160] := by decide

end

/-! ## C34 -/
section
open Verif.BitMap Verif.Spec.BitMap

theorem and_ff_toNat (i : U256) : (i &&& 0xff#256).toNat = i.toNat % 256 := by
  rw [BitVec.toNat_and]
  exact Nat.and_two_pow_sub_one_eq_mod i.toNat 8

theorem getMask_bit (i : U256) (k : Nat) : (getMask i).getLsbD k = decide (k = i.toNat % 256) := by
  have h : (i &&& 0xff#256).toNat = i.toNat % 256 := and_ff_toNat i
  have hlt : i.toNat % 256 < 256 := Nat.mod_lt _ (by decide)
  unfold getMask
  rw [BitVec.shiftLeft_eq', BitVec.getLsbD_shiftLeft, h]
  by_cases hk : k = i.toNat % 256
  · subst hk; simp [hlt]
  · by_cases h2 : k < i.toNat % 256
    · simp [h2, hk]
    · have : k - i.toNat % 256 ≠ 0 := by omega
      simp [hk, BitVec.getLsbD_one, this]

theorem getBucket_toNat (i : U256) : (getBucket i).toNat = i.toNat / 256 := by
  simp [getBucket, BitVec.toNat_ushiftRight, Nat.shiftRight_eq_div_pow]

theorem index_eq {i j : U256} (hb : getBucket i = getBucket j)
    (hm : i.toNat % 256 = j.toNat % 256) : i = j := by
  apply BitVec.eq_of_toNat_eq
  have := congrArg BitVec.toNat hb
  rw [getBucket_toNat, getBucket_toNat] at this
  omega

theorem get_eq_bit (s : State) (i : U256) :
    get s i = (s.data (getBucket i)).getLsbD (i.toNat % 256) := by
  have hlt : i.toNat % 256 < 256 := Nat.mod_lt _ (by decide)
  unfold BitMap.get
  rw [Bool.eq_iff_iff]
  simp only [bne_iff_ne, ne_eq]
  constructor
  · intro h
    by_contra hc
    apply h
    apply BitVec.eq_of_getLsbD_eq
    intro k hk
    rw [BitVec.getLsbD_and, getMask_bit]
    by_cases hk : k = i.toNat % 256
    · subst hk; simp at hc; simp [hc]
    · simp [hk]
  · intro h h0
    have := congrArg (fun v => v.getLsbD (i.toNat % 256)) h0
    simp [BitVec.getLsbD_and, getMask_bit, h] at this

theorem get_set (s : State) (i j : U256) : get (set s i) j = (decide (j = i) || get s j) := by
  rw [get_eq_bit, get_eq_bit]
  simp only [BitMap.set, upd_apply]
  by_cases hb : getBucket j = getBucket i
  · rw [if_pos hb, BitVec.getLsbD_or, getMask_bit, hb]
    by_cases hji : j = i
    · subst hji; simp
    · have : ¬ j.toNat % 256 = i.toNat % 256 := fun h => hji (index_eq hb h)
      simp [hji, this]
  · have : j ≠ i := fun h => hb (by rw [h])
    simp [hb, this]

theorem get_unset (s : State) (i j : U256) : get (unset s i) j = (!decide (j = i) && get s j) := by
  rw [get_eq_bit, get_eq_bit]
  have hlt : j.toNat % 256 < 256 := Nat.mod_lt _ (by decide)
  simp only [unset, upd_apply]
  by_cases hb : getBucket j = getBucket i
  · rw [if_pos hb, BitVec.getLsbD_and, BitVec.getLsbD_not, getMask_bit, hb]
    by_cases hji : j = i
    · subst hji; simp
    · have : ¬ j.toNat % 256 = i.toNat % 256 := fun h => hji (index_eq hb h)
      simp [hji, this, hlt]
  · have : j ≠ i := fun h => hb (by rw [h])
    simp [hb, this]

theorem get_run_from (ops : List Op) : ∀ (s : State) (S : Set U256),
    (∀ i, get s i = true ↔ i ∈ S) → ∀ i, get (run s ops) i = true ↔ i ∈ asSet S ops := by
  induction ops with
  | nil => intro s S h i; exact h i
  | cons op ops ih =>
    intro s S h i
    have e1 : ∀ k, (∀ i, get (set s k) i = true ↔ i ∈ S ∪ {k}) := by
      intro k i; rw [get_set]
      simp only [Bool.or_eq_true, decide_eq_true_eq, h i, Set.mem_union, Set.mem_singleton_iff]
      exact or_comm
    have e2 : ∀ k, (∀ i, get (unset s k) i = true ↔ i ∈ S \ {k}) := by
      intro k i; rw [get_unset]
      simp only [Bool.and_eq_true, Bool.not_eq_true', decide_eq_false_iff_not, h i,
        Set.mem_diff, Set.mem_singleton_iff]
      exact and_comm
    cases op with
    | set k => exact ih _ _ (e1 k) i
    | unset k => exact ih _ _ (e2 k) i
    | setTo k b =>
      cases b with
      | true => exact ih _ _ (e1 k) i
      | false => exact ih _ _ (e2 k) i

/-- **C34** After any history of writes, `get` answers membership in the mathematical set. -/
theorem C34_refines_set (ops : List Op) (i : U256) :
    get (run init ops) i = true ↔ i ∈ asSet ∅ ops := by
  apply get_run_from
  intro j
  simp [BitMap.get, init]

/-- **C34** From any storage content, a write at `i` determines `get i` and no other answer. -/
theorem C34_write_is_local (s : State) (i j : U256) (b : Bool) :
    get (setTo s i b) j = if j = i then b else get s j := by
  cases b with
  | true =>
    simp only [setTo, if_true, get_set]
    by_cases h : j = i <;> simp [h]
  | false =>
    simp only [setTo, Bool.false_eq_true, if_false, get_unset]
    by_cases h : j = i <;> simp [h]

example : (get (run init [.set 300#256, .set 44#256, .unset 300#256]) 300#256,
    get (run init [.set 300#256, .set 44#256, .unset 300#256]) 44#256) = (false, true) := by decide

end
end Verif.Props.Utils
