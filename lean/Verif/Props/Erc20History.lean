import Verif.Props.Erc20
/-! # ERC-20 properties C06-C09, C12: history invariants, unbounded refinement, events -/

namespace Verif.Props
open Verif.Erc20 Verif.Spec.Erc20

/-! ### C06 -/

/-- The zero address is never involved. -/
def ZeroClean (s : State) : Prop :=
  s.balances ZERO = 0#256 ∧ (∀ x, s.allowances ZERO x = 0#256) ∧ (∀ x, s.allowances x ZERO = 0#256)

theorem update_frame {s s' : State} {a b : Address} {v : U256} (h : update s a b v = .ok s') :
    s'.allowances = s.allowances ∧ s'.balances ZERO = s.balances ZERO ∧
    s'.log = s.log ++ [.transfer a b v] := by
  obtain ⟨s1, hd, rfl⟩ := update_eq_ok.mp h
  rcases debit_ok hd with ⟨_, _, rfl⟩ | ⟨h0, _, rfl⟩
  · by_cases hb : b = ZERO
    · simp [credit, hb]
    · simp [credit, hb, upd_ne _ _ (Ne.symm hb)]
  · by_cases hb : b = ZERO
    · simp [credit, hb, upd_ne _ _ (Ne.symm h0)]
    · simp [credit, hb, upd_ne _ _ (Ne.symm hb), upd_ne _ _ (Ne.symm h0)]

theorem spend_zeroClean {s s' : State} {o sp : Address} {v : U256} (hz : ZeroClean s)
    (h : spendAllowance s o sp v = .ok s') : ZeroClean s' := by
  rcases spend_eq_ok.mp h with ⟨_, rfl⟩ | ⟨_, _, ho, hsp, rfl⟩
  · exact hz
  · refine ⟨hz.1, fun x => ?_, fun x => ?_⟩
    · have : ¬ (ZERO = o ∧ x = sp) := fun k => ho k.1.symm
      simp [upd2_apply, this, hz.2.1]
    · have : ¬ (x = o ∧ ZERO = sp) := fun k => hsp k.2.symm
      simp [upd2_apply, this, hz.2.2]

theorem update_zeroClean {s s' : State} {a b : Address} {v : U256} (hz : ZeroClean s)
    (h : update s a b v = .ok s') : ZeroClean s' := by
  obtain ⟨h1, h2, _⟩ := update_frame h
  unfold ZeroClean; rw [h1, h2]; exact hz

theorem exec_zeroClean {s s' : State} {op : Address × Call} (hz : ZeroClean s)
    (h : exec s op = .ok s') : ZeroClean s' := by
  obtain ⟨c, call⟩ := op
  cases call with
  | transfer dst v => exact update_zeroClean hz (transferInternal_eq_ok.mp h).2.2
  | transferFrom src dst v =>
    obtain ⟨s1, h1, h2⟩ := transferFrom_eq_ok.mp h
    exact update_zeroClean (spend_zeroClean hz h1) (transferInternal_eq_ok.mp h2).2.2
  | approve sp v =>
    obtain ⟨ho, hsp, rfl⟩ := approve_eq_ok.mp h
    refine ⟨hz.1, fun x => ?_, fun x => ?_⟩
    · have : ¬ (ZERO = c ∧ x = sp) := fun k => ho k.1.symm
      simp [upd2_apply, this, hz.2.1]
    · have : ¬ (x = c ∧ ZERO = sp) := fun k => hsp k.2.symm
      simp [upd2_apply, this, hz.2.2]
  | mint a v => exact update_zeroClean hz (mint_eq_ok.mp h).2
  | burn v => exact update_zeroClean hz (burnInternal_eq_ok.mp h).2
  | burnFrom a v =>
    obtain ⟨s1, h1, h2⟩ := burnFrom_eq_ok.mp h
    exact update_zeroClean (spend_zeroClean hz h1) (burnInternal_eq_ok.mp h2).2

/-- **C06** The zero address never holds tokens, never grants and never receives an allowance. -/
theorem C06_zero_address_clean {s : State} (hr : Reachable s) :
    balanceOf s ZERO = 0#256 ∧ (∀ x, allowance s ZERO x = 0#256) ∧
      (∀ x, allowance s x ZERO = 0#256) := by
  obtain ⟨ops, rfl⟩ := hr
  exact run_invariant (Inv := ZeroClean) (fun _ _ _ h he => exec_zeroClean h he) ops init
    ⟨rfl, fun _ => rfl, fun _ => rfl⟩

/-- **C03** The one case `C03_transferFrom_errors` leaves open: moving tokens "of the zero address" always
fails, as an allowance error for a positive amount and as an invalid approver for a zero amount. -/
theorem C03_from_zero_fails {s : State} (hr : Reachable s) (c dst : Address) (v : U256) :
    transferFrom s c ZERO dst v =
      .error (if v = 0#256 then .invalidApprover ZERO else .insufficientAllowance c 0#256 v) := by
  have h0 : s.allowances ZERO c = 0#256 := (C06_zero_address_clean hr).2.1 c
  unfold transferFrom spendAllowance approveInternal
  simp only [h0, ne_eq, if_true]
  rw [if_pos (by decide : ¬ (0#256 = maxU256))]
  by_cases hv : v = 0#256
  · subst hv; simp
  · have : (0#256 : U256) < v := by
      rw [BitVec.lt_def]
      have : v.toNat ≠ 0 := fun k => hv (BitVec.eq_of_toNat_eq (by simpa using k))
      simp; omega
    simp [hv, this]

example : transferFrom (run init sampleOps) bob ZERO alice 3#256
    = .error (.insufficientAllowance bob 0#256 3#256) :=
  C03_from_zero_fails ⟨_, rfl⟩ bob alice 3#256

/-! ### C07 -/

/-- **C07** In a reachable state a call is accepted by the implementation exactly when the textbook
token over unbounded numbers accepts it. -/
theorem C07_accepts_iff {s : State} (hr : Reachable s) (c : Address) (call : Call) :
    (∃ s', exec s (c, call) = .ok s') ↔ (view s).accepts c call := by
  have hz := C06_zero_address_clean hr
  cases call with
  | transfer dst v => exact C02_transfer_succeeds_iff s c dst v
  | transferFrom src dst v =>
    by_cases hc : c = ZERO
    · subst hc
      simp only [Ledger.accepts, ne_eq, not_true_eq_false, false_and, and_false, iff_false]
      rintro ⟨s', h⟩
      obtain ⟨s1, h1, _⟩ := transferFrom_eq_ok.mp h
      have ha : s.allowances src ZERO = 0#256 := hz.2.2 src
      rcases spend_eq_ok.mp h1 with ⟨hm, _⟩ | ⟨_, _, _, h0, _⟩
      · rw [ha] at hm; exact absurd hm (by decide)
      · exact h0 rfl
    · rw [show (∃ s', exec s (c, Call.transferFrom src dst v) = .ok s') ↔ _ from
        C03_transferFrom_succeeds_iff s hc src dst v]
      simp [Ledger.accepts, view, hc]
  | approve sp v =>
    constructor
    · rintro ⟨s', h⟩; obtain ⟨h1, h2, _⟩ := approve_eq_ok.mp h; exact ⟨h1, h2⟩
    · rintro ⟨h1, h2⟩; exact ⟨_, approve_eq_ok.mpr ⟨h1, h2, rfl⟩⟩
  | mint a v =>
    constructor
    · rintro ⟨s', h⟩
      obtain ⟨h1, h2⟩ := mint_eq_ok.mp h
      exact ⟨h1, (update_ok_iff.mp ⟨s', h2⟩).2 rfl⟩
    · rintro ⟨h1, h2⟩
      obtain ⟨s', h⟩ := update_ok_iff (s := s) (src := ZERO) (dst := a) (v := v) |>.mpr
        ⟨fun h => absurd rfl h, fun _ => h2⟩
      exact ⟨s', mint_eq_ok.mpr ⟨h1, h⟩⟩
  | burn v =>
    constructor
    · rintro ⟨s', h⟩
      obtain ⟨h1, h2⟩ := burnInternal_eq_ok.mp h
      exact ⟨h1, (update_ok_iff.mp ⟨s', h2⟩).1 h1⟩
    · rintro ⟨h1, h2⟩
      obtain ⟨s', h⟩ := update_ok_iff (s := s) (src := c) (dst := ZERO) (v := v) |>.mpr
        ⟨fun _ => h2, fun h => absurd h h1⟩
      exact ⟨s', burnInternal_eq_ok.mpr ⟨h1, h⟩⟩
  | burnFrom a v =>
    constructor
    · rintro ⟨s', h⟩
      obtain ⟨s1, h1, h2⟩ := burnFrom_eq_ok.mp h
      obtain ⟨h3, h4⟩ := burnInternal_eq_ok.mp h2
      obtain ⟨hb, _, _⟩ := spend_frame h1
      have hbal := (update_ok_iff.mp ⟨s', h4⟩).1 h3
      rw [hb] at hbal
      rcases spend_eq_ok.mp h1 with ⟨hm, _⟩ | ⟨_, hv, _, h0, _⟩
      · refine ⟨h3, ?_, ?_, hbal⟩
        · intro hc; subst hc
          have ha : s.allowances a ZERO = 0#256 := hz.2.2 a
          rw [ha] at hm; exact absurd hm (by decide)
        · simp only [view, allowance]; rw [hm, maxU256_toNat]
          have := v.isLt; omega
      · exact ⟨h3, h0, hv, hbal⟩
    · rintro ⟨h1, h2, h3, h4⟩
      have hs1 : ∃ s1, spendAllowance s a c v = .ok s1 := by
        by_cases hm : s.allowances a c = maxU256
        · exact ⟨s, spend_eq_ok.mpr (.inl ⟨hm, rfl⟩)⟩
        · exact ⟨_, spend_eq_ok.mpr (.inr ⟨hm, h3, h1, h2, rfl⟩)⟩
      obtain ⟨s1, hs1⟩ := hs1
      obtain ⟨hb, _, _⟩ := spend_frame hs1
      obtain ⟨s', h⟩ := update_ok_iff (s := s1) (src := a) (dst := ZERO) (v := v) |>.mpr
        ⟨fun _ => by rw [hb]; exact h4, fun h => absurd h h1⟩
      exact ⟨s', burnFrom_eq_ok.mpr ⟨s1, hs1, burnInternal_eq_ok.mpr ⟨h1, h⟩⟩⟩

theorem spend_view {s s' : State} {o sp : Address} {v : U256}
    (h : spendAllowance s o sp v = .ok s') : view s' = (view s).spend o sp v.toNat := by
  rcases spend_eq_ok.mp h with ⟨hm, rfl⟩ | ⟨hm, hv, _, _, rfl⟩
  · simp only [view, Ledger.spend, Ledger.mk.injEq, true_and, and_true]
    funext x y
    by_cases hx : x = o ∧ y = sp
    · obtain ⟨rfl, rfl⟩ := hx
      simp [allowance, hm, unlimited]
    · have hx' : ¬ (x = o ∧ y = sp ∧ (allowance s' x y).toNat ≠ unlimited) :=
        fun k => hx ⟨k.1, k.2.1⟩
      simp only [hx', if_false]
  · simp only [view, Ledger.spend, Ledger.mk.injEq, true_and, and_true, balanceOf, totalSupplyOf]
    funext x y
    by_cases hx : x = o ∧ y = sp
    · obtain ⟨rfl, rfl⟩ := hx
      have : (s.allowances x y).toNat ≠ unlimited := fun k => hm ((eq_maxU256_iff _).mpr k)
      simp [allowance, this, toNat_sub_of_ge hv]
    · have hx' : ¬ (x = o ∧ y = sp ∧ (allowance s x y).toNat ≠ unlimited) := fun k => hx ⟨k.1, k.2.1⟩
      simp only [hx', if_false]; simp [allowance, upd2_apply, hx]

/-- **C07** An accepted call does to the implementation exactly what it does to the textbook token:
no balance, allowance or supply ever wraps around. -/
theorem C07_no_wraparound {s s' : State} (hr : Reachable s) {c : Address} {call : Call}
    (h : exec s (c, call) = .ok s') : view s' = (view s).apply c call := by
  have hs := reachable_sumOk hr
  have hmove : ∀ {t t' : State} {a b : Address} {v : U256}, SumOk t → a ≠ ZERO → b ≠ ZERO →
      update t a b v = .ok t' → view t' = (view t).move a b v.toNat := by
    intro t t' a b v ht ha hb hu
    have e := update_effect ht hu
    have hbal := e.bal
    have hsup := e.supply
    have hf := e.funds ha
    simp only [view, Ledger.move, Ledger.mk.injEq]
    refine ⟨?_, ?_, ?_⟩
    · funext x
      have := hbal x
      simp only [ha, hb, ne_eq, not_false_eq_true, and_true] at this
      simp only [balanceOf]
      by_cases hx : x = a
      · subst hx; simp only [if_true] at this ⊢; omega
      · simp only [hx, if_false] at this ⊢; omega
    · funext x y; simp [allowance, e.allow]
    · simpa [totalSupplyOf, ha, hb] using hsup
  have hburn : ∀ {t t' : State} {a : Address} {v : U256}, SumOk t → a ≠ ZERO →
      update t a ZERO v = .ok t' → view t' =
        { view t with bal := fun x => if x = a then (view t).bal x - v.toNat else (view t).bal x
                      supply := (view t).supply - v.toNat } := by
    intro t t' a v ht ha hu
    have e := update_effect ht hu
    have hf := e.funds ha
    have hsup := e.supply
    simp only [view, Ledger.mk.injEq]
    refine ⟨?_, ?_, ?_⟩
    · funext x
      have := e.bal x
      simp only [ha, ne_eq, not_false_eq_true, and_true, not_true_eq_false, and_false,
        if_false] at this
      simp only [balanceOf]
      by_cases hx : x = a
      · subst hx; simp only [if_true] at this ⊢; omega
      · simp only [hx, if_false] at this ⊢; omega
    · funext x y; simp [allowance, e.allow]
    · simp only [if_true, ha, if_false] at hsup; simp only [totalSupplyOf]; omega
  cases call with
  | transfer dst v =>
    obtain ⟨h1, h2, h3⟩ := transferInternal_eq_ok.mp h
    exact hmove hs h1 h2 h3
  | transferFrom src dst v =>
    obtain ⟨s1, h1, h2⟩ := transferFrom_eq_ok.mp h
    obtain ⟨h3, h4, h5⟩ := transferInternal_eq_ok.mp h2
    obtain ⟨hb, ht, _⟩ := spend_frame h1
    rw [hmove (hs.of_frame hb ht) h3 h4 h5, spend_view h1]; rfl
  | approve sp v =>
    obtain ⟨_, _, rfl⟩ := approve_eq_ok.mp h
    simp only [view, Ledger.apply, Ledger.mk.injEq, balanceOf, totalSupplyOf, true_and, and_true]
    funext x y
    simp only [allowance, upd2_apply]
    split <;> rfl
  | mint a v =>
    obtain ⟨ha, hu⟩ := mint_eq_ok.mp h
    have e := update_effect hs hu
    have hsup := e.supply
    simp only [view, Ledger.apply, Ledger.mk.injEq]
    refine ⟨?_, ?_, ?_⟩
    · funext x
      have := e.bal x
      simp only [ha, ne_eq, not_false_eq_true, and_true, not_true_eq_false, and_false,
        if_false] at this
      simp only [balanceOf]
      by_cases hx : x = a
      · simp only [hx, if_true] at this ⊢; omega
      · simp only [hx, if_false] at this ⊢; omega
    · funext x y; simp [allowance, e.allow]
    · simpa [totalSupplyOf, ha] using hsup
  | burn v =>
    obtain ⟨ha, hu⟩ := burnInternal_eq_ok.mp h
    exact hburn hs ha hu
  | burnFrom a v =>
    obtain ⟨s1, h1, h2⟩ := burnFrom_eq_ok.mp h
    obtain ⟨ha, hu⟩ := burnInternal_eq_ok.mp h2
    obtain ⟨hb, ht, _⟩ := spend_frame h1
    rw [hburn (hs.of_frame hb ht) ha hu, spend_view h1]; rfl

/-- **C07** The only panicking call in a reachable state is a mint (to a valid receiver) that would
push the supply above `2^256 - 1`. -/
theorem C07_panics_iff (s : State) (c : Address) (call : Call) :
    exec s (c, call) = .error .panic ↔
      ∃ a v, call = .mint a v ∧ a ≠ ZERO ∧ 2 ^ 256 ≤ (totalSupplyOf s).toNat + v.toNat := by
  have hupd : ∀ {t : State} {a b : Address} {v : U256}, a ≠ ZERO →
      update t a b v ≠ .error .panic := by
    intro t a b v ha hu
    rcases debit_error (update_eq_error.mp hu) with ⟨h0, _⟩ | ⟨_, _, he⟩
    · exact ha h0
    · cases he
  have htr : ∀ {t : State} {a b : Address} {v : U256},
      transferInternal t a b v ≠ .error .panic := by
    intro t a b v; unfold transferInternal
    split
    · simp
    · split
      · simp
      · exact hupd ‹_›
  have hbu : ∀ {t : State} {a : Address} {v : U256}, burnInternal t a v ≠ .error .panic := by
    intro t a v; unfold burnInternal
    split
    · simp
    · exact hupd ‹_›
  have hsp : ∀ {t : State} {a b : Address} {v : U256},
      spendAllowance t a b v ≠ .error .panic := by
    intro t a b v h
    obtain ⟨_, hc⟩ := spend_eq_error.mp h
    rcases hc with ⟨_, h⟩ | ⟨_, _, h⟩ | ⟨_, _, _, h⟩ <;> cases h
  cases call with
  | transfer dst v => simpa using (show exec s (c, .transfer dst v) ≠ _ from htr)
  | transferFrom src dst v =>
    simp only [reduceCtorEq, false_and, exists_false, iff_false]
    intro h
    simp only [exec, transferFrom] at h
    cases h1 : spendAllowance s src c v with
    | error e =>
      simp only [h1, bind, Except.bind, Except.error.injEq] at h; subst h; exact hsp h1
    | ok s1 => simp only [h1, bind, Except.bind] at h; exact htr h
  | approve sp v =>
    simp only [reduceCtorEq, false_and, exists_false, iff_false]
    intro h
    rcases approve_eq_error.mp h with ⟨_, h⟩ | ⟨_, _, h⟩ <;> cases h
  | mint a v =>
    simp only [exec, mint, Call.mint.injEq, totalSupplyOf]
    constructor
    · intro h
      split at h
      · simp at h
      · rcases debit_error (update_eq_error.mp h) with ⟨_, h2, _⟩ | ⟨h1, _⟩
        · exact ⟨a, v, ⟨rfl, rfl⟩, ‹_›, h2⟩
        · exact absurd rfl h1
    · rintro ⟨a', v', ⟨rfl, rfl⟩, ha, hv⟩
      rw [if_neg ha, update_eq_error, debit, if_pos rfl, checkedAdd_eq_none.mpr hv]
  | burn v => simpa using (show exec s (c, .burn v) ≠ _ from hbu)
  | burnFrom a v =>
    simp only [reduceCtorEq, false_and, exists_false, iff_false]
    intro h
    simp only [exec, burnFrom] at h
    cases h1 : spendAllowance s a c v with
    | error e =>
      simp only [h1, bind, Except.bind, Except.error.injEq] at h; subst h; exact hsp h1
    | ok s1 => simp only [h1, bind, Except.bind] at h; exact hbu h

example : exec (run init sampleOps) (bob, .mint bob maxU256) = .error .panic :=
  (C07_panics_iff _ _ _).mpr ⟨bob, maxU256, rfl, by decide, by decide⟩
example : (view (run init sampleOps)).accepts bob (.transferFrom alice carol 20#256) := by
  simp only [Ledger.accepts]; decide

/-! ### C08 -/

theorem replay_append (l₁ l₂ : List Event) (a : Address) :
    replay (l₁ ++ l₂) a = replay l₁ a + replay l₂ a := by
  induction l₁ with
  | nil => simp [replay]
  | cons e l ih => cases e <;> simp [replay, ih, add_assoc]

/-- The log explains the balances. -/
def LogOk (s : State) : Prop :=
  SumOk s ∧ (∀ a, a ≠ ZERO → ((s.balances a).toNat : Int) = replay s.log a) ∧
    (s.totalSupply.toNat : Int) = - replay s.log ZERO

theorem LogOk.of_update {s s' : State} {a b : Address} {v : U256} (hs : LogOk s)
    (h : update s a b v = .ok s') : LogOk s' := by
  obtain ⟨h1, h2, h3⟩ := hs
  have e := update_effect h1 h
  refine ⟨e.sum, fun x hx => ?_, ?_⟩
  · have hb := e.bal x
    have hx0 := h2 x hx
    rw [e.log, replay_append]
    simp only [replay, add_zero]
    have e1 : (x = a ∧ a ≠ ZERO) ↔ a = x := ⟨fun k => k.1.symm, fun k => ⟨k.symm, k ▸ hx⟩⟩
    have e2 : (x = b ∧ b ≠ ZERO) ↔ b = x := ⟨fun k => k.1.symm, fun k => ⟨k.symm, k ▸ hx⟩⟩
    simp only [e1, e2] at hb
    by_cases k1 : a = x <;> by_cases k2 : b = x <;> simp only [k1, k2, if_true, if_false] at hb ⊢ <;>
      omega
  · have hb := e.supply
    rw [e.log, replay_append]
    simp only [replay, add_zero]
    by_cases k1 : a = ZERO <;> by_cases k2 : b = ZERO <;>
      simp only [k1, k2, if_true, if_false] at hb ⊢ <;> omega

theorem LogOk.of_frame {s s' : State} (hs : LogOk s) (hb : s'.balances = s.balances)
    (ht : s'.totalSupply = s.totalSupply) (hl : ∀ a, replay s'.log a = replay s.log a) :
    LogOk s' := by
  obtain ⟨h1, h2, h3⟩ := hs
  exact ⟨h1.of_frame hb ht, fun x hx => by rw [hb, hl]; exact h2 x hx, by rw [ht, hl]; exact h3⟩

theorem exec_logOk {s s' : State} {op : Address × Call} (hs : LogOk s)
    (h : exec s op = .ok s') : LogOk s' := by
  have hspend : ∀ {t t' : State} {o sp : Address} {v : U256}, LogOk t →
      spendAllowance t o sp v = .ok t' → LogOk t' := by
    intro t t' o sp v ht hsp
    obtain ⟨hb, hts, hl⟩ := spend_frame hsp
    exact ht.of_frame hb hts (fun a => by rw [hl])
  obtain ⟨c, call⟩ := op
  cases call with
  | transfer dst v => exact hs.of_update (transferInternal_eq_ok.mp h).2.2
  | transferFrom src dst v =>
    obtain ⟨s1, h1, h2⟩ := transferFrom_eq_ok.mp h
    exact (hspend hs h1).of_update (transferInternal_eq_ok.mp h2).2.2
  | approve sp v =>
    obtain ⟨ho, hsp, rfl⟩ := approve_eq_ok.mp h
    exact hs.of_frame rfl rfl (fun a => by simp [replay_append, replay])
  | mint a v => exact hs.of_update (mint_eq_ok.mp h).2
  | burn v => exact hs.of_update (burnInternal_eq_ok.mp h).2
  | burnFrom a v =>
    obtain ⟨s1, h1, h2⟩ := burnFrom_eq_ok.mp h
    exact (hspend hs h1).of_update (burnInternal_eq_ok.mp h2).2

/-- **C08** The emitted events alone determine every balance and the supply. -/
theorem C08_events_replay (ops : List (Address × Call)) :
    (∀ a, a ≠ ZERO →
      ((balanceOf (run init ops) a).toNat : Int) = replay (run init ops).log a) ∧
    ((totalSupplyOf (run init ops)).toNat : Int) = - replay (run init ops).log ZERO :=
  (run_invariant (Inv := LogOk) (fun _ _ _ h he => exec_logOk h he) ops init
    ⟨sumOk_init, fun _ _ => by simp [init, replay], by simp [init, replay]⟩).2

example : replay (run init sampleOps).log alice = 90 := by decide

/-! ### C09 -/

/-- **C09** `approve` succeeds for non-zero parties and sets exactly one allowance. -/
theorem C09_approve_exact (s : State) (c sp : Address) (v : U256) :
    ((∃ s', approve s c sp v = .ok s') ↔ c ≠ ZERO ∧ sp ≠ ZERO) ∧
    ∀ s', approve s c sp v = .ok s' →
      (∀ o x, allowance s' o x = if o = c ∧ x = sp then v else allowance s o x) ∧
      (∀ a, balanceOf s' a = balanceOf s a) ∧ totalSupplyOf s' = totalSupplyOf s ∧
      s'.log = s.log ++ [.approval c sp v] := by
  refine ⟨⟨?_, ?_⟩, ?_⟩
  · rintro ⟨s', h⟩; obtain ⟨h1, h2, _⟩ := approve_eq_ok.mp h; exact ⟨h1, h2⟩
  · rintro ⟨h1, h2⟩; exact ⟨_, approve_eq_ok.mpr ⟨h1, h2, rfl⟩⟩
  · intro s' h
    obtain ⟨_, _, rfl⟩ := approve_eq_ok.mp h
    exact ⟨fun o x => rfl, fun _ => rfl, rfl, by simp⟩

example : ∃ s', approve (run init sampleOps) alice carol maxU256 = .ok s' :=
  ((C09_approve_exact _ _ _ _).1).mpr (by decide)

/-! ### C12 -/

/-- **C12** When `burn` and `burn_from` succeed. -/
theorem C12_burn_succeeds_iff {s : State} (hr : Reachable s) (c a : Address) (v : U256) :
    ((∃ s', burn s c v = .ok s') ↔ c ≠ ZERO ∧ v.toNat ≤ (balanceOf s c).toNat) ∧
    ((∃ s', burnFrom s c a v = .ok s') ↔ a ≠ ZERO ∧ c ≠ ZERO ∧
      v.toNat ≤ (allowance s a c).toNat ∧ v.toNat ≤ (balanceOf s a).toNat) :=
  ⟨C07_accepts_iff hr c (.burn v), C07_accepts_iff hr c (.burnFrom a v)⟩

/-- **C12** `burn_from` destroys exactly `v` tokens of `a` and spends exactly `v` of the (limited)
allowance; everything else is unchanged. -/
theorem C12_burnFrom_effect {s s' : State} (hr : Reachable s) {c a : Address} {v : U256}
    (h : burnFrom s c a v = .ok s') :
    (∀ x, (balanceOf s' x).toNat + (if x = a then v.toNat else 0) = (balanceOf s x).toNat) ∧
    (totalSupplyOf s').toNat + v.toNat = (totalSupplyOf s).toNat ∧
    (∀ o sp, (allowance s' o sp).toNat =
        if o = a ∧ sp = c ∧ allowance s o sp ≠ maxU256 then (allowance s o sp).toNat - v.toNat
        else (allowance s o sp).toNat) ∧
    s'.log = s.log ++ [.transfer a ZERO v] := by
  unfold balanceOf totalSupplyOf allowance
  obtain ⟨s1, h1, h2⟩ := burnFrom_eq_ok.mp h
  obtain ⟨ha, hu⟩ := burnInternal_eq_ok.mp h2
  obtain ⟨hb, ht, hl⟩ := spend_frame h1
  have e := update_effect ((reachable_sumOk hr).of_frame hb ht) hu
  refine ⟨fun x => ?_, ?_, fun o sp => ?_, by rw [e.log, hl]⟩
  · have := e.bal x; simpa [ha, hb] using this
  · have := e.supply; simpa [ha, ht] using this
  · rw [e.allow]
    rcases spend_eq_ok.mp h1 with ⟨hm, heq⟩ | ⟨hm, hv, _, _, heq⟩
    · rw [heq]
      split
      · rename_i hx; obtain ⟨rfl, rfl, hx⟩ := hx; exact absurd hm hx
      · rfl
    · rw [heq]
      simp only [upd2_apply]
      by_cases hx : o = a ∧ sp = c
      · obtain ⟨rfl, rfl⟩ := hx
        simp [hm, toNat_sub_of_ge hv]
      · have hx' : ¬ (o = a ∧ sp = c ∧ s.allowances o sp ≠ maxU256) := fun k => hx ⟨k.1, k.2.1⟩
        rw [if_neg hx, if_neg hx']

/-- **C12** `burn` destroys exactly `v` tokens of the caller. -/
theorem C12_burn_effect {s s' : State} (hr : Reachable s) {c : Address} {v : U256}
    (h : burn s c v = .ok s') :
    (∀ x, (balanceOf s' x).toNat + (if x = c then v.toNat else 0) = (balanceOf s x).toNat) ∧
    (totalSupplyOf s').toNat + v.toNat = (totalSupplyOf s).toNat ∧
    (∀ o sp, allowance s' o sp = allowance s o sp) ∧
    s'.log = s.log ++ [.transfer c ZERO v] := by
  obtain ⟨ha, hu⟩ := burnInternal_eq_ok.mp h
  have e := update_effect (reachable_sumOk hr) hu
  refine ⟨fun x => ?_, ?_, fun o sp => by simp [allowance, e.allow], e.log⟩
  · have := e.bal x; simpa [ha, balanceOf] using this
  · have := e.supply; simpa [ha, totalSupplyOf] using this

example : ∃ s', burnFrom (run init sampleOps) bob alice 20#256 = .ok s' :=
  ((C12_burn_succeeds_iff ⟨_, rfl⟩ bob alice _).2).mpr (by decide)

end Verif.Props
