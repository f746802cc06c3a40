import Verif.Proofs.Erc20
import Verif.Spec.Erc20
/-! # ERC-20 properties C01-C09, C12 -/

namespace Verif.Props
open Verif.Erc20 Verif.Spec.Erc20

/-- Two sample accounts. -/
def alice : Address := 0xA11CE#160
def bob : Address := 0xB0B#160
def carol : Address := 0xCA01#160

/-- A sample history: mint 100 to alice, alice approves bob for 30, bob moves 10 to carol. -/
def sampleOps : List (Address × Call) :=
  [(alice, .mint alice 100#256), (alice, .approve bob 30#256),
   (bob, .transferFrom alice carol 10#256)]

example : (balanceOf (run init sampleOps) alice, balanceOf (run init sampleOps) carol,
    allowance (run init sampleOps) alice bob) = (90#256, 10#256, 20#256) := by decide

/-- **C01** After any history the balances of all addresses add up to the total supply. -/
theorem C01_balances_sum_to_supply (ops : List (Address × Call)) :
    ∑ a : Address, (balanceOf (run init ops) a).toNat = (totalSupplyOf (run init ops)).toNat :=
  sumOk_run ops sumOk_init

theorem reachable_sumOk {s : State} (h : Reachable s) : SumOk s := by
  obtain ⟨ops, rfl⟩ := h; exact sumOk_run ops sumOk_init

/-- **C02** When `transfer` succeeds. -/
theorem C02_transfer_succeeds_iff (s : State) (c dst : Address) (v : U256) :
    (∃ s', transfer s c dst v = .ok s') ↔
      c ≠ ZERO ∧ dst ≠ ZERO ∧ v.toNat ≤ (balanceOf s c).toNat := by
  unfold transfer balanceOf
  constructor
  · rintro ⟨s', h⟩
    obtain ⟨h1, h2, h3⟩ := transferInternal_eq_ok.mp h
    exact ⟨h1, h2, (update_ok_iff.mp ⟨s', h3⟩).1 h1⟩
  · rintro ⟨h1, h2, h3⟩
    obtain ⟨s', h⟩ := update_ok_iff (s := s) (src := c) (dst := dst) (v := v) |>.mpr
      ⟨fun _ => h3, fun h => absurd h h1⟩
    exact ⟨s', transferInternal_eq_ok.mpr ⟨h1, h2, h⟩⟩

/-- **C02** What a successful `transfer` does: exactly `v` moves (nothing on a self-transfer),
nothing else changes, one event is emitted. -/
theorem C02_transfer_effect {s s' : State} (hr : Reachable s) {c dst : Address} {v : U256}
    (h : transfer s c dst v = .ok s') :
    (∀ a, (balanceOf s' a).toNat + (if a = c then v.toNat else 0)
        = (balanceOf s a).toNat + (if a = dst then v.toNat else 0)) ∧
    (∀ o sp, allowance s' o sp = allowance s o sp) ∧
    totalSupplyOf s' = totalSupplyOf s ∧
    s'.log = s.log ++ [.transfer c dst v] := by
  obtain ⟨h1, h2, h3⟩ := transferInternal_eq_ok.mp h
  have e := update_effect (reachable_sumOk hr) h3
  refine ⟨fun a => ?_, fun o sp => ?_, ?_, e.log⟩
  · have := e.bal a; simpa [h1, h2, balanceOf] using this
  · simp [allowance, e.allow]
  · have := e.supply
    simp only [h1, h2, if_false] at this
    exact BitVec.eq_of_toNat_eq (by simpa [totalSupplyOf] using this)

/-- **C02** Which error an unsuccessful `transfer` returns. -/
theorem C02_transfer_errors (s : State) (c dst : Address) (v : U256) (e : Err) :
    transfer s c dst v = .error e ↔
      (c = ZERO ∧ e = .invalidSender ZERO) ∨
      (c ≠ ZERO ∧ dst = ZERO ∧ e = .invalidReceiver ZERO) ∨
      (c ≠ ZERO ∧ dst ≠ ZERO ∧ (balanceOf s c).toNat < v.toNat ∧
        e = .insufficientBalance c (balanceOf s c) v) := by
  unfold transfer transferInternal balanceOf
  by_cases h1 : c = ZERO
  · simp only [h1, if_true, Except.error.injEq, true_and, ne_eq, not_true_eq_false, false_and,
      or_false]; exact eq_comm
  · by_cases h2 : dst = ZERO
    · simp only [h1, h2, if_true, if_false, Except.error.injEq, true_and, ne_eq, not_true_eq_false,
        false_and, or_false, false_or, not_false_eq_true]; exact eq_comm
    · simp only [h1, h2, if_false, false_and, false_or, ne_eq, not_false_eq_true, true_and,
        update_eq_error]
      constructor
      · intro h
        rcases debit_error h with ⟨h3, _⟩ | ⟨_, h4, h5⟩
        · exact absurd h3 h1
        · exact ⟨h4, h5⟩
      · rintro ⟨h3, rfl⟩
        have : s.balances c < v := BitVec.lt_def.mpr h3
        simp [debit, h1, this]

example : Reachable (run init sampleOps) ∧
    ∃ s', transfer (run init sampleOps) alice bob 90#256 = .ok s' :=
  ⟨⟨_, rfl⟩, (C02_transfer_succeeds_iff _ _ _ _).mpr (by decide)⟩

/-- **C03** When `transfer_from` succeeds (a caller is never the zero address). -/
theorem C03_transferFrom_succeeds_iff (s : State) {c : Address} (hc : c ≠ ZERO) (src dst : Address)
    (v : U256) :
    (∃ s', transferFrom s c src dst v = .ok s') ↔
      src ≠ ZERO ∧ dst ≠ ZERO ∧ v.toNat ≤ (allowance s src c).toNat ∧
        v.toNat ≤ (balanceOf s src).toNat := by
  unfold allowance balanceOf
  constructor
  · rintro ⟨s', h⟩
    obtain ⟨s1, h1, h2⟩ := transferFrom_eq_ok.mp h
    obtain ⟨h3, h4, h5⟩ := transferInternal_eq_ok.mp h2
    obtain ⟨hb, _, _⟩ := spend_frame h1
    refine ⟨h3, h4, ?_, ?_⟩
    · rcases spend_eq_ok.mp h1 with ⟨hm, _⟩ | ⟨_, hv, _⟩
      · rw [hm, maxU256_toNat]; have := v.isLt; omega
      · exact hv
    · rw [← hb]; exact (update_ok_iff.mp ⟨s', h5⟩).1 h3
  · rintro ⟨h1, h2, h3, h4⟩
    have hs1 : ∃ s1, spendAllowance s src c v = .ok s1 := by
      by_cases hm : s.allowances src c = maxU256
      · exact ⟨s, spend_eq_ok.mpr (.inl ⟨hm, rfl⟩)⟩
      · exact ⟨_, spend_eq_ok.mpr (.inr ⟨hm, h3, h1, hc, rfl⟩)⟩
    obtain ⟨s1, hs1⟩ := hs1
    obtain ⟨hb, _, _⟩ := spend_frame hs1
    obtain ⟨s', h⟩ := update_ok_iff (s := s1) (src := src) (dst := dst) (v := v) |>.mpr
      ⟨fun _ => by rw [hb]; exact h4, fun h => absurd h h1⟩
    exact ⟨s', transferFrom_eq_ok.mpr ⟨s1, hs1, transferInternal_eq_ok.mpr ⟨h1, h2, h⟩⟩⟩

/-- **C03** What a successful `transfer_from` does: `v` moves, the allowance falls by exactly `v`
unless it is unlimited, nothing else changes. -/
theorem C03_transferFrom_effect {s s' : State} (hr : Reachable s) {c src dst : Address} {v : U256}
    (h : transferFrom s c src dst v = .ok s') :
    (∀ a, (balanceOf s' a).toNat + (if a = src then v.toNat else 0)
        = (balanceOf s a).toNat + (if a = dst then v.toNat else 0)) ∧
    (∀ o sp, (allowance s' o sp).toNat =
        if o = src ∧ sp = c ∧ allowance s o sp ≠ maxU256 then (allowance s o sp).toNat - v.toNat
        else (allowance s o sp).toNat) ∧
    totalSupplyOf s' = totalSupplyOf s ∧
    s'.log = s.log ++ [.transfer src dst v] := by
  unfold allowance balanceOf totalSupplyOf
  obtain ⟨s1, h1, h2⟩ := transferFrom_eq_ok.mp h
  obtain ⟨h3, h4, h5⟩ := transferInternal_eq_ok.mp h2
  obtain ⟨hb, ht, hl⟩ := spend_frame h1
  have e := update_effect ((reachable_sumOk hr).of_frame hb ht) h5
  refine ⟨fun a => ?_, fun o sp => ?_, ?_, by rw [e.log, hl]⟩
  · have := e.bal a; simpa [h3, h4, balanceOf, hb] using this
  · rw [e.allow]
    rcases spend_eq_ok.mp h1 with ⟨hm, rfl⟩ | ⟨hm, hv, _, _, rfl⟩
    · split
      · rename_i hx; obtain ⟨rfl, rfl, hx⟩ := hx; exact absurd hm hx
      · rfl
    · simp only [upd2_apply]
      by_cases hx : o = src ∧ sp = c
      · obtain ⟨rfl, rfl⟩ := hx
        simp [hm, toNat_sub_of_ge hv]
      · have hx' : ¬ (o = src ∧ sp = c ∧ s.allowances o sp ≠ maxU256) := fun k => hx ⟨k.1, k.2.1⟩
        rw [if_neg hx, if_neg hx']
  · have := e.supply
    simp only [h3, h4, if_false, ht] at this
    exact BitVec.eq_of_toNat_eq (by simpa [totalSupplyOf] using this)

/-- **C03** An unsuccessful `transfer_from` names the first violated condition. -/
theorem C03_transferFrom_errors (s : State) {c src : Address} (hc : c ≠ ZERO) (hsrc : src ≠ ZERO)
    (dst : Address) (v : U256) (e : Err) :
    transferFrom s c src dst v = .error e ↔
      ((allowance s src c).toNat < v.toNat ∧ e = .insufficientAllowance c (allowance s src c) v) ∨
      (v.toNat ≤ (allowance s src c).toNat ∧ dst = ZERO ∧ e = .invalidReceiver ZERO) ∨
      (v.toNat ≤ (allowance s src c).toNat ∧ dst ≠ ZERO ∧ (balanceOf s src).toNat < v.toNat ∧
        e = .insufficientBalance src (balanceOf s src) v) := by
  have hvm := v.isLt
  cases hsp : spendAllowance s src c v with
  | error e1 =>
    have h1 : transferFrom s c src dst v = .error e1 := by
      simp [transferFrom, hsp, bind, Except.bind]
    rw [h1]
    obtain ⟨_, hcase⟩ := spend_eq_error.mp hsp
    rcases hcase with ⟨hlt, rfl⟩ | ⟨_, h0, _⟩ | ⟨_, _, h0, _⟩
    · simp only [Except.error.injEq, allowance]
      constructor
      · intro h; exact .inl ⟨hlt, h.symm⟩
      · rintro (⟨_, rfl⟩ | ⟨h, _⟩ | ⟨h, _⟩)
        · rfl
        · omega
        · omega
    · exact absurd h0 hsrc
    · exact absurd h0 hc
  | ok s1 =>
    have hle : v.toNat ≤ (allowance s src c).toNat := by
      rcases spend_eq_ok.mp hsp with ⟨hm, _⟩ | ⟨_, hv, _⟩
      · simp only [allowance, hm, maxU256_toNat]; omega
      · exact hv
    obtain ⟨hb, _, _⟩ := spend_frame hsp
    have h1 : transferFrom s c src dst v = transfer s1 src dst v := by
      simp [transferFrom, transfer, hsp, bind, Except.bind]
    rw [h1, C02_transfer_errors]
    simp only [hsrc, false_and, false_or, ne_eq, not_false_eq_true, true_and, hle, balanceOf, hb]
    constructor
    · rintro h; exact .inr h
    · rintro (⟨h, _⟩ | h)
      · omega
      · exact h

example : ∃ s', transferFrom (run init sampleOps) bob alice carol 20#256 = .ok s' :=
  (C03_transferFrom_succeeds_iff _ (by decide) _ _ _).mpr (by decide)

/-! ### C04 -/

/-- One successful call by somebody other than the owner changes a limited allowance exactly by
what the spender takes. -/
theorem allowance_step {s s' : State} {op : Address × Call} {owner spender : Address}
    (hlim : s.allowances owner spender ≠ maxU256) (hne : op.1 ≠ owner)
    (h : exec s op = .ok s') :
    takes owner spender op + (s'.allowances owner spender).toNat
      = (s.allowances owner spender).toNat := by
  have key : ∀ {t t' : State} {o sp : Address} {v : U256}, spendAllowance t o sp v = .ok t' →
      t.allowances owner spender ≠ maxU256 →
      (if sp = spender ∧ o = owner then v.toNat else 0) + (t'.allowances owner spender).toNat
        = (t.allowances owner spender).toNat := by
    intro t t' o sp v hsp hl
    rcases spend_eq_ok.mp hsp with ⟨hm, rfl⟩ | ⟨_, hv, _, _, rfl⟩
    · split
      · rename_i hx; obtain ⟨rfl, rfl⟩ := hx; exact absurd hm hl
      · omega
    · simp only [upd2_apply]
      by_cases hx : sp = spender ∧ o = owner
      · obtain ⟨rfl, rfl⟩ := hx; simp only [and_self, if_true, toNat_sub_of_ge hv]; omega
      · have hx' : ¬ (owner = o ∧ spender = sp) := fun k => hx ⟨k.2.symm, k.1.symm⟩
        rw [if_neg hx, if_neg hx']; omega
  have upd_allow : ∀ {t t' : State} {a b : Address} {v : U256}, update t a b v = .ok t' →
      t'.allowances = t.allowances := by
    intro t t' a b v hu
    obtain ⟨t1, hd, rfl⟩ := update_eq_ok.mp hu
    rcases debit_ok hd with ⟨_, _, rfl⟩ | ⟨_, _, rfl⟩ <;> (simp only [credit]; split <;> rfl)
  obtain ⟨c, call⟩ := op
  cases call with
  | transfer dst v =>
    obtain ⟨_, _, hu⟩ := transferInternal_eq_ok.mp h
    simp [takes, upd_allow hu]
  | transferFrom src dst v =>
    obtain ⟨s1, h1, h2⟩ := transferFrom_eq_ok.mp h
    obtain ⟨_, _, hu⟩ := transferInternal_eq_ok.mp h2
    rw [upd_allow hu]; exact key h1 hlim
  | approve sp v =>
    obtain ⟨_, _, rfl⟩ := approve_eq_ok.mp h
    have : ¬ (owner = c ∧ spender = sp) := fun k => hne k.1.symm
    simp [takes, upd2_apply, this]
  | mint a v =>
    obtain ⟨_, hu⟩ := mint_eq_ok.mp h
    simp [takes, upd_allow hu]
  | burn v =>
    obtain ⟨_, hu⟩ := burnInternal_eq_ok.mp h
    simp [takes, upd_allow hu]
  | burnFrom a v =>
    obtain ⟨s1, h1, h2⟩ := burnFrom_eq_ok.mp h
    obtain ⟨_, hu⟩ := burnInternal_eq_ok.mp h2
    rw [upd_allow hu]; exact key h1 hlim

/-- **C04** A limited allowance is a hard budget: over any history in which the owner makes no
call, what the spender takes plus what is left is exactly the initial allowance. -/
theorem C04_allowance_budget (ops : List (Address × Call)) (s : State) (owner spender : Address)
    (hlim : allowance s owner spender ≠ maxU256) (hno : ∀ op ∈ ops, op.1 ≠ owner) :
    takenBy owner spender s ops + (allowance (run s ops) owner spender).toNat
      = (allowance s owner spender).toNat := by
  unfold allowance at *
  induction ops generalizing s with
  | nil => simp [takenBy, run]
  | cons op ops ih =>
    have hop : op.1 ≠ owner := hno op (by simp)
    have hrest : ∀ o ∈ ops, o.1 ≠ owner := fun o ho => hno o (by simp [ho])
    simp only [takenBy, run, runOf_cons]
    cases hx : exec s op with
    | error e => rw [stepOf_error hx]; exact ih s hlim hrest
    | ok s' =>
      rw [stepOf_ok hx]
      have h1 := allowance_step hlim hop hx
      have hlim' : s'.allowances owner spender ≠ maxU256 := by
        intro hm
        have h2 := (eq_maxU256_iff _).mp hm
        have h3 := (s.allowances owner spender).isLt
        apply hlim
        rw [eq_maxU256_iff]; omega
      have h2 := ih s' hlim' hrest
      unfold run at h2
      simp only
      omega

/-- **C04** Corollary: the spender never takes more than the allowance. -/
theorem C04_taken_le_allowance (ops : List (Address × Call)) (s : State) (owner spender : Address)
    (hlim : allowance s owner spender ≠ maxU256) (hno : ∀ op ∈ ops, op.1 ≠ owner) :
    takenBy owner spender s ops ≤ (allowance s owner spender).toNat := by
  have := C04_allowance_budget ops s owner spender hlim hno; omega

example : takenBy alice bob (run init sampleOps)
    [(bob, .transferFrom alice bob 5#256), (carol, .burn 1#256), (bob, .burnFrom alice 7#256),
     (bob, .transferFrom alice carol 9#256)] = 12 ∧
    allowance (run init sampleOps) alice bob ≠ maxU256 := by decide

/-- **C05** If a call lowers the balance of `a`, the caller is `a` or had an allowance from `a`
covering the amount. -/
theorem C05_only_authorised_debit {s s' : State} (hr : Reachable s) {op : Address × Call}
    (h : exec s op = .ok s') {a : Address}
    (hdrop : (balanceOf s' a).toNat < (balanceOf s a).toNat) :
    op.1 = a ∨
      (balanceOf s a).toNat - (balanceOf s' a).toNat ≤ (allowance s a op.1).toNat := by
  unfold balanceOf allowance at *
  have hs := reachable_sumOk hr
  obtain ⟨c, call⟩ := op
  have spend_le : ∀ {t t' : State} {o sp : Address} {v : U256}, spendAllowance t o sp v = .ok t' →
      v.toNat ≤ (t.allowances o sp).toNat := by
    intro t t' o sp v hsp
    rcases spend_eq_ok.mp hsp with ⟨hm, _⟩ | ⟨_, hv, _⟩
    · rw [hm, maxU256_toNat]; have := v.isLt; omega
    · exact hv
  cases call with
  | transfer dst v =>
    obtain ⟨_, _, hu⟩ := transferInternal_eq_ok.mp h
    have e := (update_effect hs hu).bal a
    left
    by_contra hne
    have : ¬ (a = c ∧ c ≠ ZERO) := fun k => hne k.1.symm
    rw [if_neg this] at e
    simp only at hne; split at e <;> omega
  | transferFrom src dst v =>
    obtain ⟨s1, h1, h2⟩ := transferFrom_eq_ok.mp h
    obtain ⟨_, _, hu⟩ := transferInternal_eq_ok.mp h2
    obtain ⟨hb, ht, _⟩ := spend_frame h1
    have e := (update_effect (hs.of_frame hb ht) hu).bal a
    rw [hb] at e
    right
    by_cases hx : a = src
    · subst hx; have := spend_le h1; dsimp only at *; split at e <;> split at e <;> omega
    · have : ¬ (a = src ∧ src ≠ ZERO) := fun k => hx k.1
      rw [if_neg this] at e; split at e <;> omega
  | approve sp v =>
    obtain ⟨_, _, rfl⟩ := approve_eq_ok.mp h
    exact absurd hdrop (lt_irrefl _)
  | mint b v =>
    obtain ⟨_, hu⟩ := mint_eq_ok.mp h
    have e := (update_effect hs hu).bal a
    simp only [ne_eq, not_true_eq_false, and_false, if_false] at e
    split at e <;> omega
  | burn v =>
    obtain ⟨_, hu⟩ := burnInternal_eq_ok.mp h
    have e := (update_effect hs hu).bal a
    left
    by_contra hne
    have : ¬ (a = c ∧ c ≠ ZERO) := fun k => hne k.1.symm
    rw [if_neg this] at e
    split at e <;> omega
  | burnFrom b v =>
    obtain ⟨s1, h1, h2⟩ := burnFrom_eq_ok.mp h
    obtain ⟨_, hu⟩ := burnInternal_eq_ok.mp h2
    obtain ⟨hb, ht, _⟩ := spend_frame h1
    have e := (update_effect (hs.of_frame hb ht) hu).bal a
    rw [hb] at e
    right
    by_cases hx : a = b
    · subst hx; have := spend_le h1; dsimp only at *; split at e <;> split at e <;> omega
    · have : ¬ (a = b ∧ b ≠ ZERO) := fun k => hx k.1
      rw [if_neg this] at e; split at e <;> omega

example : ∃ s', exec (run init sampleOps) (bob, .burnFrom alice 20#256) = .ok s' ∧
    (balanceOf s' alice).toNat < (balanceOf (run init sampleOps) alice).toNat := by
  refine ⟨_, rfl, ?_⟩; decide

end Verif.Props
