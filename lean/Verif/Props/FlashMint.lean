import Verif.Spec.FlashMint
import Verif.Proofs.Erc20
/-! # C15, C16: flash minting -/

namespace Verif.Props.FlashMint
open Verif.FlashMint Verif.Spec.FlashMint

theorem lift_ok {α : Type} {x : Except Erc20.Err α} {a : α} : lift x = .ok a ↔ x = .ok a := by
  cases x <;> simp [lift]

theorem orPanic_eq_ok {ε α : Type} {e : ε} {x : Option α} {a : α} :
    orPanic e x = .ok a ↔ x = some a := by
  cases x <;> simp [orPanic]

theorem maxLoan_toNat (E : Env) (s : Erc20.State) :
    (maxFlashLoan E s E.self_).toNat = 2 ^ 256 - 1 - supply s := by
  unfold maxFlashLoan
  rw [if_pos rfl]
  have h1 := (Erc20.totalSupplyOf s).isLt
  have h2 : (Erc20.totalSupplyOf s).toNat ≤ maxU256.toNat := by rw [maxU256_toNat]; omega
  rw [toNat_sub_of_ge h2, maxU256_toNat]; rfl

/-- The first half of `flash_loan`, as an iff. -/
theorem begin_ok {E : Env} {s s1 : Erc20.State} {r t : Address} {v f : U256} :
    begin_ E s r t v = .ok (f, s1) ↔ t = E.self_ ∧ f = E.fee ∧ E.hasCode r = true ∧
      supply s + v.toNat < 2 ^ 256 ∧ Erc20.mint s r v = .ok s1 := by
  have hlt := (Erc20.totalSupplyOf s).isLt
  have hsup : supply s = (Erc20.totalSupplyOf s).toNat := rfl
  unfold begin_
  by_cases ht : t = E.self_
  · subst ht
    have hm := maxLoan_toNat E s
    by_cases hv : maxFlashLoan E s E.self_ < v
    · have hv' := BitVec.lt_def.mp hv
      simp only [hv, if_true, except_throw, except_bind_error]
      constructor
      · intro h; cases h
      · rintro ⟨_, _, _, h, _⟩; omega
    · have hv' : ¬ (maxFlashLoan E s E.self_).toNat < v.toNat := mt BitVec.lt_def.mpr hv
      have hroom : supply s + v.toNat < 2 ^ 256 := by omega
      simp only [hv, if_false, flashFee, if_true, except_bind_ok, hroom, true_and]
      cases hc : E.hasCode r with
      | false => simp
      | true =>
        simp only [Bool.true_eq_false, if_false, except_pure, bind_eq_ok, lift_ok,
          Except.ok.injEq, Prod.mk.injEq, true_and]
        constructor
        · rintro ⟨a, ha, rfl, rfl⟩; exact ⟨rfl, ha⟩
        · rintro ⟨rfl, ha⟩; exact ⟨s1, ha, rfl, rfl⟩
  · have hfee : flashFee E t v = .error (.unsupportedToken t) := by unfold flashFee; rw [if_neg ht]
    simp only [ht, false_and, iff_false, hfee, except_bind_error]
    split
    · intro h; cases h
    · intro h; cases h

/-- The effect of repaying a loan. -/
structure Repaid (E : Env) (s2 s' : Erc20.State) (r : Address) (v : Nat) : Prop where
  sum : Erc20.SumOk s'
  fits : v + E.fee.toNat < 2 ^ 256
  funds : v + E.fee.toNat ≤ bal s2 r
  bal : ∀ a, bal s' a + (if a = r then v + E.fee.toNat else 0)
    = bal s2 a + (if a = E.feeReceiver ∧ E.feeReceiver ≠ ZERO then E.fee.toNat else 0)
  supply : supply s' + v + burntFee E = supply s2
  covered : Erc20.allowance s2 r E.self_ = maxU256 ∨
    v + E.fee.toNat ≤ (Erc20.allowance s2 r E.self_).toNat
  allowance : ∀ o sp, (Erc20.allowance s' o sp).toNat =
    if o = r ∧ sp = E.self_ ∧ Erc20.allowance s2 o sp ≠ maxU256
    then (Erc20.allowance s2 o sp).toNat - (v + E.fee.toNat) else (Erc20.allowance s2 o sp).toNat

theorem finish_effect {E : Env} {s2 s' : Erc20.State} {r : Address} {v : U256} {ans : Option B256}
    (hs : Erc20.SumOk s2) (h : finish E s2 r v E.fee ans = .ok s') :
    ans = some E.magic ∧ Repaid E s2 s' r v.toNat := by
  unfold finish at h
  cases ans with
  | none => cases h
  | some a =>
    simp only at h
    by_cases ha : a = E.magic
    swap
    · simp [ha] at h
    subst ha
    simp only [ne_eq, not_true_eq_false, if_false, except_pure, bind_eq_ok, orPanic_eq_ok,
      lift_ok] at h
    obtain ⟨al, hal, t1, h1, h2⟩ := h
    obtain ⟨hfit, halv⟩ := checkedAdd_eq_some.mp hal
    obtain ⟨hb, hsup, _⟩ := Erc20.spend_frame h1
    have hs1 : Erc20.SumOk t1 := hs.of_frame hb hsup
    refine ⟨rfl, ?_⟩
    -- the allowance part
    have hcov : Erc20.allowance s2 r E.self_ = maxU256 ∨
        v.toNat + E.fee.toNat ≤ (Erc20.allowance s2 r E.self_).toNat := by
      rcases Erc20.spend_eq_ok.mp h1 with ⟨hm, _⟩ | ⟨_, hle, _⟩
      · exact Or.inl hm
      · exact Or.inr (by rw [← halv]; exact hle)
    have hallow : ∀ o sp, (t1.allowances o sp).toNat =
        if o = r ∧ sp = E.self_ ∧ s2.allowances o sp ≠ maxU256
        then (s2.allowances o sp).toNat - (v.toNat + E.fee.toNat)
        else (s2.allowances o sp).toNat := by
      intro o sp
      rcases Erc20.spend_eq_ok.mp h1 with ⟨hm, rfl⟩ | ⟨hm, hle, _, _, rfl⟩
      · rw [if_neg]; rintro ⟨rfl, rfl, h⟩; exact h hm
      · simp only [upd2]
        by_cases hx : o = r ∧ sp = E.self_
        · obtain ⟨rfl, rfl⟩ := hx
          rw [if_pos ⟨rfl, rfl⟩, if_pos ⟨rfl, rfl, hm⟩, toNat_sub_of_ge hle, halv]
        · rw [if_neg hx, if_neg (fun e => hx ⟨e.1, e.2.1⟩)]
    by_cases hf : E.fee = 0#256 ∨ E.feeReceiver = ZERO
    · rw [if_pos hf, lift_ok] at h2
      obtain ⟨hr0, hu⟩ := Erc20.burnInternal_eq_ok.mp h2
      have e := Erc20.update_effect hs1 hu
      have hfe : E.feeReceiver ≠ ZERO → E.fee.toNat = 0 := by
        intro hne
        rcases hf with hf | hf
        · rw [hf]; rfl
        · exact absurd hf hne
      refine ⟨e.sum, hfit, ?_, ?_, ?_, hcov, ?_⟩
      · have := e.funds hr0
        rw [halv, hb] at this; exact this
      · intro a
        have hbal := e.bal a
        simp only [hr0, ne_eq, not_false_eq_true, and_true, not_true_eq_false, and_false, if_false,
          Nat.add_zero, halv, hb] at hbal
        show (s'.balances a).toNat + _ = (s2.balances a).toNat + _
        rw [hbal]
        by_cases hx : a = E.feeReceiver ∧ E.feeReceiver ≠ ZERO
        · rw [if_pos hx, hfe hx.2]; rfl
        · rw [if_neg hx]; rfl
      · have hsu := e.supply
        simp only [if_true, if_neg hr0, Nat.add_zero, halv, hsup] at hsu
        show s'.totalSupply.toNat + v.toNat + burntFee E = s2.totalSupply.toNat
        unfold burntFee
        by_cases hz : E.feeReceiver = ZERO
        · rw [if_pos hz]; omega
        · rw [if_neg hz]; have := hfe hz; omega
      · intro o sp
        show (s'.allowances o sp).toNat = _
        rw [e.allow]; exact hallow o sp
    · rw [if_neg hf] at h2
      simp only [bind_eq_ok, lift_ok] at h2
      obtain ⟨t2, h3, h4⟩ := h2
      have hz : E.feeReceiver ≠ ZERO := fun e => hf (Or.inr e)
      obtain ⟨hr0, hu⟩ := Erc20.burnInternal_eq_ok.mp h3
      have e := Erc20.update_effect hs1 hu
      obtain ⟨_, _, hu2⟩ := Erc20.transferInternal_eq_ok.mp h4
      have e2 := Erc20.update_effect e.sum hu2
      have b1 : ∀ a, (t2.balances a).toNat + (if a = r then v.toNat else 0)
          = (s2.balances a).toNat := by
        intro a
        have := e.bal a
        simp only [hr0, ne_eq, not_false_eq_true, and_true, not_true_eq_false, and_false, if_false,
          Nat.add_zero, hb] at this
        exact this
      have b2 : ∀ a, (s'.balances a).toNat + (if a = r then E.fee.toNat else 0)
          = (t2.balances a).toNat + (if a = E.feeReceiver then E.fee.toNat else 0) := by
        intro a
        have := e2.bal a
        simp only [hr0, hz, ne_eq, not_false_eq_true, and_true] at this
        exact this
      refine ⟨e2.sum, hfit, ?_, ?_, ?_, hcov, ?_⟩
      · have k1 := b1 r
        have k2 := e2.funds hr0
        rw [if_pos rfl] at k1
        show _ ≤ (s2.balances r).toNat
        omega
      · intro a
        have k1 := b1 a
        have k2 := b2 a
        show (s'.balances a).toNat + _ = (s2.balances a).toNat + _
        simp only [hz, ne_eq, not_false_eq_true, and_true]
        by_cases hx : a = r
        · rw [if_pos hx] at *; omega
        · rw [if_neg hx] at *; omega
      · have k1 := e.supply
        have k2 := e2.supply
        rw [if_neg hr0, if_pos rfl, hsup] at k1
        rw [if_neg hr0, if_neg hz] at k2
        show s'.totalSupply.toNat + v.toNat + burntFee E = s2.totalSupply.toNat
        unfold burntFee
        rw [if_neg hz]
        omega
      · intro o sp
        show (s'.allowances o sp).toNat = _
        rw [e2.allow, e.allow]; exact hallow o sp

mutual
/-- Every action, however deeply nested, keeps the balances summing to the supply. -/
theorem sumOk_exec (E : Env) : ∀ (a : Action) (s s' : Erc20.State), Erc20.SumOk s →
    exec E s a = .ok s' → Erc20.SumOk s'
  | .call c k => by
    intro s s' hs h
    simp only [exec, lift_ok] at h
    exact Erc20.sumOk_exec hs h
  | .loan r t v cb ans => by
    intro s s' hs h
    simp only [exec, bind_eq_ok] at h
    obtain ⟨⟨f, s1⟩, h1, h2⟩ := h
    obtain ⟨_, rfl, _, _, h3⟩ := begin_ok.mp h1
    have hs1 := (Erc20.update_effect hs (Erc20.mint_eq_ok.mp h3).2).sum
    exact (finish_effect (sumOk_execAll E cb s1 hs1) h2).2.sum
theorem sumOk_execAll (E : Env) : ∀ (l : List Action) (s : Erc20.State), Erc20.SumOk s →
    Erc20.SumOk (execAll E s l)
  | [] => by intro s hs; simpa only [execAll] using hs
  | a :: as => by
    intro s hs
    rw [execAll]
    cases h : exec E s a with
    | error e => exact sumOk_execAll E as s hs
    | ok s' => exact sumOk_execAll E as s' (sumOk_exec E a s s' hs h)
end

theorem reachable_sumOk {E : Env} {s : Erc20.State} (h : Reachable E s) : Erc20.SumOk s := by
  obtain ⟨acts, rfl⟩ := h
  exact sumOk_execAll E acts _ Erc20.sumOk_init

/-! ## C15 -/

/-- **C15** If a flash loan succeeds then - whatever the callback did, nested loans included - it was a
loan of this token to a contract, the callback answered the magic value, and relative to the state `s2`
the callback left behind: the receiver paid exactly `value + fee` (and had it), the fee receiver got
exactly the fee, the loan (and an unclaimed fee) is burnt, and the receiver's allowance to the token
contract covered and was reduced by `value + fee`; nothing else changed. -/
theorem C15_loan_is_repaid (E : Env) (s s' : Erc20.State) (hs : Reachable E s) (r t : Address)
    (v : U256) (cb : List Action) (ans : Option B256)
    (h : exec E s (.loan r t v cb ans) = .ok s') :
    t = E.self_ ∧ E.hasCode r = true ∧ ans = some E.magic ∧
    ∃ s1, Erc20.mint s r v = .ok s1 ∧
      v.toNat + E.fee.toNat ≤ bal (execAll E s1 cb) r ∧
      (∀ a, bal s' a + (if a = r then v.toNat + E.fee.toNat else 0)
        = bal (execAll E s1 cb) a
          + (if a = E.feeReceiver ∧ E.feeReceiver ≠ ZERO then E.fee.toNat else 0)) ∧
      supply s' + v.toNat + burntFee E = supply (execAll E s1 cb) ∧
      (Erc20.allowance (execAll E s1 cb) r E.self_ = maxU256 ∨
        v.toNat + E.fee.toNat ≤ (Erc20.allowance (execAll E s1 cb) r E.self_).toNat) ∧
      (∀ o sp, (Erc20.allowance s' o sp).toNat =
        if o = r ∧ sp = E.self_ ∧ Erc20.allowance (execAll E s1 cb) o sp ≠ maxU256
        then (Erc20.allowance (execAll E s1 cb) o sp).toNat - (v.toNat + E.fee.toNat)
        else (Erc20.allowance (execAll E s1 cb) o sp).toNat) := by
  simp only [exec, bind_eq_ok] at h
  obtain ⟨⟨f, s1⟩, h1, h2⟩ := h
  obtain ⟨ht, rfl, hc, _, h3⟩ := begin_ok.mp h1
  have hs1 := (Erc20.update_effect (reachable_sumOk hs) (Erc20.mint_eq_ok.mp h3).2).sum
  obtain ⟨hans, e⟩ := finish_effect (sumOk_execAll E cb s1 hs1) h2
  exact ⟨ht, hc, hans, s1, h3, e.funds, e.bal, e.supply, e.covered, e.allowance⟩

/-- **C15** The loan limit is exact: more than `2^256 - 1 - supply` is refused with the limit; another
token's limit is zero and its loans are refused. -/
theorem C15_limits (E : Env) (s : Erc20.State) (r t : Address) (v : U256) (cb : List Action)
    (ans : Option B256) :
    (maxFlashLoan E s E.self_).toNat = 2 ^ 256 - 1 - supply s ∧
    (2 ^ 256 ≤ supply s + v.toNat →
      exec E s (.loan r E.self_ v cb ans) = .error (.exceededMaxLoan (maxFlashLoan E s E.self_))) ∧
    (t ≠ E.self_ → maxFlashLoan E s t = 0#256 ∧ flashFee E t v = .error (.unsupportedToken t) ∧
      ∃ e, exec E s (.loan r t v cb ans) = .error e) := by
  refine ⟨maxLoan_toNat E s, fun h => ?_, fun ht => ⟨if_neg ht, if_neg ht, ?_⟩⟩
  · have hm := maxLoan_toNat E s
    have hlt : maxFlashLoan E s E.self_ < v := BitVec.lt_def.mpr (by
      have : supply s < 2 ^ 256 := (Erc20.totalSupplyOf s).isLt
      omega)
    simp only [exec, begin_, hlt, if_true, except_throw, except_bind_error]
  · cases hx : exec E s (.loan r t v cb ans) with
    | error e => exact ⟨e, rfl⟩
    | ok s' =>
      simp only [exec, bind_eq_ok] at hx
      obtain ⟨⟨f, s1⟩, h1, _⟩ := hx
      exact absurd (begin_ok.mp h1).1 ht

/-- **C15** A callback that reverts or answers anything but the magic value makes the loan fail, with
the receiver named. -/
theorem C15_bad_answer (E : Env) (s : Erc20.State) (r : Address) (v : U256) (cb : List Action)
    (ans : Option B256) (h : ans ≠ some E.magic) (h1 : supply s + v.toNat < 2 ^ 256) (h2 : r ≠ ZERO)
    (h3 : E.hasCode r = true) :
    exec E s (.loan r E.self_ v cb ans) = .error (.invalidReceiver r) := by
  obtain ⟨s1, hs1⟩ : ∃ s1, Erc20.mint s r v = .ok s1 := by
    obtain ⟨t, ht⟩ := (Erc20.update_ok_iff (s := s) (src := ZERO) (dst := r) (v := v)).mpr
      ⟨fun e => absurd rfl e, fun _ => h1⟩
    exact ⟨t, Erc20.mint_eq_ok.mpr ⟨h2, ht⟩⟩
  have hb : begin_ E s r E.self_ v = .ok (E.fee, s1) := begin_ok.mpr ⟨rfl, rfl, h3, h1, hs1⟩
  simp only [exec, hb, except_bind_ok]
  cases ans with
  | none => rfl
  | some a =>
    have ha : a ≠ E.magic := fun e => h (by rw [e])
    simp only [finish, ne_eq, ha, not_false_eq_true, if_true, except_throw, except_bind_error]

/-- **C15** Completeness: a borrower that answers properly and ends its callback with enough balance and
allowance is always released. -/
theorem C15_repayment_accepted (E : Env) (s s1 : Erc20.State) (hs : Reachable E s) (r : Address)
    (v : U256) (cb : List Action) (hself : E.self_ ≠ ZERO) (hc : E.hasCode r = true)
    (hm : Erc20.mint s r v = .ok s1) (hfit : v.toNat + E.fee.toNat < 2 ^ 256)
    (hb : v.toNat + E.fee.toNat ≤ bal (execAll E s1 cb) r)
    (ha : v.toNat + E.fee.toNat ≤ (Erc20.allowance (execAll E s1 cb) r E.self_).toNat) :
    ∃ s', exec E s (.loan r E.self_ v cb (some E.magic)) = .ok s' := by
  obtain ⟨hr0, hu0⟩ := Erc20.mint_eq_ok.mp hm
  have e0 := Erc20.update_effect (reachable_sumOk hs) hu0
  have hroom : supply s + v.toNat < 2 ^ 256 := e0.room rfl
  have hbeg : begin_ E s r E.self_ v = .ok (E.fee, s1) := begin_ok.mpr ⟨rfl, rfl, hc, hroom, hm⟩
  have hs2 : Erc20.SumOk (execAll E s1 cb) := sumOk_execAll E cb s1 e0.sum
  generalize hg : execAll E s1 cb = s2 at *
  have hal : checkedAdd v E.fee = some (v + E.fee) := by unfold checkedAdd; rw [if_pos hfit]
  have halv : (v + E.fee).toNat = v.toNat + E.fee.toNat := toNat_add_of_lt hfit
  obtain ⟨t1, h1⟩ : ∃ t1, Erc20.spendAllowance s2 r E.self_ (v + E.fee) = .ok t1 := by
    by_cases hmx : s2.allowances r E.self_ = maxU256
    · exact ⟨_, Erc20.spend_eq_ok.mpr (Or.inl ⟨hmx, rfl⟩)⟩
    · exact ⟨_, Erc20.spend_eq_ok.mpr (Or.inr ⟨hmx, by rw [halv]; exact ha, hr0, hself, rfl⟩)⟩
  obtain ⟨hbf, hsf, _⟩ := Erc20.spend_frame h1
  have hs1 : Erc20.SumOk t1 := hs2.of_frame hbf hsf
  have hb' : v.toNat + E.fee.toNat ≤ (t1.balances r).toNat := by rw [hbf]; exact hb
  simp only [exec, hbeg, except_bind_ok, hg, finish, ne_eq, not_true_eq_false, if_false, except_pure,
    hal, orPanic_some, h1, lift]
  by_cases hf : E.fee = 0#256 ∨ E.feeReceiver = ZERO
  · rw [if_pos hf]
    obtain ⟨t2, h2⟩ := (Erc20.update_ok_iff (s := t1) (src := r) (dst := ZERO) (v := v + E.fee)).mpr
      ⟨fun _ => by rw [halv]; exact hb', fun e => absurd e hr0⟩
    exact ⟨t2, by rw [Erc20.burnInternal_eq_ok.mpr ⟨hr0, h2⟩]⟩
  · rw [if_neg hf]
    obtain ⟨t2, h2⟩ := (Erc20.update_ok_iff (s := t1) (src := r) (dst := ZERO) (v := v)).mpr
      ⟨fun _ => by omega, fun e => absurd e hr0⟩
    have e2 := Erc20.update_effect hs1 h2
    have k := e2.bal r
    rw [if_pos ⟨rfl, hr0⟩, if_neg (fun e => e.2 rfl)] at k
    obtain ⟨t3, h3⟩ := (Erc20.update_ok_iff (s := t2) (src := r) (dst := E.feeReceiver)
      (v := E.fee)).mpr ⟨fun _ => by omega, fun e => absurd e hr0⟩
    refine ⟨t3, ?_⟩
    rw [Erc20.burnInternal_eq_ok.mpr ⟨hr0, h2⟩]
    simp only [except_bind_ok]
    rw [Erc20.transferInternal_eq_ok.mpr ⟨hr0, fun e => hf (Or.inr e), h3⟩]

/-! ## C16 -/

/-- **C16** In every state reached by token calls and flash loans nested to any depth, balances sum to
the supply. -/
theorem C16_balances_sum_to_supply (E : Env) (acts : List Action) :
    ∑ a : Address, bal (execAll E Erc20.init acts) a = supply (execAll E Erc20.init acts) :=
  reachable_sumOk ⟨acts, rfl⟩

theorem quiet_call_supply {s s' : Erc20.State} {c : Address} {k : Erc20.Call} (hs : Erc20.SumOk s)
    (hq : QuietCall k) (h : Erc20.exec s (c, k) = .ok s') : supply s' = supply s := by
  unfold supply Erc20.totalSupplyOf
  cases k with
  | transfer dst v =>
    obtain ⟨h1, h2, h3⟩ := Erc20.transferInternal_eq_ok.mp h
    have := (Erc20.update_effect hs h3).supply
    rwa [if_neg h1, if_neg h2] at this
  | transferFrom src dst v =>
    obtain ⟨t1, hs1, ht1⟩ := Erc20.transferFrom_eq_ok.mp h
    obtain ⟨hb1, hsup, _⟩ := Erc20.spend_frame hs1
    obtain ⟨h1, h2, h3⟩ := Erc20.transferInternal_eq_ok.mp ht1
    have := (Erc20.update_effect (hs.of_frame hb1 hsup) h3).supply
    rwa [if_neg h1, if_neg h2, hsup] at this
  | approve sp v =>
    obtain ⟨_, _, rfl⟩ := Erc20.approve_eq_ok.mp h
    rfl
  | mint a v => exact hq.elim
  | burn v => exact hq.elim
  | burnFrom a v => exact hq.elim

mutual
theorem quiet_exec (E : Env) : ∀ (a : Action) (s s' : Erc20.State), Erc20.SumOk s → Quiet a →
    exec E s a = .ok s' →
    ∃ k, k ≤ loans a ∧ (0 < loans a → 0 < k) ∧ supply s' + k * burntFee E = supply s
  | .call c k => by
    intro s s' hs hq h
    simp only [exec, lift_ok] at h
    refine ⟨0, Nat.zero_le _, fun h => by simp [loans] at h, ?_⟩
    rw [quiet_call_supply hs hq h, Nat.zero_mul, Nat.add_zero]
  | .loan r t v cb ans => by
    intro s s' hs hq h
    simp only [exec, bind_eq_ok] at h
    obtain ⟨⟨f, s1⟩, h1, h2⟩ := h
    obtain ⟨_, rfl, _, _, h3⟩ := begin_ok.mp h1
    obtain ⟨hr0, hu⟩ := Erc20.mint_eq_ok.mp h3
    have e1 := Erc20.update_effect hs hu
    have hsup1 : supply s1 = supply s + v.toNat := by
      have := e1.supply; rw [if_neg hr0, if_pos rfl] at this; exact this
    have hs2 := sumOk_execAll E cb s1 e1.sum
    simp only [Quiet] at hq
    obtain ⟨k, hk, hk2⟩ := quiet_execAll E cb s1 e1.sum hq
    have e := (finish_effect hs2 h2).2.supply
    refine ⟨k + 1, by simp only [loans]; omega, fun _ => Nat.succ_pos _, ?_⟩
    rw [Nat.add_mul, Nat.one_mul]
    omega
theorem quiet_execAll (E : Env) : ∀ (l : List Action) (s : Erc20.State), Erc20.SumOk s → QuietAll l →
    ∃ k, k ≤ loansAll l ∧ supply (execAll E s l) + k * burntFee E = supply s
  | [] => fun s hs _ => ⟨0, Nat.zero_le _, by simp only [execAll, Nat.zero_mul, Nat.add_zero]⟩
  | a :: as => by
    intro s hs hq
    simp only [QuietAll] at hq
    rw [execAll]
    cases h : exec E s a with
    | error e =>
      obtain ⟨k, hk, hk2⟩ := quiet_execAll E as s hs hq.2
      exact ⟨k, by simp only [loansAll]; omega, hk2⟩
    | ok s' =>
      obtain ⟨k1, hk1, _, hk2⟩ := quiet_exec E a s s' hs hq.1 h
      obtain ⟨k, hk, hk3⟩ := quiet_execAll E as s' (sumOk_exec E a s s' hs h) hq.2
      refine ⟨k1 + k, by simp only [loansAll]; omega, ?_⟩
      dsimp only
      rw [Nat.add_mul]
      omega
end

/-- **C16** After a successful flash loan whose callback (at any depth) mints and burns nothing except by
flash loans, the supply is what it was before minus the fees burnt: `k` times the burnt fee, where `k` is
the number of loans that went through, at least this one and at most all that were tried. -/
theorem C16_supply_restored (E : Env) (s s' : Erc20.State) (hs : Reachable E s) (r t : Address)
    (v : U256) (cb : List Action) (ans : Option B256) (hq : QuietAll cb)
    (h : exec E s (.loan r t v cb ans) = .ok s') :
    ∃ k, 1 ≤ k ∧ k ≤ loansAll cb + 1 ∧ supply s' + k * burntFee E = supply s := by
  obtain ⟨k, h1, h2, h3⟩ := quiet_exec E (.loan r t v cb ans) s s' (reachable_sumOk hs)
    (by simpa only [Quiet] using hq) h
  simp only [loans] at h1 h2
  exact ⟨k, h2 (Nat.succ_pos _), h1, h3⟩

/-- **C16** In particular with a fee receiver (or no fee) the supply is exactly restored, and without
nested loans exactly one fee is burnt. -/
theorem C16_supply_exact (E : Env) (s s' : Erc20.State) (hs : Reachable E s) (r t : Address)
    (v : U256) (cb : List Action) (ans : Option B256) (hq : QuietAll cb)
    (h : exec E s (.loan r t v cb ans) = .ok s') :
    (E.feeReceiver ≠ ZERO ∨ E.fee = 0#256 → supply s' = supply s) ∧
    (E.feeReceiver = ZERO → loansAll cb = 0 → supply s' + E.fee.toNat = supply s) := by
  obtain ⟨k, h1, h2, h3⟩ := C16_supply_restored E s s' hs r t v cb ans hq h
  constructor
  · intro hz
    have : burntFee E = 0 := by
      unfold burntFee
      rcases hz with hz | hz
      · rw [if_neg hz]
      · rw [hz]; split <;> rfl
    rw [this] at h3; omega
  · intro hz hl
    have hk : k = 1 := by omega
    rw [hk] at h3
    unfold burntFee at h3
    rw [if_pos hz] at h3
    omega

/-! ## Concrete loans -/

section Examples
private def E0 : Env := { self_ := 9#160, hasCode := fun a => a == 5#160, magic := 77#256, fee := 3#256, feeReceiver := 8#160 }
private def E1 : Env := { E0 with feeReceiver := ZERO }
/-- The borrower has 10 tokens and has approved the token contract. -/
private def setup : List Action := [.call 1#160 (.mint 5#160 10#256), .call 5#160 (.approve 9#160 maxU256)]
/-- A loan of 1000 inside whose callback tokens are moved out and back and a second loan is taken. -/
private def nested : Action := .loan 5#160 9#160 1000#256
  [.call 5#160 (.transfer 6#160 1000#256), .loan 5#160 9#160 50#256 [] (some 77#256),
   .loan 5#160 9#160 50#256 [] none, .call 6#160 (.transfer 5#160 1000#256)] (some 77#256)

private def check (r : Except Err Erc20.State) (k : Erc20.State → Bool) : Bool :=
  match r with | .ok s => k s | .error _ => false

example : check (exec E0 (execAll E0 Erc20.init setup) nested)
    (fun s => bal s 5#160 == 4 && bal s 8#160 == 6 && supply s == 10) = true := by decide +kernel
example : check (exec E1 (execAll E1 Erc20.init setup) nested)
    (fun s => bal s 5#160 == 4 && supply s == 4) = true := by decide +kernel
example : QuietAll [.call 5#160 (.transfer 6#160 1000#256), .loan 5#160 9#160 50#256 [] none] := by
  simp [QuietAll, Quiet, QuietCall]
end Examples

end Verif.Props.FlashMint
