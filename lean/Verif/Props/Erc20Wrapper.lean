import Verif.Spec.Erc20Wrapper
import Verif.Proofs.Erc20Foreign
import Verif.Props.SafeErc20
import Verif.Props.Erc20
/-! # C17, C18: the ERC-20 wrapper -/

namespace Verif.Props.Wrapper
open Verif.Wrapper Verif.Spec.Wrapper

theorem liftErc20_ok {x : Except Erc20.Err Erc20.State} {t : Erc20.State} :
    liftErc20 x = .ok t ↔ x = .ok t := by cases x <;> simp [liftErc20]

theorem safeTransfer_ok {me dst : Address} {t t' : Erc20.State} {v : U256} :
    liftSafe (SafeErc20.safeTransfer (SafeErc20.standardToken me) t dst v) = .ok t' ↔
      Erc20.transfer t me dst v = .ok t' := by
  have key : liftSafe (SafeErc20.safeTransfer (SafeErc20.standardToken me) t dst v) = .ok t' ↔
      SafeErc20.safeTransfer (SafeErc20.standardToken me) t dst v = (t', .ok ()) := by
    rcases SafeErc20.safeTransfer (SafeErc20.standardToken me) t dst v with ⟨t1, e | u⟩
    · simp [liftSafe]
    · simp [liftSafe]
  rw [key, (Verif.Props.SafeErc20.C25_safe_transfer _ _ _ _).1]
  simp only [SafeErc20.standardToken, true_and]
  cases h : Erc20.transfer t me dst v with
  | error e => simp
  | ok t1 =>
    simp only [Option.some.injEq, Prod.mk.injEq, Except.ok.injEq]
    constructor
    · rintro ⟨_, ⟨h1, _⟩, _⟩; exact h1
    · intro h1; exact ⟨_, ⟨h1, rfl⟩, Verif.Props.SafeErc20.accepted_true⟩

theorem safeTransferFrom_ok {me src dst : Address} {t t' : Erc20.State} {v : U256} :
    liftSafe (SafeErc20.safeTransferFrom (SafeErc20.standardToken me) t src dst v) = .ok t' ↔
      Erc20.transferFrom t me src dst v = .ok t' := by
  have key : liftSafe (SafeErc20.safeTransferFrom (SafeErc20.standardToken me) t src dst v) = .ok t' ↔
      SafeErc20.safeTransferFrom (SafeErc20.standardToken me) t src dst v = (t', .ok ()) := by
    rcases SafeErc20.safeTransferFrom (SafeErc20.standardToken me) t src dst v with ⟨t1, e | u⟩
    · simp [liftSafe]
    · simp [liftSafe]
  rw [key, (Verif.Props.SafeErc20.C25_safe_transfer_from _ _ _ _ _).1]
  simp only [SafeErc20.standardToken, true_and]
  cases h : Erc20.transferFrom t me src dst v with
  | error e => simp
  | ok t1 =>
    simp only [Option.some.injEq, Prod.mk.injEq, Except.ok.injEq]
    constructor
    · rintro ⟨_, ⟨h1, _⟩, _⟩; exact h1
    · intro h1; exact ⟨_, ⟨h1, rfl⟩, Verif.Props.SafeErc20.accepted_true⟩

/-- Invariant of the two-contract world. -/
structure WF (s : State) : Prop where
  self_ : s.self_ ≠ ZERO
  token : Erc20.SumOk s.token
  underlying : Erc20.SumOk s.underlying
  noAllowance : ∀ sp, s.underlying.allowances s.self_ sp = 0#256
  backed : supply s ≤ held s

theorem depositFor_ok {s s' : State} {c a : Address} {v : U256} :
    depositFor s c a v = .ok s' ↔ c ≠ s.self_ ∧ a ≠ s.self_ ∧ ∃ u t,
      Erc20.transferFrom s.underlying s.self_ c s.self_ v = .ok u ∧ Erc20.mint s.token a v = .ok t ∧
      s' = { s with underlying := u, token := t } := by
  unfold depositFor
  by_cases h1 : c = s.self_
  · simp [h1]
  · by_cases h2 : a = s.self_
    · simp [h1, h2]
    · simp only [h1, h2, if_false, except_pure, bind_eq_ok, safeTransferFrom_ok,
        liftErc20_ok, Except.ok.injEq, ne_eq, not_false_eq_true, true_and]
      constructor
      · rintro ⟨u, hu, t, ht, rfl⟩; exact ⟨u, t, hu, ht, rfl⟩
      · rintro ⟨u, t, hu, ht, rfl⟩; exact ⟨u, hu, t, ht, rfl⟩

theorem withdrawTo_ok {s s' : State} {c a : Address} {v : U256} :
    withdrawTo s c a v = .ok s' ↔ a ≠ s.self_ ∧ ∃ t u,
      Erc20.burnInternal s.token c v = .ok t ∧ Erc20.transfer s.underlying s.self_ a v = .ok u ∧
      s' = { s with token := t, underlying := u } := by
  unfold withdrawTo
  by_cases h2 : a = s.self_
  · simp [h2]
  · simp only [h2, if_false, except_pure, bind_eq_ok, safeTransfer_ok, liftErc20_ok,
      Except.ok.injEq, ne_eq, not_false_eq_true, true_and]
    constructor
    · rintro ⟨t, ht, u, hu, rfl⟩; exact ⟨t, u, ht, hu, rfl⟩
    · rintro ⟨t, u, ht, hu, rfl⟩; exact ⟨t, ht, u, hu, rfl⟩

/-- The exact effect of a deposit. -/
structure InEffect (s s' : State) (c a : Address) (v : Nat) : Prop where
  wf : WF s'
  self_ : s'.self_ = s.self_
  held : held s' = held s + v
  supply : supply s' = supply s + v
  plain : ∀ x, plain s' x + (if x = c then v else 0) = plain s x + (if x = s.self_ then v else 0)
  wrapped : ∀ x, wrapped s' x = wrapped s x + (if x = a then v else 0)

theorem deposit_effect {s s' : State} {c a : Address} {v : U256} (hw : WF s)
    (h : depositFor s c a v = .ok s') : InEffect s s' c a v.toNat := by
  obtain ⟨hc, _, u, t, h1, h2, rfl⟩ := depositFor_ok.mp h
  obtain ⟨a1, hs1, ht1⟩ := Erc20.transferFrom_eq_ok.mp h1
  obtain ⟨hb1, hsup1, _⟩ := Erc20.spend_frame hs1
  obtain ⟨hc0, hself, hu1⟩ := Erc20.transferInternal_eq_ok.mp ht1
  have e1 := Erc20.update_effect (hw.underlying.of_frame hb1 hsup1) hu1
  obtain ⟨hr0, hu2⟩ := Erc20.mint_eq_ok.mp h2
  have e2 := Erc20.update_effect hw.token hu2
  have hal : ∀ sp, u.allowances s.self_ sp = 0#256 := by
    intro sp
    rw [e1.allow]
    rcases Erc20.spend_eq_ok.mp hs1 with ⟨_, rfl⟩ | ⟨_, _, _, _, rfl⟩
    · exact hw.noAllowance sp
    · simp only [upd2]
      rw [if_neg]
      · exact hw.noAllowance sp
      · rintro ⟨h, _⟩; exact hc h.symm
  have hbal := e1.bal
  rw [hb1] at hbal
  have hself_bal := hbal s.self_
  rw [if_neg (fun e => hc e.1.symm), if_pos ⟨rfl, hself⟩, Nat.add_zero] at hself_bal
  have hsup := e2.supply
  rw [if_neg hr0, if_pos rfl, Nat.add_zero] at hsup
  have hheld : held { s with underlying := u, token := t } = held s + v.toNat := hself_bal
  have hsupply : supply { s with underlying := u, token := t } = supply s + v.toNat := hsup
  refine ⟨⟨hw.self_, e2.sum, e1.sum, hal, ?_⟩, rfl, hheld, hsupply, ?_, ?_⟩
  · rw [hheld, hsupply]; have := hw.backed; omega
  · intro x
    have := hbal x
    simp only [hc0, hself, ne_eq, not_false_eq_true, and_true] at this
    exact this
  · intro x
    have := e2.bal x
    simp only [hr0, ne_eq, not_true_eq_false, not_false_eq_true, and_true, and_false, if_false,
      Nat.add_zero] at this
    exact this

/-- The exact effect of a withdrawal. -/
structure OutEffect (s s' : State) (c a : Address) (v : Nat) : Prop where
  wf : WF s'
  self_ : s'.self_ = s.self_
  held : held s' + v = held s
  supply : supply s' + v = supply s
  plain : ∀ x, plain s' x + (if x = s.self_ then v else 0) = plain s x + (if x = a then v else 0)
  wrapped : ∀ x, wrapped s' x + (if x = c then v else 0) = wrapped s x

theorem withdraw_effect {s s' : State} {c a : Address} {v : U256} (hw : WF s)
    (h : withdrawTo s c a v = .ok s') : OutEffect s s' c a v.toNat := by
  obtain ⟨ha, t, u, h1, h2, rfl⟩ := withdrawTo_ok.mp h
  obtain ⟨hself, ha0, hu⟩ := Erc20.transferInternal_eq_ok.mp h2
  have e1 := Erc20.update_effect hw.underlying hu
  obtain ⟨hc0, ht⟩ := Erc20.burnInternal_eq_ok.mp h1
  have e2 := Erc20.update_effect hw.token ht
  have hself_bal := e1.bal s.self_
  rw [if_pos ⟨rfl, hself⟩, if_neg (fun e => ha e.1.symm), Nat.add_zero] at hself_bal
  have hsup := e2.supply
  rw [if_neg hc0, if_pos rfl, Nat.add_zero] at hsup
  have hheld : held { s with token := t, underlying := u } + v.toNat = held s := hself_bal
  have hsupply : supply { s with token := t, underlying := u } + v.toNat = supply s := hsup
  refine ⟨⟨hw.self_, e2.sum, e1.sum, fun sp => ?_, ?_⟩, rfl, hheld, hsupply, ?_, ?_⟩
  · show u.allowances s.self_ sp = _
    rw [e1.allow]; exact hw.noAllowance sp
  · have := hw.backed; omega
  · intro x
    have := e1.bal x
    simp only [hself, ha0, ne_eq, not_false_eq_true, and_true] at this
    exact this
  · intro x
    have := e2.bal x
    simp only [hc0, ne_eq, not_true_eq_false, not_false_eq_true, and_true, and_false, if_false,
      Nat.add_zero] at this
    exact this

theorem checkedSub_of_le {a b : U256} (h : b.toNat ≤ a.toNat) : checkedSub a b = some (a - b) := by
  unfold checkedSub; rw [if_pos h]

theorem recover_ok {s s' : State} {a : Address} {x : U256} (hw : WF s)
    (h : recover s a = .ok (x, s')) :
    x.toNat = held s - supply s ∧ WF s' ∧ s'.self_ = s.self_ ∧ s'.underlying = s.underlying ∧
    supply s' = held s ∧ ∀ y, wrapped s' y = wrapped s y + (if y = a then held s - supply s else 0) := by
  unfold recover at h
  dsimp only at h
  rw [checkedSub_of_le (show _ from hw.backed)] at h
  simp only [orPanic_some, except_bind_ok] at h
  have hx : (Erc20.balanceOf s.underlying s.self_ - Erc20.totalSupplyOf s.token).toNat
      = held s - supply s := toNat_sub_of_ge hw.backed
  have hb := hw.backed
  generalize Erc20.balanceOf s.underlying s.self_ - Erc20.totalSupplyOf s.token = val at h hx
  by_cases hpos : 0#256 < val
  · simp only [hpos, if_true, bind_eq_ok, liftErc20_ok, except_pure, Except.ok.injEq,
      Prod.mk.injEq] at h
    obtain ⟨t, ht, rfl, rfl⟩ := h
    obtain ⟨hr0, hu2⟩ := Erc20.mint_eq_ok.mp ht
    have e2 := Erc20.update_effect hw.token hu2
    have hsup := e2.supply
    rw [if_neg hr0, if_pos rfl, Nat.add_zero] at hsup
    have hsupply : supply { s with token := t } = supply s + val.toNat := hsup
    have hheld : held { s with token := t } = held s := rfl
    refine ⟨hx, ⟨hw.self_, e2.sum, hw.underlying, hw.noAllowance, ?_⟩, rfl, rfl, ?_, ?_⟩
    · omega
    · omega
    · intro y
      have := e2.bal y
      simp only [hr0, ne_eq, not_true_eq_false, not_false_eq_true, and_true, and_false, if_false,
        Nat.add_zero, hx] at this
      exact this
  · simp only [hpos, if_false, except_pure, Except.ok.injEq, Prod.mk.injEq] at h
    obtain ⟨rfl, rfl⟩ := h
    have hz : val.toNat = 0 := by
      have := mt BitVec.lt_def.mpr hpos
      simpa using this
    refine ⟨hx, hw, rfl, rfl, by omega, fun y => ?_⟩
    have : held s - supply s = 0 := by omega
    simp [this]

/-- Calls on the wrapped token move no underlying and keep the supply. -/
theorem token_effect {s : State} {t : Erc20.State} (hw : WF s) {c : Address} {k : TokenCall}
    (h : (match k with
      | .transfer dst v => Erc20.transfer s.token c dst v
      | .transferFrom src dst v => Erc20.transferFrom s.token c src dst v
      | .approve sp v => Erc20.approve s.token c sp v) = .ok t) :
    Erc20.SumOk t ∧ t.totalSupply = s.token.totalSupply := by
  cases k with
  | transfer dst v =>
    obtain ⟨h1, h2, h3⟩ := Erc20.transferInternal_eq_ok.mp h
    have e := Erc20.update_effect hw.token h3
    have := e.supply
    rw [if_neg h1, if_neg h2] at this
    exact ⟨e.sum, BitVec.eq_of_toNat_eq this⟩
  | transferFrom src dst v =>
    obtain ⟨t1, hs1, ht1⟩ := Erc20.transferFrom_eq_ok.mp h
    obtain ⟨hb1, hsup, _⟩ := Erc20.spend_frame hs1
    obtain ⟨h1, h2, h3⟩ := Erc20.transferInternal_eq_ok.mp ht1
    have e := Erc20.update_effect (hw.token.of_frame hb1 hsup) h3
    have := e.supply
    rw [if_neg h1, if_neg h2, hsup] at this
    exact ⟨e.sum, BitVec.eq_of_toNat_eq this⟩
  | approve sp v =>
    obtain ⟨_, _, rfl⟩ := Erc20.approve_eq_ok.mp h
    exact ⟨hw.token.of_frame rfl rfl, rfl⟩

/-- One transaction: keeps the invariant, and keeps exact backing unless it is a donation. -/
theorem exec_effect {s s' : State} {op : Address × Call} (hw : WF s) (h : exec s op = .ok s') :
    WF s' ∧ s'.self_ = s.self_ ∧
    (¬ Donates s.self_ op.2 → supply s = held s → supply s' = held s') := by
  obtain ⟨c, k⟩ := op
  unfold exec at h
  by_cases hc : c = s.self_
  · simp [hc] at h
  · simp only [hc, if_false] at h
    cases k with
    | depositFor a v =>
      have e := deposit_effect hw h
      exact ⟨e.wf, e.self_, fun _ he => by rw [e.supply, e.held, he]⟩
    | withdrawTo a v =>
      have e := withdraw_effect hw h
      refine ⟨e.wf, e.self_, fun _ he => ?_⟩
      have h1 := e.supply; have h2 := e.held; omega
    | recover a =>
      simp only [bind_eq_ok, except_pure, Except.ok.injEq] at h
      obtain ⟨⟨x, s1⟩, h1, rfl⟩ := h
      obtain ⟨_, h2, h3, h4, h5, _⟩ := recover_ok hw h1
      refine ⟨h2, h3, fun _ _ => ?_⟩
      rw [h5]; unfold held; rw [h3, h4]
    | token k =>
      have fin : ∀ t, (Erc20.SumOk t ∧ t.totalSupply = s.token.totalSupply) →
          WF { s with token := t } ∧ s.self_ = s.self_ ∧
          (¬ Donates s.self_ (.token k) → supply s = held s →
            supply { s with token := t } = held { s with token := t }) := by
        intro t ht
        have e1 : supply { s with token := t } = supply s := by
          unfold supply Erc20.totalSupplyOf; exact congrArg _ ht.2
        have e2 : held { s with token := t } = held s := rfl
        refine ⟨⟨hw.self_, ht.1, hw.underlying, hw.noAllowance, ?_⟩, rfl, fun _ he => ?_⟩
        · rw [e1, e2]; exact hw.backed
        · rw [e1, e2]; exact he
      cases k with
      | transfer dst v =>
        simp only [bind_eq_ok, except_pure, Except.ok.injEq, liftErc20_ok] at h
        obtain ⟨t, ht, rfl⟩ := h
        exact fin t (token_effect (k := .transfer dst v) hw ht)
      | transferFrom src dst v =>
        simp only [bind_eq_ok, except_pure, Except.ok.injEq, liftErc20_ok] at h
        obtain ⟨t, ht, rfl⟩ := h
        exact fin t (token_effect (k := .transferFrom src dst v) hw ht)
      | approve sp v =>
        simp only [bind_eq_ok, except_pure, Except.ok.injEq, liftErc20_ok] at h
        obtain ⟨t, ht, rfl⟩ := h
        exact fin t (token_effect (k := .approve sp v) hw ht)
    | underlying k =>
      simp only [bind_eq_ok, except_pure, Except.ok.injEq, liftErc20_ok] at h
      obtain ⟨u, hu, rfl⟩ := h
      obtain ⟨f1, f2⟩ := Erc20.exec_foreign hw.underlying hw.noAllowance hc hu
      have f2' : held s ≤ held { s with underlying := u } := f2
      refine ⟨⟨hw.self_, hw.token, Erc20.sumOk_exec hw.underlying hu, f1,
        le_trans hw.backed f2'⟩, rfl, fun hd he => ?_⟩
      suffices hb : (u.balances s.self_).toNat ≤ (s.underlying.balances s.self_).toNat by
        have hb' : held { s with underlying := u } ≤ held s := hb
        have : supply { s with underlying := u } = supply s := rfl
        omega
      cases k with
      | transfer dst v =>
        obtain ⟨h1, h2, h3⟩ := Erc20.transferInternal_eq_ok.mp hu
        have e := (Erc20.update_effect hw.underlying h3).bal s.self_
        have hd' : ¬ dst = s.self_ := hd
        rw [if_neg (c := s.self_ = dst ∧ _) (fun e' => hd' e'.1.symm)] at e
        omega
      | transferFrom src dst v =>
        obtain ⟨t1, hs1, ht1⟩ := Erc20.transferFrom_eq_ok.mp hu
        obtain ⟨hb1, hsup, _⟩ := Erc20.spend_frame hs1
        obtain ⟨h1, h2, h3⟩ := Erc20.transferInternal_eq_ok.mp ht1
        have e := (Erc20.update_effect (hw.underlying.of_frame hb1 hsup) h3).bal s.self_
        have hd' : ¬ dst = s.self_ := hd
        rw [if_neg (c := s.self_ = dst ∧ _) (fun e' => hd' e'.1.symm), hb1] at e
        omega
      | approve sp v =>
        obtain ⟨_, _, rfl⟩ := Erc20.approve_eq_ok.mp hu
        exact le_refl _
      | mint a v =>
        obtain ⟨_, h3⟩ := Erc20.mint_eq_ok.mp hu
        have e := (Erc20.update_effect hw.underlying h3).bal s.self_
        have hd' : ¬ a = s.self_ := hd
        rw [if_neg (c := s.self_ = a ∧ _) (fun e' => hd' e'.1.symm)] at e
        omega
      | burn v =>
        obtain ⟨_, h3⟩ := Erc20.burnInternal_eq_ok.mp hu
        have e := (Erc20.update_effect hw.underlying h3).bal s.self_
        rw [if_neg (c := s.self_ = ZERO ∧ _) (fun e' => hw.self_ e'.1)] at e
        omega
      | burnFrom a v =>
        obtain ⟨t1, hs1, ht1⟩ := Erc20.burnFrom_eq_ok.mp hu
        obtain ⟨hb1, hsup, _⟩ := Erc20.spend_frame hs1
        obtain ⟨_, h3⟩ := Erc20.burnInternal_eq_ok.mp ht1
        have e := (Erc20.update_effect (hw.underlying.of_frame hb1 hsup) h3).bal s.self_
        rw [if_neg (c := s.self_ = ZERO ∧ _) (fun e' => hw.self_ e'.1), hb1] at e
        omega

theorem wf_init {me : Address} (h : me ≠ ZERO) : WF (init me) :=
  ⟨h, Erc20.sumOk_init, Erc20.sumOk_init, fun _ => rfl, le_refl _⟩

theorem wf_reachable {s : State} (h : Reachable s) : WF s := by
  obtain ⟨me, ops, hme, rfl⟩ := h
  exact run_invariant (exec := exec) (fun _ _ _ h he => (exec_effect h he).1) ops _ (wf_init hme)

/-! ## C17 -/

/-- **C17** In every state that any interleaving of calls on the two contracts reaches, the wrapper holds
at least as much underlying as there are wrapped tokens. -/
theorem C17_always_backed (s : State) (hs : Reachable s) : supply s ≤ held s := (wf_reachable hs).backed

/-- **C17** Hence `recover` never panics: it fails only because of a zero recipient; it mints exactly
the surplus to the recipient, after which backing is exact. -/
theorem C17_recover (s : State) (hs : Reachable s) (a : Address) :
    (∀ e, recover s a = .error e → a = ZERO ∧ e = .erc20 (.invalidReceiver ZERO)) ∧
    (∀ x s', recover s a = .ok (x, s') → x.toNat = held s - supply s ∧ supply s' = held s' ∧
      held s' = held s ∧
      ∀ y, wrapped s' y = wrapped s y + (if y = a then held s - supply s else 0)) := by
  have hw := wf_reachable hs
  constructor
  · intro e h
    unfold recover at h
    dsimp only at h
    rw [checkedSub_of_le (show _ from hw.backed)] at h
    simp only [orPanic_some, except_bind_ok] at h
    have hx : (Erc20.balanceOf s.underlying s.self_ - Erc20.totalSupplyOf s.token).toNat
      = held s - supply s := toNat_sub_of_ge hw.backed
    generalize Erc20.balanceOf s.underlying s.self_ - Erc20.totalSupplyOf s.token = val at h hx
    by_cases hpos : 0#256 < val
    · simp only [hpos, if_true] at h
      cases hm : Erc20.mint s.token a val with
      | ok t => rw [hm] at h; cases h
      | error e' =>
        rw [hm] at h
        simp only [liftErc20, except_bind_error, Except.error.injEq] at h
        unfold Erc20.mint at hm
        by_cases ha : a = ZERO
        · rw [if_pos ha] at hm
          injection hm with hm
          exact ⟨ha, by rw [← h, ← hm]⟩
        · rw [if_neg ha] at hm
          exfalso
          have hroom : s.token.totalSupply.toNat + val.toNat < 2 ^ 256 := by
            have h1 : (s.underlying.balances s.self_).toNat < 2 ^ 256 :=
              (s.underlying.balances s.self_).isLt
            have h2 : held s = (s.underlying.balances s.self_).toNat := rfl
            have h3 : supply s = s.token.totalSupply.toNat := rfl
            have := hw.backed
            omega
          obtain ⟨t, ht⟩ := (Erc20.update_ok_iff (s := s.token) (src := ZERO) (dst := a)
            (v := val)).mpr ⟨fun hne => absurd rfl hne, fun _ => hroom⟩
          rw [ht] at hm
          cases hm
    · simp only [hpos, if_false] at h
      cases h
  · intro x s' h
    obtain ⟨h1, h2, h3, h4, h5, h6⟩ := recover_ok hw h
    have hh : held s' = held s := by unfold held; rw [h3, h4]
    exact ⟨h1, by rw [h5, hh], hh, h6⟩

/-- **C17** If nobody sends underlying tokens to the wrapper directly, backing is exact forever. -/
theorem C17_exact_without_donations (me : Address) (hme : me ≠ ZERO) (ops : List (Address × Call))
    (hd : ∀ op ∈ ops, ¬ Donates me op.2) : supply (run (init me) ops) = held (run (init me) ops) := by
  have key : ∀ (ops : List (Address × Call)) (s : State), WF s → s.self_ = me →
      (∀ op ∈ ops, ¬ Donates me op.2) → supply s = held s → supply (run s ops) = held (run s ops) := by
    intro ops
    induction ops with
    | nil => intro s _ _ _ h; exact h
    | cons op ops ih =>
      intro s hw hself hd h
      have : run s (op :: ops) = run (stepOf exec s op) ops := rfl
      rw [this]
      cases hx : exec s op with
      | error e =>
        rw [stepOf_error hx]
        exact ih s hw hself (fun o ho => hd o (List.mem_cons_of_mem _ ho)) h
      | ok s' =>
        rw [stepOf_ok hx]
        obtain ⟨e1, e2, e3⟩ := exec_effect hw hx
        refine ih s' e1 (e2.trans hself) (fun o ho => hd o (List.mem_cons_of_mem _ ho)) ?_
        exact e3 (by rw [hself]; exact hd op List.mem_cons_self) h
  exact key ops (init me) (wf_init hme) rfl hd rfl

/-! ## C18 -/

/-- **C18** When `deposit_for` succeeds (the wrapped supply can never be the obstacle). -/
theorem C18_deposit_succeeds_iff (s : State) (hs : Reachable s) (c a : Address) (v : U256) :
    (∃ s', depositFor s c a v = .ok s') ↔
      c ≠ s.self_ ∧ a ≠ s.self_ ∧ c ≠ ZERO ∧ a ≠ ZERO ∧
      v.toNat ≤ (Erc20.allowance s.underlying c s.self_).toNat ∧ v.toNat ≤ plain s c := by
  have hw := wf_reachable hs
  have key := Verif.Props.C03_transferFrom_succeeds_iff s.underlying hw.self_ c s.self_ v
  constructor
  · rintro ⟨s', h⟩
    obtain ⟨h1, h2, u, t, h3, h4, _⟩ := depositFor_ok.mp h
    obtain ⟨k1, _, k3, k4⟩ := key.mp ⟨u, h3⟩
    exact ⟨h1, h2, k1, (Erc20.mint_eq_ok.mp h4).1, k3, k4⟩
  · rintro ⟨h1, h2, h3, h4, h5, h6⟩
    obtain ⟨u, hu⟩ := key.mpr ⟨h3, hw.self_, h5, h6⟩
    have hroom : s.token.totalSupply.toNat + v.toNat < 2 ^ 256 := by
      have hadd := hw.underlying.add_le (a := s.self_) (b := c) (fun e => h1 e.symm)
      have hlt := s.underlying.totalSupply.isLt
      have hb : s.token.totalSupply.toNat ≤ (s.underlying.balances s.self_).toNat := hw.backed
      have h6' : v.toNat ≤ (s.underlying.balances c).toNat := h6
      omega
    obtain ⟨t, ht⟩ := (Erc20.update_ok_iff (s := s.token) (src := ZERO) (dst := a)
      (v := v)).mpr ⟨fun hne => absurd rfl hne, fun _ => hroom⟩
    exact ⟨_, depositFor_ok.mpr ⟨h1, h2, u, t, hu, Erc20.mint_eq_ok.mpr ⟨h4, ht⟩, rfl⟩⟩

/-- **C18** A deposit moves exactly `v` underlying from the caller to the wrapper and mints exactly `v`
wrapped tokens to `account`. -/
theorem C18_deposit_effect (s s' : State) (hs : Reachable s) (c a : Address) (v : U256)
    (h : depositFor s c a v = .ok s') :
    held s' = held s + v.toNat ∧ supply s' = supply s + v.toNat ∧
    (∀ x, plain s' x + (if x = c then v.toNat else 0)
      = plain s x + (if x = s.self_ then v.toNat else 0)) ∧
    (∀ x, wrapped s' x = wrapped s x + (if x = a then v.toNat else 0)) := by
  have e := deposit_effect (wf_reachable hs) h
  exact ⟨e.held, e.supply, e.plain, e.wrapped⟩

/-- **C18** When `withdraw_to` succeeds: backing means any holder can always leave. -/
theorem C18_withdraw_succeeds_iff (s : State) (hs : Reachable s) (c a : Address) (v : U256) :
    (∃ s', withdrawTo s c a v = .ok s') ↔
      a ≠ s.self_ ∧ c ≠ ZERO ∧ a ≠ ZERO ∧ v.toNat ≤ wrapped s c := by
  have hw := wf_reachable hs
  constructor
  · rintro ⟨s', h⟩
    obtain ⟨h1, t, u, h2, h3, _⟩ := withdrawTo_ok.mp h
    obtain ⟨k1, k2⟩ := Erc20.burnInternal_eq_ok.mp h2
    exact ⟨h1, k1, (Erc20.transferInternal_eq_ok.mp h3).2.1, (Erc20.update_ok_iff.mp ⟨t, k2⟩).1 k1⟩
  · rintro ⟨h1, h2, h3, h4⟩
    have hle : v.toNat ≤ (s.underlying.balances s.self_).toNat := by
      have k1 : wrapped s c ≤ supply s := hw.token.le c
      have k2 : held s = (s.underlying.balances s.self_).toNat := rfl
      have := hw.backed
      omega
    obtain ⟨t, ht⟩ := (Erc20.update_ok_iff (s := s.token) (src := c) (dst := ZERO) (v := v)).mpr
      ⟨fun _ => h4, fun e => absurd e h2⟩
    obtain ⟨u, hu⟩ := (Erc20.update_ok_iff (s := s.underlying) (src := s.self_) (dst := a)
      (v := v)).mpr ⟨fun _ => hle, fun e => absurd e hw.self_⟩
    exact ⟨_, withdrawTo_ok.mpr ⟨h1, t, u, Erc20.burnInternal_eq_ok.mpr ⟨h2, ht⟩,
      Erc20.transferInternal_eq_ok.mpr ⟨hw.self_, h3, hu⟩, rfl⟩⟩

/-- **C18** A withdrawal burns exactly `v` wrapped tokens of the caller and sends exactly `v` underlying
to `account`. -/
theorem C18_withdraw_effect (s s' : State) (hs : Reachable s) (c a : Address) (v : U256)
    (h : withdrawTo s c a v = .ok s') :
    held s' + v.toNat = held s ∧ supply s' + v.toNat = supply s ∧
    (∀ x, plain s' x + (if x = s.self_ then v.toNat else 0)
      = plain s x + (if x = a then v.toNat else 0)) ∧
    (∀ x, wrapped s' x + (if x = c then v.toNat else 0) = wrapped s x) := by
  have e := withdraw_effect (wf_reachable hs) h
  exact ⟨e.held, e.supply, e.plain, e.wrapped⟩

theorem reachable_step {s s' : State} (hs : Reachable s) {op : Address × Call}
    (h : exec s op = .ok s') : Reachable s' := by
  obtain ⟨me, ops, hme, rfl⟩ := hs
  refine ⟨me, ops ++ [op], hme, ?_⟩
  unfold run at *
  rw [runOf_append, runOf_cons, runOf_nil, stepOf_ok h]

/-- **C18** Wrapping and unwrapping the same amount always works and restores every balance and both
supplies. -/
theorem C18_round_trip (s s1 : State) (hs : Reachable s) (c : Address) (v : U256)
    (h1 : depositFor s c c v = .ok s1) :
    ∃ s2, withdrawTo s1 c c v = .ok s2 ∧ (∀ x, plain s2 x = plain s x) ∧
      (∀ x, wrapped s2 x = wrapped s x) ∧ supply s2 = supply s ∧ held s2 = held s := by
  have e1 := deposit_effect (wf_reachable hs) h1
  obtain ⟨hc, _, c0, _⟩ := (C18_deposit_succeeds_iff s hs c c v).mp ⟨_, h1⟩
  have hr1 : Reachable s1 := reachable_step hs (op := (c, .depositFor c v)) (by
    unfold exec; simp only [hc, if_false]; exact h1)
  have hle : v.toNat ≤ wrapped s1 c := by have := e1.wrapped c; rw [if_pos rfl] at this; omega
  obtain ⟨s2, h2⟩ := (C18_withdraw_succeeds_iff s1 hr1 c c v).mpr
    ⟨by rw [e1.self_]; exact hc, c0, c0, hle⟩
  have e2 := withdraw_effect e1.wf h2
  refine ⟨s2, h2, fun x => ?_, fun x => ?_, ?_, ?_⟩
  · have a1 := e1.plain x
    have a2 := e2.plain x
    rw [e1.self_] at a2
    omega
  · have a1 := e1.wrapped x
    have a2 := e2.wrapped x
    omega
  · have a1 := e1.supply; have a2 := e2.supply; omega
  · have a1 := e1.held; have a2 := e2.held; omega

/-! ## A concrete world -/

section Examples
private def me : Address := 9#160
private def st : State := run (init me)
  [(1#160, .underlying (.mint 1#160 100#256)), (1#160, .underlying (.approve me 60#256)),
   (1#160, .depositFor 2#160 40#256), (1#160, .underlying (.transfer me 5#256)),
   (2#160, .token (.transfer 3#160 10#256)), (3#160, .withdrawTo 4#160 4#256)]

example : Reachable st := ⟨me, _, by decide, rfl⟩
example : supply st = 36 ∧ held st = 41 ∧ wrapped st 2#160 = 30 ∧ wrapped st 3#160 = 6 ∧
    plain st 4#160 = 4 ∧ plain st 1#160 = 55 := by decide +kernel
example : (match recover st 7#160 with
    | .ok (x, s) => x == 5#256 && supply s == 41 && wrapped s 7#160 == 5 | _ => false) = true := by
  decide +kernel
example : (match depositFor st 1#160 me 1#256 with
    | .error e => decide (e = .invalidReceiver me) | _ => false) = true := by decide +kernel
example : (match depositFor st 1#160 1#160 20#256 with
    | .ok s => wrapped s 1#160 == 20 | _ => false) = true := by decide +kernel
end Examples

end Verif.Props.Wrapper
