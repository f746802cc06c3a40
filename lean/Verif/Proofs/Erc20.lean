import Verif.Model.Erc20
/-! # Helper lemmas for the ERC-20 model -/

namespace Verif.Erc20

/-- Balances add up to the supply. -/
def SumOk (s : State) : Prop := ∑ a, (s.balances a).toNat = s.totalSupply.toNat

theorem sumOk_init : SumOk init := by
  simp [SumOk, init]

theorem SumOk.le {s : State} (h : SumOk s) (a : Address) :
    (s.balances a).toNat ≤ s.totalSupply.toNat := h ▸ le_sum_toNat s.balances a

theorem SumOk.add_le {s : State} (h : SumOk s) {a b : Address} (hab : a ≠ b) :
    (s.balances a).toNat + (s.balances b).toNat ≤ s.totalSupply.toNat :=
  h ▸ add_le_sum_toNat s.balances hab

/-- Characterisation of the debit half. -/
theorem debit_ok {s s' : State} {src : Address} {v : U256} (h : debit s src v = .ok s') :
    (src = ZERO ∧ s.totalSupply.toNat + v.toNat < 2 ^ 256 ∧
      s' = { s with totalSupply := s.totalSupply + v }) ∨
    (src ≠ ZERO ∧ v.toNat ≤ (s.balances src).toNat ∧
      s' = { s with balances := upd s.balances src (s.balances src - v) }) := by
  unfold debit at h
  split at h
  · rename_i h0
    left
    cases hc : checkedAdd s.totalSupply v with
    | none => simp [hc] at h
    | some t =>
      have := hc
      unfold checkedAdd at this
      split at this
      · rename_i hlt
        simp only [Option.some.injEq] at this
        subst this
        simp only [hc, Except.ok.injEq] at h
        exact ⟨h0, hlt, h.symm⟩
      · simp at this
  · rename_i h0
    split at h
    · simp at h
    · rename_i hb
      right
      simp only [Except.ok.injEq] at h
      exact ⟨h0, by simpa [BitVec.lt_def] using hb, h.symm⟩

theorem debit_error {s : State} {src : Address} {v : U256} {e : Err}
    (h : debit s src v = .error e) :
    (src = ZERO ∧ 2 ^ 256 ≤ s.totalSupply.toNat + v.toNat ∧ e = .panic) ∨
    (src ≠ ZERO ∧ (s.balances src).toNat < v.toNat ∧
      e = .insufficientBalance src (s.balances src) v) := by
  unfold debit at h
  split at h
  · rename_i h0
    left
    cases hc : checkedAdd s.totalSupply v with
    | some t => simp [hc] at h
    | none =>
      simp only [hc, Except.error.injEq] at h
      exact ⟨h0, checkedAdd_eq_none.mp hc, h.symm⟩
  · rename_i h0
    split at h
    · rename_i hb
      right
      simp only [Except.error.injEq] at h
      exact ⟨h0, by simpa [BitVec.lt_def] using hb, h.symm⟩
    · simp at h

theorem update_eq_ok {s s' : State} {src dst : Address} {v : U256} :
    update s src dst v = .ok s' ↔ ∃ s1, debit s src v = .ok s1 ∧
      s' = { credit s1 dst v with log := (credit s1 dst v).log ++ [.transfer src dst v] } := by
  unfold update
  cases hd : debit s src v with
  | error e => simp [bind, Except.bind]
  | ok s1 =>
    simp only [bind, Except.bind, pure, Except.pure, Except.ok.injEq, exists_eq_left']
    exact eq_comm

theorem update_eq_error {s : State} {src dst : Address} {v : U256} {e : Err} :
    update s src dst v = .error e ↔ debit s src v = .error e := by
  unfold update
  cases hd : debit s src v <;> simp [bind, Except.bind, pure, Except.pure]

/-- What a successful `_update` does, in unbounded arithmetic. -/
structure UpdateEffect (s s' : State) (src dst : Address) (v : U256) : Prop where
  sum : SumOk s'
  allow : s'.allowances = s.allowances
  log : s'.log = s.log ++ [.transfer src dst v]
  bal : ∀ a, (s'.balances a).toNat + (if a = src ∧ src ≠ ZERO then v.toNat else 0)
        = (s.balances a).toNat + (if a = dst ∧ dst ≠ ZERO then v.toNat else 0)
  supply : s'.totalSupply.toNat + (if dst = ZERO then v.toNat else 0)
        = s.totalSupply.toNat + (if src = ZERO then v.toNat else 0)
  funds : src ≠ ZERO → v.toNat ≤ (s.balances src).toNat
  room : src = ZERO → s.totalSupply.toNat + v.toNat < 2 ^ 256

theorem update_effect {s s' : State} {src dst : Address} {v : U256} (hs : SumOk s)
    (h : update s src dst v = .ok s') : UpdateEffect s s' src dst v := by
  obtain ⟨s1, hd, rfl⟩ := update_eq_ok.mp h
  rcases debit_ok hd with ⟨hsrc, hroom, rfl⟩ | ⟨hsrc, hfunds, rfl⟩
  · -- mint
    have hsup : (s.totalSupply + v).toNat = s.totalSupply.toNat + v.toNat := toNat_add_of_lt hroom
    by_cases hdst : dst = ZERO
    · have hv : v.toNat ≤ (s.totalSupply + v).toNat := by omega
      have hts := toNat_sub_of_ge hv
      constructor
      · simp only [SumOk, credit, hdst, if_true] at *
        omega
      · simp [credit, hdst]
      · simp [credit, hdst]
      · intro a; simp [credit, hdst, hsrc]
      · simp only [credit, hdst, hsrc, if_true, hts]; omega
      · intro h; exact absurd hsrc h
      · intro _; exact hroom
    · have hb := hs.le dst
      have hadd : (s.balances dst + v).toNat = (s.balances dst).toNat + v.toNat :=
        toNat_add_of_lt (by omega)
      constructor
      · have := sum_toNat_upd s.balances dst (s.balances dst + v)
        simp only [SumOk, credit, hdst, if_false] at *
        omega
      · simp [credit, hdst]
      · simp [credit, hdst]
      · intro a
        simp only [credit, hdst, if_false, hsrc, ne_eq, not_true_eq_false, and_false, upd_apply,
          not_false_eq_true, and_true]
        split
        · rename_i e; subst e; omega
        · omega
      · simp [credit, hdst, hsrc, hsup]
      · intro h; exact absurd hsrc h
      · intro _; exact hroom
  · -- transfer or burn
    have hsub : (s.balances src - v).toNat = (s.balances src).toNat - v.toNat :=
      toNat_sub_of_ge hfunds
    have hsum1 := sum_toNat_upd s.balances src (s.balances src - v)
    by_cases hdst : dst = ZERO
    · have hv : v.toNat ≤ s.totalSupply.toNat := le_trans hfunds (hs.le src)
      have hts := toNat_sub_of_ge hv
      constructor
      · simp only [SumOk, credit, hdst, if_true] at *
        omega
      · simp [credit, hdst]
      · simp [credit, hdst]
      · intro a
        simp only [credit, hdst, if_true, upd_apply]
        by_cases e : a = src
        · subst e; simp [hsrc]; omega
        · simp [e]
      · simp [credit, hdst, hsrc, hts]; omega
      · intro _; exact hfunds
      · intro h; exact absurd h hsrc
    · have hadd : (upd s.balances src (s.balances src - v) dst + v).toNat
          = (upd s.balances src (s.balances src - v) dst).toNat + v.toNat := by
        apply toNat_add_of_lt
        by_cases e : dst = src
        · subst e; simp only [upd_same]; have := (s.balances dst).isLt; omega
        · rw [upd_ne _ _ e]
          have := hs.add_le e
          have := s.totalSupply.isLt
          omega
      have hsum2 := sum_toNat_upd (upd s.balances src (s.balances src - v)) dst
        (upd s.balances src (s.balances src - v) dst + v)
      constructor
      · simp only [SumOk, credit, hdst, if_false] at *
        omega
      · simp [credit, hdst]
      · simp [credit, hdst]
      · intro a
        simp only [credit, hdst, if_false, ne_eq, hsrc, not_false_eq_true, and_true]
        by_cases e : a = dst
        · subst e
          simp only [upd_same, hadd, if_true]
          by_cases e2 : a = src
          · subst e2; simp only [upd_same, if_true]; omega
          · rw [upd_ne _ _ e2]; simp only [e2, if_false]; omega
        · rw [upd_ne _ _ e]
          simp only [e, if_false]
          by_cases e2 : a = src
          · subst e2; simp only [upd_same, if_true]; omega
          · rw [upd_ne _ _ e2]; simp only [e2, if_false]
      · simp [credit, hdst, hsrc]
      · intro _; exact hfunds
      · intro h; exact absurd h hsrc

theorem update_ok_iff {s : State} {src dst : Address} {v : U256} :
    (∃ s', update s src dst v = .ok s') ↔
      (src ≠ ZERO → v.toNat ≤ (s.balances src).toNat) ∧
      (src = ZERO → s.totalSupply.toNat + v.toNat < 2 ^ 256) := by
  constructor
  · rintro ⟨s', h⟩
    obtain ⟨s1, hd, _⟩ := update_eq_ok.mp h
    rcases debit_ok hd with ⟨h1, h2, _⟩ | ⟨h1, h2, _⟩
    · exact ⟨fun h => absurd h1 h, fun _ => h2⟩
    · exact ⟨fun _ => h2, fun h => absurd h h1⟩
  · rintro ⟨h1, h2⟩
    cases hu : update s src dst v with
    | ok s' => exact ⟨s', rfl⟩
    | error e =>
      rcases debit_error (update_eq_error.mp hu) with ⟨h3, h4, _⟩ | ⟨h3, h4, _⟩
      · have := h2 h3; omega
      · have := h1 h3; omega

/-- `_approve` characterised. -/
theorem approve_eq_ok {s s' : State} {o sp : Address} {v : U256} {b : Bool} :
    approveInternal s o sp v b = .ok s' ↔ o ≠ ZERO ∧ sp ≠ ZERO ∧
      s' = { s with
        allowances := upd2 s.allowances o sp v,
        log := if b then s.log ++ [.approval o sp v] else s.log } := by
  unfold approveInternal
  by_cases h0 : o = ZERO
  · simp [h0]
  · by_cases h1 : sp = ZERO
    · simp [h0, h1]
    · cases b <;> simp [h0, h1, eq_comm]

theorem approve_eq_error {s : State} {o sp : Address} {v : U256} {b : Bool} {e : Err} :
    approveInternal s o sp v b = .error e ↔
      (o = ZERO ∧ e = .invalidApprover ZERO) ∨ (o ≠ ZERO ∧ sp = ZERO ∧ e = .invalidSpender ZERO) := by
  unfold approveInternal
  by_cases h0 : o = ZERO
  · simp [h0, eq_comm]
  · by_cases h1 : sp = ZERO
    · simp [h0, h1, eq_comm]
    · simp [h0, h1]

theorem spend_eq_ok {s s' : State} {o sp : Address} {v : U256} :
    spendAllowance s o sp v = .ok s' ↔
      (s.allowances o sp = maxU256 ∧ s' = s) ∨
      (s.allowances o sp ≠ maxU256 ∧ v.toNat ≤ (s.allowances o sp).toNat ∧ o ≠ ZERO ∧ sp ≠ ZERO ∧
        s' = { s with allowances := upd2 s.allowances o sp (s.allowances o sp - v) }) := by
  unfold spendAllowance
  by_cases hm : s.allowances o sp = maxU256
  · simp [hm, eq_comm]
  · by_cases hl : s.allowances o sp < v
    · have : ¬ v.toNat ≤ (s.allowances o sp).toNat := by
        have := BitVec.lt_def.mp hl; omega
      simp [hm, hl, this]
    · have h2 : v.toNat ≤ (s.allowances o sp).toNat := by
        simpa [BitVec.lt_def] using hl
      simp [hm, hl, approve_eq_ok, h2]

theorem spend_eq_error {s : State} {o sp : Address} {v : U256} {e : Err} :
    spendAllowance s o sp v = .error e ↔
      s.allowances o sp ≠ maxU256 ∧
      (((s.allowances o sp).toNat < v.toNat ∧ e = .insufficientAllowance sp (s.allowances o sp) v) ∨
       (v.toNat ≤ (s.allowances o sp).toNat ∧ o = ZERO ∧ e = .invalidApprover ZERO) ∨
       (v.toNat ≤ (s.allowances o sp).toNat ∧ o ≠ ZERO ∧ sp = ZERO ∧ e = .invalidSpender ZERO)) := by
  unfold spendAllowance
  by_cases hm : s.allowances o sp = maxU256
  · simp [hm]
  · by_cases hl : s.allowances o sp < v
    · have h1 : (s.allowances o sp).toNat < v.toNat := BitVec.lt_def.mp hl
      have h2 : ¬ v.toNat ≤ (s.allowances o sp).toNat := by omega
      simp [hm, hl, h1, h2, eq_comm]
    · have h2 : v.toNat ≤ (s.allowances o sp).toNat := by
        simpa [BitVec.lt_def] using hl
      have h1 : ¬ (s.allowances o sp).toNat < v.toNat := by omega
      simp [hm, hl, approve_eq_error, h2, h1]

theorem transferInternal_eq_ok {s s' : State} {src dst : Address} {v : U256} :
    transferInternal s src dst v = .ok s' ↔ src ≠ ZERO ∧ dst ≠ ZERO ∧ update s src dst v = .ok s' := by
  unfold transferInternal
  by_cases h0 : src = ZERO <;> by_cases h1 : dst = ZERO <;> simp [h0, h1]

theorem mint_eq_ok {s s' : State} {a : Address} {v : U256} :
    mint s a v = .ok s' ↔ a ≠ ZERO ∧ update s ZERO a v = .ok s' := by
  unfold mint
  by_cases h0 : a = ZERO <;> simp [h0]

theorem burnInternal_eq_ok {s s' : State} {a : Address} {v : U256} :
    burnInternal s a v = .ok s' ↔ a ≠ ZERO ∧ update s a ZERO v = .ok s' := by
  unfold burnInternal
  by_cases h0 : a = ZERO <;> simp [h0]

theorem transferFrom_eq_ok {s s' : State} {c src dst : Address} {v : U256} :
    transferFrom s c src dst v = .ok s' ↔
      ∃ s1, spendAllowance s src c v = .ok s1 ∧ transferInternal s1 src dst v = .ok s' := by
  unfold transferFrom
  cases spendAllowance s src c v <;> simp [bind, Except.bind]

theorem burnFrom_eq_ok {s s' : State} {c a : Address} {v : U256} :
    burnFrom s c a v = .ok s' ↔
      ∃ s1, spendAllowance s a c v = .ok s1 ∧ burnInternal s1 a v = .ok s' := by
  unfold burnFrom
  cases spendAllowance s a c v <;> simp [bind, Except.bind]

theorem spend_frame {s s' : State} {o sp : Address} {v : U256}
    (h : spendAllowance s o sp v = .ok s') :
    s'.balances = s.balances ∧ s'.totalSupply = s.totalSupply ∧ s'.log = s.log := by
  rcases spend_eq_ok.mp h with ⟨_, rfl⟩ | ⟨_, _, _, _, rfl⟩ <;> simp

theorem SumOk.of_frame {s s' : State} (h : SumOk s) (hb : s'.balances = s.balances)
    (ht : s'.totalSupply = s.totalSupply) : SumOk s' := by
  unfold SumOk at *; rw [hb, ht]; exact h

/-- Every call preserves the supply invariant. -/
theorem sumOk_exec {s s' : State} {op : Address × Call} (hs : SumOk s)
    (h : exec s op = .ok s') : SumOk s' := by
  obtain ⟨c, call⟩ := op
  cases call with
  | transfer dst v => exact (update_effect hs (transferInternal_eq_ok.mp h).2.2).sum
  | transferFrom src dst v =>
    obtain ⟨s1, h1, h2⟩ := transferFrom_eq_ok.mp h
    obtain ⟨hb, ht, _⟩ := spend_frame h1
    exact (update_effect (hs.of_frame hb ht) (transferInternal_eq_ok.mp h2).2.2).sum
  | approve sp v =>
    obtain ⟨_, _, rfl⟩ := approve_eq_ok.mp h
    exact hs.of_frame rfl rfl
  | mint a v => exact (update_effect hs (mint_eq_ok.mp h).2).sum
  | burn v => exact (update_effect hs (burnInternal_eq_ok.mp h).2).sum
  | burnFrom a v =>
    obtain ⟨s1, h1, h2⟩ := burnFrom_eq_ok.mp h
    obtain ⟨hb, ht, _⟩ := spend_frame h1
    exact (update_effect (hs.of_frame hb ht) (burnInternal_eq_ok.mp h2).2).sum

theorem sumOk_run (ops : List (Address × Call)) {s : State} (hs : SumOk s) : SumOk (run s ops) :=
  run_invariant (fun _ _ _ h he => sumOk_exec h he) ops s hs

end Verif.Erc20
