import Verif.Proofs.Erc4626
import Mathlib.Tactic.Ring
import Mathlib.Tactic.Linarith
/-! # C19 - C24: ERC-4626 vault -/

namespace Verif.Props.Erc4626
open Verif.Erc4626 Verif.Spec.Erc4626

theorem virtual_pos (s : State) : 0 < virtualShares s := Nat.pow_pos (by norm_num)

/-! ## C19: conversions -/

/-- **C19** `convert_to_shares` and `preview_deposit` answer `x` iff the vault's numbers fit and `x` is the
floor of `assets * (supply + 10^offset) / (total_assets + 1)`; so they fail exactly when the numbers do
not fit or the floor is no 256-bit number. -/
theorem C19_shares_floor (s : State) (a x : U256) :
    (convertToShares s a = .ok x ↔ Fits s ∧
      x.toNat * (assetsHeld s + 1) ≤ a.toNat * (supply s + virtualShares s) ∧
      a.toNat * (supply s + virtualShares s) < (x.toNat + 1) * (assetsHeld s + 1)) ∧
    previewDeposit s a = convertToShares s a := by
  refine ⟨?_, rfl⟩
  unfold convertToShares
  rw [convShares_ok]
  exact and_congr_right fun _ => floor_char (by omega)

/-- **C19** `preview_withdraw` answers the ceiling of the same quotient. -/
theorem C19_shares_ceil (s : State) (a x : U256) :
    previewWithdraw s a = .ok x ↔ Fits s ∧
      a.toNat * (supply s + virtualShares s) ≤ x.toNat * (assetsHeld s + 1) ∧
      ∀ q, a.toNat * (supply s + virtualShares s) ≤ q * (assetsHeld s + 1) → x.toNat ≤ q := by
  unfold previewWithdraw
  rw [convShares_ok]
  exact and_congr_right fun _ => Verif.Props.Math.ceil_char (by omega)

/-- **C19** `convert_to_assets` and `preview_redeem` answer the floor of
`shares * (total_assets + 1) / (supply + 10^offset)`. -/
theorem C19_assets_floor (s : State) (sh x : U256) :
    (convertToAssets s sh = .ok x ↔ Fits s ∧
      x.toNat * (supply s + virtualShares s) ≤ sh.toNat * (assetsHeld s + 1) ∧
      sh.toNat * (assetsHeld s + 1) < (x.toNat + 1) * (supply s + virtualShares s)) ∧
    previewRedeem s sh = convertToAssets s sh := by
  refine ⟨?_, rfl⟩
  unfold convertToAssets
  rw [convAssets_ok]
  have := virtual_pos s
  exact and_congr_right fun _ => floor_char (by omega)

/-- **C19** `preview_mint` answers the ceiling of that quotient. -/
theorem C19_assets_ceil (s : State) (sh x : U256) :
    previewMint s sh = .ok x ↔ Fits s ∧
      sh.toNat * (assetsHeld s + 1) ≤ x.toNat * (supply s + virtualShares s) ∧
      ∀ q, sh.toNat * (assetsHeld s + 1) ≤ q * (supply s + virtualShares s) → x.toNat ≤ q := by
  unfold previewMint
  rw [convAssets_ok]
  have := virtual_pos s
  exact and_congr_right fun _ => Verif.Props.Math.ceil_char (by omega)

/-- **C19** The only failure of a conversion is a panic. -/
theorem C19_only_panics (s : State) (x : U256) (e : Err) :
    (convertToShares s x = .error e → e = .panic) ∧ (convertToAssets s x = .error e → e = .panic) ∧
    (previewWithdraw s x = .error e → e = .panic) ∧ (previewMint s x = .error e → e = .panic) :=
  ⟨convShares_err, convAssets_err, convShares_err, convAssets_err⟩

/-! ## C20: previews are honoured -/

/-- **C20** A successful `deposit` returns the previewed shares, takes exactly `assets` from the caller,
gives exactly those shares to the receiver, and reports both. -/
theorem C20_deposit (s s' : State) (hs : Reachable s) (caller receiver : Address) (a sh : U256)
    (hc : caller ≠ s.self_) (h : deposit s caller a receiver = .ok (sh, s')) :
    previewDeposit s a = .ok sh ∧
    assetsHeld s' = assetsHeld s + a.toNat ∧
    (∀ x, assetsOf s' x + (if x = caller then a.toNat else 0)
      = assetsOf s x + (if x = s.self_ then a.toNat else 0)) ∧
    supply s' = supply s + sh.toNat ∧
    (∀ x, sharesOf s' x = sharesOf s x + (if x = receiver then sh.toNat else 0)) ∧
    s'.log = s.log ++ [.deposit caller receiver a sh] := by
  obtain ⟨h1, h2⟩ := deposit_ok.mp h
  obtain ⟨e, hl⟩ := depositInternal_effect (wf_reachable hs) hc h2
  exact ⟨h1, e.held, e.assets, e.supply, e.sharesOf, hl⟩

/-- **C20** A successful `mint` charges exactly the previewed assets and gives exactly `shares`. -/
theorem C20_mint (s s' : State) (hs : Reachable s) (caller receiver : Address) (a sh : U256)
    (hc : caller ≠ s.self_) (h : mint s caller sh receiver = .ok (a, s')) :
    previewMint s sh = .ok a ∧
    assetsHeld s' = assetsHeld s + a.toNat ∧
    (∀ x, assetsOf s' x + (if x = caller then a.toNat else 0)
      = assetsOf s x + (if x = s.self_ then a.toNat else 0)) ∧
    supply s' = supply s + sh.toNat ∧
    (∀ x, sharesOf s' x = sharesOf s x + (if x = receiver then sh.toNat else 0)) ∧
    s'.log = s.log ++ [.deposit caller receiver a sh] := by
  obtain ⟨h1, h2⟩ := mint_ok.mp h
  obtain ⟨e, hl⟩ := depositInternal_effect (wf_reachable hs) hc h2
  exact ⟨h1, e.held, e.assets, e.supply, e.sharesOf, hl⟩

/-- **C20** A successful `withdraw` burns exactly the previewed shares of the owner, pays exactly
`assets` to the receiver, and a caller other than the owner has the allowance for it. -/
theorem C20_withdraw (s s' : State) (hs : Reachable s) (caller receiver owner : Address) (a sh : U256)
    (h : withdraw s caller a receiver owner = .ok (sh, s')) :
    previewWithdraw s a = .ok sh ∧
    (∀ x, assetsOf s' x + (if x = s.self_ then a.toNat else 0)
      = assetsOf s x + (if x = receiver then a.toNat else 0)) ∧
    supply s' + sh.toNat = supply s ∧
    (∀ x, sharesOf s' x + (if x = owner then sh.toNat else 0) = sharesOf s x) ∧
    (caller = owner ∨ s.shares.allowances owner caller = maxU256 ∨
      sh.toNat ≤ (s.shares.allowances owner caller).toNat) ∧
    s'.log = s.log ++ [.withdraw caller receiver owner a sh] := by
  obtain ⟨_, h1, h2⟩ := withdraw_ok.mp h
  obtain ⟨e, hl⟩ := withdrawInternal_effect (wf_reachable hs) h2
  exact ⟨h1, e.assets, e.supply, e.sharesOf, e.allowance, hl⟩

/-- **C20** A successful `redeem` burns exactly `shares` of the owner and pays exactly the previewed
assets. -/
theorem C20_redeem (s s' : State) (hs : Reachable s) (caller receiver owner : Address) (a sh : U256)
    (h : redeem s caller sh receiver owner = .ok (a, s')) :
    previewRedeem s sh = .ok a ∧
    (∀ x, assetsOf s' x + (if x = s.self_ then a.toNat else 0)
      = assetsOf s x + (if x = receiver then a.toNat else 0)) ∧
    supply s' + sh.toNat = supply s ∧
    (∀ x, sharesOf s' x + (if x = owner then sh.toNat else 0) = sharesOf s x) ∧
    (caller = owner ∨ s.shares.allowances owner caller = maxU256 ∨
      sh.toNat ≤ (s.shares.allowances owner caller).toNat) ∧
    s'.log = s.log ++ [.withdraw caller receiver owner a sh] := by
  obtain ⟨_, h1, h2⟩ := redeem_ok.mp h
  obtain ⟨e, hl⟩ := withdrawInternal_effect (wf_reachable hs) h2
  exact ⟨h1, e.assets, e.supply, e.sharesOf, e.allowance, hl⟩

/-- What `_withdraw` does to the allowances on shares. -/
theorem withdrawInternal_allowances (s s' : State) (caller receiver owner : Address) (a sh : U256)
    (h : withdrawInternal s caller receiver owner a sh = .ok s') (o sp : Address) :
    (s'.shares.allowances o sp).toNat =
      if o = owner ∧ sp = caller ∧ caller ≠ owner ∧ s.shares.allowances owner caller ≠ maxU256
      then (s.shares.allowances o sp).toNat - sh.toNat else (s.shares.allowances o sp).toNat := by
  unfold withdrawInternal at h
  simp only [bind_eq_ok, except_pure, Except.ok.injEq] at h
  obtain ⟨t1, h1, t2, h2, as, h3, rfl⟩ := h
  rw [liftErc20_ok] at h2
  obtain ⟨_, hu⟩ := Erc20.burnInternal_eq_ok.mp h2
  obtain ⟨d, hd, hcr⟩ := Erc20.update_eq_ok.mp hu
  have hal : t2.allowances = t1.allowances := by
    rw [hcr]
    rcases Erc20.debit_ok hd with ⟨_, _, rfl⟩ | ⟨_, _, rfl⟩ <;> simp [Erc20.credit]
  show (t2.allowances o sp).toNat = _
  rw [hal]
  unfold spendFor at h1
  by_cases hco : caller = owner
  · simp only [hco, ne_eq, not_true_eq_false, if_false, Except.ok.injEq] at h1
    subst h1
    rw [if_neg (fun e => e.2.2.1 hco)]
  · simp only [ne_eq, hco, not_false_eq_true, if_true] at h1
    rw [liftErc20_ok] at h1
    rcases Erc20.spend_eq_ok.mp h1 with ⟨hm, rfl⟩ | ⟨hm, hle, _, _, rfl⟩
    · rw [if_neg (fun e => e.2.2.2 hm)]
    · simp only [upd2]
      by_cases hx : o = owner ∧ sp = caller
      · rw [if_pos hx, if_pos ⟨hx.1, hx.2, hco, hm⟩, hx.1, hx.2, toNat_sub_of_ge hle]
      · rw [if_neg hx, if_neg (fun e => hx ⟨e.1, e.2.1⟩)]

/-- **C20** A third party that withdraws or redeems uses up exactly the burnt shares of a finite
allowance, and no other allowance on shares changes: `sh` is what `withdraw` returns and what `redeem`
is given. -/
theorem C20_allowance_used (s s' : State) (caller receiver owner : Address) (a sh : U256)
    (h : withdraw s caller a receiver owner = .ok (sh, s') ∨
      redeem s caller sh receiver owner = .ok (a, s')) (o sp : Address) :
    (s'.shares.allowances o sp).toNat =
      if o = owner ∧ sp = caller ∧ caller ≠ owner ∧ s.shares.allowances owner caller ≠ maxU256
      then (s.shares.allowances o sp).toNat - sh.toNat else (s.shares.allowances o sp).toNat := by
  rcases h with h | h
  · obtain ⟨_, _, h2⟩ := withdraw_ok.mp h
    exact withdrawInternal_allowances s s' caller receiver owner a sh h2 o sp
  · obtain ⟨_, _, h2⟩ := redeem_ok.mp h
    exact withdrawInternal_allowances s s' caller receiver owner a sh h2 o sp

/-! ## C22: the rate never falls -/

theorem rate_in {A A' S S' V x y : Nat} (hA : A' = A + x) (hS : S' = S + y)
    (h : y * (A + 1) ≤ x * (S + V)) : (A + 1) * (S' + V) ≤ (A' + 1) * (S + V) := by
  subst hA hS
  have e1 : (A + 1) * (S + y + V) = (A + 1) * (S + V) + y * (A + 1) := by ring
  have e2 : (A + x + 1) * (S + V) = (A + 1) * (S + V) + x * (S + V) := by ring
  rw [e1, e2]; omega

theorem rate_out {A A' S S' V x y : Nat} (hA : A ≤ A' + x) (hS : S' + y = S)
    (h : x * (S + V) ≤ y * (A + 1)) : (A + 1) * (S' + V) ≤ (A' + 1) * (S + V) := by
  have e1 : (A + 1) * (S + V) = (A + 1) * (S' + V) + y * (A + 1) := by rw [← hS]; ring
  have e2 : (A + 1) * (S + V) ≤ (A' + x + 1) * (S + V) := Nat.mul_le_mul_right _ (by omega)
  have e3 : (A' + x + 1) * (S + V) = (A' + 1) * (S + V) + x * (S + V) := by ring
  omega

/-- **C22** No single transaction, from anybody (vault calls, share calls, donations or any other call on
the asset token), lowers the rate. -/
theorem C22_step (s s' : State) (hs : Reachable s) (op : Address × Call) (h : exec s op = .ok s') :
    RateLe s s' := by
  have hw := wf_reachable hs
  have hV := virtual_pos s
  obtain ⟨c, k⟩ := op
  have vs : s'.offset = s.offset → virtualShares s' = virtualShares s := fun e => by
    unfold virtualShares; rw [e]
  unfold RateLe
  cases k with
  | deposit a r =>
    obtain ⟨hc, sh, h1⟩ := exec_deposit.mp h
    obtain ⟨h2, h3⟩ := deposit_ok.mp h1
    have e := (depositInternal_effect hw hc h3).1
    rw [vs e.offset]
    exact rate_in e.held e.supply ((C19_shares_floor s a sh).1.mp h2).2.1
  | mint sh r =>
    obtain ⟨hc, a, h1⟩ := exec_mint.mp h
    obtain ⟨h2, h3⟩ := mint_ok.mp h1
    have e := (depositInternal_effect hw hc h3).1
    rw [vs e.offset]
    exact rate_in e.held e.supply ((C19_assets_ceil s sh a).mp h2).2.1
  | withdraw a r o =>
    obtain ⟨hc, sh, h1⟩ := exec_withdraw.mp h
    obtain ⟨_, h2, h3⟩ := withdraw_ok.mp h1
    have e := (withdrawInternal_effect hw h3).1
    rw [vs e.offset]
    refine rate_out (x := a.toNat) ?_ e.supply ((C19_shares_ceil s a sh).mp h2).2.1
    have := e.held
    split at this <;> omega
  | redeem sh r o =>
    obtain ⟨hc, a, h1⟩ := exec_redeem.mp h
    obtain ⟨_, h2, h3⟩ := redeem_ok.mp h1
    have e := (withdrawInternal_effect hw h3).1
    rw [vs e.offset]
    refine rate_out (x := a.toNat) ?_ e.supply ((C19_assets_floor s sh a).1.mp h2).2.1
    have := e.held
    split at this <;> omega
  | share k =>
    have e := exec_share hw h
    rw [vs e.offset, e.supply]
    exact Nat.mul_le_mul_right _ (by have := e.held; omega)
  | asset k =>
    have e := (exec_asset hw h).1
    rw [vs e.offset, e.supply]
    exact Nat.mul_le_mul_right _ (by have := e.held; omega)

theorem rate_refl (s : State) : RateLe s s := le_refl _

theorem rate_trans {s t u : State} (h1 : RateLe s t) (h2 : RateLe t u) : RateLe s u := by
  unfold RateLe at *
  have hp : 0 < supply t + virtualShares t := by have := virtual_pos t; omega
  apply Nat.le_of_mul_le_mul_right _ hp
  calc (assetsHeld s + 1) * (supply u + virtualShares u) * (supply t + virtualShares t)
      = (assetsHeld s + 1) * (supply t + virtualShares t) * (supply u + virtualShares u) := by ring
    _ ≤ (assetsHeld t + 1) * (supply s + virtualShares s) * (supply u + virtualShares u) :=
        Nat.mul_le_mul_right _ h1
    _ = (assetsHeld t + 1) * (supply u + virtualShares u) * (supply s + virtualShares s) := by ring
    _ ≤ (assetsHeld u + 1) * (supply t + virtualShares t) * (supply s + virtualShares s) :=
        Nat.mul_le_mul_right _ h2
    _ = _ := by ring

theorem run_cons (s : State) (op : Address × Call) (ops : List (Address × Call)) :
    run s (op :: ops) = run (stepOf exec s op) ops := rfl

theorem reachable_step {s : State} (hs : Reachable s) (op : Address × Call) :
    Reachable (stepOf exec s op) := by
  obtain ⟨me, d, o, ops, hme, rfl⟩ := hs
  exact ⟨me, d, o, ops ++ [op], hme, by simp [run, runOf, List.foldl_append]⟩

/-- **C22** Over every history of transactions the rate never falls. -/
theorem C22_history (s : State) (hs : Reachable s) (ops : List (Address × Call)) :
    RateLe s (run s ops) := by
  induction ops generalizing s with
  | nil => exact rate_refl s
  | cons op ops ih =>
    rw [run_cons]
    refine rate_trans ?_ (ih _ (reachable_step hs op))
    cases h : exec s op with
    | error e => rw [stepOf_error h]; exact rate_refl s
    | ok s' => rw [stepOf_ok h]; exact C22_step s s' hs op h

/-- **C22** Hence what a fixed number of shares converts to never decreases. -/
theorem C22_convertible_monotone (s : State) (hs : Reachable s) (ops : List (Address × Call))
    (sh x y : U256) (hx : convertToAssets s sh = .ok x) (hy : convertToAssets (run s ops) sh = .ok y) :
    x.toNat ≤ y.toNat := by
  have hr := C22_history s hs ops
  obtain ⟨_, h1, _⟩ := (C19_assets_floor s sh x).1.mp hx
  obtain ⟨_, _, h2⟩ := (C19_assets_floor _ sh y).1.mp hy
  unfold RateLe at hr
  have p1 := virtual_pos s
  have p2 := virtual_pos (run s ops)
  generalize run s ops = t at *
  generalize hD : supply s + virtualShares s = D at *
  generalize hD' : supply t + virtualShares t = D' at *
  generalize assetsHeld s + 1 = A at *
  generalize assetsHeld t + 1 = A' at *
  by_contra hlt
  have hlt : y.toNat + 1 ≤ x.toNat := by omega
  have c1 : sh.toNat * A' * D < (y.toNat + 1) * D' * D :=
    Nat.mul_lt_mul_of_pos_right h2 (by omega)
  have c2 : (y.toNat + 1) * D' * D ≤ x.toNat * D' * D :=
    Nat.mul_le_mul_right _ (Nat.mul_le_mul_right _ hlt)
  have c3 : x.toNat * D' * D = x.toNat * D * D' := by ring
  have c4 : x.toNat * D * D' ≤ sh.toNat * A * D' := Nat.mul_le_mul_right _ h1
  have c5 : sh.toNat * A * D' = sh.toNat * (A * D') := by ring
  have c6 : sh.toNat * (A * D') ≤ sh.toNat * (A' * D) := Nat.mul_le_mul_left _ hr
  have c7 : sh.toNat * (A' * D) = sh.toNat * A' * D := by ring
  omega

/-! ## C21: round trips -/

theorem fits_of_ok {s : State} {a x : U256} {r : Math.Rounding}
    (h : convertToSharesInternal s a r = .ok x) : Fits s := (convShares_ok.mp h).1

/-- **C21** Deposit, then redeem the shares received: never more assets back. -/
theorem C21_deposit_redeem (s s1 s2 : State) (hs : Reachable s) (c r c' r' o : Address)
    (a sh a' : U256) (hc : c ≠ s.self_) (h1 : deposit s c a r = .ok (sh, s1))
    (h2 : redeem s1 c' sh r' o = .ok (a', s2)) : a'.toNat ≤ a.toNat := by
  obtain ⟨p1, d1⟩ := deposit_ok.mp h1
  obtain ⟨_, p2, _⟩ := redeem_ok.mp h2
  have e := (depositInternal_effect (wf_reachable hs) hc d1).1
  obtain ⟨_, q1, _⟩ := (C19_shares_floor s a sh).1.mp p1
  obtain ⟨_, q2, _⟩ := (C19_assets_floor s1 sh a').1.mp p2
  have hv : virtualShares s1 = virtualShares s := by unfold virtualShares; rw [e.offset]
  have hp := virtual_pos s
  rw [e.held, e.supply, hv] at q2
  by_contra hlt
  have : (a.toNat + 1) * (supply s + sh.toNat + virtualShares s) ≤
      a'.toNat * (supply s + sh.toNat + virtualShares s) := Nat.mul_le_mul_right _ (by omega)
  nlinarith

/-- **C21** Mint, then redeem the same shares: never more assets back than were charged. -/
theorem C21_mint_redeem (s s1 s2 : State) (hs : Reachable s) (c r c' r' o : Address)
    (a sh a' : U256) (hc : c ≠ s.self_) (h1 : mint s c sh r = .ok (a, s1))
    (h2 : redeem s1 c' sh r' o = .ok (a', s2)) : a'.toNat ≤ a.toNat := by
  obtain ⟨p1, d1⟩ := mint_ok.mp h1
  obtain ⟨_, p2, _⟩ := redeem_ok.mp h2
  have e := (depositInternal_effect (wf_reachable hs) hc d1).1
  obtain ⟨_, q1, _⟩ := (C19_assets_ceil s sh a).mp p1
  obtain ⟨_, q2, _⟩ := (C19_assets_floor s1 sh a').1.mp p2
  have hv : virtualShares s1 = virtualShares s := by unfold virtualShares; rw [e.offset]
  have hp := virtual_pos s
  rw [e.held, e.supply, hv] at q2
  by_contra hlt
  have : (a.toNat + 1) * (supply s + sh.toNat + virtualShares s) ≤
      a'.toNat * (supply s + sh.toNat + virtualShares s) := Nat.mul_le_mul_right _ (by omega)
  nlinarith

/-- **C21** Deposit, then withdraw the same assets: costs at least the shares received. -/
theorem C21_deposit_withdraw (s s1 s2 : State) (hs : Reachable s) (c r c' r' o : Address)
    (a sh sh' : U256) (hc : c ≠ s.self_) (h1 : deposit s c a r = .ok (sh, s1))
    (h2 : withdraw s1 c' a r' o = .ok (sh', s2)) : sh.toNat ≤ sh'.toNat := by
  obtain ⟨p1, d1⟩ := deposit_ok.mp h1
  obtain ⟨_, p2, _⟩ := withdraw_ok.mp h2
  have e := (depositInternal_effect (wf_reachable hs) hc d1).1
  obtain ⟨_, q1, _⟩ := (C19_shares_floor s a sh).1.mp p1
  obtain ⟨_, q2, _⟩ := (C19_shares_ceil s1 a sh').mp p2
  have hv : virtualShares s1 = virtualShares s := by unfold virtualShares; rw [e.offset]
  rw [e.held, e.supply, hv] at q2
  by_contra hlt
  have : (sh'.toNat + 1) * (assetsHeld s + a.toNat + 1) ≤ sh.toNat * (assetsHeld s + a.toNat + 1) :=
    Nat.mul_le_mul_right _ (by omega)
  nlinarith

/-- **C21** Mint, then withdraw the assets that were charged: costs at least the shares minted. -/
theorem C21_mint_withdraw (s s1 s2 : State) (hs : Reachable s) (c r c' r' o : Address)
    (a sh sh' : U256) (hc : c ≠ s.self_) (h1 : mint s c sh r = .ok (a, s1))
    (h2 : withdraw s1 c' a r' o = .ok (sh', s2)) : sh.toNat ≤ sh'.toNat := by
  obtain ⟨p1, d1⟩ := mint_ok.mp h1
  obtain ⟨_, p2, _⟩ := withdraw_ok.mp h2
  have e := (depositInternal_effect (wf_reachable hs) hc d1).1
  obtain ⟨_, q1, _⟩ := (C19_assets_ceil s sh a).mp p1
  obtain ⟨_, q2, _⟩ := (C19_shares_ceil s1 a sh').mp p2
  have hv : virtualShares s1 = virtualShares s := by unfold virtualShares; rw [e.offset]
  rw [e.held, e.supply, hv] at q2
  by_contra hlt
  have : (sh'.toNat + 1) * (assetsHeld s + a.toNat + 1) ≤ sh.toNat * (assetsHeld s + a.toNat + 1) :=
    Nat.mul_le_mul_right _ (by omega)
  nlinarith

/-- **C21** Withdraw, then deposit the same assets: never more shares than were burnt. -/
theorem C21_withdraw_deposit (s s1 s2 : State) (hs : Reachable s) (c r c' r' o : Address)
    (a sh sh' : U256) (h1 : withdraw s c a r o = .ok (sh, s1))
    (h2 : deposit s1 c' a r' = .ok (sh', s2)) : sh'.toNat ≤ sh.toNat := by
  obtain ⟨_, p1, d1⟩ := withdraw_ok.mp h1
  obtain ⟨p2, _⟩ := deposit_ok.mp h2
  have e := (withdrawInternal_effect (wf_reachable hs) d1).1
  obtain ⟨_, q1, _⟩ := (C19_shares_ceil s a sh).mp p1
  obtain ⟨_, q2, _⟩ := (C19_shares_floor s1 a sh').1.mp p2
  have hv : virtualShares s1 = virtualShares s := by unfold virtualShares; rw [e.offset]
  have hA : assetsHeld s ≤ assetsHeld s1 + a.toNat := by have := e.held; split at this <;> omega
  have hS := e.supply
  rw [hv] at q2
  by_contra hlt
  have k1 : (sh.toNat + 1) * (assetsHeld s1 + 1) ≤ sh'.toNat * (assetsHeld s1 + 1) :=
    Nat.mul_le_mul_right _ (by omega)
  have k2 : a.toNat * (supply s1 + sh.toNat + virtualShares s) ≤ sh.toNat * (assetsHeld s + 1) := by
    rw [hS]; exact q1
  have k3 : sh.toNat * (assetsHeld s + 1) ≤ sh.toNat * (assetsHeld s1 + a.toNat + 1) :=
    Nat.mul_le_mul_left _ (by omega)
  nlinarith

/-- **C21** Withdraw, then mint back the burnt shares: costs at least the assets withdrawn. -/
theorem C21_withdraw_mint (s s1 s2 : State) (hs : Reachable s) (c r c' r' o : Address)
    (a sh a' : U256) (h1 : withdraw s c a r o = .ok (sh, s1))
    (h2 : mint s1 c' sh r' = .ok (a', s2)) : a.toNat ≤ a'.toNat := by
  obtain ⟨_, p1, d1⟩ := withdraw_ok.mp h1
  obtain ⟨p2, _⟩ := mint_ok.mp h2
  have e := (withdrawInternal_effect (wf_reachable hs) d1).1
  obtain ⟨_, q1, _⟩ := (C19_shares_ceil s a sh).mp p1
  obtain ⟨_, q2, _⟩ := (C19_assets_ceil s1 sh a').mp p2
  have hv : virtualShares s1 = virtualShares s := by unfold virtualShares; rw [e.offset]
  have hA : assetsHeld s ≤ assetsHeld s1 + a.toNat := by have := e.held; split at this <;> omega
  have hS := e.supply
  have hp := virtual_pos s
  rw [hv] at q2
  by_contra hlt
  have k1 : (a'.toNat + 1) * (supply s1 + virtualShares s) ≤ a.toNat * (supply s1 + virtualShares s) :=
    Nat.mul_le_mul_right _ (by omega)
  have k2 : a.toNat * (supply s1 + sh.toNat + virtualShares s) ≤ sh.toNat * (assetsHeld s + 1) := by
    rw [hS]; exact q1
  have k3 : sh.toNat * (assetsHeld s + 1) ≤ sh.toNat * (assetsHeld s1 + a.toNat + 1) :=
    Nat.mul_le_mul_left _ (by omega)
  nlinarith

/-- **C21** Redeem, then deposit the assets received: never more shares than were burnt. -/
theorem C21_redeem_deposit (s s1 s2 : State) (hs : Reachable s) (c r c' r' o : Address)
    (a sh sh' : U256) (h1 : redeem s c sh r o = .ok (a, s1))
    (h2 : deposit s1 c' a r' = .ok (sh', s2)) : sh'.toNat ≤ sh.toNat := by
  obtain ⟨_, p1, d1⟩ := redeem_ok.mp h1
  obtain ⟨p2, _⟩ := deposit_ok.mp h2
  have e := (withdrawInternal_effect (wf_reachable hs) d1).1
  obtain ⟨_, q1, _⟩ := (C19_assets_floor s sh a).1.mp p1
  obtain ⟨_, q2, _⟩ := (C19_shares_floor s1 a sh').1.mp p2
  have hv : virtualShares s1 = virtualShares s := by unfold virtualShares; rw [e.offset]
  have hA : assetsHeld s ≤ assetsHeld s1 + a.toNat := by have := e.held; split at this <;> omega
  have hS := e.supply
  rw [hv] at q2
  by_contra hlt
  have k1 : (sh.toNat + 1) * (assetsHeld s1 + 1) ≤ sh'.toNat * (assetsHeld s1 + 1) :=
    Nat.mul_le_mul_right _ (by omega)
  have k2 : a.toNat * (supply s1 + sh.toNat + virtualShares s) ≤ sh.toNat * (assetsHeld s + 1) := by
    rw [hS]; exact q1
  have k3 : sh.toNat * (assetsHeld s + 1) ≤ sh.toNat * (assetsHeld s1 + a.toNat + 1) :=
    Nat.mul_le_mul_left _ (by omega)
  nlinarith

/-- **C21** Redeem, then mint back the same shares: costs at least the assets received. -/
theorem C21_redeem_mint (s s1 s2 : State) (hs : Reachable s) (c r c' r' o : Address)
    (a sh a' : U256) (h1 : redeem s c sh r o = .ok (a, s1))
    (h2 : mint s1 c' sh r' = .ok (a', s2)) : a.toNat ≤ a'.toNat := by
  obtain ⟨_, p1, d1⟩ := redeem_ok.mp h1
  obtain ⟨p2, _⟩ := mint_ok.mp h2
  have e := (withdrawInternal_effect (wf_reachable hs) d1).1
  obtain ⟨_, q1, _⟩ := (C19_assets_floor s sh a).1.mp p1
  obtain ⟨_, q2, _⟩ := (C19_assets_ceil s1 sh a').mp p2
  have hv : virtualShares s1 = virtualShares s := by unfold virtualShares; rw [e.offset]
  have hA : assetsHeld s ≤ assetsHeld s1 + a.toNat := by have := e.held; split at this <;> omega
  have hS := e.supply
  have hp := virtual_pos s
  rw [hv] at q2
  by_contra hlt
  have k1 : (a'.toNat + 1) * (supply s1 + virtualShares s) ≤ a.toNat * (supply s1 + virtualShares s) :=
    Nat.mul_le_mul_right _ (by omega)
  have k2 : a.toNat * (supply s1 + sh.toNat + virtualShares s) ≤ sh.toNat * (assetsHeld s + 1) := by
    rw [hS]; exact q1
  have k3 : sh.toNat * (assetsHeld s + 1) ≤ sh.toNat * (assetsHeld s1 + a.toNat + 1) :=
    Nat.mul_le_mul_left _ (by omega)
  nlinarith

/-! ## C23: limits -/

/-- **C23** `withdraw` beyond `max_withdraw` fails with the dedicated error (nothing else is consulted
before); a successful one is within it. -/
theorem C23_withdraw_limit (s : State) (c r o : Address) (a m : U256)
    (hm : maxWithdraw s o = .ok m) :
    (m.toNat < a.toNat → withdraw s c a r o = .error (.exceededMaxWithdraw o a m)) ∧
    (∀ sh s', withdraw s c a r o = .ok (sh, s') → a.toNat ≤ m.toNat) := by
  constructor
  · intro h
    have : m < a := by rw [BitVec.lt_def]; exact h
    unfold withdraw
    rw [hm, except_bind_ok, if_pos this]
    rfl
  · intro sh s' h
    obtain ⟨⟨m', hm', hle⟩, _⟩ := withdraw_ok.mp h
    rw [hm] at hm'; cases hm'; exact hle

/-- **C23** `redeem` beyond `max_redeem` (the owner's share balance) fails with the dedicated error; a
successful one is within it. -/
theorem C23_redeem_limit (s : State) (c r o : Address) (sh : U256) :
    maxRedeem s o = s.shares.balances o ∧
    ((maxRedeem s o).toNat < sh.toNat →
      redeem s c sh r o = .error (.exceededMaxRedeem o sh (maxRedeem s o))) ∧
    (∀ a s', redeem s c sh r o = .ok (a, s') → sh.toNat ≤ (maxRedeem s o).toNat) := by
  refine ⟨rfl, ?_, ?_⟩
  · intro h
    have : maxRedeem s o < sh := by rw [BitVec.lt_def]; exact h
    unfold redeem
    dsimp only
    rw [if_pos this]
    rfl
  · intro a s' h
    exact (redeem_ok.mp h).1

/-- **C23** Withdrawing anything up to `max_withdraw(owner)` costs at most the shares the owner has, and
is covered by the assets held. -/
theorem C23_withdraw_affordable (s : State) (hs : Reachable s) (o : Address) (a m sh : U256)
    (hm : maxWithdraw s o = .ok m) (ha : a.toNat ≤ m.toNat) (hp : previewWithdraw s a = .ok sh) :
    sh.toNat ≤ sharesOf s o ∧ a.toNat ≤ assetsHeld s := by
  obtain ⟨_, h1, _⟩ := (C19_assets_floor s _ m).1.mp hm
  obtain ⟨_, _, h2⟩ := (C19_shares_ceil s a sh).mp hp
  have hle : a.toNat * (supply s + virtualShares s) ≤ m.toNat * (supply s + virtualShares s) :=
    Nat.mul_le_mul_right _ ha
  refine ⟨h2 _ (le_trans hle h1), ?_⟩
  have hb : (s.shares.balances o).toNat ≤ supply s := (wf_reachable hs).shares.le o
  have hpos := virtual_pos s
  by_contra hlt
  have k1 : (assetsHeld s + 1) * (supply s + virtualShares s) ≤ a.toNat * (supply s + virtualShares s) :=
    Nat.mul_le_mul_right _ (by omega)
  have k2 : (s.shares.balances o).toNat * (assetsHeld s + 1) ≤ supply s * (assetsHeld s + 1) :=
    Nat.mul_le_mul_right _ hb
  have h1' : m.toNat * (supply s + virtualShares s) ≤ (s.shares.balances o).toNat * (assetsHeld s + 1) :=
    h1
  have k3 : (assetsHeld s + 1) * (supply s + virtualShares s)
      = supply s * (assetsHeld s + 1) + virtualShares s * (assetsHeld s + 1) := by ring
  have k4 : 0 < virtualShares s * (assetsHeld s + 1) := Nat.mul_pos hpos (by omega)
  omega

/-- **C23** (solvency) In every reachable state whose numbers fit, every holder can redeem any part of
their shares to any non-zero receiver. -/
theorem C23_redeem_succeeds (s : State) (hs : Reachable s) (hf : Fits s) (o r : Address) (sh : U256)
    (ho : o ≠ ZERO) (hr : r ≠ ZERO) (hsh : sh.toNat ≤ sharesOf s o) :
    ∃ a s', redeem s o sh r o = .ok (a, s') := by
  have hw := wf_reachable hs
  have hpos := virtual_pos s
  have hb : (s.shares.balances o).toNat ≤ supply s := hw.shares.le o
  have hsh' : sh.toNat ≤ supply s := le_trans hsh hb
  -- the amount due
  have hq : sh.toNat * (assetsHeld s + 1) / (supply s + virtualShares s) ≤ assetsHeld s := by
    apply Nat.le_of_lt_succ
    rw [Nat.div_lt_iff_lt_mul (by omega)]
    have k1 : sh.toNat * (assetsHeld s + 1) ≤ supply s * (assetsHeld s + 1) :=
      Nat.mul_le_mul_right _ hsh'
    have k2 : (assetsHeld s).succ * (supply s + virtualShares s)
      = supply s * (assetsHeld s + 1) + virtualShares s * (assetsHeld s + 1) := by
        rw [Nat.succ_eq_add_one]; ring
    have k3 : 0 < virtualShares s * (assetsHeld s + 1) := Nat.mul_pos hpos (by omega)
    omega
  generalize hqd : sh.toNat * (assetsHeld s + 1) / (supply s + virtualShares s) = q at hq
  have hq256 : q < 2 ^ 256 := by have := hf.2; omega
  have hqn : (BitVec.ofNat 256 q).toNat = q := by
    rw [BitVec.toNat_ofNat]; exact Nat.mod_eq_of_lt hq256
  have hprev : previewRedeem s sh = .ok (BitVec.ofNat 256 q) := by
    unfold previewRedeem
    rw [convAssets_ok]
    exact ⟨hf, by rw [hqn]; exact hqd⟩
  -- burn and transfer go through
  obtain ⟨t2, ht2⟩ : ∃ t2, Erc20.update s.shares o ZERO sh = .ok t2 :=
    Erc20.update_ok_iff.mpr ⟨fun _ => hsh, fun e => absurd e ho⟩
  obtain ⟨as, has⟩ : ∃ as, Erc20.update s.asset s.self_ r (BitVec.ofNat 256 q) = .ok as :=
    Erc20.update_ok_iff.mpr ⟨fun _ => by rw [hqn]; exact hq, fun e => absurd e hw.self_⟩
  have hb2 : liftErc20 (Erc20.burnInternal s.shares o sh) = .ok t2 := by
    rw [liftErc20_ok, Erc20.burnInternal_eq_ok]; exact ⟨ho, ht2⟩
  have hb3 : liftSafe (SafeErc20.safeTransfer (SafeErc20.standardToken s.self_) s.asset r
      (BitVec.ofNat 256 q)) = .ok as := by
    rw [safeTransfer_ok]
    exact Erc20.transferInternal_eq_ok.mpr ⟨hw.self_, hr, has⟩
  obtain ⟨s', hs'⟩ : ∃ s', withdrawInternal s o r o (BitVec.ofNat 256 q) sh = .ok s' := by
    unfold withdrawInternal spendFor
    simp only [ne_eq, not_true_eq_false, if_false, except_bind_ok, hb2, hb3]
    exact ⟨_, rfl⟩
  exact ⟨_, s', redeem_ok.mpr ⟨hsh, hprev, hs'⟩⟩

/-! ## C24: the first-depositor (inflation) attack -/

/-- **C24** Whoever held shares before a deposit - even all of them - redeems afterwards at most the
assets that were in the vault before it: nothing of the new deposit can be taken. -/
theorem C24_no_profit (s s1 s2 : State) (hs : Reachable s) (victim r c r' o : Address) (u v sh g : U256)
    (hv : victim ≠ s.self_) (h1 : deposit s victim u r = .ok (v, s1)) (hsh : sh.toNat ≤ supply s)
    (h2 : redeem s1 c sh r' o = .ok (g, s2)) : g.toNat ≤ assetsHeld s := by
  obtain ⟨p1, d1⟩ := deposit_ok.mp h1
  obtain ⟨_, p2, _⟩ := redeem_ok.mp h2
  have e := (depositInternal_effect (wf_reachable hs) hv d1).1
  obtain ⟨_, _, q1⟩ := (C19_shares_floor s u v).1.mp p1
  obtain ⟨_, q2, _⟩ := (C19_assets_floor s1 sh g).1.mp p2
  have hvs : virtualShares s1 = virtualShares s := by unfold virtualShares; rw [e.offset]
  have hp := virtual_pos s
  rw [e.held, e.supply, hvs] at q2
  generalize virtualShares s = V at *
  generalize assetsHeld s = A at *
  generalize supply s = S at *
  by_contra hlt
  have k1 : (A + 1) * (S + v.toNat + V) ≤ g.toNat * (S + v.toNat + V) :=
    Nat.mul_le_mul_right _ (by omega)
  have k2 : sh.toNat * (A + u.toNat + 1) ≤ S * (A + u.toNat + 1) := Nat.mul_le_mul_right _ hsh
  have k3 : (v.toNat + 1) * (A + 1) ≤ (v.toNat + V) * (A + 1) := Nat.mul_le_mul_right _ (by omega)
  have k4 : u.toNat * (S + V) = S * u.toNat + u.toNat * V := by ring
  have k5 : S * (A + u.toNat + 1) = S * (A + 1) + S * u.toNat := by ring
  have k6 : (A + 1) * (S + v.toNat + V) = S * (A + 1) + (v.toNat + V) * (A + 1) := by ring
  omega

theorem loss_num {A S V u v w : Nat} (hV : 0 < V) (q1 : u * (S + V) < (v + 1) * (A + 1))
    (q2 : v * (A + u + 1) < (w + 1) * (S + v + V)) :
    u ≤ w + 1 + (A + 1) / (S + V) := by
  by_contra hlt
  have h0 : 0 ≤ (A + 1) / (S + V) := Nat.zero_le _
  have h1 : (A + 1) / (S + V) < u - w - 1 := by omega
  have h2 : w + 1 ≤ u := by omega
  rw [Nat.div_lt_iff_lt_mul (by omega)] at h1
  obtain ⟨k, hk⟩ : ∃ k, u = w + 1 + k := ⟨u - w - 1, by omega⟩
  subst hk
  have e : w + 1 + k - w - 1 = k := by omega
  rw [e] at h1
  -- u(S+v+V) < v(A+u+1) + (A+1) < (w+1)(S+v+V) + k(S+V)
  nlinarith

/-- **C24** In any reachable state, however it was prepared, a depositor who redeems the shares received
loses at most one asset unit plus the price of one share. -/
theorem C24_loss_bound (s s1 : State) (hs : Reachable s) (victim r : Address) (u v w : U256)
    (hv : victim ≠ s.self_) (h1 : deposit s victim u r = .ok (v, s1))
    (h2 : previewRedeem s1 v = .ok w) :
    u.toNat ≤ w.toNat + 1 + (assetsHeld s + 1) / (supply s + virtualShares s) := by
  obtain ⟨p1, d1⟩ := deposit_ok.mp h1
  have e := (depositInternal_effect (wf_reachable hs) hv d1).1
  obtain ⟨_, _, q1⟩ := (C19_shares_floor s u v).1.mp p1
  obtain ⟨_, _, q2⟩ := (C19_assets_floor s1 v w).1.mp h2
  have hvs : virtualShares s1 = virtualShares s := by unfold virtualShares; rw [e.offset]
  rw [e.held, e.supply, hvs] at q2
  exact loss_num (virtual_pos s) q1 q2

theorem cost_num {A S V u v w g : Nat} (hV : 0 < V) (q1 : u * (S + V) < (v + 1) * (A + 1))
    (q2 : v * (A + u + 1) < (w + 1) * (S + v + V)) (q3 : g * (S + v + V) ≤ S * (A + u + 1))
    (q4 : w * (S + v + V) ≤ v * (A + u + 1)) :
    V * (u - w - 1) + g + w ≤ A + u := by
  by_cases hz : u - w - 1 = 0
  · rw [hz, Nat.mul_zero]
    have : (g + w) * (S + v + V) < (A + u + 1) * (S + v + V) := by nlinarith
    have := Nat.lt_of_mul_lt_mul_right this
    omega
  · obtain ⟨k, rfl⟩ : ∃ k, u = w + 1 + k := ⟨u - w - 1, by omega⟩
    have e : w + 1 + k - w - 1 = k := by omega
    rw [e]
    have hk : k * (S + v + V) < A + (w + 1 + k) + 1 := by nlinarith
    have hk' : V * (k * (S + v + V)) ≤ V * (A + (w + 1 + k) + 1) := Nat.mul_le_mul_left _ (by omega)
    have h5 : (V * k + g + w) * (S + v + V) < (A + (w + 1 + k) + 1) * (S + v + V) := by
      have hk'' : V * (k * (S + v + V)) < V * (A + (w + 1 + k) + 1) := Nat.mul_lt_mul_of_pos_left hk hV
      nlinarith
    have := Nat.lt_of_mul_lt_mul_right h5
    omega

/-- **C24** The attack costs its author, who is given all earlier shares, at least about `10^offset`
times what the victim loses: `10^offset * (loss - 1) ≤ (attacker's loss) + (victim's loss)`, where the
attacker's loss is measured against everything that was in the vault. -/
theorem C24_attack_cost (s s1 : State) (hs : Reachable s) (victim r : Address) (u v w g all : U256)
    (hv : victim ≠ s.self_) (h1 : deposit s victim u r = .ok (v, s1))
    (h2 : previewRedeem s1 v = .ok w) (hall : all.toNat = supply s)
    (h3 : previewRedeem s1 all = .ok g) :
    virtualShares s * (u.toNat - w.toNat - 1) + g.toNat + w.toNat ≤ assetsHeld s + u.toNat := by
  obtain ⟨p1, d1⟩ := deposit_ok.mp h1
  have e := (depositInternal_effect (wf_reachable hs) hv d1).1
  obtain ⟨_, _, q1⟩ := (C19_shares_floor s u v).1.mp p1
  obtain ⟨_, q2', q2⟩ := (C19_assets_floor s1 v w).1.mp h2
  obtain ⟨_, q3, _⟩ := (C19_assets_floor s1 all g).1.mp h3
  have hvs : virtualShares s1 = virtualShares s := by unfold virtualShares; rw [e.offset]
  rw [e.held, e.supply, hvs] at q2 q2' q3
  rw [hall] at q3
  exact cost_num (virtual_pos s) q1 q2 q3 q2'

/-- **C24** The textbook attack on an empty vault. The attacker deposits `a0`, donates `d` directly, the
victim deposits `u` for `v` shares, then the attacker redeems everything for `g`: the attacker never
gets back more than was put in, and the victim's holding `w` is short of `u` by at most
`1 + (a0 + d + 1) / (10^offset * (a0 + 1))`. -/
theorem C24_inflation_attack (s s1 s2 s3 s4 : State) (hs : Reachable s) (attacker victim : Address)
    (a0 d u sh0 v g w : U256) (hempty : supply s = 0 ∧ assetsHeld s = 0)
    (ha : attacker ≠ s.self_) (hv : victim ≠ s.self_)
    (h1 : deposit s attacker a0 attacker = .ok (sh0, s1))
    (h2 : exec s1 (attacker, .asset (.transfer s.self_ d)) = .ok s2)
    (h3 : deposit s2 victim u victim = .ok (v, s3))
    (hw : previewRedeem s3 v = .ok w)
    (h4 : redeem s3 attacker sh0 attacker attacker = .ok (g, s4)) :
    g.toNat ≤ a0.toNat + d.toNat ∧
    u.toNat ≤ w.toNat + 1 + (a0.toNat + d.toNat + 1) / (virtualShares s * (a0.toNat + 1)) := by
  have hx1 : exec s (attacker, .deposit a0 attacker) = .ok s1 := exec_deposit.mpr ⟨ha, sh0, h1⟩
  have r1 : Reachable s1 := by
    have := reachable_step hs (attacker, .deposit a0 attacker)
    rwa [stepOf_ok hx1] at this
  have r2 : Reachable s2 := by
    have := reachable_step r1 (attacker, .asset (.transfer s.self_ d))
    rwa [stepOf_ok h2] at this
  obtain ⟨p1, d1⟩ := deposit_ok.mp h1
  have e1 := (depositInternal_effect (wf_reachable hs) ha d1).1
  obtain ⟨e2, hself2⟩ := exec_asset (wf_reachable r1) h2
  have hself1 : s1.self_ = s.self_ := e1.self_
  have hself : s2.self_ = s.self_ := e2.self_.trans hself1
  -- the first deposit mints `a0 * 10^offset` shares
  obtain ⟨_, q1, q1'⟩ := (C19_shares_floor s a0 sh0).1.mp p1
  rw [hempty.1, hempty.2] at q1 q1'
  have hsh0 : sh0.toNat = a0.toNat * virtualShares s := by
    rw [Nat.zero_add, Nat.zero_add, Nat.mul_one] at q1 q1'; omega
  -- the donation
  have hheld : assetsHeld s2 = assetsHeld s1 + d.toNat := by
    unfold exec at h2
    rw [hself1] at h2
    simp only [ha, if_false, bind_eq_ok, except_pure, Except.ok.injEq, liftErc20_ok] at h2
    obtain ⟨t, ht, rfl⟩ := h2
    obtain ⟨z1, z2, ht'⟩ := Erc20.transferInternal_eq_ok.mp ht
    have := (Erc20.update_effect (wf_reachable r1).asset ht').bal s.self_
    unfold assetsHeld
    dsimp only
    rw [hself1]
    simpa [z1, z2, Ne.symm ha] using this
  have hS : supply s2 = sh0.toNat := by rw [e2.supply, e1.supply, hempty.1, Nat.zero_add]
  have hA : assetsHeld s2 = a0.toNat + d.toNat := by rw [hheld, e1.held, hempty.2, Nat.zero_add]
  have hV : virtualShares s2 = virtualShares s := by
    unfold virtualShares; rw [e2.offset, e1.offset]
  constructor
  · have := C24_no_profit s2 s3 s4 r2 victim victim attacker attacker attacker u v sh0 g
      (by rw [hself]; exact hv) h3 (by omega) h4
    omega
  · have := C24_loss_bound s2 s3 r2 victim victim u v w (by rw [hself]; exact hv) h3 hw
    rw [hA, hS, hV, hsh0] at this
    have e : a0.toNat * virtualShares s + virtualShares s = virtualShares s * (a0.toNat + 1) := by ring
    rwa [e] at this

/-! ## Concrete cases meeting the hypotheses -/

section Examples
private def me : Address := 9#160
private def alice : Address := 1#160
private def bob : Address := 2#160
/-- A vault (offset 1) with 100 assets deposited by alice and 55 donated by bob. -/
private def st : State := run (init me 6#8 1#8)
  [(alice, .asset (.mint alice 1000#256)), (bob, .asset (.mint bob 1000#256)),
   (alice, .asset (.approve me 500#256)), (bob, .asset (.approve me 500#256)),
   (alice, .deposit 100#256 alice), (bob, .asset (.transfer me 55#256)),
   (alice, .share (.approve bob 400#256))]

private theorem st_reachable : Reachable st := ⟨me, 6#8, 1#8, _, by decide, rfl⟩

example : Fits st := by unfold Fits; decide +kernel
example : assetsHeld st = 155 ∧ supply st = 1000 ∧ virtualShares st = 10 := by decide +kernel
-- C19: rounding both ways around 7 * 1010 / 156 = 45.3
example : convertToShares st 7#256 = .ok 45#256 ∧ previewWithdraw st 7#256 = .ok 46#256 := by
  decide +kernel
example : convertToAssets st 45#256 = .ok 6#256 ∧ previewMint st 45#256 = .ok 7#256 := by decide +kernel
example : convertToShares st maxU256 = .error .panic := by decide +kernel
/-- The call succeeds with value `v` and the state it leaves satisfies `k`. -/
private def okThen (r : Except Err (U256 × State)) (v : U256) (k : State → Bool) : Bool :=
  match r with | .ok (x, s) => x == v && k s | .error _ => false
/-- The call fails with `e`. -/
private def failsWith (r : Except Err (U256 × State)) (e : Err) : Bool :=
  match r with | .ok _ => false | .error e' => decide (e' = e)
-- C20/C21: deposit then redeem loses one unit
example : okThen (deposit st bob 7#256 bob) 45#256 (fun s1 =>
    okThen (redeem s1 bob 45#256 bob bob) 6#256 (fun s2 =>
      assetsHeld s2 == 156 && supply s2 == 1000)) = true := by decide +kernel
example : okThen (mint st bob 45#256 bob) 7#256 (fun s1 =>
    okThen (withdraw s1 bob 6#256 bob bob) 39#256 (fun _ => true)) = true := by decide +kernel
-- a third party with an allowance
example : okThen (withdraw st bob 50#256 bob alice) 324#256 (fun s1 =>
    s1.shares.allowances alice bob == 76#256 && sharesOf s1 alice == 676 && assetsOf s1 bob == 995)
    = true := by decide +kernel
-- C23: limits
example : maxWithdraw st alice = .ok 154#256 := by decide +kernel
example : failsWith (withdraw st alice 155#256 alice alice)
    (.exceededMaxWithdraw alice 155#256 154#256) = true := by decide +kernel
example : failsWith (redeem st alice 1001#256 alice alice)
    (.exceededMaxRedeem alice 1001#256 1000#256) = true := by decide +kernel
-- C24: the attack, offset 1: attacker deposits 1 and donates 200, victim deposits 100
private def empty : State := run (init me 6#8 1#8)
  [(alice, .asset (.mint alice 1000#256)), (bob, .asset (.mint bob 1000#256)),
   (alice, .asset (.approve me 500#256)), (bob, .asset (.approve me 500#256))]
example : supply empty = 0 ∧ assetsHeld empty = 0 := by decide +kernel
example : okThen (deposit empty alice 1#256 alice) 10#256 (fun s1 =>
    match exec s1 (alice, .asset (.transfer me 200#256)) with
    | .error _ => false
    | .ok s2 => okThen (deposit s2 bob 100#256 bob) 9#256 (fun s3 =>
        decide (previewRedeem s3 9#256 = .ok 93#256) &&
        okThen (redeem s3 alice 10#256 alice alice) 104#256 (fun _ => true))) = true := by decide +kernel
end Examples

end Verif.Props.Erc4626
