import Verif.Spec.Erc4626
import Verif.Proofs.Erc20Foreign
import Verif.Props.Math
import Verif.Props.SafeErc20
/-! # Proofs about the vault -/

namespace Verif.Erc4626
open Verif.Spec.Erc4626
open Verif.Math (Rounding mulDiv)

/-- The addend that turns floor division into the requested rounding. -/
def rnd (r : Rounding) (d : Nat) : Nat := match r with | .floor => 0 | .ceil => d - 1

theorem pow10_some {o : U8} {v : U256} (h : pow10 o = some v) :
    10 ^ o.toNat < 2 ^ 256 ∧ v.toNat = 10 ^ o.toNat := by
  unfold pow10 at h
  split at h
  · rename_i hlt
    cases h
    exact ⟨hlt, by rw [BitVec.toNat_ofNat]; exact Nat.mod_eq_of_lt hlt⟩
  · cases h

theorem pow10_of_lt {o : U8} (h : 10 ^ o.toNat < 2 ^ 256) : ∃ v, pow10 o = some v := by
  unfold pow10; rw [if_pos h]; exact ⟨_, rfl⟩

/-- `mul_div` with a positive divisor, as an iff. -/
theorem liftMulDiv_ok {x y d r : U256} {rd : Rounding} (hd : 0 < d.toNat) :
    liftPanic (mulDiv x y d rd) = .ok r ↔
      (x.toNat * y.toNat + rnd rd d.toNat) / d.toNat = r.toNat := by
  have hr := r.isLt
  have e : mulDiv x y d rd = (if 2 ^ 256 ≤ (x.toNat * y.toNat + rnd rd d.toNat) / d.toNat
      then .error .doesNotFit
      else .ok (BitVec.ofNat 256 ((x.toNat * y.toNat + rnd rd d.toNat) / d.toNat))) := by
    rw [Verif.Props.Math.mulDiv_eq, if_neg (by omega)]
    cases rd <;> rfl
  rw [e]
  generalize (x.toNat * y.toNat + rnd rd d.toNat) / d.toNat = q
  by_cases h : 2 ^ 256 ≤ q
  · rw [if_pos h]
    constructor
    · intro h'; cases h'
    · intro h'; omega
  · rw [if_neg h]
    simp only [liftPanic, Except.ok.injEq]
    constructor
    · rintro rfl; rw [BitVec.toNat_ofNat]; exact (Nat.mod_eq_of_lt (by omega)).symm
    · rintro rfl; simp

theorem liftPanic_err {x : Except Math.Panic U256} {e : Err} (h : liftPanic x = .error e) :
    e = .panic := by
  cases x <;> cases h; rfl

theorem orPanic_eq_ok {ε α : Type} {e : ε} {x : Option α} {a : α} :
    orPanic e x = .ok a ↔ x = some a := by
  cases x <;> simp [orPanic]

theorem one_toNat : (1#256).toNat = 1 := rfl

theorem convShares_ok {s : State} {a x : U256} {r : Rounding} :
    convertToSharesInternal s a r = .ok x ↔ Fits s ∧
      (a.toNat * (supply s + virtualShares s) + rnd r (assetsHeld s + 1)) / (assetsHeld s + 1)
        = x.toNat := by
  unfold convertToSharesInternal
  simp only [bind_eq_ok, orPanic_eq_ok]
  constructor
  · rintro ⟨v, hv, m, hm, d, hd, h⟩
    obtain ⟨_, hv2⟩ := pow10_some hv
    obtain ⟨hm1, hm2⟩ := checkedAdd_eq_some.mp hm
    obtain ⟨hd1, hd2⟩ := checkedAdd_eq_some.mp hd
    rw [one_toNat] at hd1 hd2
    have hd' : d.toNat = assetsHeld s + 1 := hd2
    have hm' : m.toNat = supply s + virtualShares s := by rw [hm2, hv2]; rfl
    rw [liftMulDiv_ok (by omega), hd', hm'] at h
    refine ⟨⟨?_, hd1⟩, h⟩
    rw [← hm']; exact m.isLt
  · rintro ⟨⟨h1, h2⟩, h⟩
    have hp : 10 ^ s.offset.toNat < 2 ^ 256 := by unfold virtualShares at h1; omega
    obtain ⟨v, hv⟩ := pow10_of_lt hp
    obtain ⟨_, hv2⟩ := pow10_some hv
    have e1 : (Erc20.totalSupplyOf s.shares).toNat + v.toNat = supply s + virtualShares s := by
      rw [hv2]; rfl
    have e2 : (totalAssets s).toNat + (1#256).toNat = assetsHeld s + 1 := rfl
    refine ⟨v, hv, Erc20.totalSupplyOf s.shares + v, ?_, totalAssets s + 1#256, ?_, ?_⟩
    · unfold checkedAdd; rw [if_pos (by omega)]
    · unfold checkedAdd; rw [if_pos (by omega)]
    · have d1 : (totalAssets s + 1#256).toNat = assetsHeld s + 1 := by
        rw [toNat_add_of_lt (by omega), e2]
      have d2 : (Erc20.totalSupplyOf s.shares + v).toNat = supply s + virtualShares s := by
        rw [toNat_add_of_lt (by omega), e1]
      rw [liftMulDiv_ok (by omega), d1, d2]; exact h

theorem convAssets_ok {s : State} {sh x : U256} {r : Rounding} :
    convertToAssetsInternal s sh r = .ok x ↔ Fits s ∧
      (sh.toNat * (assetsHeld s + 1) + rnd r (supply s + virtualShares s))
        / (supply s + virtualShares s) = x.toNat := by
  unfold convertToAssetsInternal
  simp only [bind_eq_ok, orPanic_eq_ok]
  constructor
  · rintro ⟨d, hd, v, hv, m, hm, h⟩
    obtain ⟨_, hv2⟩ := pow10_some hv
    obtain ⟨hm1, hm2⟩ := checkedAdd_eq_some.mp hm
    obtain ⟨hd1, hd2⟩ := checkedAdd_eq_some.mp hd
    rw [one_toNat] at hd1 hd2
    have hd' : d.toNat = assetsHeld s + 1 := hd2
    have hm' : m.toNat = supply s + virtualShares s := by rw [hm2, hv2]; rfl
    have hpos : 0 < virtualShares s := Nat.pow_pos (by norm_num)
    rw [liftMulDiv_ok (by omega), hd', hm'] at h
    refine ⟨⟨?_, hd1⟩, h⟩
    rw [← hm']; exact m.isLt
  · rintro ⟨⟨h1, h2⟩, h⟩
    have hp : 10 ^ s.offset.toNat < 2 ^ 256 := by unfold virtualShares at h1; omega
    obtain ⟨v, hv⟩ := pow10_of_lt hp
    obtain ⟨_, hv2⟩ := pow10_some hv
    have hpos : 0 < virtualShares s := Nat.pow_pos (by norm_num)
    have e1 : (Erc20.totalSupplyOf s.shares).toNat + v.toNat = supply s + virtualShares s := by
      rw [hv2]; rfl
    have e2 : (totalAssets s).toNat + (1#256).toNat = assetsHeld s + 1 := rfl
    refine ⟨totalAssets s + 1#256, ?_, v, hv, Erc20.totalSupplyOf s.shares + v, ?_, ?_⟩
    · unfold checkedAdd; rw [if_pos (by omega)]
    · unfold checkedAdd; rw [if_pos (by omega)]
    · have d1 : (totalAssets s + 1#256).toNat = assetsHeld s + 1 := by
        rw [toNat_add_of_lt (by omega), e2]
      have d2 : (Erc20.totalSupplyOf s.shares + v).toNat = supply s + virtualShares s := by
        rw [toNat_add_of_lt (by omega), e1]
      rw [liftMulDiv_ok (by omega), d1, d2]; exact h

theorem orPanic_err {α : Type} {x : Option α} {e : Err} (h : orPanic Err.panic x = .error e) :
    e = .panic := by cases x <;> cases h; rfl

theorem convShares_err {s : State} {a : U256} {r : Rounding} {e : Err}
    (h : convertToSharesInternal s a r = .error e) : e = .panic := by
  unfold convertToSharesInternal at h
  cases h1 : orPanic Err.panic (pow10 s.offset) with
  | error e1 => rw [h1] at h; cases h; exact orPanic_err h1
  | ok v =>
    rw [h1, except_bind_ok] at h
    cases h2 : orPanic Err.panic (checkedAdd (Erc20.totalSupplyOf s.shares) v) with
    | error e1 => rw [h2] at h; cases h; exact orPanic_err h2
    | ok m =>
      rw [h2, except_bind_ok] at h
      cases h3 : orPanic Err.panic (checkedAdd (totalAssets s) 1#256) with
      | error e1 => rw [h3] at h; cases h; exact orPanic_err h3
      | ok d => rw [h3, except_bind_ok] at h; exact liftPanic_err h

theorem convAssets_err {s : State} {a : U256} {r : Rounding} {e : Err}
    (h : convertToAssetsInternal s a r = .error e) : e = .panic := by
  unfold convertToAssetsInternal at h
  cases h1 : orPanic Err.panic (checkedAdd (totalAssets s) 1#256) with
  | error e1 => rw [h1] at h; cases h; exact orPanic_err h1
  | ok v =>
    rw [h1, except_bind_ok] at h
    cases h2 : orPanic Err.panic (pow10 s.offset) with
    | error e1 => rw [h2] at h; cases h; exact orPanic_err h2
    | ok m =>
      rw [h2, except_bind_ok] at h
      cases h3 : orPanic Err.panic (checkedAdd (Erc20.totalSupplyOf s.shares) m) with
      | error e1 => rw [h3] at h; cases h; exact orPanic_err h3
      | ok d => rw [h3, except_bind_ok] at h; exact liftPanic_err h

/-! ## Rounding facts -/

theorem floor_char {n d x : Nat} (hd : 0 < d) : n / d = x ↔ x * d ≤ n ∧ n < (x + 1) * d := by
  rw [← Nat.le_div_iff_mul_le hd, ← Nat.div_lt_iff_lt_mul hd]; omega

theorem floor_le {n d x : Nat} (hd : 0 < d) (h : (n + rnd .floor d) / d = x) : x * d ≤ n :=
  ((floor_char hd).mp h).1

theorem lt_floor {n d x : Nat} (hd : 0 < d) (h : (n + rnd .floor d) / d = x) : n < (x + 1) * d :=
  ((floor_char hd).mp h).2

theorem le_ceil {n d x : Nat} (hd : 0 < d) (h : (n + rnd .ceil d) / d = x) : n ≤ x * d :=
  ((Verif.Props.Math.ceil_char hd).mp h).1

theorem ceil_min {n d x q : Nat} (hd : 0 < d) (h : (n + rnd .ceil d) / d = x) (hq : n ≤ q * d) : x ≤ q :=
  ((Verif.Props.Math.ceil_char hd).mp h).2 q hq

/-! ## Well-formed vaults -/

/-- Invariant of every reachable vault. -/
structure WF (s : State) : Prop where
  self_ : s.self_ ≠ ZERO
  shares : Erc20.SumOk s.shares
  asset : Erc20.SumOk s.asset
  noAllowance : ∀ sp, s.asset.allowances s.self_ sp = 0#256

theorem liftErc20_ok {x : Except Erc20.Err Erc20.State} {t : Erc20.State} :
    liftErc20 x = .ok t ↔ x = .ok t := by cases x <;> simp [liftErc20]

theorem safeTransfer_ok {me dst : Address} {t t' : Erc20.State} {v : U256} :
    liftSafe (SafeErc20.safeTransfer (SafeErc20.standardToken me) t dst v) = .ok t' ↔
      Erc20.transfer t me dst v = .ok t' := by
  have key : liftSafe (SafeErc20.safeTransfer (SafeErc20.standardToken me) t dst v) = .ok t' ↔
      SafeErc20.safeTransfer (SafeErc20.standardToken me) t dst v = (t', .ok ()) := by
    rcases SafeErc20.safeTransfer (SafeErc20.standardToken me) t dst v with ⟨t1, e | u⟩
    · simp [liftSafe]
    · simp [liftSafe]
  rw [key, (Verif.Props.SafeErc20.C25_safe_transfer _ _ _ _).1]
  simp only [SafeErc20.standardToken, true_and]
  cases h : Erc20.transfer t me dst v with
  | error e => simp
  | ok t1 =>
    simp only [Option.some.injEq, Prod.mk.injEq, Except.ok.injEq]
    constructor
    · rintro ⟨_, ⟨h1, _⟩, _⟩; exact h1
    · intro h1; exact ⟨_, ⟨h1, rfl⟩, Verif.Props.SafeErc20.accepted_true⟩

theorem safeTransferFrom_ok {me src dst : Address} {t t' : Erc20.State} {v : U256} :
    liftSafe (SafeErc20.safeTransferFrom (SafeErc20.standardToken me) t src dst v) = .ok t' ↔
      Erc20.transferFrom t me src dst v = .ok t' := by
  have key : liftSafe (SafeErc20.safeTransferFrom (SafeErc20.standardToken me) t src dst v) = .ok t' ↔
      SafeErc20.safeTransferFrom (SafeErc20.standardToken me) t src dst v = (t', .ok ()) := by
    rcases SafeErc20.safeTransferFrom (SafeErc20.standardToken me) t src dst v with ⟨t1, e | u⟩
    · simp [liftSafe]
    · simp [liftSafe]
  rw [key, (Verif.Props.SafeErc20.C25_safe_transfer_from _ _ _ _ _).1]
  simp only [SafeErc20.standardToken, true_and]
  cases h : Erc20.transferFrom t me src dst v with
  | error e => simp
  | ok t1 =>
    simp only [Option.some.injEq, Prod.mk.injEq, Except.ok.injEq]
    constructor
    · rintro ⟨_, ⟨h1, _⟩, _⟩; exact h1
    · intro h1; exact ⟨_, ⟨h1, rfl⟩, Verif.Props.SafeErc20.accepted_true⟩

/-- Effect of the asset/share movement of `deposit` and `mint`. -/
structure InEffect (s s' : State) (caller receiver : Address) (a sh : Nat) : Prop where
  wf : WF s'
  self_ : s'.self_ = s.self_
  offset : s'.offset = s.offset
  decimals : s'.underlyingDecimals = s.underlyingDecimals
  receiver_ne : receiver ≠ ZERO
  held : assetsHeld s' = assetsHeld s + a
  supply : supply s' = supply s + sh
  assets : ∀ x, assetsOf s' x + (if x = caller then a else 0)
    = assetsOf s x + (if x = s.self_ then a else 0)
  sharesOf : ∀ x, sharesOf s' x = sharesOf s x + (if x = receiver then sh else 0)
  shareAllow : s'.shares.allowances = s.shares.allowances

theorem depositInternal_effect {s s' : State} {caller receiver : Address} {a sh : U256} (hw : WF s)
    (hc : caller ≠ s.self_) (h : depositInternal s caller receiver a sh = .ok s') :
    InEffect s s' caller receiver a.toNat sh.toNat ∧
    s'.log = s.log ++ [.deposit caller receiver a sh] := by
  unfold depositInternal at h
  simp only [bind_eq_ok, except_pure, Except.ok.injEq] at h
  obtain ⟨as, h1, t, h2, rfl⟩ := h
  rw [safeTransferFrom_ok] at h1
  rw [liftErc20_ok] at h2
  obtain ⟨a1, hs1, ht1⟩ := Erc20.transferFrom_eq_ok.mp h1
  obtain ⟨hb1, hsup1, hlog1⟩ := Erc20.spend_frame hs1
  obtain ⟨hc0, hself, hu1⟩ := Erc20.transferInternal_eq_ok.mp ht1
  have e1 := Erc20.update_effect (hw.asset.of_frame hb1 hsup1) hu1
  obtain ⟨hr0, hu2⟩ := Erc20.mint_eq_ok.mp h2
  have e2 := Erc20.update_effect hw.shares hu2
  have hal : as.allowances s.self_ = s.asset.allowances s.self_ := by
    rw [e1.allow]
    rcases Erc20.spend_eq_ok.mp hs1 with ⟨_, rfl⟩ | ⟨_, _, _, _, rfl⟩
    · rfl
    · funext x
      simp only [upd2]
      rw [if_neg]
      rintro ⟨h, _⟩
      exact hc h.symm
  have hbal := e1.bal
  rw [hb1] at hbal
  have hself_bal := hbal s.self_
  refine ⟨⟨⟨hw.self_, e2.sum, e1.sum, fun sp => ?_⟩, rfl, rfl, rfl, hr0, ?_, ?_, ?_, ?_, ?_⟩, rfl⟩
  · have := congrFun hal sp
    show as.allowances s.self_ sp = _
    rw [this]; exact hw.noAllowance sp
  · show (as.balances s.self_).toNat = (s.asset.balances s.self_).toNat + a.toNat
    rw [if_neg (fun e => hc e.1.symm), if_pos ⟨rfl, hself⟩] at hself_bal
    omega
  · show t.totalSupply.toNat = s.shares.totalSupply.toNat + sh.toNat
    have := e2.supply
    rw [if_neg hr0, if_pos rfl] at this
    omega
  · intro x
    have := hbal x
    simp only [hc0, hself, ne_eq, not_false_eq_true, and_true] at this
    exact this
  · intro x
    have := e2.bal x
    simp only [hr0, ne_eq, not_true_eq_false, not_false_eq_true, and_true, and_false, if_false,
      Nat.add_zero] at this
    exact this
  · exact e2.allow

/-- Effect of the movement of `withdraw` and `redeem`. -/
structure OutEffect (s s' : State) (caller receiver owner : Address) (a sh : Nat) : Prop where
  wf : WF s'
  self_ : s'.self_ = s.self_
  offset : s'.offset = s.offset
  decimals : s'.underlyingDecimals = s.underlyingDecimals
  owner_ne : owner ≠ ZERO
  receiver_ne : receiver ≠ ZERO
  held : assetsHeld s' + (if receiver = s.self_ then 0 else a) = assetsHeld s
  covered : a ≤ assetsHeld s
  supply : supply s' + sh = supply s
  assets : ∀ x, assetsOf s' x + (if x = s.self_ then a else 0)
    = assetsOf s x + (if x = receiver then a else 0)
  sharesOf : ∀ x, sharesOf s' x + (if x = owner then sh else 0) = sharesOf s x
  allowance : caller = owner ∨ s.shares.allowances owner caller = maxU256 ∨
    sh ≤ (s.shares.allowances owner caller).toNat

theorem withdrawInternal_effect {s s' : State} {caller receiver owner : Address} {a sh : U256}
    (hw : WF s) (h : withdrawInternal s caller receiver owner a sh = .ok s') :
    OutEffect s s' caller receiver owner a.toNat sh.toNat ∧
    s'.log = s.log ++ [.withdraw caller receiver owner a sh] := by
  unfold withdrawInternal at h
  simp only [bind_eq_ok, except_pure, Except.ok.injEq] at h
  obtain ⟨t1, h1, t2, h2, as, h3, rfl⟩ := h
  rw [liftErc20_ok] at h2
  rw [safeTransfer_ok] at h3
  obtain ⟨_, hr0, hu3⟩ := Erc20.transferInternal_eq_ok.mp h3
  have e3 := Erc20.update_effect hw.asset hu3
  have hfr : t1.balances = s.shares.balances ∧ t1.totalSupply = s.shares.totalSupply ∧
      (caller = owner ∨ s.shares.allowances owner caller = maxU256 ∨
        sh.toNat ≤ (s.shares.allowances owner caller).toNat) := by
    unfold spendFor at h1
    by_cases hco : caller = owner
    · simp only [hco, ne_eq, not_true_eq_false, if_false, Except.ok.injEq] at h1
      subst h1; exact ⟨rfl, rfl, Or.inl hco⟩
    · simp only [ne_eq, hco, not_false_eq_true, if_true] at h1
      rw [liftErc20_ok] at h1
      obtain ⟨f1, f2, _⟩ := Erc20.spend_frame h1
      refine ⟨f1, f2, Or.inr ?_⟩
      rcases Erc20.spend_eq_ok.mp h1 with ⟨hm, _⟩ | ⟨_, hle, _⟩
      · exact Or.inl hm
      · exact Or.inr hle
  obtain ⟨hb1, hsup1, hal⟩ := hfr
  obtain ⟨ho0, hu2⟩ := Erc20.burnInternal_eq_ok.mp h2
  have e2 := Erc20.update_effect (hw.shares.of_frame hb1 hsup1) hu2
  refine ⟨⟨⟨hw.self_, e2.sum, e3.sum, fun sp => ?_⟩, rfl, rfl, rfl, ho0, hr0, ?_,
    e3.funds hw.self_, ?_, ?_, ?_, hal⟩, rfl⟩
  · show as.allowances s.self_ sp = _
    rw [e3.allow]; exact hw.noAllowance sp
  · have hb := e3.bal s.self_
    show (as.balances s.self_).toNat + _ = (s.asset.balances s.self_).toNat
    simp only [hw.self_, hr0, ne_eq, not_false_eq_true, and_true, if_true] at hb
    by_cases e : receiver = s.self_
    · rw [if_pos e]; rw [if_pos e.symm] at hb; omega
    · rw [if_neg e]; rw [if_neg (fun e' => e e'.symm)] at hb; omega
  · have := e2.supply
    rw [if_pos rfl, if_neg ho0, hsup1] at this
    show t2.totalSupply.toNat + _ = s.shares.totalSupply.toNat
    omega
  · intro x
    have := e3.bal x
    simp only [hw.self_, hr0, ne_eq, not_false_eq_true, and_true] at this
    exact this
  · intro x
    have := e2.bal x
    rw [hb1] at this
    simp only [ho0, ne_eq, not_true_eq_false, not_false_eq_true, and_true, and_false, if_false,
      Nat.add_zero] at this
    exact this

/-! ## Inversion of the four entry points -/

theorem not_max_lt (x : U256) : ¬ maxU256 < x := by
  rw [BitVec.lt_def]
  have := x.isLt
  have : maxU256.toNat = 2 ^ 256 - 1 := by decide
  omega

theorem deposit_ok {s s' : State} {caller receiver : Address} {a sh : U256} :
    deposit s caller a receiver = .ok (sh, s') ↔
      previewDeposit s a = .ok sh ∧ depositInternal s caller receiver a sh = .ok s' := by
  unfold deposit maxDeposit
  rw [if_neg (not_max_lt a)]
  simp only [bind_eq_ok, except_pure, Except.ok.injEq, Prod.mk.injEq]
  constructor
  · rintro ⟨x, hx, y, hy, rfl, rfl⟩; exact ⟨hx, hy⟩
  · rintro ⟨h1, h2⟩; exact ⟨sh, h1, s', h2, rfl, rfl⟩

theorem mint_ok {s s' : State} {caller receiver : Address} {a sh : U256} :
    mint s caller sh receiver = .ok (a, s') ↔
      previewMint s sh = .ok a ∧ depositInternal s caller receiver a sh = .ok s' := by
  unfold mint maxMint
  rw [if_neg (not_max_lt sh)]
  simp only [bind_eq_ok, except_pure, Except.ok.injEq, Prod.mk.injEq]
  constructor
  · rintro ⟨x, hx, y, hy, rfl, rfl⟩; exact ⟨hx, hy⟩
  · rintro ⟨h1, h2⟩; exact ⟨a, h1, s', h2, rfl, rfl⟩

theorem withdraw_ok {s s' : State} {caller receiver owner : Address} {a sh : U256} :
    withdraw s caller a receiver owner = .ok (sh, s') ↔
      (∃ m, maxWithdraw s owner = .ok m ∧ a.toNat ≤ m.toNat) ∧
      previewWithdraw s a = .ok sh ∧ withdrawInternal s caller receiver owner a sh = .ok s' := by
  unfold withdraw
  simp only [bind_eq_ok, except_pure, Except.ok.injEq, Prod.mk.injEq]
  constructor
  · rintro ⟨m, hm, h⟩
    by_cases hlt : m < a
    · simp [hlt] at h
    · simp only [hlt, if_false, except_bind_ok, bind_eq_ok, Except.ok.injEq, Prod.mk.injEq] at h
      obtain ⟨x, hx, y, hy, rfl, rfl⟩ := h
      rw [BitVec.lt_def] at hlt
      exact ⟨⟨m, hm, by omega⟩, hx, hy⟩
  · rintro ⟨⟨m, hm, hle⟩, h1, h2⟩
    have hlt : ¬ m < a := by rw [BitVec.lt_def]; omega
    refine ⟨m, hm, ?_⟩
    simp only [hlt, if_false, except_bind_ok, bind_eq_ok, Except.ok.injEq, Prod.mk.injEq]
    exact ⟨sh, h1, s', h2, rfl, rfl⟩

theorem redeem_ok {s s' : State} {caller receiver owner : Address} {a sh : U256} :
    redeem s caller sh receiver owner = .ok (a, s') ↔
      sh.toNat ≤ (maxRedeem s owner).toNat ∧
      previewRedeem s sh = .ok a ∧ withdrawInternal s caller receiver owner a sh = .ok s' := by
  unfold redeem
  by_cases hlt : maxRedeem s owner < sh
  · have := BitVec.lt_def.mp hlt
    simp [hlt]
    omega
  · simp only [hlt, if_false, except_bind_ok, bind_eq_ok, except_pure, Except.ok.injEq, Prod.mk.injEq]
    rw [BitVec.lt_def] at hlt
    constructor
    · rintro ⟨x, hx, y, hy, rfl, rfl⟩; exact ⟨by omega, hx, hy⟩
    · rintro ⟨_, h1, h2⟩; exact ⟨a, h1, s', h2, rfl, rfl⟩

theorem exec_deposit {s s' : State} {c r : Address} {a : U256} :
    exec s (c, .deposit a r) = .ok s' ↔ c ≠ s.self_ ∧ ∃ sh, deposit s c a r = .ok (sh, s') := by
  unfold exec
  by_cases hc : c = s.self_
  · simp [hc]
  · simp only [hc, if_false, bind_eq_ok, except_pure, Except.ok.injEq, ne_eq, not_false_eq_true,
      true_and]
    constructor
    · rintro ⟨⟨sh, y⟩, h, rfl⟩; exact ⟨sh, h⟩
    · rintro ⟨sh, h⟩; exact ⟨_, h, rfl⟩

theorem exec_mint {s s' : State} {c r : Address} {sh : U256} :
    exec s (c, .mint sh r) = .ok s' ↔ c ≠ s.self_ ∧ ∃ a, mint s c sh r = .ok (a, s') := by
  unfold exec
  by_cases hc : c = s.self_
  · simp [hc]
  · simp only [hc, if_false, bind_eq_ok, except_pure, Except.ok.injEq, ne_eq, not_false_eq_true,
      true_and]
    constructor
    · rintro ⟨⟨sh, y⟩, h, rfl⟩; exact ⟨sh, h⟩
    · rintro ⟨sh, h⟩; exact ⟨_, h, rfl⟩

theorem exec_withdraw {s s' : State} {c r o : Address} {a : U256} :
    exec s (c, .withdraw a r o) = .ok s' ↔ c ≠ s.self_ ∧ ∃ sh, withdraw s c a r o = .ok (sh, s') := by
  unfold exec
  by_cases hc : c = s.self_
  · simp [hc]
  · simp only [hc, if_false, bind_eq_ok, except_pure, Except.ok.injEq, ne_eq, not_false_eq_true,
      true_and]
    constructor
    · rintro ⟨⟨sh, y⟩, h, rfl⟩; exact ⟨sh, h⟩
    · rintro ⟨sh, h⟩; exact ⟨_, h, rfl⟩

theorem exec_redeem {s s' : State} {c r o : Address} {sh : U256} :
    exec s (c, .redeem sh r o) = .ok s' ↔ c ≠ s.self_ ∧ ∃ a, redeem s c sh r o = .ok (a, s') := by
  unfold exec
  by_cases hc : c = s.self_
  · simp [hc]
  · simp only [hc, if_false, bind_eq_ok, except_pure, Except.ok.injEq, ne_eq, not_false_eq_true,
      true_and]
    constructor
    · rintro ⟨⟨sh, y⟩, h, rfl⟩; exact ⟨sh, h⟩
    · rintro ⟨sh, h⟩; exact ⟨_, h, rfl⟩

/-! ## Calls that leave the vault accounting alone -/

/-- What share transfers, approvals and foreign asset token calls can do to the vault. -/
structure SideEffect (s s' : State) : Prop where
  wf : WF s'
  self_ : s'.self_ = s.self_
  offset : s'.offset = s.offset
  decimals : s'.underlyingDecimals = s.underlyingDecimals
  supply : supply s' = supply s
  held : assetsHeld s ≤ assetsHeld s'
  log : s'.log = s.log

theorem exec_share {s s' : State} {c : Address} {k : ShareCall} (hw : WF s)
    (h : exec s (c, .share k) = .ok s') : SideEffect s s' := by
  unfold exec at h
  by_cases hc : c = s.self_
  · simp [hc] at h
  · simp only [hc, if_false] at h
    have fin : ∀ t, Erc20.SumOk t → t.totalSupply = s.shares.totalSupply →
        SideEffect s { s with shares := t } := by
      intro t h1 h2
      exact ⟨⟨hw.self_, h1, hw.asset, hw.noAllowance⟩, rfl, rfl, rfl,
        by show t.totalSupply.toNat = _; rw [h2]; rfl, le_refl _, rfl⟩
    cases k with
    | transfer dst v =>
      simp only [bind_eq_ok, except_pure, Except.ok.injEq, liftErc20_ok] at h
      obtain ⟨t, ht, rfl⟩ := h
      obtain ⟨h1, h2, hu⟩ := Erc20.transferInternal_eq_ok.mp ht
      have e := Erc20.update_effect hw.shares hu
      have := e.supply
      rw [if_neg h1, if_neg h2] at this
      exact fin t e.sum (BitVec.eq_of_toNat_eq (by omega))
    | transferFrom src dst v =>
      simp only [bind_eq_ok, except_pure, Except.ok.injEq, liftErc20_ok] at h
      obtain ⟨t, ht, rfl⟩ := h
      obtain ⟨t1, hs1, ht1⟩ := Erc20.transferFrom_eq_ok.mp ht
      obtain ⟨hb, hsup, _⟩ := Erc20.spend_frame hs1
      obtain ⟨h1, h2, hu⟩ := Erc20.transferInternal_eq_ok.mp ht1
      have e := Erc20.update_effect (hw.shares.of_frame hb hsup) hu
      have := e.supply
      rw [if_neg h1, if_neg h2, hsup] at this
      exact fin t e.sum (BitVec.eq_of_toNat_eq (by omega))
    | approve sp v =>
      simp only [bind_eq_ok, except_pure, Except.ok.injEq, liftErc20_ok] at h
      obtain ⟨t, ht, rfl⟩ := h
      obtain ⟨_, _, rfl⟩ := Erc20.approve_eq_ok.mp ht
      exact fin _ (hw.shares.of_frame rfl rfl) rfl

theorem exec_asset {s s' : State} {c : Address} {k : Erc20.Call} (hw : WF s)
    (h : exec s (c, .asset k) = .ok s') : SideEffect s s' ∧ s'.shares = s.shares := by
  unfold exec at h
  by_cases hc : c = s.self_
  · simp [hc] at h
  · simp only [hc, if_false, bind_eq_ok, except_pure, Except.ok.injEq, liftErc20_ok] at h
    obtain ⟨t, ht, rfl⟩ := h
    have hsum := Erc20.sumOk_exec hw.asset ht
    have hx : (∀ sp, t.allowances s.self_ sp = 0#256) ∧
        (s.asset.balances s.self_).toNat ≤ (t.balances s.self_).toNat :=
      Erc20.exec_foreign hw.asset hw.noAllowance hc ht
    exact ⟨⟨⟨hw.self_, hw.shares, hsum, hx.1⟩, rfl, rfl, rfl, rfl, hx.2, rfl⟩, rfl⟩

theorem wf_exec {s s' : State} {op : Address × Call} (hw : WF s) (h : exec s op = .ok s') : WF s' := by
  obtain ⟨c, k⟩ := op
  cases k with
  | deposit a r =>
    obtain ⟨hc, sh, h1⟩ := exec_deposit.mp h
    exact (depositInternal_effect hw hc (deposit_ok.mp h1).2).1.wf
  | mint sh r =>
    obtain ⟨hc, a, h1⟩ := exec_mint.mp h
    exact (depositInternal_effect hw hc (mint_ok.mp h1).2).1.wf
  | withdraw a r o =>
    obtain ⟨hc, sh, h1⟩ := exec_withdraw.mp h
    exact (withdrawInternal_effect hw (withdraw_ok.mp h1).2.2).1.wf
  | redeem sh r o =>
    obtain ⟨hc, a, h1⟩ := exec_redeem.mp h
    exact (withdrawInternal_effect hw (redeem_ok.mp h1).2.2).1.wf
  | share k => exact (exec_share hw h).wf
  | asset k => exact (exec_asset hw h).1.wf

theorem wf_init {me : Address} (d o : U8) (h : me ≠ ZERO) : WF (init me d o) :=
  ⟨h, Erc20.sumOk_init, Erc20.sumOk_init, fun _ => rfl⟩

theorem wf_run {s : State} (ops : List (Address × Call)) (hw : WF s) : WF (run s ops) :=
  run_invariant (fun _ _ _ h he => wf_exec h he) ops s hw

theorem wf_reachable {s : State} (h : Reachable s) : WF s := by
  obtain ⟨me, d, o, ops, hme, rfl⟩ := h
  exact wf_run ops (wf_init d o hme)

end Verif.Erc4626
