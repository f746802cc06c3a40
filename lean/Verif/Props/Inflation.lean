import Verif.Spec.Inflation
import Verif.Props.Erc4626
/-! # C24: no attack on the depositors pays, whatever is done and however many attack -/

namespace Verif.Props.Inflation
open Verif Verif.Erc4626 Verif.Spec.Erc4626 Verif.Spec.Inflation Verif.Props.Erc4626

/-- What the marked transactions have paid is no more than their shares are worth, one share more for each marked deposit and
one unit more for each marked mint. -/
structure Inv (b : Books) (n m : Nat) : Prop where
  reach : Reachable b.vault
  sum : b.put + b.paid = assetsHeld b.vault + b.taken
  worth : b.paid * (supply b.vault + virtualShares b.vault) ≤
    (b.got + n) * (assetsHeld b.vault + 1) + m * (supply b.vault + virtualShares b.vault)
  strict : n + m = 0 ∧ b.got = 0 ∧ b.paid = 0 ∨ b.paid * (supply b.vault + virtualShares b.vault) <
    (b.got + n) * (assetsHeld b.vault + 1) + m * (supply b.vault + virtualShares b.vault)

/-- A price that has not fallen covers what the old one did. -/
theorem carry {B M B' M' U y m : Nat} (hM : 0 < M) (hr : B * M' ≤ B' * M) (h : U * M ≤ y * B + m * M) :
    U * M' ≤ y * B' + m * M' := by
  apply Nat.le_of_mul_le_mul_right _ hM
  have h1 : U * M * M' ≤ (y * B + m * M) * M' := Nat.mul_le_mul_right _ h
  have h2 : y * (B * M') ≤ y * (B' * M) := Nat.mul_le_mul_left _ hr
  nlinarith

theorem carry_lt {B M B' M' U y m : Nat} (hM' : 0 < M') (hr : B * M' ≤ B' * M) (h : U * M < y * B + m * M) :
    U * M' < y * B' + m * M' := by
  apply Nat.lt_of_mul_lt_mul_right (a := M)
  have h1 : U * M * M' < (y * B + m * M) * M' := Nat.mul_lt_mul_of_pos_right h hM'
  have h2 : y * (B * M') ≤ y * (B' * M) := Nat.mul_le_mul_left _ hr
  nlinarith

theorem step_unmarked {b : Books} {n m : Nat} (h : Inv b n m) (op : Address × Call) : Inv (b.step (false, op)) n m := by
  unfold Books.step
  cases hx : exec b.vault op with
  | error e =>
    simp only [Bool.false_eq_true, if_false, Nat.sub_self, Nat.add_zero]
    exact h
  | ok v =>
    simp only [Bool.false_eq_true, if_false]
    have hr : Reachable v := by
      have := reachable_step h.reach op
      rwa [stepOf_ok hx] at this
    have rate := C22_step b.vault v h.reach op hx
    have p := virtual_pos b.vault
    have p' := virtual_pos v
    refine ⟨hr, ?_, ?_, ?_⟩
    · have := h.sum
      show b.put + (assetsHeld v - assetsHeld b.vault) + b.paid = assetsHeld v + (b.taken + (assetsHeld b.vault - assetsHeld v))
      omega
    · exact carry (by omega) rate h.worth
    · rcases h.strict with z | z
      · exact .inl z
      · exact .inr (carry_lt (show 0 < supply v + virtualShares v by omega) rate z)

/-- Marked transactions that create `x` shares for `u` of the asset. -/
theorem enter {b : Books} {n m n' m' : Nat} (h : Inv b n m) {op : Address × Call} {v : State} (hx : exec b.vault op = .ok v)
    {u x : Nat} (hA : assetsHeld v = assetsHeld b.vault + u) (hS : supply v = supply b.vault + x)
    (hn : u * (supply b.vault + virtualShares b.vault) + n * (assetsHeld b.vault + 1) + m * (supply b.vault + virtualShares b.vault) <
      (x + n') * (assetsHeld b.vault + 1) + m' * (supply b.vault + virtualShares b.vault)) :
    Inv (b.step (true, op)) n' m' := by
  unfold Books.step
  simp only [hx, if_true]
  have hr : Reachable v := by
    have := reachable_step h.reach op
    rwa [stepOf_ok hx] at this
  have rate := C22_step b.vault v h.reach op hx
  have p := virtual_pos b.vault
  have p' := virtual_pos v
  have e1 : assetsHeld v - assetsHeld b.vault = u := by omega
  have e2 : supply v - supply b.vault = x := by omega
  rw [e1, e2]
  have key : (b.paid + u) * (supply v + virtualShares v) < (b.got + x + n') * (assetsHeld v + 1) + m' * (supply v + virtualShares v) := by
    refine carry_lt (B := assetsHeld b.vault + 1) (M := supply b.vault + virtualShares b.vault) (by omega) rate ?_
    have := h.worth
    generalize supply b.vault + virtualShares b.vault = M at *
    generalize assetsHeld b.vault + 1 = B at *
    nlinarith
  exact ⟨hr, by have := h.sum; simp only; omega, le_of_lt key, .inr key⟩

theorem failed {b : Books} {n m n' m' : Nat} (h : Inv b n m) {op : Address × Call} {e : Err} (hx : exec b.vault op = .error e)
    (hn : n ≤ n') (hm : m ≤ m') (hlt : n < n' ∨ m < m') : Inv (b.step (true, op)) n' m' := by
  unfold Books.step
  simp only [hx, if_true, Nat.sub_self, Nat.add_zero]
  have p := virtual_pos b.vault
  have key : b.paid * (supply b.vault + virtualShares b.vault) <
      (b.got + n') * (assetsHeld b.vault + 1) + m' * (supply b.vault + virtualShares b.vault) := by
    refine lt_of_le_of_lt h.worth ?_
    rcases hlt with hlt | hlt
    · exact Nat.add_lt_add_of_lt_of_le (Nat.mul_lt_mul_of_pos_right (by omega) (by omega)) (Nat.mul_le_mul_right _ hm)
    · exact Nat.add_lt_add_of_le_of_lt (Nat.mul_le_mul_right _ (by omega)) (Nat.mul_lt_mul_of_pos_right hlt (by omega))
  exact ⟨h.reach, h.sum, le_of_lt key, .inr key⟩

theorem step_deposit {b : Books} {n m : Nat} (h : Inv b n m) (c : Address) (a : U256) (r : Address) :
    Inv (b.step (true, (c, .deposit a r))) (n + 1) m := by
  cases hx : exec b.vault (c, .deposit a r) with
  | error e => exact failed h hx (by omega) (le_refl _) (.inl (by omega))
  | ok v =>
    obtain ⟨hc, sh, h1⟩ := exec_deposit.mp hx
    obtain ⟨h2, h3⟩ := deposit_ok.mp h1
    have e := (depositInternal_effect (wf_reachable h.reach) hc h3).1
    have q := ((C19_shares_floor b.vault a sh).1.mp h2).2.2
    refine enter h hx e.held e.supply ?_
    generalize supply b.vault + virtualShares b.vault = M at *
    generalize assetsHeld b.vault + 1 = B at *
    nlinarith

theorem step_mint {b : Books} {n m : Nat} (h : Inv b n m) (c : Address) (x : U256) (r : Address) :
    Inv (b.step (true, (c, .mint x r))) n (m + 1) := by
  cases hx : exec b.vault (c, .mint x r) with
  | error e => exact failed h hx (le_refl _) (by omega) (.inr (by omega))
  | ok v =>
    obtain ⟨hc, a, h1⟩ := exec_mint.mp hx
    obtain ⟨h2, h3⟩ := mint_ok.mp h1
    have e := (depositInternal_effect (wf_reachable h.reach) hc h3).1
    have q := ((C19_assets_ceil b.vault x a).mp h2).2.2
    have p := virtual_pos b.vault
    have hM : 0 < supply b.vault + virtualShares b.vault := by omega
    have q' : a.toNat * (supply b.vault + virtualShares b.vault) <
        x.toNat * (assetsHeld b.vault + 1) + (supply b.vault + virtualShares b.vault) := by
      generalize supply b.vault + virtualShares b.vault = M at *
      generalize assetsHeld b.vault + 1 = B at *
      by_contra hge
      obtain ⟨k, hk⟩ : ∃ k, a.toNat = k + 1 := by
        refine ⟨a.toNat - 1, ?_⟩
        rcases Nat.eq_zero_or_pos a.toNat with z | z
        · rw [z] at hge; omega
        · omega
      have := q k (by rw [hk] at hge; nlinarith)
      omega
    refine enter h hx e.held e.supply ?_
    generalize supply b.vault + virtualShares b.vault = M at *
    generalize assetsHeld b.vault + 1 = B at *
    nlinarith

theorem step_books {b : Books} (l : List (Bool × (Address × Call))) (hl : OnlyEnter l) {n m : Nat} (h : Inv b n m) :
    Inv (b.after l) (n + deposits l) (m + mints l) := by
  induction l generalizing b n m with
  | nil => exact h
  | cons x l ih =>
    have hl' : OnlyEnter l := fun y hy => hl y (by simp [hy])
    obtain ⟨k, c, op⟩ := x
    cases k with
    | false =>
      have := ih hl' (step_unmarked h (c, op))
      rw [show deposits ((false, c, op) :: l) = deposits l by simp [deposits], show mints ((false, c, op) :: l) = mints l by simp [mints]]
      exact this
    | true =>
      rcases hl _ (List.mem_cons_self ..) rfl with ⟨a, r, e⟩ | ⟨a, r, e⟩
      · simp only at e
        subst e
        have := ih hl' (step_deposit h c a r)
        rw [show n + deposits ((true, c, .deposit a r) :: l) = n + 1 + deposits l by simp [deposits]; omega,
          show m + mints ((true, c, .deposit a r) :: l) = m + mints l by simp [mints]]
        exact this
      · simp only at e
        subst e
        have := ih hl' (step_mint h c a r)
        rw [show n + deposits ((true, c, .mint a r) :: l) = n + deposits l by simp [deposits],
          show m + mints ((true, c, .mint a r) :: l) = m + 1 + mints l by simp [mints]; omega]
        exact this

theorem exec_offset {s s' : State} (hw : WF s) {op : Address × Call} (h : exec s op = .ok s') : s'.offset = s.offset := by
  obtain ⟨c, k⟩ := op
  cases k with
  | deposit a r =>
    obtain ⟨hc, sh, h1⟩ := exec_deposit.mp h
    exact (depositInternal_effect hw hc (deposit_ok.mp h1).2).1.offset
  | mint sh r =>
    obtain ⟨hc, a, h1⟩ := exec_mint.mp h
    exact (depositInternal_effect hw hc (mint_ok.mp h1).2).1.offset
  | withdraw a r o =>
    obtain ⟨hc, sh, h1⟩ := exec_withdraw.mp h
    exact (withdrawInternal_effect hw (withdraw_ok.mp h1).2.2).1.offset
  | redeem sh r o =>
    obtain ⟨hc, a, h1⟩ := exec_redeem.mp h
    exact (withdrawInternal_effect hw (redeem_ok.mp h1).2.2).1.offset
  | share k => exact (exec_share hw h).offset
  | asset k => exact (exec_asset hw h).1.offset

theorem step_offset (b : Books) (x : Bool × (Address × Call)) (hb : Reachable b.vault) : (b.step x).vault.offset = b.vault.offset := by
  unfold Books.step
  cases hx : exec b.vault x.2 with
  | error e => cases x.1 <;> simp
  | ok v =>
    have : v.offset = b.vault.offset := exec_offset (wf_reachable hb) hx
    cases x.1 <;> simp [this]

/-- **C24** A new vault, any history of any transactions, some of the deposits and mints marked, at most `10^offset` deposits.
Then all others together never gain: what they have taken out, and what all shares that do not come from the marked transactions
would give if redeemed now, is no more than what they put in, but for one unit of the asset for every marked mint. -/
theorem C24_any_attack (self_ : Address) (hself : self_ ≠ ZERO) (decimals offset : U8) (l : List (Bool × (Address × Call)))
    (hl : OnlyEnter l) (hn : deposits l ≤ 10 ^ offset.toNat) (shares worth : U256) :
    let b := (start self_ decimals offset).after l
    shares.toNat + b.got ≤ supply b.vault → previewRedeem b.vault shares = .ok worth →
    b.taken + worth.toNat ≤ b.put + mints l := by
  intro b hs hw
  have h0 : Inv (start self_ decimals offset) 0 0 := ⟨⟨self_, decimals, offset, [], hself, rfl⟩, rfl, by simp [start], .inl ⟨rfl, rfl, rfl⟩⟩
  have h := step_books l hl h0
  have hV : virtualShares b.vault = 10 ^ offset.toNat := by
    have key : ∀ (l : List (Bool × (Address × Call))) (b : Books), Reachable b.vault → (b.after l).vault.offset = b.vault.offset := by
      intro l
      induction l with
      | nil => intro b _; rfl
      | cons x l ih =>
        intro b hb
        show ((b.step x).after l).vault.offset = _
        rw [ih _ ?_, step_offset b x hb]
        have := reachable_step hb x.2
        unfold stepOf at this
        unfold Books.step
        cases hx : exec b.vault x.2 <;> rw [hx] at this <;> cases x.1 <;> exact this
    unfold virtualShares
    rw [key l _ h0.reach]
    rfl
  rw [Nat.zero_add, Nat.zero_add] at h
  have hq := ((C19_assets_floor b.vault shares worth).1.mp hw).2.1
  have p := virtual_pos b.vault
  have hs1 := h.sum
  have hst := h.strict
  change deposits l + mints l = 0 ∧ b.got = 0 ∧ b.paid = 0 ∨ b.paid * (supply b.vault + virtualShares b.vault) <
    (b.got + deposits l) * (assetsHeld b.vault + 1) + mints l * (supply b.vault + virtualShares b.vault) at hst
  change b.put + b.paid = assetsHeld b.vault + b.taken at hs1
  rw [← hV] at hn
  have hB : 0 < assetsHeld b.vault + 1 := by omega
  have key : worth.toNat + b.paid < assetsHeld b.vault + 1 + mints l := by
    generalize virtualShares b.vault = V at *
    generalize assetsHeld b.vault + 1 = B at *
    apply Nat.lt_of_mul_lt_mul_right (a := supply b.vault + V)
    generalize supply b.vault = S at *
    rcases hst with ⟨z1, z2, z3⟩ | hst
    · have : shares.toNat * B < (S + V) * B := Nat.mul_lt_mul_of_pos_right (by omega) hB
      rw [z3]
      nlinarith
    · have k1 : (shares.toNat + b.got + deposits l) * B ≤ (S + V) * B := Nat.mul_le_mul_right _ (by omega)
      nlinarith
  omega

/-! ### The hypotheses are met, and the number of deposits matters -/

def me : Address := 9#160
def eve : Address := 1#160
def alice : Address := 2#160
def bob : Address := 3#160

/-- Eve deposits 1 and donates 198, so that a share costs 100; Alice deposits 99 and gets nothing for it. -/
def one : List (Bool × (Address × Call)) :=
  [(false, eve, .asset (.mint eve 1000#256)), (false, alice, .asset (.mint alice 1000#256)), (false, bob, .asset (.mint bob 1000#256)),
   (false, eve, .asset (.approve me 1000#256)), (false, alice, .asset (.approve me 1000#256)), (false, bob, .asset (.approve me 1000#256)),
   (false, eve, .deposit 1#256 eve), (false, eve, .asset (.transfer me 198#256)), (true, alice, .deposit 99#256 alice)]

/-- Then Bob does the same with 149, and Eve redeems. -/
def two : List (Bool × (Address × Call)) := one ++ [(true, bob, .deposit 149#256 bob), (false, eve, .redeem 1#256 eve eve)]

/-- Or Bob mints two shares. -/
def both : List (Bool × (Address × Call)) := one ++ [(true, bob, .mint 2#256 bob)]

private theorem both_enter : OnlyEnter both := by
  intro x hx
  simp only [both, one, List.cons_append, List.nil_append, List.mem_cons, List.not_mem_nil, or_false] at hx
  rcases hx with rfl | rfl | rfl | rfl | rfl | rfl | rfl | rfl | rfl | rfl <;> simp

-- Eve put in 199 and could take out 149
example : deposits both = 1 ∧ mints both = 1 ∧ OnlyEnter both := ⟨by decide, by decide, both_enter⟩
example : let b := (start me 6#8 0#8).after both
    b.put = 199 ∧ b.got = 2 ∧ supply b.vault = 3 ∧ b.taken = 0 ∧ previewRedeem b.vault 1#256 = .ok 149#256 := by decide +kernel

/-- **C24** The number of deposits cannot be left out: in a vault without offset two depositors who accept no shares for their
deposits make the attack pay; Eve put in 199 and took out 224. -/
theorem C24_two_depositors :
    OnlyEnter two ∧ deposits two = 2 ∧ mints two = 0 ∧
    let b := (start me 6#8 0#8).after two
    b.put = 199 ∧ b.taken = 224 ∧ b.paid = 248 ∧ b.got = 0 := by
  refine ⟨?_, by decide, by decide, by decide +kernel⟩
  intro x hx
  simp only [two, one, List.cons_append, List.nil_append, List.mem_cons, List.not_mem_nil, or_false] at hx
  rcases hx with rfl | rfl | rfl | rfl | rfl | rfl | rfl | rfl | rfl | rfl | rfl <;> simp

end Verif.Props.Inflation
