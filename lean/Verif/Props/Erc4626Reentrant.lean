import Verif.Model.Erc4626Reentrant
import Verif.Props.Erc4626
/-! # C90: the vault over an asset with hooks -/

namespace Verif.Props.Erc4626Reentrant
open Verif.Erc4626 Verif.Spec.Erc4626 Verif.Props.Erc4626
open Verif.Erc4626.Reentrant (execWith Hooks erc777)

/-! ## Decomposition of one call -/

private theorem depositR_ok {before : State → State} {s s' : State} {c r : Address} {a sh : U256}
    (hself : (before s).self_ = s.self_)
    (h : Reentrant.depositInternal before (fun t => t) s c r a sh = .ok s') :
    depositInternal (before s) c r a sh = .ok s' := by
  unfold Reentrant.depositInternal at h
  unfold depositInternal
  dsimp only at h
  rw [← hself] at h
  simp only [bind_eq_ok, except_pure, Except.ok.injEq] at h ⊢
  exact h

private theorem withdrawR_ok {after : State → State} {s s' : State} {c r o : Address} {a sh : U256}
    (h : Reentrant.withdrawInternal (fun t => t) after s c r o a sh = .ok s') :
    ∃ s1, withdrawInternal s c r o a sh = .ok s1 ∧
      ∃ s2, s2 = after { s1 with log := s.log } ∧
        s' = { s2 with log := s2.log ++ [.withdraw c r o a sh] } := by
  unfold Reentrant.withdrawInternal at h
  unfold withdrawInternal
  simp only [bind_eq_ok, except_pure, Except.ok.injEq] at h ⊢
  obtain ⟨t1, h1, t2, h2, as, h3, h4⟩ := h
  exact ⟨_, ⟨t1, h1, t2, h2, as, h3, rfl⟩, _, rfl, h4.symm⟩

/-- What a call amounts to: money came in at a price fixed in `s` after something else happened, or went
out at a price fixed in `s` before something else happened, or it was a plain call. -/
private inductive Shape (before after : State → State) (s s' : State) (c : Address) : Prop where
  | in_ (r : Address) (a sh : U256) (hc : c ≠ s.self_)
      (price : sh.toNat * (assetsHeld s + 1) ≤ a.toNat * (supply s + virtualShares s))
      (h : Reentrant.depositInternal before (fun t => t) s c r a sh = .ok s')
  | out (r o : Address) (a sh : U256) (hc : c ≠ s.self_)
      (price : a.toNat * (supply s + virtualShares s) ≤ sh.toNat * (assetsHeld s + 1))
      (h : Reentrant.withdrawInternal (fun t => t) after s c r o a sh = .ok s')
  | share (k : ShareCall) (h : exec s (c, .share k) = .ok s')
  | asset (k : Erc20.Call) (h : exec s (c, .asset k) = .ok s')

private theorem shape {before after : State → State} {s s' : State} {op : Address × Call}
    (h : execWith erc777 before after s op = .ok s') : Shape before after s s' op.1 := by
  obtain ⟨c, k⟩ := op
  unfold execWith at h
  by_cases hc : c = s.self_
  · simp [hc] at h
  simp only [hc, if_false] at h
  cases k with
  | deposit a r =>
    unfold Reentrant.deposit maxDeposit erc777 at h
    simp only [not_max_lt, if_false, bind_eq_ok, Bool.false_eq_true] at h
    obtain ⟨sh, h1, h2⟩ := h
    exact .in_ r a sh hc ((C19_shares_floor s a sh).1.mp h1).2.1 h2
  | mint sh r =>
    unfold Reentrant.mint maxMint erc777 at h
    simp only [not_max_lt, if_false, bind_eq_ok, Bool.false_eq_true] at h
    obtain ⟨a, h1, h2⟩ := h
    exact .in_ r a sh hc ((C19_assets_ceil s sh a).mp h1).2.1 h2
  | withdraw a r o =>
    unfold Reentrant.withdraw erc777 at h
    simp only [if_false, bind_eq_ok, Bool.false_eq_true] at h
    obtain ⟨m, _, h⟩ := h
    by_cases hm : m < a
    · simp [hm] at h
    · simp only [hm, if_false, bind_eq_ok] at h
      obtain ⟨sh, h1, h2⟩ := h
      exact .out r o a sh hc ((C19_shares_ceil s a sh).mp h1).2.1 h2
  | redeem sh r o =>
    unfold Reentrant.redeem erc777 at h
    simp only [if_false, Bool.false_eq_true] at h
    by_cases hm : maxRedeem s o < sh
    · simp [hm] at h
    · simp only [hm, if_false, bind_eq_ok] at h
      obtain ⟨a, h1, h2⟩ := h
      exact .out r o a sh hc ((C19_assets_floor s sh a).1.mp h1).2.1 h2
  | share k => exact .share k h
  | asset k => exact .asset k h

/-- **C90.** With an asset that never calls back, the vault is the vault of C19 to C23. -/
theorem C90_passive (H : Hooks) (s : State) (op : Address × Call) :
    execWith H (fun t => t) (fun t => t) s op = exec s op := by
  obtain ⟨c, k⟩ := op
  unfold execWith
  by_cases hc : c = s.self_
  · unfold exec; simp [hc]
  have hd : ∀ x y z w, Reentrant.depositInternal (fun t => t) (fun t => t) s x y z w =
      depositInternal s x y z w := fun _ _ _ _ => rfl
  have hwi : ∀ x y z v w, Reentrant.withdrawInternal (fun t => t) (fun t => t) s x y z v w =
      withdrawInternal s x y z v w := fun _ _ _ _ _ => rfl
  cases k with
  | deposit a r =>
    unfold exec Reentrant.deposit deposit
    simp only [hc, if_false, ite_self, hd]
    by_cases hm : maxDeposit s r < a
    · simp [hm]
    · simp only [hm, if_false]
      cases previewDeposit s a with
      | error e => rfl
      | ok sh => simp only [except_bind_ok]; cases depositInternal s c r a sh <;> rfl
  | mint sh r =>
    unfold exec Reentrant.mint mint
    simp only [hc, if_false, ite_self, hd]
    by_cases hm : maxMint s r < sh
    · simp [hm]
    · simp only [hm, if_false]
      cases previewMint s sh with
      | error e => rfl
      | ok a => simp only [except_bind_ok]; cases depositInternal s c r a sh <;> rfl
  | withdraw a r o =>
    unfold exec Reentrant.withdraw withdraw
    simp only [hc, if_false, ite_self, hwi]
    cases maxWithdraw s o with
    | error e => rfl
    | ok m =>
      simp only [except_bind_ok]
      by_cases hm : m < a
      · simp [hm]
      · simp only [hm, if_false]
        cases previewWithdraw s a with
        | error e => rfl
        | ok sh => simp only [except_bind_ok]; cases withdrawInternal s c r o a sh <;> rfl
  | redeem sh r o =>
    unfold exec Reentrant.redeem redeem
    simp only [hc, if_false, ite_self, hwi]
    by_cases hm : maxRedeem s o < sh
    · simp [hm]
    · simp only [hm, if_false]
      cases previewRedeem s sh with
      | error e => rfl
      | ok a => simp only [except_bind_ok]; cases withdrawInternal s c r o a sh <;> rfl
  | share k => simp only [hc, if_false]
  | asset k => simp only [hc, if_false]

/-! ## The rate -/

/-- A well-formed vault stays one, keeps its address and offset, and its rate does not fall. -/
private def Keeps (s s' : State) : Prop :=
  WF s → WF s' ∧ s'.self_ = s.self_ ∧ s'.offset = s.offset ∧ RateLe s s'

private theorem keeps_refl (s : State) : Keeps s s := fun h => ⟨h, rfl, rfl, rate_refl s⟩
private theorem keeps_trans (a b c : State) (h1 : Keeps a b) (h2 : Keeps b c) : Keeps a c := by
  intro h
  obtain ⟨w, e1, e2, r⟩ := h1 h
  obtain ⟨w', e3, e4, r'⟩ := h2 w
  exact ⟨w', e3.trans e1, e4.trans e2, rate_trans r r'⟩

private theorem wf_log {s : State} {l : List Event} (h : WF s) : WF { s with log := l } :=
  ⟨h.self_, h.shares, h.asset, h.noAllowance⟩

/-- Money coming in at the old price does not bring the rate below the old one. -/
private theorem rate_in_late {A S A1 S1 V x y : Nat} (h0 : (A + 1) * (S1 + V) ≤ (A1 + 1) * (S + V))
    (h : y * (A + 1) ≤ x * (S + V)) : (A + 1) * (S1 + y + V) ≤ (A1 + x + 1) * (S + V) := by
  have e1 : (A + 1) * (S1 + y + V) = (A + 1) * (S1 + V) + y * (A + 1) := by ring
  have e2 : (A1 + x + 1) * (S + V) = (A1 + 1) * (S + V) + x * (S + V) := by ring
  rw [e1, e2]; omega

private theorem keeps_step (before after : State → State) (s : State) (op : Address × Call) (s' : State)
    (hb : ∀ t, Keeps t (before t)) (ha : ∀ t, Keeps t (after t))
    (h : execWith erc777 before after s op = .ok s') : Keeps s s' := by
  intro hw
  have vs : ∀ t : State, t.offset = s.offset → virtualShares t = virtualShares s := fun t e => by
    unfold virtualShares; rw [e]
  cases shape h with
  | in_ r a sh hc price hd =>
    obtain ⟨w1, e1, e2, r1⟩ := hb s hw
    have hd := depositR_ok e1 hd
    have e := (depositInternal_effect w1 (by rw [e1]; exact hc) hd).1
    refine ⟨e.wf, e.self_.trans e1, e.offset.trans e2, ?_⟩
    unfold RateLe at *
    rw [vs _ (e.offset.trans e2), e.held, e.supply]
    rw [vs _ e2] at r1
    exact rate_in_late r1 price
  | out r o a sh hc price hd =>
    obtain ⟨s1, h1, s2, hs2, rfl⟩ := withdrawR_ok hd
    have e := (withdrawInternal_effect hw h1).1
    have hk : Keeps s { s1 with log := s.log } := by
      intro _
      refine ⟨wf_log e.wf, e.self_, e.offset, ?_⟩
      unfold RateLe
      rw [vs { s1 with log := s.log } e.offset]
      refine rate_out (x := a.toNat) ?_ e.supply price
      have := e.held
      show assetsHeld s ≤ assetsHeld s1 + a.toNat
      split at this <;> omega
    have := keeps_trans _ _ _ hk (ha _)
    rw [← hs2] at this
    obtain ⟨w2, f1, f2, f3⟩ := this hw
    exact ⟨wf_log w2, f1, f2, f3⟩
  | share k hx =>
    have e := exec_share hw hx
    refine ⟨e.wf, e.self_, e.offset, ?_⟩
    unfold RateLe
    rw [vs _ e.offset, e.supply]
    exact Nat.mul_le_mul_right _ (Nat.succ_le_succ e.held)
  | asset k hx =>
    have e := (exec_asset hw hx).1
    refine ⟨e.wf, e.self_, e.offset, ?_⟩
    unfold RateLe
    rw [vs _ e.offset, e.supply]
    exact Nat.mul_le_mul_right _ (Nat.succ_le_succ e.held)

private theorem run_keeps (s : State) (calls : List (HookTree (Address × Call))) :
    Keeps s (Reentrant.run erc777 s calls) :=
  HookTree.relate _ Keeps keeps_refl keeps_trans keeps_step calls s

private theorem run_append (H : Hooks) (s : State) (xs ys : List (HookTree (Address × Call))) :
    Reentrant.run H s (xs ++ ys) = Reentrant.run H (Reentrant.run H s xs) ys := by
  unfold Reentrant.run
  induction xs generalizing s with
  | nil => rw [List.nil_append]; congr 1
  | cons x xs ih => rw [List.cons_append, HookTree.execAll, HookTree.execAll, ih]

/-- **C90.** Over an asset that calls others before assets move in and after assets move out, at any
depth, the vault's rate at the end of every history is at least what it was at any earlier point between
calls. -/
theorem C90_rate_never_falls (me : Address) (hme : me ≠ ZERO) (d o : U8)
    (earlier later : List (HookTree (Address × Call))) :
    RateLe (Reentrant.run erc777 (init me d o) earlier)
      (Reentrant.run erc777 (init me d o) (earlier ++ later)) := by
  rw [run_append]
  have hw := (run_keeps (init me d o) earlier (wf_init d o hme)).1
  exact (run_keeps _ later hw).2.2.2

/-- **C90.** So whatever anybody does, nested in whatever way, a given number of shares converts into at
least as many assets afterwards as before. -/
theorem C90_convertible_never_falls (me : Address) (hme : me ≠ ZERO) (d o : U8)
    (earlier later : List (HookTree (Address × Call))) (sh x y : U256)
    (hx : convertToAssets (Reentrant.run erc777 (init me d o) earlier) sh = .ok x)
    (hy : convertToAssets (Reentrant.run erc777 (init me d o) (earlier ++ later)) sh = .ok y) :
    x.toNat ≤ y.toNat := by
  have hr := C90_rate_never_falls me hme d o earlier later
  obtain ⟨_, h1, _⟩ := (C19_assets_floor _ sh x).1.mp hx
  obtain ⟨_, _, h2⟩ := (C19_assets_floor _ sh y).1.mp hy
  unfold RateLe at hr
  generalize Reentrant.run erc777 (init me d o) earlier = s at *
  generalize Reentrant.run erc777 (init me d o) (earlier ++ later) = t at *
  have p1 := virtual_pos s
  have p2 := virtual_pos t
  generalize hD : supply s + virtualShares s = D at *
  generalize hD' : supply t + virtualShares t = D' at *
  generalize assetsHeld s + 1 = A at *
  generalize assetsHeld t + 1 = A' at *
  by_contra hlt
  have hlt : y.toNat + 1 ≤ x.toNat := by omega
  have c1 : sh.toNat * A' * D < (y.toNat + 1) * D' * D :=
    Nat.mul_lt_mul_of_pos_right h2 (by omega)
  have c2 : (y.toNat + 1) * D' * D ≤ x.toNat * D' * D :=
    Nat.mul_le_mul_right _ (Nat.mul_le_mul_right _ hlt)
  have c3 : x.toNat * D' * D = x.toNat * D * D' := by ring
  have c4 : x.toNat * D * D' ≤ sh.toNat * A * D' := Nat.mul_le_mul_right _ h1
  have c5 : sh.toNat * A * D' = sh.toNat * (A * D') := by ring
  have c6 : sh.toNat * (A * D') ≤ sh.toNat * (A' * D) := Nat.mul_le_mul_left _ hr
  have c7 : sh.toNat * (A' * D) = sh.toNat * A' * D := by ring
  omega

/-! ## A holder who stands by -/

private def Stands (x : Address) (s s' : State) : Prop :=
  WF s → (∀ sp, s.shares.allowances x sp = 0#256) →
    WF s' ∧ s'.self_ = s.self_ ∧ (∀ sp, s'.shares.allowances x sp = 0#256) ∧ sharesOf s x ≤ sharesOf s' x

private theorem stands_trans (x : Address) (a b c : State) (h1 : Stands x a b) (h2 : Stands x b c) :
    Stands x a c := by
  intro w n
  obtain ⟨w, e, n, l⟩ := h1 w n
  obtain ⟨w, e', n, l'⟩ := h2 w n
  exact ⟨w, e'.trans e, n, l.trans l'⟩

private theorem stands_step (x : Address) (before after : State → State) (s : State) (op : Address × Call)
    (s' : State) (hx : op.1 ≠ x) (hb : ∀ t, Stands x t (before t)) (ha : ∀ t, Stands x t (after t))
    (h : execWith erc777 before after s op = .ok s') : Stands x s s' := by
  intro hw hn
  cases shape h with
  | in_ r a sh hc price hd =>
    obtain ⟨w1, e1, n1, l1⟩ := hb s hw hn
    have hd := depositR_ok e1 hd
    have e := (depositInternal_effect w1 (by rw [e1]; exact hc) hd).1
    have hal : s'.shares.allowances = (before s).shares.allowances := by
      unfold depositInternal at hd
      simp only [bind_eq_ok, except_pure, Except.ok.injEq, liftErc20_ok] at hd
      obtain ⟨_, _, t, ht, rfl⟩ := hd
      exact (Erc20.update_effect w1.shares (Erc20.mint_eq_ok.mp ht).2).allow
    refine ⟨e.wf, e.self_.trans e1, fun sp => by rw [hal]; exact n1 sp, ?_⟩
    rw [e.sharesOf x]; omega
  | out r o a sh hc price hd =>
    obtain ⟨s1, h1, s2, hs2, rfl⟩ := withdrawR_ok hd
    have e := (withdrawInternal_effect hw h1).1
    have hk : Stands x s { s1 with log := s.log } := by
      intro _ _
      refine ⟨wf_log e.wf, e.self_, fun sp => ?_, ?_⟩
      · apply BitVec.eq_of_toNat_eq
        have := withdrawInternal_allowances s s1 _ r o a sh h1 x sp
        rw [hn sp] at this
        rw [this]; split <;> simp
      · have := e.sharesOf x
        show sharesOf s x ≤ sharesOf s1 x
        by_cases hxo : x = o
        · subst hxo
          rcases e.allowance with h | h | h
          · exact absurd h hx
          · rw [hn] at h; exact absurd h (by decide)
          · rw [hn] at h; rw [if_pos rfl] at this
            have : sh.toNat = 0 := by simpa using h
            omega
        · rw [if_neg hxo] at this; omega
    have := stands_trans _ _ _ _ hk (ha _)
    rw [← hs2] at this
    obtain ⟨w2, f1, f2, f3⟩ := this hw hn
    exact ⟨wf_log w2, f1, f2, f3⟩
  | share k hk =>
    have e := exec_share hw hk
    have hf : ∃ k', Erc20.exec s.shares (op.1, k') = .ok s'.shares := by
      unfold exec at hk
      by_cases hc : op.1 = s.self_
      · simp [hc] at hk
      · simp only [hc, if_false] at hk
        cases k with
        | transfer dst v =>
          simp only [bind_eq_ok, except_pure, Except.ok.injEq, liftErc20_ok] at hk
          obtain ⟨t, ht, rfl⟩ := hk
          exact ⟨.transfer dst v, ht⟩
        | transferFrom src dst v =>
          simp only [bind_eq_ok, except_pure, Except.ok.injEq, liftErc20_ok] at hk
          obtain ⟨t, ht, rfl⟩ := hk
          exact ⟨.transferFrom src dst v, ht⟩
        | approve sp v =>
          simp only [bind_eq_ok, except_pure, Except.ok.injEq, liftErc20_ok] at hk
          obtain ⟨t, ht, rfl⟩ := hk
          exact ⟨.approve sp v, ht⟩
    obtain ⟨k', hf⟩ := hf
    obtain ⟨f1, f2⟩ := Erc20.exec_foreign hw.shares hn hx hf
    exact ⟨e.wf, e.self_, f1, f2⟩
  | asset k hk =>
    obtain ⟨e, hs⟩ := exec_asset hw hk
    refine ⟨e.wf, e.self_, fun sp => by rw [hs]; exact hn sp, ?_⟩
    unfold sharesOf; rw [hs]

/-- **C90.** Somebody who holds shares, has approved nobody for them and makes no call never loses one,
whatever others do from inside the asset's hooks. -/
theorem C90_holder_keeps_shares (me : Address) (hme : me ≠ ZERO) (d o : U8)
    (earlier later : List (HookTree (Address × Call))) (x : Address)
    (hn : ∀ sp, (Reentrant.run erc777 (init me d o) earlier).shares.allowances x sp = 0#256)
    (hx : ∀ op ∈ HookTree.callsAll later, op.1 ≠ x) :
    sharesOf (Reentrant.run erc777 (init me d o) earlier) x ≤
      sharesOf (Reentrant.run erc777 (init me d o) (earlier ++ later)) x := by
  rw [run_append]
  have hw := (run_keeps (init me d o) earlier (wf_init d o hme)).1
  exact (HookTree.relateIf _ (Stands x) (fun op => op.1 ≠ x)
    (fun s w n => ⟨w, rfl, n, le_refl _⟩) (stands_trans x) (stands_step x) later _ hx hw hn).2.2.2

/-- **C90.** Hence what the shares of such a holder convert into does not fall either. -/
theorem C90_holder_keeps_value (me : Address) (hme : me ≠ ZERO) (d o : U8)
    (earlier later : List (HookTree (Address × Call))) (h : Address) (x y : U256)
    (hn : ∀ sp, (Reentrant.run erc777 (init me d o) earlier).shares.allowances h sp = 0#256)
    (hc : ∀ op ∈ HookTree.callsAll later, op.1 ≠ h)
    (hx : convertToAssets (Reentrant.run erc777 (init me d o) earlier)
      ((Reentrant.run erc777 (init me d o) earlier).shares.balances h) = .ok x)
    (hy : convertToAssets (Reentrant.run erc777 (init me d o) (earlier ++ later))
      ((Reentrant.run erc777 (init me d o) (earlier ++ later)).shares.balances h) = .ok y) :
    x.toNat ≤ y.toNat := by
  have hr := C90_rate_never_falls me hme d o earlier later
  have hs := C90_holder_keeps_shares me hme d o earlier later h hn hc
  obtain ⟨_, h1, _⟩ := (C19_assets_floor _ _ x).1.mp hx
  obtain ⟨_, _, h2⟩ := (C19_assets_floor _ _ y).1.mp hy
  unfold RateLe at hr
  unfold sharesOf at hs
  generalize Reentrant.run erc777 (init me d o) earlier = s at *
  generalize Reentrant.run erc777 (init me d o) (earlier ++ later) = t at *
  have p1 := virtual_pos s
  have p2 := virtual_pos t
  generalize hD : supply s + virtualShares s = D at *
  generalize hD' : supply t + virtualShares t = D' at *
  generalize assetsHeld s + 1 = A at *
  generalize assetsHeld t + 1 = A' at *
  generalize (s.shares.balances h).toNat = sh at *
  generalize (t.shares.balances h).toNat = sh' at *
  by_contra hlt
  have hlt : y.toNat + 1 ≤ x.toNat := by omega
  have c0 : sh * A' * D ≤ sh' * A' * D := Nat.mul_le_mul_right _ (Nat.mul_le_mul_right _ hs)
  have c1 : sh' * A' * D < (y.toNat + 1) * D' * D :=
    Nat.mul_lt_mul_of_pos_right h2 (by omega)
  have c2 : (y.toNat + 1) * D' * D ≤ x.toNat * D' * D :=
    Nat.mul_le_mul_right _ (Nat.mul_le_mul_right _ hlt)
  have c3 : x.toNat * D' * D = x.toNat * D * D' := by ring
  have c4 : x.toNat * D * D' ≤ sh * A * D' := Nat.mul_le_mul_right _ h1
  have c5 : sh * A * D' = sh * (A * D') := by ring
  have c6 : sh * (A * D') ≤ sh * (A' * D) := Nat.mul_le_mul_left _ hr
  have c7 : sh * (A' * D) = sh * A' * D := by ring
  omega

/-! ## The other hooks -/

private abbrev vault : Address := 9#160
private abbrev alice : Address := 1#160
private abbrev mallory : Address := 2#160
private def plain (c : Address) (k : Call) : HookTree (Address × Call) := .mk (c, k) [] []

private abbrev bob : Address := 3#160

/-- Alice and Mallory hold 100 assets each and have approved the vault; Alice has deposited all of theirs
for Bob. -/
private def start : List (HookTree (Address × Call)) :=
  [plain alice (.asset (.mint alice 100#256)), plain mallory (.asset (.mint mallory 100#256)),
   plain alice (.asset (.approve vault 100#256)), plain mallory (.asset (.approve vault 100#256)),
   plain alice (.deposit 100#256 bob)]

/-- Mallory deposits 50; then deposits another 50 and, from a hook of that transfer after the assets have
moved and before the shares are minted, redeems the first 50 shares. -/
private def lateDeposit : List (HookTree (Address × Call)) :=
  [plain mallory (.deposit 50#256 mallory),
   .mk (mallory, .deposit 50#256 mallory) [] [plain mallory (.redeem 50#256 mallory mallory)]]

/-- Mallory deposits 100; then redeems 50 shares and, from a hook of that transfer after the shares are
burned and before the assets move, redeems the other 50. -/
private def earlyWithdraw : List (HookTree (Address × Call)) :=
  [plain mallory (.deposit 100#256 mallory),
   .mk (mallory, .redeem 50#256 mallory mallory) [plain mallory (.redeem 50#256 mallory mallory)] []]

private def outcome (H : Hooks) (calls : List (HookTree (Address × Call))) : Nat × Nat × Nat :=
  let s := Reentrant.run H (init vault 18#8 0#8) calls
  (assetsHeld s, sharesOf s bob, assetsOf s mallory + sharesOf s mallory)

/-- **C90.** Were the asset to call somebody after assets have moved into the vault, a depositor could
redeem at a rate that counts assets whose shares are not minted yet: from equal stakes of 100, with nobody
else acting, Mallory comes out with 116 assets and shares, all taken from what backs the shares of Bob. -/
theorem C90_late_hook_is_not_harmless :
    outcome ⟨true, false⟩ start = (100, 100, 100) ∧
    outcome ⟨true, false⟩ (start ++ lateDeposit) = (134, 100, 116) ∧
    outcome erc777 (start ++ lateDeposit) = (200, 100, 100) := by
  decide +kernel

/-- **C90.** Were the asset to call somebody before assets move out of the vault, the second of two nested
redemptions would be paid at a rate that counts assets already owed to the first. -/
theorem C90_early_hook_is_not_harmless :
    outcome ⟨false, true⟩ (start ++ earlyWithdraw) = (84, 100, 116) ∧
    outcome erc777 (start ++ earlyWithdraw) = (150, 100, 100) := by
  decide +kernel

/-- A nested history in which every call succeeds: from the hook of Mallory's deposit, before the assets
move, Mallory donates 7 and deposits 20, then redeems 10 shares, and from the hook after that payment
deposits 5 for Bob. -/
private def nested : List (HookTree (Address × Call)) :=
  [.mk (mallory, .deposit 50#256 mallory)
    [plain mallory (.asset (.transfer vault 7#256)), plain mallory (.deposit 20#256 mallory),
     .mk (mallory, .redeem 10#256 mallory mallory) [] [plain mallory (.deposit 5#256 bob)]] []]

private theorem never_called (x : Address) (calls : List (HookTree (Address × Call)))
    (h : ∀ op ∈ HookTree.callsAll calls, op.1 ≠ x) (sp : Address) :
    (Reentrant.run erc777 (init vault 18#8 0#8) calls).shares.allowances x sp = 0#256 :=
  (HookTree.relateIf _ (Stands x) (fun op => op.1 ≠ x)
    (fun _ w n => ⟨w, rfl, n, le_refl _⟩) (stands_trans _) (stands_step _) calls (init vault 18#8 0#8)
    h (wf_init 18#8 0#8 (by decide)) fun _ => rfl).2.2.1 sp

example : vault ≠ ZERO ∧
    outcome erc777 start = (100, 100, 100) ∧ outcome erc777 (start ++ nested) = (172, 104, 86) ∧
    (∀ sp, (Reentrant.run erc777 (init vault 18#8 0#8) start).shares.allowances bob sp = 0#256) ∧
    (∀ op ∈ HookTree.callsAll nested, op.1 ≠ bob) ∧
    convertToAssets (Reentrant.run erc777 (init vault 18#8 0#8) start) 100#256 = .ok 100#256 ∧
    convertToAssets (Reentrant.run erc777 (init vault 18#8 0#8) (start ++ nested)) 100#256
      = .ok 106#256 := by
  refine ⟨by decide, by decide +kernel, by decide +kernel, never_called _ _ ?_, by decide +kernel,
    by decide +kernel, by decide +kernel⟩
  decide +kernel

end Verif.Props.Erc4626Reentrant
