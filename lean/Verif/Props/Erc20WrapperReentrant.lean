import Verif.Model.Erc20WrapperReentrant
import Verif.Props.Erc20Wrapper
/-! # C91: the ERC-20 wrapper over a token with hooks -/

namespace Verif.Props.WrapperReentrant
open Verif.Wrapper Verif.Spec.Wrapper Verif.Props.Wrapper
open Verif.Wrapper.Reentrant (execWith)

/-! ## The four half-steps -/

private theorem pull {s : State} {c : Address} {v : U256} {u : Erc20.State} (hw : WF s) (hc : c ≠ s.self_)
    (h : Erc20.transferFrom s.underlying s.self_ c s.self_ v = .ok u) :
    WF { s with underlying := u } ∧ held { s with underlying := u } = held s + v.toNat := by
  obtain ⟨a1, hs1, ht1⟩ := Erc20.transferFrom_eq_ok.mp h
  obtain ⟨hb1, hsup1, _⟩ := Erc20.spend_frame hs1
  obtain ⟨hc0, hself, hu1⟩ := Erc20.transferInternal_eq_ok.mp ht1
  have e1 := Erc20.update_effect (hw.underlying.of_frame hb1 hsup1) hu1
  have hal : ∀ sp, u.allowances s.self_ sp = 0#256 := by
    intro sp
    rw [e1.allow]
    rcases Erc20.spend_eq_ok.mp hs1 with ⟨_, rfl⟩ | ⟨_, _, _, _, rfl⟩
    · exact hw.noAllowance sp
    · simp only [upd2]
      rw [if_neg]
      · exact hw.noAllowance sp
      · rintro ⟨h, _⟩; exact hc h.symm
  have hself_bal := e1.bal s.self_
  rw [hb1, if_neg (fun e => hc e.1.symm), if_pos ⟨rfl, hself⟩, Nat.add_zero] at hself_bal
  have hheld : held { s with underlying := u } = held s + v.toNat := hself_bal
  refine ⟨⟨hw.self_, hw.token, e1.sum, hal, ?_⟩, hheld⟩
  have hb := hw.backed
  rw [hheld]
  exact le_trans hb (Nat.le_add_right _ _)

private theorem minted {s : State} {a : Address} {v : U256} {t : Erc20.State} (hw : WF s)
    (hv : supply s + v.toNat ≤ held s) (h : Erc20.mint s.token a v = .ok t) :
    WF { s with token := t } ∧ supply { s with token := t } = supply s + v.toNat := by
  obtain ⟨hr0, hu2⟩ := Erc20.mint_eq_ok.mp h
  have e2 := Erc20.update_effect hw.token hu2
  have hsup := e2.supply
  rw [if_neg hr0, if_pos rfl, Nat.add_zero] at hsup
  have hsupply : supply { s with token := t } = supply s + v.toNat := hsup
  refine ⟨⟨hw.self_, e2.sum, hw.underlying, hw.noAllowance, ?_⟩, hsupply⟩
  rw [hsupply]; exact hv

private theorem burned {s : State} {a : Address} {v : U256} {t : Erc20.State} (hw : WF s)
    (h : Erc20.burnInternal s.token a v = .ok t) :
    WF { s with token := t } ∧ supply { s with token := t } + v.toNat = supply s := by
  obtain ⟨hc0, ht⟩ := Erc20.burnInternal_eq_ok.mp h
  have e2 := Erc20.update_effect hw.token ht
  have hsup := e2.supply
  rw [if_neg hc0, if_pos rfl, Nat.add_zero] at hsup
  have hsupply : supply { s with token := t } + v.toNat = supply s := hsup
  refine ⟨⟨hw.self_, e2.sum, hw.underlying, hw.noAllowance, ?_⟩, hsupply⟩
  have hb := hw.backed
  have : held { s with token := t } = held s := rfl
  omega

private theorem push {s : State} {a : Address} {v : U256} {u : Erc20.State} (hw : WF s) (ha : a ≠ s.self_)
    (hv : supply s + v.toNat ≤ held s) (h : Erc20.transfer s.underlying s.self_ a v = .ok u) :
    WF { s with underlying := u } ∧ held { s with underlying := u } + v.toNat = held s := by
  obtain ⟨hself, ha0, hu⟩ := Erc20.transferInternal_eq_ok.mp h
  have e1 := Erc20.update_effect hw.underlying hu
  have hself_bal := e1.bal s.self_
  rw [if_pos ⟨rfl, hself⟩, if_neg (fun e => ha e.1.symm), Nat.add_zero] at hself_bal
  have hheld : held { s with underlying := u } + v.toNat = held s := hself_bal
  refine ⟨⟨hw.self_, hw.token, e1.sum, fun sp => ?_, ?_⟩, hheld⟩
  · show u.allowances s.self_ sp = _
    rw [e1.allow]; exact hw.noAllowance sp
  · have : supply { s with underlying := u } = supply s := rfl
    omega

private theorem depositR_ok {before after : State → State} {s s' : State} {c a : Address} {v : U256}
    (h : Reentrant.depositFor before after s c a v = .ok s') :
    c ≠ s.self_ ∧ a ≠ s.self_ ∧ ∃ u,
      Erc20.transferFrom (before s).underlying s.self_ c s.self_ v = .ok u ∧ ∃ t,
      Erc20.mint (after { before s with underlying := u }).token a v = .ok t ∧
      s' = { after { before s with underlying := u } with token := t } := by
  unfold Reentrant.depositFor at h
  by_cases h1 : c = s.self_
  · simp [h1] at h
  by_cases h2 : a = s.self_
  · simp [h1, h2] at h
  simp only [h1, h2, if_false, except_pure, bind_eq_ok, safeTransferFrom_ok, liftErc20_ok,
    Except.ok.injEq] at h
  obtain ⟨u, hu, t, ht, rfl⟩ := h
  exact ⟨h1, h2, u, hu, t, ht, rfl⟩

private theorem withdrawR_ok {before after : State → State} {s s' : State} {c a : Address} {v : U256}
    (h : Reentrant.withdrawTo before after s c a v = .ok s') :
    a ≠ s.self_ ∧ ∃ t, Erc20.burnInternal s.token c v = .ok t ∧ ∃ u,
      Erc20.transfer (before { s with token := t }).underlying s.self_ a v = .ok u ∧
      s' = after { before { s with token := t } with underlying := u } := by
  unfold Reentrant.withdrawTo at h
  by_cases h2 : a = s.self_
  · simp [h2] at h
  simp only [h2, if_false, except_pure, bind_eq_ok, safeTransfer_ok, liftErc20_ok,
    Except.ok.injEq] at h
  obtain ⟨t, ht, u, hu, rfl⟩ := h
  exact ⟨h2, t, ht, u, hu, rfl⟩

/-- **C91.** With a token that never calls back, the wrapper is the wrapper of C17 and C18. -/
theorem C91_passive (x y : Bool) (s : State) (op : Address × Call) :
    execWith x y (fun t => t) (fun t => t) s op = exec s op := by
  obtain ⟨c, k⟩ := op
  unfold execWith
  by_cases hc : c = s.self_
  · unfold exec; simp [hc]
  cases k with
  | depositFor a v => unfold exec; simp only [hc, if_false, ite_self]; rfl
  | withdrawTo a v => unfold exec; simp only [hc, if_false, ite_self]; rfl
  | recover a => simp only [hc, if_false]
  | token k => simp only [hc, if_false]
  | underlying k => simp only [hc, if_false]

/-! ## Nobody recovers -/

/-- A well-formed wrapper stays one, at its address, and what it holds beyond the supply does not shrink. -/
private def Surplus (s s' : State) : Prop :=
  WF s → WF s' ∧ s'.self_ = s.self_ ∧ held s + supply s' ≤ held s' + supply s

private theorem surplus_refl (s : State) : Surplus s s := fun h => ⟨h, rfl, le_refl _⟩
private theorem surplus_trans (a b c : State) (h1 : Surplus a b) (h2 : Surplus b c) : Surplus a c := by
  intro h
  obtain ⟨w, e, l⟩ := h1 h
  obtain ⟨w, e', l'⟩ := h2 w
  exact ⟨w, e'.trans e, by omega⟩

private theorem surplus_step (x y : Bool) (before after : State → State) (s : State) (op : Address × Call)
    (s' : State) (hop : ∀ a, op.2 ≠ .recover a) (hb : ∀ t, Surplus t (before t))
    (ha : ∀ t, Surplus t (after t)) (h : execWith x y before after s op = .ok s') : Surplus s s' := by
  intro hw
  obtain ⟨c, k⟩ := op
  have hx : c ≠ s.self_ := by
    intro hc; unfold execWith at h; simp [hc] at h
  cases k with
  | depositFor a v =>
    unfold execWith at h
    simp only [hx, if_false] at h
    have ha' : ∀ t, Surplus t ((if x then after else fun t => t) t) := by
      cases x
      · exact surplus_refl
      · exact ha
    generalize (if x then after else fun t => t) = after' at h ha'
    obtain ⟨h1, h2, u, hu, t, ht, rfl⟩ := depositR_ok h
    obtain ⟨w1, e1, l1⟩ := hb s hw
    rw [← e1] at h1 hu
    obtain ⟨w2, l2⟩ := pull w1 h1 hu
    obtain ⟨w3, e3, l3⟩ := ha' _ w2
    have hb1 := w1.backed
    have hs2 : ∀ q : State, supply { q with underlying := u } = supply q := fun _ => rfl
    rw [hs2] at l3
    have hh : ∀ q : State, held { q with token := t } = held q := fun _ => rfl
    obtain ⟨w4, l4⟩ := minted w3 (by omega) ht
    refine ⟨w4, e3.trans e1, ?_⟩
    dsimp only at l4 ⊢
    rw [l4, hh]
    omega
  | withdrawTo a v =>
    unfold execWith at h
    simp only [hx, if_false] at h
    have hb' : ∀ t, Surplus t ((if y then before else fun t => t) t) := by
      cases y
      · exact surplus_refl
      · exact hb
    generalize (if y then before else fun t => t) = before' at h hb'
    obtain ⟨h2, t, ht, u, hu, rfl⟩ := withdrawR_ok h
    obtain ⟨w1, l1⟩ := burned hw ht
    obtain ⟨w2, e2, l2⟩ := hb' _ w1
    generalize before' { s with token := t } = q at *
    have e2 : q.self_ = s.self_ := e2
    rw [← e2] at h2 hu
    have hb0 := hw.backed
    have hh : held { s with token := t } = held s := rfl
    obtain ⟨w3, l3⟩ := push w2 h2 (by omega) hu
    obtain ⟨w4, e4, l4⟩ := ha _ w3
    refine ⟨w4, e4.trans e2, ?_⟩
    have hs : ∀ q : State, supply { q with underlying := u } = supply q := fun _ => rfl
    rw [hs] at l4
    dsimp only at l3 l4 ⊢
    omega
  | recover a => exact absurd rfl (hop a)
  | token k =>
    have h : exec s (c, .token k) = .ok s' := by unfold execWith at h; simpa only [hx, if_false] using h
    obtain ⟨w, e, _⟩ := exec_effect hw h
    refine ⟨w, e, ?_⟩
    unfold exec at h
    simp only [hx, if_false] at h
    have fin : ∀ t, (Erc20.SumOk t ∧ t.totalSupply = s.token.totalSupply) →
        held s + supply { s with token := t } ≤ held { s with token := t } + supply s := by
      intro t ht
      have e1 : supply { s with token := t } = supply s := by
        unfold supply Erc20.totalSupplyOf; exact congrArg _ ht.2
      have e2 : held { s with token := t } = held s := rfl
      omega
    cases k with
    | transfer dst v =>
      simp only [bind_eq_ok, except_pure, Except.ok.injEq, liftErc20_ok] at h
      obtain ⟨t, ht, rfl⟩ := h
      exact fin t (token_effect (k := .transfer dst v) hw ht)
    | transferFrom src dst v =>
      simp only [bind_eq_ok, except_pure, Except.ok.injEq, liftErc20_ok] at h
      obtain ⟨t, ht, rfl⟩ := h
      exact fin t (token_effect (k := .transferFrom src dst v) hw ht)
    | approve sp v =>
      simp only [bind_eq_ok, except_pure, Except.ok.injEq, liftErc20_ok] at h
      obtain ⟨t, ht, rfl⟩ := h
      exact fin t (token_effect (k := .approve sp v) hw ht)
  | underlying k =>
    have h : exec s (c, .underlying k) = .ok s' := by
      unfold execWith at h; simpa only [hx, if_false] using h
    obtain ⟨w, e, _⟩ := exec_effect hw h
    refine ⟨w, e, ?_⟩
    unfold exec at h
    simp only [hx, if_false, bind_eq_ok, except_pure, Except.ok.injEq, liftErc20_ok] at h
    obtain ⟨u, hu, rfl⟩ := h
    have f2 : held s ≤ held { s with underlying := u } :=
      (Erc20.exec_foreign hw.underlying hw.noAllowance hx hu).2
    have : supply { s with underlying := u } = supply s := rfl
    omega

private theorem wf_init {me : Address} (h : me ≠ ZERO) : WF (init me) :=
  ⟨h, Erc20.sumOk_init, Erc20.sumOk_init, fun _ => rfl, le_refl _⟩

/-- **C91.** As long as nobody recovers a surplus, every wrapped token stays backed by an underlying one,
however calls are nested and whenever the underlying calls out. -/
theorem C91_backed_without_recover (me : Address) (hme : me ≠ ZERO) (x y : Bool)
    (calls : List (HookTree (Address × Call)))
    (h : ∀ op ∈ HookTree.callsAll calls, ∀ a, op.2 ≠ .recover a) :
    supply (Reentrant.run x y (init me) calls) ≤ held (Reentrant.run x y (init me) calls) :=
  (HookTree.relateIf _ Surplus (fun op => ∀ a, op.2 ≠ .recover a) surplus_refl surplus_trans
    (surplus_step x y) calls _ h (wf_init hme)).1.backed

/-! ## Somebody recovers -/

private def Keeps (s s' : State) : Prop := WF s → WF s' ∧ s'.self_ = s.self_

private theorem keeps_trans (a b c : State) (h1 : Keeps a b) (h2 : Keeps b c) : Keeps a c := by
  intro h
  obtain ⟨w, e⟩ := h1 h
  obtain ⟨w, e'⟩ := h2 w
  exact ⟨w, e'.trans e⟩

private theorem keeps_step (before after : State → State) (s : State) (op : Address × Call) (s' : State)
    (hb : ∀ t, Keeps t (before t)) (ha : ∀ t, Keeps t (after t))
    (h : execWith false false before after s op = .ok s') : Keeps s s' := by
  intro hw
  obtain ⟨c, k⟩ := op
  have hx : c ≠ s.self_ := by
    intro hc; unfold execWith at h; simp [hc] at h
  have plainly : ∀ k, exec s (c, k) = .ok s' → WF s' ∧ s'.self_ = s.self_ := fun k h =>
    ⟨(exec_effect hw h).1, (exec_effect hw h).2.1⟩
  unfold execWith at h
  simp only [hx, if_false, Bool.false_eq_true] at h
  cases k with
  | depositFor a v =>
    obtain ⟨h1, h2, u, hu, t, ht, rfl⟩ := depositR_ok h
    obtain ⟨w1, e1⟩ := hb s hw
    rw [← e1] at h1 h2 hu
    have hd : depositFor (before s) c a v = .ok { before s with underlying := u, token := t } :=
      depositFor_ok.mpr ⟨h1, h2, u, t, hu, ht, rfl⟩
    exact ⟨(deposit_effect w1 hd).wf, e1⟩
  | withdrawTo a v =>
    obtain ⟨h2, t, ht, u, hu, rfl⟩ := withdrawR_ok h
    have hd : withdrawTo s c a v = .ok { s with token := t, underlying := u } :=
      withdrawTo_ok.mpr ⟨h2, t, u, ht, hu, rfl⟩
    obtain ⟨w, e⟩ := ha _ (withdraw_effect hw hd).wf
    exact ⟨w, e⟩
  | recover a => exact plainly _ h
  | token k => exact plainly _ h
  | underlying k => exact plainly _ h

/-- **C91.** With a token that calls out only before a balance moves into the wrapper and after one has
moved out of it, recovering is harmless as well. -/
theorem C91_backed_with_recover (me : Address) (hme : me ≠ ZERO)
    (calls : List (HookTree (Address × Call))) :
    supply (Reentrant.run false false (init me) calls) ≤ held (Reentrant.run false false (init me) calls) :=
  (HookTree.relate _ Keeps (fun _ h => ⟨h, rfl⟩) keeps_trans keeps_step calls _ (wf_init hme)).1.backed

/-! ## Witnesses -/

private abbrev W : Address := 9#160
private abbrev alice : Address := 1#160
private abbrev mallory : Address := 2#160
private def only (c : Address) (k : Call) : HookTree (Address × Call) := .mk (c, k) [] []

/-- Alice has wrapped 100; Mallory has 50 underlying tokens and has approved the wrapper. -/
private def start : List (HookTree (Address × Call)) :=
  [only alice (.underlying (.mint alice 100#256)), only mallory (.underlying (.mint mallory 50#256)),
   only alice (.underlying (.approve W 100#256)), only mallory (.underlying (.approve W 100#256)),
   only alice (.depositFor alice 100#256)]

private def outcome (x y : Bool) (calls : List (HookTree (Address × Call))) : Nat × Nat × Nat :=
  let s := Reentrant.run x y (init W) calls
  (held s, supply s, wrapped s mallory)

/-- **C91.** The remaining combination is not harmless: a recovery from inside a deposit whose balance has
moved but whose wrapped tokens are not minted yet counts the deposit as a surplus.  Mallory wraps 50
tokens and gets 100; the same happens from inside a withdrawal before its balance moves. -/
theorem C91_recover_in_hook_breaks :
    outcome true true start = (100, 100, 0) ∧
    outcome true false (start ++ [.mk (mallory, .depositFor mallory 50#256) []
      [only mallory (.recover mallory)]]) = (150, 200, 100) ∧
    outcome false true (start ++ [only mallory (.depositFor mallory 50#256),
      .mk (mallory, .withdrawTo mallory 50#256) [only mallory (.recover mallory)] []])
      = (100, 150, 50) := by
  decide +kernel

/-- A nested history without recovery, and one with recovery of a donation, in which every call succeeds. -/
example : W ≠ ZERO ∧
    outcome true true (start ++ [.mk (mallory, .depositFor alice 30#256)
      [only mallory (.depositFor mallory 10#256)]
      [.mk (alice, .withdrawTo mallory 20#256) [only alice (.token (.transfer mallory 5#256))] []]])
      = (120, 120, 15) ∧
    outcome false false (start ++ [.mk (mallory, .depositFor alice 30#256)
      [only mallory (.underlying (.transfer W 7#256)), only mallory (.recover mallory)] []])
      = (137, 137, 7) := by
  refine ⟨by decide, by decide +kernel, by decide +kernel⟩

end Verif.Props.WrapperReentrant
