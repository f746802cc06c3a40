import Verif.Model.Erc20Example
import Verif.Props.Erc20
/-! # C10, C11: capped and pausable token -/

namespace Verif.Props.Erc20Example
open Verif.Erc20Example
open Verif.Erc20 (SumOk)

/-- Is the contract paused? (`paused`, `pausable.rs` 86) -/
def paused (s : State) : Bool := s.pausable.paused

/-- The balance seen by `balance_of`. -/
def balanceOf (s : State) (a : Address) : U256 := Erc20.balanceOf s.erc20 a
/-- The supply seen by `total_supply`. -/
def totalSupply (s : State) : U256 := Erc20.totalSupplyOf s.erc20

theorem whenNotPaused_eq (s : State) : whenNotPaused s =
    if paused s = true then .error (.pausable .enforcedPause) else .ok () := by
  unfold whenNotPaused Pausable.whenNotPaused paused
  cases s.pausable.paused <;> rfl

/-- A call that succeeds acts on the token like the bare token call, with the cap respected; or it is
a toggle. -/
theorem exec_ok {s s' : State} {c : Address} {k : Call} (h : exec s (c, k) = .ok s') :
    s'.cap = s.cap ∧
    ((∃ tc, k = .token tc ∧ Erc20.exec s.erc20 (c, tc) = .ok s'.erc20 ∧ s'.pausable = s.pausable ∧
        (paused s = true → ∃ sp v, tc = .approve sp v) ∧
        (∀ a v, tc = .mint a v → (totalSupply s).toNat + v.toNat ≤ s.cap.toNat)) ∨
     ((k = .pause ∨ k = .unpause) ∧ s'.erc20 = s.erc20 ∧ paused s' = !paused s)) := by
  have lift : ∀ {x : Except Erc20.Err Erc20.State}, liftErc20 s x = .ok s' →
      x = .ok s'.erc20 ∧ s'.cap = s.cap ∧ s'.pausable = s.pausable := by
    intro x hx
    cases x with
    | error e => cases hx
    | ok t => cases hx; exact ⟨rfl, rfl, rfl⟩
  cases k with
  | token tc =>
    cases tc with
    | transfer d v =>
      simp only [exec, transfer, whenNotPaused_eq] at h
      by_cases hp : paused s = true
      · simp [hp] at h
      · simp [hp] at h
        obtain ⟨h1, h2, h3⟩ := lift h
        exact ⟨h2, .inl ⟨_, rfl, h1, h3, fun h => absurd h hp, by simp⟩⟩
    | transferFrom a d v =>
      simp only [exec, transferFrom, whenNotPaused_eq] at h
      by_cases hp : paused s = true
      · simp [hp] at h
      · simp [hp] at h
        obtain ⟨h1, h2, h3⟩ := lift h
        exact ⟨h2, .inl ⟨_, rfl, h1, h3, fun h => absurd h hp, by simp⟩⟩
    | approve sp v =>
      simp only [exec, approve] at h
      obtain ⟨h1, h2, h3⟩ := lift h
      exact ⟨h2, .inl ⟨_, rfl, h1, h3, fun h => ⟨sp, v, rfl⟩, by simp⟩⟩
    | mint a v =>
      simp only [exec, mint, whenNotPaused_eq] at h
      by_cases hp : paused s = true
      · simp [hp] at h
      · simp only [hp, if_false, except_bind_ok] at h
        cases hc : checkedAdd (Erc20.totalSupplyOf s.erc20) v with
        | none => simp [hc] at h
        | some t =>
          obtain ⟨_, ht⟩ := checkedAdd_eq_some.mp hc
          simp only [hc, orPanic_some, except_bind_ok] at h
          by_cases hcap : s.cap < t
          · simp [hcap] at h
          · simp [hcap] at h
            obtain ⟨h1, h2, h3⟩ := lift h
            refine ⟨h2, .inl ⟨_, rfl, h1, h3, fun h => absurd h hp, ?_⟩⟩
            intro a' v' he
            cases he
            rw [BitVec.lt_def] at hcap
            unfold totalSupply; omega
    | burn v =>
      simp only [exec, burn, whenNotPaused_eq] at h
      by_cases hp : paused s = true
      · simp [hp] at h
      · simp [hp] at h
        obtain ⟨h1, h2, h3⟩ := lift h
        exact ⟨h2, .inl ⟨_, rfl, h1, h3, fun h => absurd h hp, by simp⟩⟩
    | burnFrom a v =>
      simp only [exec, burnFrom, whenNotPaused_eq] at h
      by_cases hp : paused s = true
      · simp [hp] at h
      · simp [hp] at h
        obtain ⟨h1, h2, h3⟩ := lift h
        exact ⟨h2, .inl ⟨_, rfl, h1, h3, fun h => absurd h hp, by simp⟩⟩
  | pause =>
    simp only [exec, pause, Pausable.pause, Pausable.whenNotPaused] at h
    cases hp : s.pausable.paused <;> simp [hp, liftPausable] at h
    subst h
    exact ⟨rfl, .inr ⟨.inl rfl, rfl, by simp [paused, hp]⟩⟩
  | unpause =>
    simp only [exec, unpause, Pausable.unpause, Pausable.whenPaused] at h
    cases hp : s.pausable.paused <;> simp [hp, liftPausable] at h
    subst h
    exact ⟨rfl, .inr ⟨.inr rfl, rfl, by simp [paused, hp]⟩⟩

/-- The supply after one bare token call: only a mint can raise it, by at most the minted value. -/
theorem supply_step {t t' : Erc20.State} {c : Address} {tc : Erc20.Call} (hs : SumOk t)
    (h : Erc20.exec t (c, tc) = .ok t') :
    (∀ a v, tc ≠ .mint a v) ∧ t'.totalSupply.toNat ≤ t.totalSupply.toNat ∨
    (∃ a v, tc = .mint a v ∧ t'.totalSupply.toNat = t.totalSupply.toNat + v.toNat) := by
  cases tc with
  | transfer d v =>
    obtain ⟨h1, h2, h3⟩ := Erc20.transferInternal_eq_ok.mp h
    have e := (Erc20.update_effect hs h3).supply
    simp [h1, h2] at e
    exact .inl ⟨by simp, by omega⟩
  | transferFrom a d v =>
    obtain ⟨t1, h1, h2⟩ := Erc20.transferFrom_eq_ok.mp h
    obtain ⟨hb, ht, _⟩ := Erc20.spend_frame h1
    obtain ⟨g1, g2, g3⟩ := Erc20.transferInternal_eq_ok.mp h2
    have e := (Erc20.update_effect (hs.of_frame hb ht) g3).supply
    simp [g1, g2, ht] at e
    exact .inl ⟨by simp, by omega⟩
  | approve sp v =>
    obtain ⟨_, _, rfl⟩ := Erc20.approve_eq_ok.mp h
    exact .inl ⟨by simp, le_refl _⟩
  | mint a v =>
    obtain ⟨h1, h2⟩ := Erc20.mint_eq_ok.mp h
    have e := (Erc20.update_effect hs h2).supply
    simp [h1] at e
    exact .inr ⟨a, v, rfl, e⟩
  | burn v =>
    obtain ⟨h1, h2⟩ := Erc20.burnInternal_eq_ok.mp h
    have e := (Erc20.update_effect hs h2).supply
    simp [h1] at e
    exact .inl ⟨by simp, by omega⟩
  | burnFrom a v =>
    obtain ⟨t1, h1, h2⟩ := Erc20.burnFrom_eq_ok.mp h
    obtain ⟨hb, ht, _⟩ := Erc20.spend_frame h1
    obtain ⟨g1, g2⟩ := Erc20.burnInternal_eq_ok.mp h2
    have e := (Erc20.update_effect (hs.of_frame hb ht) g2).supply
    simp [g1, ht] at e
    exact .inl ⟨by simp, by omega⟩

theorem cap_inv (cap : U256) (ops : List (Address × Call)) :
    SumOk (run (init cap) ops).erc20 ∧ (run (init cap) ops).cap = cap ∧
      (totalSupply (run (init cap) ops)).toNat ≤ cap.toNat := by
  apply run_invariant (exec := exec)
    (Inv := fun s => SumOk s.erc20 ∧ s.cap = cap ∧ (totalSupply s).toNat ≤ cap.toNat)
  · rintro s ⟨c, k⟩ s' ⟨hs, hc, hle⟩ h
    obtain ⟨hcap, ⟨tc, rfl, htc, _, _, hm⟩ | ⟨_, he, _⟩⟩ := exec_ok h
    · refine ⟨Erc20.sumOk_exec hs htc, by rw [hcap, hc], ?_⟩
      rcases supply_step hs htc with ⟨_, h1⟩ | ⟨a, v, rfl, h1⟩
      · exact le_trans h1 hle
      · have := hm a v rfl
        rw [hc] at this
        unfold totalSupply Erc20.totalSupplyOf at *
        omega
    · refine ⟨by rw [he]; exact hs, by rw [hcap, hc], ?_⟩
      unfold totalSupply; rw [he]; exact hle
  · exact ⟨Erc20.sumOk_init, rfl, by simp [totalSupply, init, Erc20.init, Erc20.totalSupplyOf]⟩

/-- **C10** After every history the total supply is at most the cap chosen at deployment. -/
theorem C10_supply_le_cap (cap : U256) (ops : List (Address × Call)) :
    (totalSupply (run (init cap) ops)).toNat ≤ cap.toNat := (cap_inv cap ops).2.2

/-- **C10** In an unpaused reachable state, minting to a non-zero account succeeds exactly when the
new supply is within the cap (the boundary included); otherwise it fails with `ExceededCap` and the
two values, or panics if the new supply does not fit 256 bits. -/
theorem C10_mint_boundary (cap : U256) (ops : List (Address × Call)) (a : Address) (v : U256)
    (ha : a ≠ ZERO) (hp : paused (run (init cap) ops) = false) :
    let s := run (init cap) ops
    ((∃ s', mint s a v = .ok s') ↔ (totalSupply s).toNat + v.toNat ≤ cap.toNat) ∧
    (∀ e, mint s a v = .error e →
      e = .exceededCap (totalSupply s + v) cap ∨
      (e = .panic ∧ 2 ^ 256 ≤ (totalSupply s).toNat + v.toNat)) := by
  intro s
  obtain ⟨hs, hcap, hle⟩ := cap_inv cap ops
  have hsc : s.cap = cap := hcap
  have hpn : whenNotPaused s = .ok () := by rw [whenNotPaused_eq]; simp [s, hp]
  have hcl := cap.isLt
  unfold mint
  rw [hpn]
  simp only [except_bind_ok]
  cases hc : checkedAdd (Erc20.totalSupplyOf s.erc20) v with
  | none =>
    have := checkedAdd_eq_none.mp hc
    refine ⟨?_, ?_⟩
    · simp only [orPanic_none, except_bind_error, reduceCtorEq, exists_false, false_iff]
      unfold totalSupply; omega
    · intro e he
      simp only [orPanic_none, except_bind_error, Except.error.injEq] at he
      exact .inr ⟨he.symm, this⟩
  | some t =>
    obtain ⟨hlt, ht⟩ := checkedAdd_eq_some.mp hc
    simp only [orPanic_some, except_bind_ok, hsc]
    by_cases hgt : cap < t
    · have h2 := BitVec.lt_def.mp hgt
      simp only [hgt, if_true, except_throw, except_bind_error]
      refine ⟨?_, ?_⟩
      · simp only [reduceCtorEq, exists_false, false_iff]
        unfold totalSupply; omega
      · intro e he
        left
        have hte : t = totalSupply s + v := by
          unfold checkedAdd at hc
          rw [if_pos hlt] at hc
          exact (Option.some.inj hc).symm
        cases he; rw [hte]
    · have h2 : ¬ cap.toNat < t.toNat := fun h => hgt (BitVec.lt_def.mpr h)
      simp only [hgt, if_false, except_pure, except_bind_ok]
      obtain ⟨t', ht'⟩ := Erc20.update_ok_iff (s := s.erc20) (src := ZERO) (dst := a) (v := v) |>.mpr
        ⟨fun h => absurd rfl h, fun _ => hlt⟩
      have hm : Erc20.mint s.erc20 a v = .ok t' := Erc20.mint_eq_ok.mpr ⟨ha, ht'⟩
      rw [hm]
      refine ⟨⟨fun _ => ?_, fun _ => ⟨_, rfl⟩⟩, ?_⟩
      · unfold totalSupply; omega
      · intro e he; cases he

/-- Mint up to the cap of 100, burn 10, mint 11 (rejected), mint 10. -/
def sampleCapped : List (Address × Call) :=
  [(1#160, .token (.mint 1#160 100#256)), (1#160, .token (.burn 10#256)),
   (1#160, .token (.mint 2#160 11#256)), (1#160, .token (.mint 2#160 10#256))]
example : totalSupply (run (init 100#256) sampleCapped) = 100#256 ∧
    balanceOf (run (init 100#256) sampleCapped) 2#160 = 10#256 := by decide

/-! ## C11 -/

/-- **C11** While paused, every call that would move tokens fails with `EnforcedPause`. -/
theorem C11_paused_rejects {s : State} (hp : paused s = true) (c : Address) (tc : Erc20.Call)
    (hna : ∀ sp v, tc ≠ .approve sp v) :
    exec s (c, .token tc) = .error (.pausable .enforcedPause) := by
  cases tc <;>
    simp_all [exec, transfer, transferFrom, approve, mint, burn, burnFrom, whenNotPaused_eq]

/-- **C11** While paused, no history without `unpause` changes a balance, the supply or the pause. -/
theorem C11_paused_frozen (s : State) (hp : paused s = true) (ops : List (Address × Call))
    (hops : ∀ op ∈ ops, op.2 ≠ .unpause) :
    (∀ a, balanceOf (run s ops) a = balanceOf s a) ∧ totalSupply (run s ops) = totalSupply s ∧
      paused (run s ops) = true := by
  induction ops generalizing s with
  | nil => exact ⟨fun _ => rfl, rfl, hp⟩
  | cons op ops ih =>
    have hne := hops op (by simp)
    have hrest : ∀ o ∈ ops, o.2 ≠ .unpause := fun o ho => hops o (by simp [ho])
    have hrun : run s (op :: ops) = run (stepOf exec s op) ops := rfl
    rw [hrun]
    cases hx : exec s op with
    | error e => rw [stepOf_error hx]; exact ih s hp hrest
    | ok s' =>
      rw [stepOf_ok hx]
      obtain ⟨c, k⟩ := op
      obtain ⟨_, ⟨tc, rfl, htc, hpp, hap, _⟩ | ⟨hk, he, hpp⟩⟩ := exec_ok hx
      · obtain ⟨sp, v, rfl⟩ := hap hp
        obtain ⟨_, _, h3⟩ := Erc20.approve_eq_ok.mp htc
        have hp' : paused s' = true := by unfold paused; rw [hpp]; exact hp
        obtain ⟨i1, i2, i3⟩ := ih s' hp' hrest
        refine ⟨fun a => ?_, ?_, i3⟩
        · rw [i1 a]; unfold balanceOf Erc20.balanceOf; rw [h3]
        · rw [i2]; unfold totalSupply Erc20.totalSupplyOf; rw [h3]
      · rcases hk with rfl | rfl
        · -- pause while paused cannot succeed
          simp only [exec, pause, Pausable.pause, Pausable.whenNotPaused] at hx
          have : s.pausable.paused = true := hp
          simp [this, liftPausable] at hx
        · exact absurd rfl hne

/-- **C11** `pause` and `unpause` succeed exactly in the unpaused resp. paused state. -/
theorem C11_toggles (s : State) (c : Address) :
    ((∃ s', exec s (c, .pause) = .ok s') ↔ paused s = false) ∧
    ((∃ s', exec s (c, .unpause) = .ok s') ↔ paused s = true) ∧
    (∀ s', exec s (c, .pause) = .ok s' → paused s' = true ∧ s'.erc20 = s.erc20) ∧
    (∀ s', exec s (c, .unpause) = .ok s' → paused s' = false ∧ s'.erc20 = s.erc20) := by
  unfold paused
  simp only [exec, pause, unpause, Pausable.pause, Pausable.unpause, Pausable.whenNotPaused,
    Pausable.whenPaused]
  cases hp : s.pausable.paused <;> simp [liftPausable]

/-- **C11** The pause is no loss of function: unpaused, every token call behaves exactly as the bare
token, except that mints also respect the cap. -/
theorem C11_unpaused_is_bare_token {s : State} (hp : paused s = false) (c : Address)
    (tc : Erc20.Call) (hnm : ∀ a v, tc ≠ .mint a v) :
    exec s (c, .token tc) = match Erc20.exec s.erc20 (c, tc) with
      | .ok t => .ok { s with erc20 := t }
      | .error e => .error (.erc20 e) := by
  have hpn : whenNotPaused s = .ok () := by rw [whenNotPaused_eq]; simp [hp]
  cases tc with
  | mint a v => exact absurd rfl (hnm a v)
  | transfer d v =>
    simp only [exec, transfer, hpn, except_bind_ok, Erc20.exec]
    cases Erc20.transfer s.erc20 c d v <;> rfl
  | transferFrom a d v =>
    simp only [exec, transferFrom, hpn, except_bind_ok, Erc20.exec]
    cases Erc20.transferFrom s.erc20 c a d v <;> rfl
  | approve sp v =>
    simp only [exec, approve, Erc20.exec]
    cases Erc20.approve s.erc20 c sp v <;> rfl
  | burn v =>
    simp only [exec, burn, hpn, except_bind_ok, Erc20.exec]
    cases Erc20.burn s.erc20 c v <;> rfl
  | burnFrom a v =>
    simp only [exec, burnFrom, hpn, except_bind_ok, Erc20.exec]
    cases Erc20.burnFrom s.erc20 c a v <;> rfl

/-- A paused state reached with tokens in it. -/
example : paused (run (init 100#256) (sampleCapped ++ [(9#160, .pause)])) = true ∧
    balanceOf (run (init 100#256) (sampleCapped ++ [(9#160, .pause),
      (1#160, .token (.transfer 3#160 5#256)), (1#160, .token (.approve 3#160 5#256)),
      (3#160, .token (.transferFrom 1#160 3#160 5#256))])) 1#160 = 90#256 := by decide

end Verif.Props.Erc20Example
