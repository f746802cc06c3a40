import Verif.Spec.Vesting
import Mathlib.Tactic.Positivity
/-! # C30, C31: vesting wallet -/

namespace Verif.Props.Vesting
open Verif.Vesting Verif.Spec.Vesting

/-! ## C30: the schedule -/

theorem curve_le_total (st d T t : Nat) : curve st d T t ≤ T := by
  unfold curve
  split
  · omega
  · split
    · exact le_refl _
    · rename_i h1 h2
      have hd : 0 < d := by omega
      apply Nat.div_le_of_le_mul
      rw [Nat.mul_comm d T]
      exact Nat.mul_le_mul_left _ (by omega)

theorem curve_mono (st d : Nat) {T T' t t' : Nat} (hT : T ≤ T') (ht : t ≤ t') :
    curve st d T t ≤ curve st d T' t' := by
  by_cases h1 : t < st
  · simp [curve, h1]
  · have h1' : ¬ t' < st := by omega
    by_cases h2 : st + d ≤ t'
    · have : curve st d T' t' = T' := by simp [curve, h1', h2]
      rw [this]
      exact le_trans (curve_le_total _ _ _ _) hT
    · have h2' : ¬ st + d ≤ t := by omega
      simp only [curve, h1, h1', h2, h2', if_false]
      apply Nat.div_le_div_right
      exact Nat.mul_le_mul hT (by omega)

theorem setWidth_toNat (x : U64) : (x.setWidth 256 : U256).toNat = x.toNat := by
  rw [BitVec.toNat_setWidth]
  exact Nat.mod_eq_of_lt (lt_trans x.isLt (by decide))

theorem end_toNat (s : State) : (end' s).toNat = s.start.toNat + s.duration.toNat := by
  unfold end' start duration
  have h1 := s.start.isLt
  have h2 := s.duration.isLt
  rw [toNat_add_of_lt, setWidth_toNat, setWidth_toNat]
  rw [setWidth_toNat, setWidth_toNat]; omega

/-- **C30** The code computes the curve exactly; the only failure is a product `total * elapsed` above
256 bits strictly inside the vesting period. -/
theorem C30_schedule_is_curve (s : State) (T : U256) (t : U64) (r : U256) :
    (vestingSchedule s T t = .ok r →
      r.toNat = curve s.start.toNat s.duration.toNat T.toNat t.toNat) ∧
    ((∃ e, vestingSchedule s T t = .error e) ↔
      s.start.toNat ≤ t.toNat ∧ t.toNat < s.start.toNat + s.duration.toNat ∧
        2 ^ 256 ≤ T.toNat * (t.toNat - s.start.toNat)) := by
  have he := end_toNat s
  have hst : (start s).toNat = s.start.toNat := setWidth_toNat _
  have hts : (t.setWidth 256 : U256).toNat = t.toNat := setWidth_toNat _
  unfold vestingSchedule curve
  by_cases h1 : (t.setWidth 256 : U256) < start s
  · have h1' : t.toNat < s.start.toNat := by
      have := BitVec.lt_def.mp h1; omega
    simp only [h1, if_true, h1']
    constructor
    · intro h; cases h; rfl
    · simp; omega
  · have h1' : ¬ t.toNat < s.start.toNat := by
      rw [BitVec.lt_def] at h1; omega
    by_cases h2 : end' s ≤ (t.setWidth 256 : U256)
    · have h2' : s.start.toNat + s.duration.toNat ≤ t.toNat := by
        have := BitVec.le_def.mp h2; omega
      simp only [h1, h2, if_false, if_true, h1', h2']
      constructor
      · intro h; cases h; rfl
      · simp; omega
    · have h2' : ¬ s.start.toNat + s.duration.toNat ≤ t.toNat := by
        rw [BitVec.le_def] at h2; omega
      simp only [h1, h2, if_false, h1', h2']
      have hel : ((t.setWidth 256 : U256) - start s).toNat = t.toNat - s.start.toNat := by
        rw [toNat_sub_of_ge (by omega), hts, hst]
      cases hc : checkedMul T ((t.setWidth 256 : U256) - start s) with
      | none =>
        have := checkedMul_eq_none.mp hc
        rw [hel] at this
        simp only [orPanic_none, except_bind_error]
        constructor
        · intro h; cases h
        · constructor
          · intro _; exact ⟨by omega, by omega, this⟩
          · intro _; exact ⟨_, rfl⟩
      | some x =>
        obtain ⟨g1, g2⟩ := checkedMul_eq_some.mp hc
        rw [hel] at g1 g2
        simp only [orPanic_some, except_bind_ok, except_pure]
        constructor
        · intro h
          cases h
          rw [BitVec.toNat_udiv, g2, show (duration s).toNat = s.duration.toNat from setWidth_toNat _]
        · constructor
          · rintro ⟨e, h⟩; cases h
          · intro h; omega

/-- **C30** The curve's shape: nothing before `start`, all from the end on, never more than the total,
non-decreasing in time and total, and with zero duration everything at `start`. -/
theorem C30_curve_shape (st d T t : Nat) :
    (t < st → curve st d T t = 0) ∧
    (st + d ≤ t → curve st d T t = T) ∧
    curve st d T t ≤ T ∧
    (∀ T' t', T ≤ T' → t ≤ t' → curve st d T t ≤ curve st d T' t') ∧
    (curve st 0 T t = if st ≤ t then T else 0) ∧
    (st ≤ t → t < st + d →
      curve st d T t * d ≤ T * (t - st) ∧ T * (t - st) < (curve st d T t + 1) * d) := by
  refine ⟨fun h => by simp [curve, h], fun h => ?_, curve_le_total _ _ _ _,
    fun T' t' hT ht => curve_mono _ _ hT ht, ?_, fun h1 h2 => ?_⟩
  · have : ¬ t < st := by omega
    simp [curve, this, h]
  · unfold curve
    by_cases h : st ≤ t
    · have : ¬ t < st := by omega
      simp [h, this]
    · have : t < st := by omega
      simp [h, this]
  · have e1 : ¬ t < st := by omega
    have e2 : ¬ st + d ≤ t := by omega
    have hd : 0 < d := by omega
    simp only [curve, e1, e2, if_false]
    rw [← Nat.le_div_iff_mul_le hd, ← Nat.div_lt_iff_lt_mul hd]
    omega

/-- A wallet vesting 1000 over 100 s from time 50: at time 75 a quarter is vested. -/
def sampleWallet : State :=
  { init 7#160 50#64 100#64 75#64 (fun _ => true) with ethBalance := 1000#256 }
example : vestedAmountEth sampleWallet 75#64 = .ok 250#256 := by decide +kernel

/-! ## C31: releases -/

/-- Wallet invariant: what is released is within the curve of everything received. -/
structure Inv (s0 s : State) (re : Nat) (rt : Address → Nat) : Prop where
  start : s.start = s0.start
  duration : s.duration = s0.duration
  eth : s.released.toNat + s.ethBalance.toNat = re
  ethVested : s.released.toNat ≤ curve s.start.toNat s.duration.toNat re s.now.toNat
  tok : ∀ k b, s.tokenBalance k = some b → (s.erc20Released k).toNat + b.toNat = rt k
  tokVested : ∀ k, (s.erc20Released k).toNat ≤ curve s.start.toNat s.duration.toNat (rt k) s.now.toNat

theorem releasable_num {s : State} {T : Nat} {bal rel total vested : U256}
    (hsum : rel.toNat + bal.toNat = T)
    (hv : rel.toNat ≤ curve s.start.toNat s.duration.toNat T s.now.toNat)
    (ht : checkedAdd bal rel = some total) (hs : vestingSchedule s total s.now = .ok vested) :
    (vested - rel).toNat + rel.toNat = curve s.start.toNat s.duration.toNat T s.now.toNat ∧
    (vested - rel).toNat ≤ bal.toNat := by
  obtain ⟨h1, h2⟩ := checkedAdd_eq_some.mp ht
  have hc := (C30_schedule_is_curve s total s.now vested).1 hs
  have hT : total.toNat = T := by omega
  rw [hT] at hc
  have hle := curve_le_total s.start.toNat s.duration.toNat T s.now.toNat
  rw [toNat_sub_of_ge (by omega)]
  omega

theorem releasableEth_ok {s : State} {a : U256} (h : releasableEth s = .ok a) :
    ∃ total vested, checkedAdd s.ethBalance s.released = some total ∧
      vestingSchedule s total s.now = .ok vested ∧ a = vested - s.released := by
  unfold releasableEth vestedAmountEth at h
  obtain ⟨v, hv, h2⟩ := bind_eq_ok.mp h
  obtain ⟨t, ht, h3⟩ := bind_eq_ok.mp hv
  cases hc : checkedAdd s.ethBalance s.released with
  | none => simp [hc] at ht
  | some x =>
    simp [hc] at ht; subst ht
    cases h2
    exact ⟨x, v, rfl, h3, rfl⟩

theorem releasableErc20_ok {s : State} {k : Address} {a : U256} (h : releasableErc20 s k = .ok a) :
    ∃ b total vested, s.tokenBalance k = some b ∧ checkedAdd b (s.erc20Released k) = some total ∧
      vestingSchedule s total s.now = .ok vested ∧ a = vested - s.erc20Released k := by
  unfold releasableErc20 vestedAmountErc20 at h
  obtain ⟨v, hv, h2⟩ := bind_eq_ok.mp h
  obtain ⟨b, hb, h3⟩ := bind_eq_ok.mp hv
  obtain ⟨t, ht, h4⟩ := bind_eq_ok.mp h3
  cases hbb : s.tokenBalance k with
  | none => simp [hbb] at hb
  | some b' =>
    simp [hbb] at hb; subst hb
    cases hc : checkedAdd b' (s.erc20Released k) with
    | none => simp [hc] at ht
    | some x =>
      simp [hc] at ht; subst ht
      cases h2
      exact ⟨b', x, v, rfl, hc, h4, rfl⟩

/-- Inversion of a successful ether release. -/
theorem releaseEth_ok {s s' : State} {ok : Bool} (h : releaseEth s ok = .ok s') :
    ∃ a rel, releasableEth s = .ok a ∧ checkedAdd s.released a = some rel ∧ ok = true ∧
      a.toNat ≤ s.ethBalance.toNat ∧
      s' = { s with released := rel, ethBalance := s.ethBalance - a,
                    paid := s.paid ++ [⟨none, s.owner, a⟩],
                    log := s.log ++ [.etherReleased a] } := by
  unfold releaseEth at h
  obtain ⟨a, ha, h2⟩ := bind_eq_ok.mp h
  obtain ⟨rel, hr, h3⟩ := bind_eq_ok.mp h2
  cases hc : checkedAdd s.released a with
  | none => simp [hc] at hr
  | some x =>
    simp [hc] at hr; subst hr
    by_cases hf : ok = false ∨ s.ethBalance < a
    · simp [hf] at h3
    · simp only [hf, if_false, except_bind_ok, except_pure, Except.ok.injEq] at h3
      rw [not_or, BitVec.lt_def] at hf
      exact ⟨a, x, ha, hc, by simpa using hf.1, by omega, h3.symm⟩

/-- Inversion of a successful token release. -/
theorem releaseErc20_ok {s s' : State} {k : Address} {ok : Bool} (h : releaseErc20 s k ok = .ok s') :
    ∃ a rel b, releasableErc20 s k = .ok a ∧ checkedAdd (s.erc20Released k) a = some rel ∧
      s.tokenBalance k = some b ∧ ok = true ∧ a.toNat ≤ b.toNat ∧
      s' = { s with erc20Released := upd s.erc20Released k rel
                    tokenBalance := upd s.tokenBalance k (some (b - a))
                    paid := s.paid ++ [⟨some k, s.owner, a⟩]
                    log := s.log ++ [.erc20Released k a] } := by
  unfold releaseErc20 at h
  obtain ⟨a, ha, h2⟩ := bind_eq_ok.mp h
  obtain ⟨rel, hr, h3⟩ := bind_eq_ok.mp h2
  obtain ⟨b, hb, h4⟩ := bind_eq_ok.mp h3
  cases hc : checkedAdd (s.erc20Released k) a with
  | none => simp [hc] at hr
  | some x =>
    simp [hc] at hr; subst hr
    cases hbb : s.tokenBalance k with
    | none => simp [hbb] at hb
    | some b' =>
      simp [hbb] at hb; subst hb
      by_cases hf : ok = false ∨ b' < a
      · simp [hf] at h4
      · simp only [hf, if_false, except_bind_ok, except_pure, Except.ok.injEq] at h4
        rw [not_or, BitVec.lt_def] at hf
        exact ⟨a, x, b', ha, hc, rfl, by simpa using hf.1, by omega, h4.symm⟩

theorem inv_step {s0 s s' : State} {re : Nat} {rt : Address → Nat} {op : Op} (hi : Inv s0 s re rt)
    (h : exec s op = .ok s') :
    Inv s0 s' (re + (match op with | .receiveEth v => v.toNat | _ => 0))
      (fun k => rt k + (match op with
        | .receiveToken k' v => if k' = k then v.toNat else 0
        | _ => 0)) := by
  obtain ⟨i1, i2, i3, i4, i5, i6⟩ := hi
  cases op with
  | tick t =>
    simp only [exec, guard_eq_ok, BitVec.lt_def] at h
    obtain ⟨hlt, h⟩ := h
    cases h
    have hle : s.now.toNat ≤ t.toNat := by omega
    exact ⟨i1, i2, i3, le_trans i4 (curve_mono _ _ (le_refl _) hle), i5,
      fun k => le_trans (i6 k) (curve_mono _ _ (le_refl _) hle)⟩
  | receiveEth v =>
    simp only [exec] at h
    cases hc : checkedAdd s.ethBalance v with
    | none => simp [hc] at h
    | some b =>
      simp [hc] at h
      subst h
      have := (checkedAdd_eq_some.mp hc).2
      refine ⟨i1, i2, ?_, le_trans i4 (curve_mono _ _ (by omega) (le_refl _)), i5, i6⟩
      show s.released.toNat + b.toNat = _
      dsimp only
      omega
  | receiveToken k v =>
    simp only [exec] at h
    cases hb : s.tokenBalance k with
    | none => simp [hb] at h
    | some b0 =>
      cases hc : checkedAdd b0 v with
      | none => simp [hb, hc] at h
      | some b =>
        simp [hb, hc] at h
        subst h
        have := (checkedAdd_eq_some.mp hc).2
        refine ⟨i1, i2, i3, i4, ?_, fun k' => le_trans (i6 k') (curve_mono _ _ (by omega) (le_refl _))⟩
        intro k' b' hb'
        dsimp only at hb' ⊢
        by_cases e : k' = k
        · subst e
          simp only [upd_same, Option.some.injEq] at hb'
          subst hb'
          have := i5 k' b0 hb
          simp only [if_true]; omega
        · rw [upd_ne _ _ e] at hb'
          have := i5 k' b' hb'
          rw [if_neg (fun e' => e e'.symm)]; omega
  | releaseEth ok =>
    obtain ⟨a, rel, ha, hrel, _, hab, rfl⟩ := releaseEth_ok h
    obtain ⟨T, v, hT, hv, rfl⟩ := releasableEth_ok ha
    obtain ⟨g1, g2⟩ := releasable_num i3 i4 hT hv
    have hr := (checkedAdd_eq_some.mp hrel).2
    refine ⟨i1, i2, ?_, ?_, i5, i6⟩
    · show rel.toNat + (s.ethBalance - _).toNat = _
      rw [toNat_sub_of_ge hab]; dsimp only; omega
    · show rel.toNat ≤ curve s.start.toNat s.duration.toNat _ s.now.toNat
      dsimp only
      rw [Nat.add_zero, ← g1]; omega
  | releaseErc20 k ok =>
    obtain ⟨a, rel, b, ha, hrel, hb, _, hab, rfl⟩ := releaseErc20_ok h
    obtain ⟨b', T, v, hb', hT, hv, rfl⟩ := releasableErc20_ok ha
    rw [hb] at hb'; cases hb'
    obtain ⟨g1, g2⟩ := releasable_num (i5 k b hb) (i6 k) hT hv
    have hr := (checkedAdd_eq_some.mp hrel).2
    refine ⟨i1, i2, i3, i4, ?_, ?_⟩
    · intro k' b' hb'
      dsimp only at hb' ⊢
      by_cases e : k' = k
      · subst e
        simp only [upd_same, Option.some.injEq] at hb' ⊢
        subst hb'
        rw [toNat_sub_of_ge hab]
        have := i5 k' b hb
        omega
      · rw [upd_ne _ _ e] at hb'
        rw [upd_ne _ _ e]
        exact i5 k' b' hb'
    · intro k'
      dsimp only
      by_cases e : k' = k
      · subst e
        simp only [upd_same]
        rw [Nat.add_zero, ← g1]; omega
      · rw [upd_ne _ _ e]; exact i6 k'
  | setOwner o => cases h; exact ⟨i1, i2, i3, i4, i5, i6⟩

theorem inv_run {s0 : State} (ops : List Op) : ∀ {s : State} {re : Nat} {rt : Address → Nat},
    Inv s0 s re rt →
    Inv s0 (run s ops) (re + ethReceived s ops) (fun k => rt k + tokenReceived k s ops) := by
  induction ops with
  | nil => intro s re rt h; simpa [ethReceived, tokenReceived, run] using h
  | cons op ops ih =>
    intro s re rt h
    show Inv s0 (run (stepOf exec s op) ops) _ _
    cases hx : exec s op with
    | error e =>
      have := ih h
      rw [stepOf_error hx]
      simp only [ethReceived, tokenReceived, stepOf_error hx]
      convert this using 1
      · rw [hx]; cases op <;> simp
      · funext k; rw [hx]; cases op <;> simp
    | ok s' =>
      have := ih (inv_step h hx)
      rw [stepOf_ok hx]
      simp only [ethReceived, tokenReceived, stepOf_ok hx]
      convert this using 1
      · rw [hx, Nat.add_assoc]; cases op <;> rfl
      · funext k; rw [hx, Nat.add_assoc]; cases op <;> rfl

theorem inv_init (o : Address) (st d now : U64) (tk : Address → Bool) :
    Inv (init o st d now tk) (init o st d now tk) 0 (fun _ => 0) := by
  refine ⟨rfl, rfl, by simp [init], by simp [init], ?_, by simp [init]⟩
  intro k b hb
  simp only [init] at hb ⊢
  split at hb
  · cases hb; rfl
  · cases hb

theorem inv_hist (o : Address) (st d now : U64) (tk : Address → Bool) (ops : List Op) :
    Inv (init o st d now tk) (run (init o st d now tk) ops)
      (ethReceived (init o st d now tk) ops) (fun k => tokenReceived k (init o st d now tk) ops) := by
  have := inv_run ops (inv_init o st d now tk)
  simpa using this

/-- **C31** After every history: ether released plus ether held is exactly the ether received, and the
released part is within the vesting curve of everything received at the present time. -/
theorem C31_eth_accounting (o : Address) (st d now : U64) (tk : Address → Bool) (ops : List Op) :
    let s := run (init o st d now tk) ops
    let received := ethReceived (init o st d now tk) ops
    s.released.toNat + s.ethBalance.toNat = received ∧
    s.released.toNat ≤ curve st.toNat d.toNat received s.now.toNat := by
  intro s received
  have hi := inv_hist o st d now tk ops
  refine ⟨hi.eth, ?_⟩
  have := hi.ethVested
  rw [hi.start, hi.duration] at this
  exact this

/-- **C31** The same for every token. -/
theorem C31_token_accounting (o : Address) (st d now : U64) (tk : Address → Bool) (ops : List Op)
    (k : Address) (b : U256) :
    let s := run (init o st d now tk) ops
    let received := tokenReceived k (init o st d now tk) ops
    s.tokenBalance k = some b →
    (s.erc20Released k).toNat + b.toNat = received ∧
    (s.erc20Released k).toNat ≤ curve st.toNat d.toNat received s.now.toNat := by
  intro s received hb
  have hi := inv_hist o st d now tk ops
  refine ⟨hi.tok k b hb, ?_⟩
  have := hi.tokVested k
  rw [hi.start, hi.duration] at this
  exact this

/-- **C31** The unchecked subtraction in `releasable` never wraps: the answer is exactly the vested
amount minus what was released, and it is covered by the balance. -/
theorem C31_releasable_exact (o : Address) (st d now : U64) (tk : Address → Bool) (ops : List Op)
    (k : Address) (a : U256) :
    let s := run (init o st d now tk) ops
    (releasableEth s = .ok a →
      a.toNat + s.released.toNat
        = curve st.toNat d.toNat (ethReceived (init o st d now tk) ops) s.now.toNat ∧
      a.toNat ≤ s.ethBalance.toNat) ∧
    (releasableErc20 s k = .ok a → ∃ b, s.tokenBalance k = some b ∧
      a.toNat + (s.erc20Released k).toNat
        = curve st.toNat d.toNat (tokenReceived k (init o st d now tk) ops) s.now.toNat ∧
      a.toNat ≤ b.toNat) := by
  intro s
  have hi := inv_hist o st d now tk ops
  constructor
  · intro h
    obtain ⟨T, v, hT, hv, rfl⟩ := releasableEth_ok h
    have := releasable_num hi.eth hi.ethVested hT hv
    rw [hi.start, hi.duration] at this; exact this
  · intro h
    obtain ⟨b, T, v, hb, hT, hv, rfl⟩ := releasableErc20_ok h
    have := releasable_num (hi.tok k b hb) (hi.tokVested k) hT hv
    rw [hi.start, hi.duration] at this; exact ⟨b, hb, this⟩

/-- **C31** A release pays exactly the releasable amount to the owner, reports it, and changes nothing
else. -/
theorem C31_release_effect (o : Address) (st d now : U64) (tk : Address → Bool) (ops : List Op)
    {s' : State} {ok : Bool} (h : releaseEth (run (init o st d now tk) ops) ok = .ok s') :
    let s := run (init o st d now tk) ops
    ∃ a, releasableEth s = .ok a ∧
      s'.released.toNat = s.released.toNat + a.toNat ∧
      s'.ethBalance.toNat + a.toNat = s.ethBalance.toNat ∧
      s'.paid = s.paid ++ [⟨none, s.owner, a⟩] ∧ s'.log = s.log ++ [.etherReleased a] ∧
      s'.erc20Released = s.erc20Released ∧ s'.tokenBalance = s.tokenBalance ∧ s'.owner = s.owner := by
  intro s
  obtain ⟨a, rel, ha, hrel, _, hab, rfl⟩ := releaseEth_ok h
  have hab' : a.toNat ≤ s.ethBalance.toNat := hab
  refine ⟨a, ha, (checkedAdd_eq_some.mp hrel).2, ?_, rfl, rfl, rfl, rfl, rfl⟩
  show (s.ethBalance - a).toNat + a.toNat = _
  rw [toNat_sub_of_ge hab']; omega

/-- **C31** Same for a token release. -/
theorem C31_release_token_effect (o : Address) (st d now : U64) (tk : Address → Bool) (ops : List Op)
    {s' : State} {k : Address} {ok : Bool}
    (h : releaseErc20 (run (init o st d now tk) ops) k ok = .ok s') :
    let s := run (init o st d now tk) ops
    ∃ a b, releasableErc20 s k = .ok a ∧ s.tokenBalance k = some b ∧
      (s'.erc20Released k).toNat = (s.erc20Released k).toNat + a.toNat ∧
      (∃ b', s'.tokenBalance k = some b' ∧ b'.toNat + a.toNat = b.toNat) ∧
      (∀ k', k' ≠ k → s'.erc20Released k' = s.erc20Released k' ∧
        s'.tokenBalance k' = s.tokenBalance k') ∧
      s'.paid = s.paid ++ [⟨some k, s.owner, a⟩] ∧ s'.log = s.log ++ [.erc20Released k a] ∧
      s'.released = s.released ∧ s'.ethBalance = s.ethBalance ∧ s'.owner = s.owner := by
  intro s
  obtain ⟨a, rel, b, ha, hrel, hb, _, hab, rfl⟩ := releaseErc20_ok h
  refine ⟨a, b, ha, hb, ?_, ⟨b - a, by simp, ?_⟩, ?_, rfl, rfl, rfl, rfl, rfl⟩
  · simp only [upd_same]; exact (checkedAdd_eq_some.mp hrel).2
  · rw [toNat_sub_of_ge hab]; omega
  · intro k' hk'
    exact ⟨upd_ne _ _ hk', upd_ne _ _ hk'⟩

/-- **C31** From the end of the schedule on, one accepted release pays out everything. -/
theorem C31_all_released_at_end (o : Address) (st d now : U64) (tk : Address → Bool) (ops : List Op)
    {s' : State} (hend : st.toNat + d.toNat ≤ (run (init o st d now tk) ops).now.toNat)
    (h : releaseEth (run (init o st d now tk) ops) true = .ok s') :
    s'.ethBalance.toNat = 0 ∧ s'.released.toNat = ethReceived (init o st d now tk) ops := by
  obtain ⟨a, ha, h1, h2, _⟩ := C31_release_effect o st d now tk ops h
  obtain ⟨h3, _⟩ := (C31_releasable_exact o st d now tk ops 0#160 a).1 ha
  rw [(C30_curve_shape _ _ _ _).2.1 hend] at h3
  have h4 := (C31_eth_accounting o st d now tk ops).1
  omega

/-- **C31** Same for a token. -/
theorem C31_all_tokens_released_at_end (o : Address) (st d now : U64) (tk : Address → Bool)
    (ops : List Op) {s' : State} {k : Address}
    (hend : st.toNat + d.toNat ≤ (run (init o st d now tk) ops).now.toNat)
    (h : releaseErc20 (run (init o st d now tk) ops) k true = .ok s') :
    s'.tokenBalance k = some 0#256 ∧
    (s'.erc20Released k).toNat = tokenReceived k (init o st d now tk) ops := by
  obtain ⟨a, b, ha, hb, h1, ⟨b', hb', h2⟩, _⟩ := C31_release_token_effect o st d now tk ops h
  obtain ⟨b2, hb2, h3, _⟩ := (C31_releasable_exact o st d now tk ops k a).2 ha
  rw [(C30_curve_shape _ _ _ _).2.1 hend] at h3
  have h4 := (C31_token_accounting o st d now tk ops k b hb).1
  have hz : b' = 0#256 := by apply BitVec.eq_of_toNat_eq; simp; omega
  exact ⟨by rw [hb', hz], by omega⟩

/-- **C31** A release cannot get stuck on arithmetic as long as the received amount is below `2^192`:
for a receiver that accepts ether it succeeds in every reachable state. -/
theorem C31_release_succeeds (o : Address) (st d now : U64) (tk : Address → Bool) (ops : List Op)
    (hsmall : ethReceived (init o st d now tk) ops < 2 ^ 192) :
    ∃ s', releaseEth (run (init o st d now tk) ops) true = .ok s' := by
  have hi := inv_hist o st d now tk ops
  have hacc := C31_eth_accounting o st d now tk ops
  dsimp only at hacc
  generalize hs : run (init o st d now tk) ops = s at *
  generalize ethReceived (init o st d now tk) ops = re at *
  have hadd : checkedAdd s.ethBalance s.released = some (s.ethBalance + s.released) := by
    unfold checkedAdd; rw [if_pos (by omega)]
  have hT : (s.ethBalance + s.released).toNat = re := by
    rw [toNat_add_of_lt (by omega)]; omega
  cases hv : vestingSchedule s (s.ethBalance + s.released) s.now with
  | error e =>
    obtain ⟨_, _, h3⟩ := (C30_schedule_is_curve s _ s.now 0#256).2.mp ⟨e, hv⟩
    rw [hT] at h3
    have hn := s.now.isLt
    have : re * (s.now.toNat - s.start.toNat) ≤ (2 ^ 192 - 1) * (2 ^ 64 - 1) :=
      Nat.mul_le_mul (by omega) (by omega)
    omega
  | ok v =>
    obtain ⟨g1, g2⟩ := releasable_num hi.eth hi.ethVested hadd hv
    have hra : releasableEth s = .ok (v - s.released) := by
      simp [releasableEth, vestedAmountEth, hadd, hv]
    have hle := curve_le_total s.start.toNat s.duration.toNat re s.now.toNat
    have hc : checkedAdd s.released (v - s.released) = some (s.released + (v - s.released)) := by
      unfold checkedAdd; rw [if_pos (by omega)]
    have hf : ¬ (true = false ∨ s.ethBalance < v - s.released) := by
      rw [BitVec.lt_def]; intro h
      rcases h with h | h
      · cases h
      · omega
    unfold releaseEth
    rw [hra]
    simp only [except_bind_ok, hc, orPanic_some]
    rw [if_neg hf]
    exact ⟨_, rfl⟩

/-- Payments made are exactly the releases recorded. -/
theorem paidTotal_append (x : Option Address) (l : List Payment) (p : Payment) :
    paidTotal x (l ++ [p]) = paidTotal x l + (if p.asset = x then p.amount.toNat else 0) := by
  induction l with
  | nil => simp [paidTotal]
  | cons q l ih => simp only [List.cons_append, paidTotal, ih]; omega

/-- **C31** After every history `released` equals the sum of the payments actually made, for ether and
for every token. -/
theorem C31_released_is_paid (o : Address) (st d now : U64) (tk : Address → Bool) (ops : List Op) :
    let s := run (init o st d now tk) ops
    s.released.toNat = paidTotal none s.paid ∧
    ∀ k, (s.erc20Released k).toNat = paidTotal (some k) s.paid := by
  apply run_invariant (exec := exec) (Inv := fun s => s.released.toNat = paidTotal none s.paid ∧
    ∀ k, (s.erc20Released k).toNat = paidTotal (some k) s.paid)
  · rintro s op s' ⟨h1, h2⟩ h
    cases op with
    | tick t => simp only [exec, guard_eq_ok] at h; obtain ⟨_, h⟩ := h; cases h; exact ⟨h1, h2⟩
    | receiveEth v =>
      simp only [exec] at h
      cases hc : checkedAdd s.ethBalance v with
      | none => simp [hc] at h
      | some b => simp [hc] at h; subst h; exact ⟨h1, h2⟩
    | receiveToken k v =>
      simp only [exec] at h
      cases hb : s.tokenBalance k with
      | none => simp [hb] at h
      | some b0 =>
        cases hc : checkedAdd b0 v with
        | none => simp [hb, hc] at h
        | some b => simp [hb, hc] at h; subst h; exact ⟨h1, h2⟩
    | releaseEth ok =>
      obtain ⟨a, rel, ha, hrel, _, hab, rfl⟩ := releaseEth_ok h
      have hr := (checkedAdd_eq_some.mp hrel).2
      refine ⟨?_, fun k => ?_⟩
      · show rel.toNat = _
        simp only [paidTotal_append, if_true]; omega
      · simp only [paidTotal_append]
        rw [if_neg (by simp)]; exact h2 k
    | releaseErc20 k ok =>
      obtain ⟨a, rel, b, ha, hrel, hb, _, hab, rfl⟩ := releaseErc20_ok h
      have hr := (checkedAdd_eq_some.mp hrel).2
      refine ⟨?_, fun k' => ?_⟩
      · simp only [paidTotal_append]
        rw [if_neg (by simp)]; exact h1
      · simp only [paidTotal_append, Option.some.injEq]
        by_cases e : k' = k
        · subst e; simp only [upd_same, if_true]; have := h2 k'; omega
        · rw [upd_ne _ _ e, if_neg (fun e' => e e'.symm)]; exact h2 k'
    | setOwner o => cases h; exact ⟨h1, h2⟩
  · exact ⟨by simp [init, paidTotal], fun k => by simp [init, paidTotal]⟩

/-- A history: 1000 arrive, a quarter is released at time 75, 200 more arrive, the rest at the end. -/
def sampleOps : List Op :=
  [.receiveEth 1000#256, .tick 75#64, .releaseEth true, .receiveEth 200#256, .releaseEth false,
   .tick 150#64, .releaseEth true]
example : (run (init 7#160 50#64 100#64 0#64 (fun _ => true)) sampleOps).log
    = [.etherReleased 250#256, .etherReleased 950#256] ∧
    (run (init 7#160 50#64 100#64 0#64 (fun _ => true)) sampleOps).ethBalance = 0#256 := by
  decide +kernel

/-- **C31** (limit of the claim, a finding) With a token whose balances can shrink by themselves the
subtraction does wrap: half of 100 vested and released, then the balance drops to 0; `releasable`
answers `2^256 - 25`. -/
theorem C31_shrinking_token_wraps :
    let s := run (init 7#160 0#64 100#64 50#64 (fun _ => true))
      [.receiveToken 5#160 100#256, .releaseErc20 5#160 true]
    let shrunk : State := { s with tokenBalance := upd s.tokenBalance 5#160 (some 0#256) }
    (s.erc20Released 5#160 = 50#256 ∧ s.tokenBalance 5#160 = some 50#256) ∧
    releasableErc20 shrunk 5#160 = .ok (0#256 - 25#256) := by
  decide +kernel

end Verif.Props.Vesting
