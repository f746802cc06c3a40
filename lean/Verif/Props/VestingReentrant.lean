import Verif.Model.VestingReentrant
import Verif.Props.Vesting
/-! # C89: the vesting wallet under re-entrancy -/

namespace Verif.Props.VestingReentrant
open Verif.Vesting Verif.Spec.Vesting Verif.Props.Vesting
open Verif.Vesting.Reentrant (execWith)

/-! ## Inversion -/

private theorem releaseEth_ok {after : State → State} {s s' : State} {ok : Bool}
    (h : Reentrant.releaseEth after s ok = .ok s') :
    ∃ a rel, releasableEth s = .ok a ∧ checkedAdd s.released a = some rel ∧
      a.toNat ≤ s.ethBalance.toNat ∧
      ∃ s2, s2 = after { s with released := rel, ethBalance := s.ethBalance - a,
                                paid := s.paid ++ [⟨none, s.owner, a⟩] } ∧
        s' = { s2 with log := s2.log ++ [.etherReleased a] } := by
  unfold Reentrant.releaseEth at h
  obtain ⟨a, ha, h2⟩ := bind_eq_ok.mp h
  obtain ⟨rel, hr, h3⟩ := bind_eq_ok.mp h2
  cases hc : checkedAdd s.released a with
  | none => simp [hc] at hr
  | some x =>
    simp [hc] at hr; subst hr
    dsimp only at h3
    by_cases hf : ok = false ∨ s.ethBalance < a
    · simp [hf] at h3
    · simp only [hf, if_false, except_pure, except_bind_ok, Except.ok.injEq] at h3
      rw [not_or, BitVec.lt_def] at hf
      exact ⟨a, x, ha, hc, by omega, _, rfl, h3.symm⟩

private theorem releaseErc20_ok {before after : State → State} {s s' : State} {k : Address} {ok : Bool}
    (h : Reentrant.releaseErc20 before after s k ok = .ok s') :
    ∃ a rel b, releasableErc20 s k = .ok a ∧ checkedAdd (s.erc20Released k) a = some rel ∧
      ∃ s1, s1 = before { s with erc20Released := upd s.erc20Released k rel } ∧
      s1.tokenBalance k = some b ∧ a.toNat ≤ b.toNat ∧
      ∃ s2, s2 = after { s1 with tokenBalance := upd s1.tokenBalance k (some (b - a)),
                                 paid := s1.paid ++ [⟨some k, s.owner, a⟩] } ∧
        s' = { s2 with log := s2.log ++ [.erc20Released k a] } := by
  unfold Reentrant.releaseErc20 at h
  obtain ⟨a, ha, h2⟩ := bind_eq_ok.mp h
  obtain ⟨rel, hr, h3⟩ := bind_eq_ok.mp h2
  obtain ⟨b, hb, h4⟩ := bind_eq_ok.mp h3
  cases hc : checkedAdd (s.erc20Released k) a with
  | none => simp [hc] at hr
  | some x =>
    simp [hc] at hr; subst hr
    generalize hs1 : before { s with erc20Released := upd s.erc20Released k x } = s1 at *
    cases hbb : s1.tokenBalance k with
    | none => simp [hbb] at hb
    | some b' =>
      simp [hbb] at hb; subst hb
      by_cases hf : ok = false ∨ b' < a
      · simp [hf] at h4
      · simp only [hf, if_false, except_pure, except_bind_ok, Except.ok.injEq] at h4
        rw [not_or, BitVec.lt_def] at hf
        exact ⟨a, x, b', ha, hc, s1, hs1.symm, hbb, by omega, _, rfl, h4.symm⟩

/-- **C89.** The wallet whose counterparties never call back is the wallet of C31. -/
theorem C89_passive (early : Address → Bool) (s : State) (op : Op) :
    execWith early (fun t => t) (fun t => t) s op = exec s op := by
  cases op with
  | releaseErc20 k ok => unfold execWith; dsimp only; rw [ite_self]; rfl
  | _ => rfl

/-! ## Invariants -/

private def Later (R : State → State → Prop) : Prop :=
  ∀ early before after s op s', (∀ t, R t (before t)) → (∀ t, R t (after t)) →
    execWith early before after s op = .ok s' → R s s'

/-- Start and duration never change and the clock never goes back. -/
private def Sched (s s' : State) : Prop :=
  s'.start = s.start ∧ s'.duration = s.duration ∧ s.now.toNat ≤ s'.now.toNat

private theorem sched_refl (s : State) : Sched s s := ⟨rfl, rfl, Nat.le_refl _⟩
private theorem sched_trans (a b c : State) (h1 : Sched a b) (h2 : Sched b c) : Sched a c :=
  ⟨h2.1.trans h1.1, h2.2.1.trans h1.2.1, h1.2.2.trans h2.2.2⟩

private theorem plain_ops {s s' : State} {op : Op} (h : exec s op = .ok s') :
    match op with
    | .tick t => s.now.toNat ≤ t.toNat ∧ s' = { s with now := t }
    | .receiveEth v => ∃ b, b.toNat = s.ethBalance.toNat + v.toNat ∧ s' = { s with ethBalance := b }
    | .receiveToken k v => ∃ b b', s.tokenBalance k = some b ∧ b'.toNat = b.toNat + v.toNat ∧
        s' = { s with tokenBalance := upd s.tokenBalance k (some b') }
    | .setOwner o => s' = { s with owner := o }
    | _ => True := by
  cases op with
  | tick t =>
    simp only [exec, guard_eq_ok, BitVec.lt_def] at h
    obtain ⟨hlt, h⟩ := h
    cases h
    exact ⟨by omega, rfl⟩
  | receiveEth v =>
    simp only [exec] at h
    cases hc : checkedAdd s.ethBalance v with
    | none => simp [hc] at h
    | some b => simp [hc] at h; exact ⟨b, (checkedAdd_eq_some.mp hc).2, h.symm⟩
  | receiveToken k v =>
    simp only [exec] at h
    cases hb : s.tokenBalance k with
    | none => simp [hb] at h
    | some b0 =>
      cases hc : checkedAdd b0 v with
      | none => simp [hb, hc] at h
      | some b => simp [hb, hc] at h; exact ⟨b0, b, hb, (checkedAdd_eq_some.mp hc).2, h.symm⟩
  | setOwner o => cases h; rfl
  | releaseEth ok => trivial
  | releaseErc20 k ok => trivial

/-- Released ether is what was paid, and is within the curve of everything paid or held. -/
private def EthInv (s : State) : Prop :=
  s.released.toNat = paidTotal none s.paid ∧
  s.released.toNat ≤
    curve s.start.toNat s.duration.toNat (s.released.toNat + s.ethBalance.toNat) s.now.toNat

private theorem paidTotal_append (x : Option Address) (ps qs : List Payment) :
    paidTotal x (ps ++ qs) = paidTotal x ps + paidTotal x qs := by
  induction ps with
  | nil => simp [paidTotal]
  | cons p ps ih => simp only [List.cons_append, paidTotal, ih]; omega

private theorem eth_later : Later fun s s' => EthInv s → EthInv s' := by
  intro early before after s op s' hb ha h hi
  cases op with
  | tick t =>
    obtain ⟨hle, rfl⟩ := plain_ops (op := .tick t) h
    exact ⟨hi.1, hi.2.trans (curve_mono _ _ (Nat.le_refl _) hle)⟩
  | receiveEth v =>
    obtain ⟨b, hbv, rfl⟩ := plain_ops (op := .receiveEth v) h
    exact ⟨hi.1, hi.2.trans (curve_mono _ _ (by dsimp only; omega) (Nat.le_refl _))⟩
  | receiveToken k v =>
    obtain ⟨b, b', _, _, rfl⟩ := plain_ops (op := .receiveToken k v) h
    exact hi
  | setOwner o =>
    cases plain_ops (op := .setOwner o) h
    exact hi
  | releaseEth ok =>
    obtain ⟨a, rel, hrel, hadd, hle, s2, hs2, rfl⟩ := releaseEth_ok h
    have hr := (checkedAdd_eq_some.mp hadd).2
    obtain ⟨T, v, hT, hv, rfl⟩ := releasableEth_ok hrel
    obtain ⟨g1, g2⟩ := releasable_num rfl hi.2 hT hv
    have : EthInv s2 := by
      rw [hs2]
      apply ha
      refine ⟨?_, ?_⟩
      · dsimp only
        rw [paidTotal_append, ← hi.1, hr]; simp [paidTotal]
      · dsimp only
        rw [toNat_sub_of_ge hle]
        have e : rel.toNat + (s.ethBalance.toNat - (v - s.released).toNat) =
          s.released.toNat + s.ethBalance.toNat := by omega
        rw [e, ← g1]; omega
    exact this
  | releaseErc20 k ok =>
    obtain ⟨a, rel, b, hrel, hadd, s1, hs1, hbal, hle, s2, hs2, rfl⟩ := releaseErc20_ok h
    have h1 : EthInv s1 := by
      rw [hs1]
      have h0 : EthInv { s with erc20Released := upd s.erc20Released k rel } := hi
      by_cases he : early k
      · simp only [he, if_true]; exact hb _ h0
      · simp only [he]; exact h0
    have h2 : EthInv s2 := by
      rw [hs2]
      apply ha
      refine ⟨?_, h1.2⟩
      dsimp only
      rw [paidTotal_append, h1.1]; simp [paidTotal]
    exact h2

/-- The bookkeeping of token `k` is off by the same amount before and after. -/
private def Books (k : Address) (s s' : State) : Prop :=
  (s'.erc20Released k).toNat + paidTotal (some k) s.paid =
    (s.erc20Released k).toNat + paidTotal (some k) s'.paid

private theorem books_later (k : Address) : Later (Books k) := by
  intro early before after s op s' hb ha h
  unfold Books at *
  cases op with
  | tick t => obtain ⟨hle, rfl⟩ := plain_ops (op := .tick t) h; rfl
  | receiveEth v => obtain ⟨b, hbv, rfl⟩ := plain_ops (op := .receiveEth v) h; rfl
  | receiveToken k v => obtain ⟨b, b', _, _, rfl⟩ := plain_ops (op := .receiveToken k v) h; rfl
  | setOwner o => cases plain_ops (op := .setOwner o) h; rfl
  | releaseEth ok =>
    obtain ⟨a, rel, hrel, hadd, hle, s2, hs2, rfl⟩ := releaseEth_ok h
    have h2 := ha { s with released := rel, ethBalance := s.ethBalance - a,
                           paid := s.paid ++ [⟨none, s.owner, a⟩] }
    rw [← hs2] at h2
    dsimp only at h2 ⊢
    rw [paidTotal_append] at h2
    simpa [paidTotal] using h2
  | releaseErc20 k' ok =>
    obtain ⟨a, rel, b, hrel, hadd, s1, hs1, hbal, hle, s2, hs2, rfl⟩ := releaseErc20_ok h
    have hr := (checkedAdd_eq_some.mp hadd).2
    have h1 : (s1.erc20Released k).toNat + paidTotal (some k) s.paid =
        (upd s.erc20Released k' rel k).toNat + paidTotal (some k) s1.paid := by
      rw [hs1]
      by_cases he : early k'
      · simp only [he, if_true]; exact hb { s with erc20Released := upd s.erc20Released k' rel }
      · simp only [he]; rfl
    have h2 := ha { s1 with tokenBalance := upd s1.tokenBalance k' (some (b - a)),
                            paid := s1.paid ++ [⟨some k', s.owner, a⟩] }
    rw [← hs2] at h2
    dsimp only at h2 ⊢
    rw [paidTotal_append] at h2
    by_cases e : k = k'
    · subst e
      rw [upd_same, hr] at h1
      simp [paidTotal] at h2
      omega
    · rw [upd_ne _ _ e] at h1
      have e' : ¬ k' = k := fun x => e x.symm
      simp [paidTotal, e'] at h2
      omega

/-- What is released of token `k` is within the curve of what is released or held. -/
private def TokInv (k : Address) (s : State) : Prop :=
  ∀ b, s.tokenBalance k = some b → (s.erc20Released k).toNat ≤
    curve s.start.toNat s.duration.toNat ((s.erc20Released k).toNat + b.toNat) s.now.toNat

private theorem tok_later (early : Address → Bool) (k : Address) (hk : early k = false)
    (before after : State → State) (s : State) (op : Op) (s' : State)
    (hb : ∀ t, TokInv k t → TokInv k (before t)) (ha : ∀ t, TokInv k t → TokInv k (after t))
    (h : execWith early before after s op = .ok s') (hi : TokInv k s) : TokInv k s' := by
  cases op with
  | tick t =>
    obtain ⟨hle, rfl⟩ := plain_ops (op := .tick t) h
    exact fun b hbb => (hi b hbb).trans (curve_mono _ _ (Nat.le_refl _) hle)
  | receiveEth v => obtain ⟨b, hbv, rfl⟩ := plain_ops (op := .receiveEth v) h; exact hi
  | receiveToken k' v =>
    obtain ⟨b, b', h1, h2, rfl⟩ := plain_ops (op := .receiveToken k' v) h
    intro b2 hb2
    dsimp only at hb2 ⊢
    by_cases e : k = k'
    · subst e
      rw [upd_same] at hb2; cases hb2
      exact (hi b h1).trans (curve_mono _ _ (by omega) (Nat.le_refl _))
    · rw [upd_ne _ _ e] at hb2
      exact hi b2 hb2
  | setOwner o => cases plain_ops (op := .setOwner o) h; exact hi
  | releaseEth ok =>
    obtain ⟨a, rel, hrel, hadd, hle, s2, hs2, rfl⟩ := releaseEth_ok h
    have : TokInv k s2 := by rw [hs2]; exact ha _ hi
    exact this
  | releaseErc20 k' ok =>
    obtain ⟨a, rel, b, hrel, hadd, s1, hs1, hbal, hle, s2, hs2, rfl⟩ := releaseErc20_ok h
    have hr := (checkedAdd_eq_some.mp hadd).2
    have h2 : TokInv k s2 := by
      rw [hs2]
      apply ha
      by_cases e : k' = k
      · subst e
        rw [hk, if_neg Bool.false_ne_true] at hs1
        subst hs1
        obtain ⟨b', T, v, hb', hT, hv, rfl⟩ := releasableErc20_ok hrel
        have hbal : s.tokenBalance k' = some b := hbal
        rw [hbal] at hb'; cases hb'
        obtain ⟨g1, g2⟩ := releasable_num rfl (hi b hbal) hT hv
        intro b2 hb2
        dsimp only at hb2 ⊢
        rw [upd_same] at hb2 ⊢; cases hb2
        rw [toNat_sub_of_ge hle]
        have e : rel.toNat + (b.toNat - (v - s.erc20Released k').toNat) =
          (s.erc20Released k').toNat + b.toNat := by omega
        rw [e, ← g1]; omega
      · have e' : k ≠ k' := fun x => e x.symm
        have h0 : TokInv k { s with erc20Released := upd s.erc20Released k' rel } := by
          intro b2 hb2
          dsimp only at hb2 ⊢
          rw [upd_ne _ _ e']
          exact hi b2 hb2
        have h1 : TokInv k s1 := by
          rw [hs1]
          by_cases he : early k'
          · simp only [he, if_true]; exact hb _ h0
          · simp only [he]; exact h0
        intro b2 hb2
        dsimp only at hb2 ⊢
        rw [upd_ne _ _ e'] at hb2
        exact h1 b2 hb2
    exact h2

private theorem sched_later : Later Sched := by
  intro early before after s op s' hb ha h
  cases op with
  | tick t => obtain ⟨hle, rfl⟩ := plain_ops (op := .tick t) h; exact ⟨rfl, rfl, hle⟩
  | receiveEth v => obtain ⟨b, hbv, rfl⟩ := plain_ops (op := .receiveEth v) h; exact sched_refl _
  | receiveToken k v =>
    obtain ⟨b, b', _, _, rfl⟩ := plain_ops (op := .receiveToken k v) h; exact sched_refl _
  | setOwner o => cases plain_ops (op := .setOwner o) h; exact sched_refl _
  | releaseEth ok =>
    obtain ⟨a, rel, hrel, hadd, hle, s2, hs2, rfl⟩ := releaseEth_ok h
    have h2 := ha { s with released := rel, ethBalance := s.ethBalance - a,
                           paid := s.paid ++ [⟨none, s.owner, a⟩] }
    rw [← hs2] at h2
    exact h2
  | releaseErc20 k ok =>
    obtain ⟨a, rel, b, hrel, hadd, s1, hs1, hbal, hle, s2, hs2, rfl⟩ := releaseErc20_ok h
    have h1 : Sched s s1 := by
      rw [hs1]
      by_cases he : early k
      · simp only [he, if_true]; exact hb { s with erc20Released := upd s.erc20Released k rel }
      · simp only [he]; exact sched_refl _
    have h2 := ha { s1 with tokenBalance := upd s1.tokenBalance k (some (b - a)),
                            paid := s1.paid ++ [⟨some k, s.owner, a⟩] }
    rw [← hs2] at h2
    exact sched_trans _ _ _ h1 h2

/-- Payment and event say the same thing. -/
private def ofPayment (p : Payment) : Event :=
  match p.asset with
  | none => .etherReleased p.amount
  | some k => .erc20Released k p.amount

/-- The same payments were made as events were emitted, perhaps in another order. -/
private def Told (s s' : State) : Prop :=
  ∃ l p, s'.log = s.log ++ l ∧ s'.paid = s.paid ++ p ∧ l.Perm (p.map ofPayment)

private theorem told_refl (s : State) : Told s s := ⟨[], [], by simp, by simp, by simp⟩
private theorem told_trans (a b c : State) (h1 : Told a b) (h2 : Told b c) : Told a c := by
  obtain ⟨l1, p1, e1, e2, e3⟩ := h1
  obtain ⟨l2, p2, e4, e5, e6⟩ := h2
  refine ⟨l1 ++ l2, p1 ++ p2, by rw [e4, e1, List.append_assoc], by rw [e5, e2, List.append_assoc], ?_⟩
  rw [List.map_append]; exact e3.append e6

private theorem told_later : Later Told := by
  intro early before after s op s' hb ha h
  cases op with
  | tick t => obtain ⟨hle, rfl⟩ := plain_ops (op := .tick t) h; exact told_refl _
  | receiveEth v => obtain ⟨b, hbv, rfl⟩ := plain_ops (op := .receiveEth v) h; exact told_refl _
  | receiveToken k v =>
    obtain ⟨b, b', _, _, rfl⟩ := plain_ops (op := .receiveToken k v) h; exact told_refl _
  | setOwner o => cases plain_ops (op := .setOwner o) h; exact told_refl _
  | releaseEth ok =>
    obtain ⟨a, rel, hrel, hadd, hle, s2, hs2, rfl⟩ := releaseEth_ok h
    obtain ⟨l, p, e1, e2, e3⟩ := ha { s with released := rel, ethBalance := s.ethBalance - a,
                                             paid := s.paid ++ [⟨none, s.owner, a⟩] }
    rw [← hs2] at e1 e2
    dsimp only at e1 e2
    refine ⟨l ++ [.etherReleased a], ⟨none, s.owner, a⟩ :: p, ?_, ?_, ?_⟩
    · dsimp only; rw [e1, List.append_assoc]
    · dsimp only; rw [e2, List.append_assoc]; rfl
    · rw [List.map_cons]
      exact (List.perm_append_singleton _ _).trans (List.Perm.cons _ e3)
  | releaseErc20 k ok =>
    obtain ⟨a, rel, b, hrel, hadd, s1, hs1, hbal, hle, s2, hs2, rfl⟩ := releaseErc20_ok h
    have h1 : Told s s1 := by
      rw [hs1]
      by_cases he : early k
      · simp only [he, if_true]; exact hb { s with erc20Released := upd s.erc20Released k rel }
      · simp only [he]; exact told_refl _
    obtain ⟨l, p, e1, e2, e3⟩ := ha { s1 with tokenBalance := upd s1.tokenBalance k (some (b - a)),
                                              paid := s1.paid ++ [⟨some k, s.owner, a⟩] }
    rw [← hs2] at e1 e2
    dsimp only at e1 e2
    refine told_trans _ _ _ h1 ⟨l ++ [.erc20Released k a], ⟨some k, s.owner, a⟩ :: p, ?_, ?_, ?_⟩
    · dsimp only; rw [e1, List.append_assoc]
    · dsimp only; rw [e2, List.append_assoc]; rfl
    · rw [List.map_cons]
      exact (List.perm_append_singleton _ _).trans (List.Perm.cons _ e3)

private theorem run_sched (early : Address → Bool) (s : State) (calls : List (HookTree Op)) :
    Sched s (Reentrant.run early s calls) :=
  HookTree.relate _ Sched sched_refl sched_trans (sched_later early) calls s

/-! ## The property -/

/-- **C89.** Whatever the owner and the tokens do when they are called, to any depth, the ether the
wallet has paid out is what `released` says, and it is within the vesting curve of all the ether paid
out or still held. -/
theorem C89_ether_within_curve (early : Address → Bool) (o : Address) (st d now : U64)
    (tk : Address → Bool) (calls : List (HookTree Op)) :
    let s := Reentrant.run early (init o st d now tk) calls
    s.released.toNat = paidTotal none s.paid ∧
    paidTotal none s.paid ≤
      curve st.toNat d.toNat (paidTotal none s.paid + s.ethBalance.toNat) s.now.toNat := by
  intro s
  have h : EthInv s := HookTree.relate (execWith early) (fun s s' => EthInv s → EthInv s')
    (fun _ h => h) (fun _ _ _ h1 h2 h => h2 (h1 h)) (eth_later early) calls (init o st d now tk)
    ⟨rfl, by simp [init]⟩
  have hs : Sched (init o st d now tk) s := run_sched early _ calls
  refine ⟨h.1, ?_⟩
  have h2 := h.2
  rw [h.1, hs.1, hs.2.1] at h2
  exact h2

/-- **C89.** The same for every token that does not call anybody before it has moved the balance,
whatever other tokens do. -/
theorem C89_token_within_curve (early : Address → Bool) (o : Address) (st d now : U64)
    (tk : Address → Bool) (calls : List (HookTree Op)) (k : Address) (hk : early k = false) (b : U256) :
    let s := Reentrant.run early (init o st d now tk) calls
    s.tokenBalance k = some b →
    paidTotal (some k) s.paid ≤
      curve st.toNat d.toNat (paidTotal (some k) s.paid + b.toNat) s.now.toNat := by
  intro s hb
  have h : TokInv k s := HookTree.relate (execWith early) (fun s s' => TokInv k s → TokInv k s')
    (fun _ h => h) (fun _ _ _ h1 h2 h => h2 (h1 h)) (tok_later early k hk) calls (init o st d now tk)
    (fun _ _ => by simp [init])
  have hbk : Books k (init o st d now tk) s := HookTree.relate (execWith early) (Books k)
    (fun _ => rfl) (fun _ _ _ h1 h2 => by unfold Books at *; omega) (books_later k early) calls _
  have hs : Sched (init o st d now tk) s := run_sched early _ calls
  have e : (s.erc20Released k).toNat = paidTotal (some k) s.paid := by
    unfold Books at hbk
    simpa [init, paidTotal] using hbk
  have h2 := h b hb
  rw [e, hs.1, hs.2.1] at h2
  exact h2

/-- **C89.** For every token without exception, `released(token)` is what was paid out of it, and the
events are the payments, each exactly once, though nested ones are reported first. -/
theorem C89_books (early : Address → Bool) (o : Address) (st d now : U64) (tk : Address → Bool)
    (calls : List (HookTree Op)) :
    let s := Reentrant.run early (init o st d now tk) calls
    (∀ k, (s.erc20Released k).toNat = paidTotal (some k) s.paid) ∧
    s.log.Perm (s.paid.map fun p => match p.asset with
      | none => .etherReleased p.amount
      | some k => .erc20Released k p.amount) := by
  intro s
  refine ⟨fun k => ?_, ?_⟩
  · have hbk : Books k (init o st d now tk) s := HookTree.relate (execWith early) (Books k)
      (fun _ => rfl) (fun _ _ _ h1 h2 => by unfold Books at *; omega) (books_later k early) calls _
    unfold Books at hbk
    simpa [init, paidTotal] using hbk
  · obtain ⟨l, p, e1, e2, e3⟩ := HookTree.relate (execWith early) Told told_refl told_trans
      (told_later early) calls (init o st d now tk)
    have f1 : s.log = l := e1
    have f2 : s.paid = p := e2
    rw [f1, f2]
    exact e3

/-- **C89 (violation).** For a token that calls its holder's counterparty before moving the balance the
bound fails: half of 100 units is vested, and a release during which the release function is called
again pays 75 of them. -/
theorem C89_early_token_overpaid :
    let s := Reentrant.run (fun _ => true) (init 7#160 0#64 100#64 50#64 (fun _ => true))
      [.mk (.receiveToken 5#160 100#256) [] [],
       .mk (.releaseErc20 5#160 true) [.mk (.releaseErc20 5#160 true) [] []] []]
    s.tokenBalance 5#160 = some 25#256 ∧ paidTotal (some 5#160) s.paid = 75 ∧
    curve 0 100 (paidTotal (some 5#160) s.paid + 25) s.now.toNat = 50 := by
  decide +kernel

/-- A concrete case of the positive theorems: the owner re-enters while being paid ether, releases
tokens, sends ether back and is paid again; half of everything has been paid, no more. -/
example :
    let s := Reentrant.run (fun _ => false) (init 7#160 0#64 100#64 50#64 (fun _ => true))
      [.mk (.receiveToken 5#160 100#256) [] [], .mk (.receiveEth 1000#256) [] [],
       .mk (.releaseEth true) [] [.mk (.releaseEth true) [] [],
         .mk (.releaseErc20 5#160 true) [] [.mk (.releaseErc20 5#160 true) [] []],
         .mk (.receiveEth 200#256) [] [], .mk (.releaseEth true) [] []]]
    s.tokenBalance 5#160 = some 50#256 ∧ paidTotal (some 5#160) s.paid = 50 ∧
    s.ethBalance = 600#256 ∧ paidTotal none s.paid = 600 ∧ s.log.length = 5 := by
  decide +kernel

end Verif.Props.VestingReentrant
