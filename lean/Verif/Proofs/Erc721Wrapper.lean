import Verif.Spec.Erc721Wrapper
import Verif.Proofs.Erc721
/-! # Lemmas about the ERC-721 wrapper -/

namespace Verif.Wrapper721
open Verif.Spec.Wrapper721
open Verif.Erc721 (NoGhost updated)

/-- Nobody but `me` can move what `me` owns. -/
structure Held (me : Address) (u : Erc721.State) : Prop extends NoGhost u where
  appr' : ∀ id, u.owners id = me → u.tokenApprovals id = ZERO
  oper' : ∀ p, u.operatorApprovals me p = false

/-- Everything `me` owned it still owns. -/
def Keep (me : Address) (u u' : Erc721.State) : Prop := ∀ id, u.owners id = me → u'.owners id = me

theorem keep_refl (me : Address) (u : Erc721.State) : Keep me u u := fun _ h => h
theorem keep_trans {me : Address} {u v w : Erc721.State} (h : Keep me u v) (h' : Keep me v w) : Keep me u w :=
  fun id hh => h' id (h id hh)

/-- Only `me` is authorised for what `me` owns. -/
theorem held_auth {me c : Address} {u : Erc721.State} (hu : Held me u) (hc : c ≠ me) {id : U256}
    (ho : u.owners id = me) : Erc721.isAuthorized u (u.owners id) c id = false := by
  unfold Erc721.isAuthorized Erc721.isApprovedForAll Erc721.getApprovedInternal
  rw [ho, hu.oper', hu.appr' id ho]
  by_cases h : c = ZERO
  · simp [h]
  · have : ¬ ZERO = c := fun e => h e.symm
    have : ¬ me = c := fun e => hc e.symm
    simp [*]

theorem noGhost_updated {u : Erc721.State} (hu : NoGhost u) (dst : Address) (id : U256) :
    NoGhost (updated u dst id) := by
  refine ⟨?_, hu.oper, hu.toZero⟩
  intro i hi
  unfold updated at hi ⊢
  dsimp only at hi ⊢
  by_cases h0 : u.owners id = ZERO
  · rw [if_neg (not_not.mpr h0)]
    by_cases hid : i = id
    · rw [hid]; exact hu.appr id h0
    · rw [upd_ne _ _ hid] at hi; exact hu.appr i hi
  · rw [if_pos h0]
    by_cases hid : i = id
    · rw [hid, upd_same]
    · rw [upd_ne _ _ hid] at hi ⊢; exact hu.appr i hi

theorem held_updated {me : Address} {u : Erc721.State} (hu : Held me u) (dst : Address) (id : U256) :
    Held me (updated u dst id) := by
  refine ⟨noGhost_updated hu.toNoGhost dst id, ?_, hu.oper'⟩
  intro i hi
  unfold updated at hi ⊢
  dsimp only at hi ⊢
  by_cases h0 : u.owners id = ZERO
  · rw [if_neg (not_not.mpr h0)]
    by_cases hid : i = id
    · rw [hid]; exact hu.appr id h0
    · rw [upd_ne _ _ hid] at hi; exact hu.appr' i hi
  · rw [if_pos h0]
    by_cases hid : i = id
    · rw [hid, upd_same]
    · rw [upd_ne _ _ hid] at hi ⊢; exact hu.appr' i hi

theorem keep_updated {me : Address} {u : Erc721.State} {dst : Address} {id : U256}
    (h : u.owners id = me → dst = me) : Keep me u (updated u dst id) := by
  intro i hi
  unfold updated
  dsimp only
  by_cases hid : i = id
  · rw [hid] at hi ⊢; rw [upd_same]; exact h hi
  · rw [upd_ne _ _ hid]; exact hi

/-- A call on the underlying by anybody but the wrapper. -/
theorem uexec_keeps {me c : Address} {u u' : Erc721.State} {R : Erc721.Receivers} {call : UCall}
    (hme : me ≠ ZERO) (hc : c ≠ me) (hu : Held me u) (h : Erc721.exec u ⟨c, R, call.toCall⟩ = .ok u') :
    Held me u' ∧ Keep me u u' := by
  unfold Erc721.exec at h
  by_cases hz : c = ZERO
  · simp [hz] at h
  simp only [hz, if_false] at h
  have auth : ∀ {id}, (c = ZERO ∨ Erc721.isAuthorized u (u.owners id) c id = true) → u.owners id ≠ me := by
    intro id ha ho
    rcases ha with ha | ha
    · exact hz ha
    · rw [held_auth hu hc ho] at ha; cases ha
  have mv : ∀ {dst id}, (c = ZERO ∨ Erc721.isAuthorized u (u.owners id) c id = true) →
      Held me (updated u dst id) ∧ Keep me u (updated u dst id) := fun ha =>
    ⟨held_updated hu _ _, keep_updated fun ho => absurd ho (auth ha)⟩
  have mt : ∀ {dst id}, u.owners id = ZERO → Held me (updated u dst id) ∧ Keep me u (updated u dst id) :=
    fun h0 => ⟨held_updated hu _ _, keep_updated fun ho => absurd (ho.symm.trans h0) hme⟩
  cases call with
  | user uc =>
    simp only [UCall.toCall] at h
    cases uc with
    | transferFrom src dst id =>
      obtain ⟨_, ha, _, rfl⟩ := Erc721.transferFrom_ok.mp h; exact mv ha
    | safeTransferFrom src dst id =>
      obtain ⟨h, _⟩ := Erc721.then_check_ok.mp h
      obtain ⟨_, ha, _, rfl⟩ := Erc721.transferFrom_ok.mp h; exact mv ha
    | safeTransferFromWithData src dst id data =>
      obtain ⟨h, _⟩ := Erc721.then_check_ok.mp h
      obtain ⟨_, ha, _, rfl⟩ := Erc721.transferFrom_ok.mp h; exact mv ha
    | approve dst id =>
      obtain ⟨h0, ha, rfl⟩ := (Erc721.approve_ok hz).mp h
      have hne : u.owners id ≠ me := by
        intro ho
        rw [ho, hu.oper'] at ha
        rcases ha with ha | ha
        · exact hc ha.symm
        · cases ha
      refine ⟨⟨⟨?_, hu.oper, hu.toZero⟩, ?_, hu.oper'⟩, fun _ h => h⟩
      · intro i hi
        unfold Erc721.approvedState at hi ⊢
        dsimp only at hi ⊢
        by_cases hid : i = id
        · rw [hid] at hi; exact absurd hi h0
        · rw [upd_ne _ _ hid]; exact hu.appr i hi
      · intro i hi
        unfold Erc721.approvedState at hi ⊢
        dsimp only at hi ⊢
        by_cases hid : i = id
        · rw [hid] at hi; exact absurd hi hne
        · rw [upd_ne _ _ hid]; exact hu.appr' i hi
    | setApprovalForAll op b =>
      obtain ⟨h0, rfl⟩ := Erc721.setApprovalForAll_ok.mp h
      refine ⟨⟨⟨hu.appr, ?_, ?_⟩, hu.appr', ?_⟩, fun _ h => h⟩
      · intro p
        unfold Erc721.operatorState
        dsimp only
        rw [upd2_apply, if_neg (fun e => hz e.1.symm)]; exact hu.oper p
      · intro o
        unfold Erc721.operatorState
        dsimp only
        rw [upd2_apply, if_neg (fun e => h0 e.2.symm)]; exact hu.toZero o
      · intro p
        unfold Erc721.operatorState
        dsimp only
        rw [upd2_apply, if_neg (fun e => hc e.1.symm)]; exact hu.oper' p
    | burn id =>
      obtain ⟨ha, rfl⟩ := Erc721.burn_ok.mp h; exact mv ha
  | mint dst id =>
    obtain ⟨_, h0, rfl⟩ := Erc721.mint_ok.mp h; exact mt h0
  | safeMint dst id data =>
    obtain ⟨h, _⟩ := Erc721.then_check_ok.mp h
    obtain ⟨_, h0, rfl⟩ := Erc721.mint_ok.mp h; exact mt h0

theorem others_keeps {me : Address} (hme : me ≠ ZERO) (txs : List UTx) :
    ∀ {u : Erc721.State}, Held me u → Held me (others me u txs) ∧ Keep me u (others me u txs) := by
  induction txs with
  | nil => intro u hu; exact ⟨hu, keep_refl _ _⟩
  | cons tx txs ih =>
    intro u hu
    unfold others
    rw [runOf_cons]
    have hstep : Held me (stepOf (execLocked me) u tx) ∧ Keep me u (stepOf (execLocked me) u tx) := by
      cases hx : execLocked me u tx with
      | error e => rw [stepOf_error hx]; exact ⟨hu, keep_refl _ _⟩
      | ok u' =>
        rw [stepOf_ok hx]
        unfold execLocked at hx
        by_cases hc : tx.caller = me
        · simp [hc] at hx
        · rw [if_neg hc] at hx; exact uexec_keeps hme hc hu hx
    obtain ⟨h1, h2⟩ := ih hstep.1
    exact ⟨h1, keep_trans hstep.2 h2⟩

/-- Everything that holds of every reachable world. -/
structure Inv (s : State) : Prop where
  me : s.self_ ≠ ZERO
  tok : NoGhost s.token
  und : Held s.self_ s.underlying
  backed : ∀ id, s.token.owners id ≠ ZERO → s.underlying.owners id = s.self_

theorem lift_ok {α : Type} {x : Except Erc721.Err α} {a : α} : lift x = .ok a ↔ x = .ok a := by
  cases x <;> simp [lift]
theorem liftCall_ok {α : Type} {x : Except Erc721.Err α} {a : α} : liftCall x = .ok a ↔ x = .ok a := by
  cases x <;> simp [liftCall]

/-- What a successful `_safe_mint` of the wrapper did. -/
theorem safeMintThen_ok {env : Env} {s s' : State} {k : Nat} {caller account : Address} {id : U256} :
    safeMintThen env s k caller account id = .ok s' ↔
      account ≠ ZERO ∧ s.token.owners id = ZERO ∧
      (∀ f, locked s.self_ env.receivers account = some f →
        f caller ZERO id [] = .selector Erc721.RECEIVER_FN_SELECTOR) ∧
      s' = { s with token := updated s.token account id
                    underlying := others s.self_ s.underlying (env.acts k) } := by
  unfold safeMintThen
  rw [bind_eq_ok]
  constructor
  · rintro ⟨t, h, h'⟩
    rw [lift_ok] at h
    obtain ⟨h, hr⟩ := Erc721.then_check_ok.mp h
    obtain ⟨h1, h2, rfl⟩ := Erc721.mint_ok.mp h
    exact ⟨h1, h2, Erc721.checkOnReceived_ok.mp hr, by injection h' with h'; exact h'.symm⟩
  · rintro ⟨h1, h2, h3, rfl⟩
    exact ⟨_, lift_ok.mpr (Erc721.then_check_ok.mpr
      ⟨Erc721.mint_ok.mpr ⟨h1, h2, rfl⟩, Erc721.checkOnReceived_ok.mpr h3⟩), rfl⟩

/-- The world after a deposit step, a recovery or the hook. -/
theorem inv_minted {s : State} (hme : s.self_ ≠ ZERO) (ht : NoGhost s.token) {u : Erc721.State}
    (hu : Held s.self_ u) (hb : ∀ id, s.token.owners id ≠ ZERO → u.owners id = s.self_)
    {account : Address} {id : U256} (hid : u.owners id = s.self_) (txs : List UTx) :
    Inv { s with token := updated s.token account id, underlying := others s.self_ u txs } := by
  obtain ⟨h1, h2⟩ := others_keeps hme txs hu
  refine ⟨hme, noGhost_updated ht _ _, h1, ?_⟩
  intro i hi
  apply h2
  by_cases hii : i = id
  · rw [hii]; exact hid
  · apply hb
    unfold updated at hi
    dsimp only at hi
    rwa [upd_ne _ _ hii] at hi

theorem updated_self {s : Erc721.State} {d : Address} {id : U256} : (updated s d id).owners id = d := by
  unfold updated; dsimp only; rw [upd_same]
theorem updated_ne {s : Erc721.State} {d : Address} {id i : U256} (h : i ≠ id) :
    (updated s d id).owners i = s.owners i := by
  unfold updated; dsimp only; rw [upd_ne _ _ h]

/-- One id of `deposit_for`. -/
theorem deposit_step {env : Env} {s s' : State} {caller account : Address} {id : U256} {ids : List U256} :
    depositFor env caller account s (id :: ids) = .ok s' ↔
      (Erc721.isAuthorized s.underlying (s.underlying.owners id) s.self_ id = true ∨ s.self_ = ZERO) ∧
      s.self_ ≠ ZERO ∧
      s.underlying.owners id = caller ∧ account ≠ ZERO ∧ s.token.owners id = ZERO ∧
      (∀ f, locked s.self_ env.receivers account = some f →
        f caller ZERO id [] = .selector Erc721.RECEIVER_FN_SELECTOR) ∧
      depositFor env caller account
        { s with token := updated s.token account id
                 underlying := others s.self_ (updated s.underlying s.self_ id) (env.acts ids.length) }
        ids = .ok s' := by
  rw [depositFor, bind_eq_ok]
  constructor
  · rintro ⟨u, h, h'⟩
    rw [liftCall_ok] at h
    obtain ⟨hd, ha, ho, rfl⟩ := Erc721.transferFrom_ok.mp h
    rw [bind_eq_ok] at h'
    obtain ⟨s1, h1, h2⟩ := h'
    obtain ⟨a1, a2, a3, rfl⟩ := safeMintThen_ok.mp h1
    exact ⟨ha.symm, hd, ho, a1, a2, a3, h2⟩
  · rintro ⟨ha, hd, ho, a1, a2, a3, h2⟩
    refine ⟨_, liftCall_ok.mpr (Erc721.transferFrom_ok.mpr ⟨hd, ha.symm, ho, rfl⟩), ?_⟩
    rw [bind_eq_ok]
    exact ⟨_, safeMintThen_ok.mpr ⟨a1, a2, a3, rfl⟩, h2⟩

theorem inv_deposit_step {env : Env} {s : State} (hs : Inv s) {account : Address} {id : U256} (k : Nat) :
    Inv { s with token := updated s.token account id
                 underlying := others s.self_ (updated s.underlying s.self_ id) (env.acts k) } :=
  inv_minted hs.me hs.tok (held_updated hs.und _ _)
    (fun i hi => by
      by_cases h : i = id
      · rw [h, updated_self]
      · rw [updated_ne h]; exact hs.backed i hi)
    updated_self _

/-- One id of `withdraw_to`. -/
theorem withdraw_step {env : Env} {s s' : State} {caller account : Address} {id : U256} {ids : List U256} :
    withdrawTo env caller account s (id :: ids) = .ok s' ↔
      (caller = ZERO ∨ Erc721.isAuthorized s.token (s.token.owners id) caller id = true) ∧
      account ≠ ZERO ∧
      (s.self_ = ZERO ∨ Erc721.isAuthorized s.underlying (s.underlying.owners id) s.self_ id = true) ∧
      s.underlying.owners id = s.self_ ∧
      (∀ f, locked s.self_ env.receivers account = some f →
        f s.self_ s.self_ id [] = .selector Erc721.RECEIVER_FN_SELECTOR) ∧
      withdrawTo env caller account
        { s with token := updated s.token ZERO id
                 underlying := others s.self_ (updated s.underlying account id) (env.acts ids.length) }
        ids = .ok s' := by
  rw [withdrawTo, bind_eq_ok]
  constructor
  · rintro ⟨⟨r, t⟩, h, h'⟩
    rw [lift_ok] at h
    obtain ⟨ha, _, rfl⟩ := Erc721.update_ok.mp h
    rw [bind_eq_ok] at h'
    obtain ⟨u, h1, h2⟩ := h'
    rw [liftCall_ok] at h1
    obtain ⟨h1, hr⟩ := Erc721.then_check_ok.mp h1
    obtain ⟨a1, a2, a3, rfl⟩ := Erc721.transferFrom_ok.mp h1
    exact ⟨ha, a1, a2, a3, Erc721.checkOnReceived_ok.mp hr, h2⟩
  · rintro ⟨ha, a1, a2, a3, hr, h2⟩
    refine ⟨_, lift_ok.mpr (Erc721.update_ok.mpr ⟨ha, rfl, rfl⟩), ?_⟩
    rw [bind_eq_ok]
    exact ⟨_, liftCall_ok.mpr (Erc721.then_check_ok.mpr ⟨Erc721.transferFrom_ok.mpr ⟨a1, a2, a3, rfl⟩,
      Erc721.checkOnReceived_ok.mpr hr⟩), h2⟩

theorem inv_withdraw_step {env : Env} {s : State} (hs : Inv s) {account : Address} {id : U256} (k : Nat) :
    Inv { s with token := updated s.token ZERO id
                 underlying := others s.self_ (updated s.underlying account id) (env.acts k) } := by
  obtain ⟨h1, h2⟩ := others_keeps hs.me (env.acts k) (held_updated hs.und account id)
  refine ⟨hs.me, noGhost_updated hs.tok _ _, h1, ?_⟩
  intro i hi
  dsimp only at hi ⊢
  by_cases h : i = id
  · rw [h, updated_self] at hi; exact absurd rfl hi
  · rw [updated_ne h] at hi
    exact h2 i (by rw [updated_ne h]; exact hs.backed i hi)

theorem inv_depositFor {env : Env} {caller account : Address} (ids : List U256) :
    ∀ {s s' : State}, Inv s → depositFor env caller account s ids = .ok s' → Inv s' ∧ s'.self_ = s.self_ := by
  induction ids with
  | nil => intro s s' hs h; rw [depositFor] at h; injection h with h; rw [← h]; exact ⟨hs, rfl⟩
  | cons id ids ih =>
    intro s s' hs h
    obtain ⟨_, _, _, _, _, _, h⟩ := deposit_step.mp h
    have := ih (inv_deposit_step hs _) h
    exact this

theorem inv_withdrawTo {env : Env} {caller account : Address} (ids : List U256) :
    ∀ {s s' : State}, Inv s → withdrawTo env caller account s ids = .ok s' → Inv s' ∧ s'.self_ = s.self_ := by
  induction ids with
  | nil => intro s s' hs h; rw [withdrawTo] at h; injection h with h; rw [← h]; exact ⟨hs, rfl⟩
  | cons id ids ih =>
    intro s s' hs h
    obtain ⟨_, _, _, _, _, h⟩ := withdraw_step.mp h
    have := ih (inv_withdraw_step hs _) h
    exact this

theorem recover_ok {env : Env} {s s' : State} {caller account : Address} {id : U256} (hs : Inv s) :
    recover env s caller account id = .ok s' ↔
      s.underlying.owners id = s.self_ ∧ account ≠ ZERO ∧ s.token.owners id = ZERO ∧
      (∀ f, locked s.self_ env.receivers account = some f →
        f caller ZERO id [] = .selector Erc721.RECEIVER_FN_SELECTOR) ∧
      s' = { s with token := updated s.token account id
                    underlying := others s.self_ s.underlying (env.acts 0) } := by
  unfold recover
  rw [bind_eq_ok]
  have hown : ∀ o, liftCall (Erc721.ownerOf s.underlying id) = .ok o ↔ s.underlying.owners id = o ∧ o ≠ ZERO := by
    intro o
    rw [liftCall_ok]
    unfold Erc721.ownerOf Erc721.requireOwned Erc721.ownerOfInternal
    dsimp only
    by_cases h : s.underlying.owners id = ZERO
    · rw [if_pos h, h]
      constructor
      · intro e; injection e
      · rintro ⟨rfl, h⟩; exact absurd rfl h
    · rw [if_neg h]
      constructor
      · intro e; injection e with e; exact ⟨e, e ▸ h⟩
      · rintro ⟨rfl, _⟩; rfl
  constructor
  · rintro ⟨o, h, h'⟩
    obtain ⟨h1, h2⟩ := (hown o).mp h
    by_cases he : o = s.self_
    · rw [if_neg (not_not.mpr he)] at h'
      simp only [except_pure, except_bind_ok] at h'
      exact ⟨h1.trans he, safeMintThen_ok.mp h'⟩
    · rw [if_pos he] at h'; simp at h'
  · rintro ⟨h1, h2⟩
    refine ⟨s.self_, (hown _).mpr ⟨h1, hs.me⟩, ?_⟩
    rw [if_neg (not_not.mpr rfl)]
    simp only [except_pure, except_bind_ok]
    exact safeMintThen_ok.mpr h2

theorem onReceived_ok {env : Env} {s s' : State} {sender src : Address} {id : U256} :
    onReceived env s sender src id = .ok s' ↔
      s.under = sender ∧ src ≠ ZERO ∧ s.token.owners id = ZERO ∧
      (∀ f, locked s.self_ env.receivers src = some f →
        f sender ZERO id [] = .selector Erc721.RECEIVER_FN_SELECTOR) ∧
      s' = { s with token := updated s.token src id
                    underlying := others s.self_ s.underlying (env.acts 0) } := by
  unfold onReceived
  by_cases he : s.under = sender
  · rw [if_neg (not_not.mpr he)]
    simp only [except_pure, except_bind_ok]
    rw [safeMintThen_ok]
    simp [he]
  · rw [if_pos he]; simp [he]

/-- A safe transfer to the wrapper really delivers the token. -/
theorem hooked_delivers {me c src : Address} {u u' : Erc721.State} {R : Erc721.Receivers} {call : UCall} {id : U256}
    (h : Erc721.exec u ⟨c, R, call.toCall⟩ = .ok u') (hk : hooked me call = some (src, id)) :
    u'.owners id = me := by
  unfold Erc721.exec at h
  by_cases hz : c = ZERO
  · simp [hz] at h
  simp only [hz, if_false] at h
  cases call with
  | user uc =>
    simp only [UCall.toCall] at h
    cases uc with
    | safeTransferFrom s' d i =>
      obtain ⟨h, _⟩ := Erc721.then_check_ok.mp h
      obtain ⟨_, _, _, rfl⟩ := Erc721.transferFrom_ok.mp h
      by_cases hd : d = me
      · simp only [hooked, hd, if_true, Option.some.injEq, Prod.mk.injEq] at hk
        rw [← hk.2, updated_self, hd]
      · simp [hooked, hd] at hk
    | safeTransferFromWithData s' d i data =>
      obtain ⟨h, _⟩ := Erc721.then_check_ok.mp h
      obtain ⟨_, _, _, rfl⟩ := Erc721.transferFrom_ok.mp h
      by_cases hd : d = me
      · simp only [hooked, hd, if_true, Option.some.injEq, Prod.mk.injEq] at hk
        rw [← hk.2, updated_self, hd]
      · simp [hooked, hd] at hk
    | transferFrom => simp [hooked] at hk
    | approve => simp [hooked] at hk
    | setApprovalForAll => simp [hooked] at hk
    | burn => simp [hooked] at hk
  | mint dst id => simp [hooked] at hk
  | safeMint d i data =>
    obtain ⟨h, _⟩ := Erc721.then_check_ok.mp h
    obtain ⟨_, _, rfl⟩ := Erc721.mint_ok.mp h
    by_cases hd : d = me
    · simp only [hooked, hd, if_true, Option.some.injEq, Prod.mk.injEq] at hk
      rw [← hk.2, updated_self, hd]
    · simp [hooked, hd] at hk

theorem execUnderlying_ok {env : Env} {s s' : State} {tx : UTx} (h : execUnderlying env s tx = .ok s') :
    tx.caller ≠ s.self_ ∧ ∃ u,
      Erc721.exec s.underlying ⟨tx.caller, hooking s.self_ tx.receivers, tx.call.toCall⟩ = .ok u ∧
      ((hooked s.self_ tx.call = none ∧ s' = { s with underlying := u }) ∨
        ∃ src id, hooked s.self_ tx.call = some (src, id) ∧ src ≠ ZERO ∧ s.token.owners id = ZERO ∧
          s' = { s with token := updated s.token src id
                        underlying := others s.self_ u (env.acts 0) }) := by
  unfold execUnderlying at h
  by_cases hc : tx.caller = s.self_
  · rw [if_pos hc] at h; simp at h
  rw [if_neg hc] at h
  simp only [except_pure, except_bind_ok] at h
  rw [bind_eq_ok] at h
  obtain ⟨u, h1, h2⟩ := h
  rw [lift_ok] at h1
  refine ⟨hc, u, h1, ?_⟩
  cases hk : hooked s.self_ tx.call with
  | none =>
    rw [hk] at h2
    injection h2 with h2
    exact Or.inl ⟨rfl, h2.symm⟩
  | some p =>
    rw [hk] at h2
    obtain ⟨_, a1, a2, _, a4⟩ := onReceived_ok.mp h2
    exact Or.inr ⟨p.1, p.2, rfl, a1, a2, a4⟩

/-- A call on the wrapper's own token neither creates nor destroys tokens. -/
theorem token_call {t t' : Erc721.State} (ht : NoGhost t) {R : Erc721.Receivers} {caller : Address}
    (hc : caller ≠ ZERO) {c : TokenCall} (h : Erc721.execUser R t caller c.toCall = .ok t') :
    NoGhost t' ∧ ∀ id, t'.owners id ≠ ZERO ↔ t.owners id ≠ ZERO := by
  have mv : ∀ {dst id}, dst ≠ ZERO → (caller = ZERO ∨ Erc721.isAuthorized t (t.owners id) caller id = true) →
      NoGhost (updated t dst id) ∧ ∀ i, (updated t dst id).owners i ≠ ZERO ↔ t.owners i ≠ ZERO := by
    intro dst id hd ha
    refine ⟨noGhost_updated ht _ _, fun i => ?_⟩
    by_cases hi : i = id
    · rw [hi, updated_self]
      have h0 := Erc721.authorized_exists ht (ha.resolve_left hc)
      exact ⟨fun _ => h0, fun _ => hd⟩
    · rw [updated_ne hi]
  cases c with
  | transferFrom src dst id =>
    obtain ⟨hd, ha, _, rfl⟩ := Erc721.transferFrom_ok.mp h; exact mv hd ha
  | safeTransferFrom src dst id =>
    obtain ⟨h, _⟩ := Erc721.then_check_ok.mp h
    obtain ⟨hd, ha, _, rfl⟩ := Erc721.transferFrom_ok.mp h; exact mv hd ha
  | safeTransferFromWithData src dst id data =>
    obtain ⟨h, _⟩ := Erc721.then_check_ok.mp h
    obtain ⟨hd, ha, _, rfl⟩ := Erc721.transferFrom_ok.mp h; exact mv hd ha
  | approve dst id =>
    obtain ⟨h0, ha, rfl⟩ := (Erc721.approve_ok hc).mp h
    refine ⟨⟨?_, ht.oper, ht.toZero⟩, fun _ => Iff.rfl⟩
    intro i hi
    unfold Erc721.approvedState at hi ⊢
    dsimp only at hi ⊢
    by_cases hid : i = id
    · rw [hid] at hi; exact absurd hi h0
    · rw [upd_ne _ _ hid]; exact ht.appr i hi
  | setApprovalForAll op b =>
    obtain ⟨h0, rfl⟩ := Erc721.setApprovalForAll_ok.mp h
    refine ⟨⟨ht.appr, ?_, ?_⟩, fun _ => Iff.rfl⟩
    · intro p
      unfold Erc721.operatorState
      dsimp only
      rw [upd2_apply, if_neg (fun e => hc e.1.symm)]; exact ht.oper p
    · intro o
      unfold Erc721.operatorState
      dsimp only
      rw [upd2_apply, if_neg (fun e => h0 e.2.symm)]; exact ht.toZero o

theorem exec_cases {s s' : State} {tx : Tx} (h : exec s tx = .ok s') :
    tx.caller ≠ s.self_ ∧ tx.caller ≠ s.under ∧ tx.caller ≠ ZERO ∧
    (match tx.call with
      | .depositFor account ids => depositFor tx.env tx.caller account s ids
      | .withdrawTo account ids => withdrawTo tx.env tx.caller account s ids
      | .onReceived _ src id _ => onReceived tx.env s tx.caller src id
      | .recover account id => recover tx.env s tx.caller account id
      | .token c => (do
        let t ← lift (Erc721.execUser (locked s.self_ tx.env.receivers) s.token tx.caller c.toCall)
        return { s with token := t, underlying := others s.self_ s.underlying (tx.env.acts 0) })
      | .underlying R c => execUnderlying tx.env s ⟨tx.caller, R, c⟩) = .ok s' := by
  unfold exec at h
  by_cases hc : tx.caller = s.self_ ∨ tx.caller = s.under ∨ tx.caller = ZERO
  · rw [if_pos hc] at h; simp at h
  · rw [if_neg hc] at h
    push Not at hc
    exact ⟨hc.1, hc.2.1, hc.2.2, h⟩

theorem inv_exec {s s' : State} {tx : Tx} (hs : Inv s) (h : exec s tx = .ok s') :
    Inv s' ∧ s'.self_ = s.self_ := by
  obtain ⟨h1, h2, h3, h⟩ := exec_cases h
  obtain ⟨caller, env, call⟩ := tx
  dsimp only at h1 h2 h3 h
  cases call with
  | depositFor account ids => exact inv_depositFor ids hs h
  | withdrawTo account ids => exact inv_withdrawTo ids hs h
  | onReceived op src id data =>
    obtain ⟨e, _⟩ := onReceived_ok.mp h
    exact absurd e.symm h2
  | recover account id =>
    obtain ⟨a1, a2, a3, _, rfl⟩ := (recover_ok hs).mp h
    exact ⟨inv_minted hs.me hs.tok hs.und hs.backed a1 _, rfl⟩
  | token c =>
    dsimp only at h
    rw [bind_eq_ok] at h
    obtain ⟨t, ht, h⟩ := h
    injection h with h
    rw [lift_ok] at ht
    obtain ⟨b1, b2⟩ := token_call hs.tok h3 ht
    obtain ⟨o1, o2⟩ := others_keeps hs.me (env.acts 0) hs.und
    rw [← h]
    exact ⟨⟨hs.me, b1, o1, fun id hid => o2 id (hs.backed id ((b2 id).mp hid))⟩, rfl⟩
  | underlying R c =>
    obtain ⟨hc, u, hu, hcase⟩ := execUnderlying_ok h
    obtain ⟨k1, k2⟩ := uexec_keeps hs.me hc hs.und hu
    rcases hcase with ⟨_, rfl⟩ | ⟨src, id, hk, a1, a2, rfl⟩
    · exact ⟨⟨hs.me, hs.tok, k1, fun id hid => k2 id (hs.backed id hid)⟩, rfl⟩
    · exact ⟨inv_minted hs.me hs.tok k1 (fun i hi => k2 i (hs.backed i hi))
        (hooked_delivers hu hk) _, rfl⟩

theorem inv_init {me under : Address} (h : me ≠ ZERO) : Inv (init me under) :=
  ⟨h, Erc721.inv_init.toNoGhost, ⟨Erc721.inv_init.toNoGhost, fun _ _ => rfl, fun _ => rfl⟩,
    fun _ hid => absurd rfl hid⟩

theorem reachable_inv {s : State} (h : Reachable s) : Inv s := by
  obtain ⟨me, under, txs, hme, rfl⟩ := h
  exact run_invariant (exec := exec) (Inv := Inv) (fun _ _ _ hs h => (inv_exec hs h).1) txs _ (inv_init hme)

end Verif.Wrapper721
