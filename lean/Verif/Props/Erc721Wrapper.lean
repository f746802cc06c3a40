import Verif.Proofs.Erc721Wrapper
/-! # C54: the ERC-721 wrapper -/

namespace Verif.Props.Erc721Wrapper
open Verif.Wrapper721 Verif.Spec.Wrapper721
open Verif.Spec.Erc721 (owner? MayMove)
open Verif.Erc721 (owner?_eq nobody_some nobody_none updated NoGhost)

theorem wrapped_none {s : State} {id : U256} : wrappedOwner s id = none ↔ s.token.owners id = ZERO := by
  unfold wrappedOwner; rw [owner?_eq, nobody_none]
theorem wrapped_some {s : State} {id : U256} {a : Address} :
    wrappedOwner s id = some a ↔ s.token.owners id = a ∧ a ≠ ZERO := by
  unfold wrappedOwner; rw [owner?_eq, nobody_some]
theorem under_some {s : State} {id : U256} {a : Address} :
    underOwner s id = some a ↔ s.underlying.owners id = a ∧ a ≠ ZERO := by
  unfold underOwner; rw [owner?_eq, nobody_some]

/-! ## Example world -/

/-- The wrapper's address, the underlying's address and two users. -/
def W : Address := 0xAA#160
def U : Address := 0xBB#160
def alice : Address := 1#160
def bob : Address := 2#160
/-- Nobody has code, nobody interferes. -/
def calm : Env := ⟨fun _ => none, fun _ => []⟩
/-- Alice gets tokens 7 and 8 of the underlying, lets the wrapper move them and wraps 7 for Bob; she sends
8 to the wrapper with a safe transfer. -/
def story : List Tx :=
  [⟨alice, calm, .underlying (fun _ => none) (.mint alice 7#256)⟩,
   ⟨alice, calm, .underlying (fun _ => none) (.mint alice 8#256)⟩,
   ⟨alice, calm, .underlying (fun _ => none) (.user (.setApprovalForAll W true))⟩,
   ⟨alice, calm, .depositFor bob [7#256]⟩,
   ⟨alice, calm, .underlying (fun _ => none) (.user (.safeTransferFrom alice W 8#256))⟩]
/-- The world after the story. -/
def world : State := run (init W U) story
theorem world_reachable : Reachable world := ⟨W, U, story, by decide, rfl⟩

/-! ## Backing -/

/-- C54: in every history, whatever is called on either contract and whatever callees do to the
underlying meanwhile, a wrapped token that exists is owned in the underlying by the wrapper. -/
theorem C54_wrapped_is_backed (s : State) (hr : Reachable s) (id : U256) (a : Address)
    (h : wrappedOwner s id = some a) : underOwner s id = some s.self_ := by
  have hs := reachable_inv hr
  obtain ⟨rfl, h0⟩ := wrapped_some.mp h
  exact under_some.mpr ⟨hs.backed id h0, hs.me⟩

example : wrappedOwner world 7#256 = some bob ∧ underOwner world 7#256 = some W ∧
    wrappedOwner world 8#256 = some alice ∧ underOwner world 8#256 = some W := by decide +kernel

/-- C54: one wrapped id has one owner and one underlying token behind it, and nobody but the wrapper can
move that token: no approval for it is in force on the underlying. -/
theorem C54_backing_cannot_be_moved (s : State) (hr : Reachable s) (id : U256) (a c : Address)
    (h : wrappedOwner s id = some a) : MayMove s.underlying c id ↔ c = s.self_ := by
  have hs := reachable_inv hr
  obtain ⟨rfl, h0⟩ := wrapped_some.mp h
  have ho := hs.backed id h0
  have ow : owner? s.underlying id = some s.self_ := by rw [owner?_eq, nobody_some]; exact ⟨ho, hs.me⟩
  constructor
  · rintro ⟨o, h1, h2⟩
    rw [ow] at h1
    injection h1 with h1
    subst h1
    rcases h2 with h2 | h2 | h2
    · exact h2
    · rw [Erc721.isApprovedForAll, hs.und.oper'] at h2; cases h2
    · rw [Erc721.approved?_eq hs.und.toNoGhost, hs.und.appr' id ho] at h2
      cases h2
  · rintro rfl
    exact ⟨s.self_, ow, Or.inl rfl⟩

/-! ## Deposits -/

theorem keep_wrapped {env : Env} {caller account : Address} (ids : List U256) :
    ∀ {s s' : State}, depositFor env caller account s ids = .ok s' →
      ∀ id, s'.token.owners id = if id ∈ ids then account else s.token.owners id := by
  induction ids with
  | nil => intro s s' h id; rw [depositFor] at h; injection h with h; simp [h]
  | cons i ids ih =>
    intro s s' h id
    obtain ⟨_, _, _, _, _, _, h⟩ := deposit_step.mp h
    rw [ih h id]
    dsimp only
    by_cases h1 : id = i
    · subst h1; rw [updated_self]; simp
    · rw [updated_ne h1]; simp [h1]

theorem kept_underlying {env : Env} {caller account : Address} (ids : List U256) :
    ∀ {s s' : State}, Inv s → depositFor env caller account s ids = .ok s' →
      (∀ id, s.underlying.owners id = s.self_ ∨ id ∈ ids → s'.underlying.owners id = s.self_) := by
  induction ids with
  | nil => intro s s' _ h id hid; rw [depositFor] at h; injection h with h; rw [← h]; simpa using hid
  | cons i ids ih =>
    intro s s' hs h id hid
    obtain ⟨_, _, _, _, _, _, h⟩ := deposit_step.mp h
    have := ih (inv_deposit_step hs _) h id
    apply this
    rcases Decidable.em (id ∈ ids) with h1 | h1
    · exact Or.inr h1
    · left
      obtain ⟨_, k⟩ := others_keeps hs.me (env.acts ids.length) (held_updated hs.und s.self_ i)
      apply k
      by_cases h2 : id = i
      · rw [h2, updated_self]
      · rw [updated_ne h2]
        rcases hid with hid | hid
        · exact hid
        · simp [h1, h2] at hid

/-- C54: a successful `deposit_for` gives the named account one wrapped token per id and nothing else; the
ids are then in the wrapper's hands, and none of them was wrapped before. -/
theorem C54_deposit (s s' : State) (hr : Reachable s) (env : Env) (caller account : Address)
    (ids : List U256) (h : exec s ⟨caller, env, .depositFor account ids⟩ = .ok s') :
    (∀ id ∈ ids, wrappedOwner s id = none ∧ wrappedOwner s' id = some account ∧
      underOwner s' id = some s.self_) ∧
    (∀ id, id ∉ ids → wrappedOwner s' id = wrappedOwner s id) := by
  have hs := reachable_inv hr
  obtain ⟨hc1, -, -, hx⟩ := exec_cases h
  clear h
  have h : depositFor env caller account s ids = .ok s' := hx
  clear hx
  have hk := keep_wrapped ids h
  refine ⟨fun id hid => ⟨?_, ?_, ?_⟩, fun id hid => ?_⟩
  · -- none of them was wrapped before
    rw [wrapped_none]
    clear hk hc1 hr
    induction ids generalizing s with
    | nil => cases hid
    | cons i ids ih =>
      obtain ⟨_, _, _, _, h0, _, h⟩ := deposit_step.mp h
      by_cases e : id = i
      · rw [e]; exact h0
      · have := ih _ (inv_deposit_step hs _) h (by simpa [e] using hid)
        dsimp only at this
        rwa [updated_ne e] at this
  · rw [wrapped_some, hk id, if_pos hid]
    refine ⟨rfl, ?_⟩
    cases ids with
    | nil => cases hid
    | cons i ids =>
      obtain ⟨_, _, _, ha, _⟩ := deposit_step.mp h
      exact ha
  · rw [under_some]; exact ⟨kept_underlying ids hs h id (Or.inr hid), hs.me⟩
  · unfold wrappedOwner
    rw [owner?_eq, owner?_eq, hk id, if_neg hid]

example : ∃ s', exec (run (init W U) (story.take 3)) ⟨alice, calm, .depositFor bob [7#256, 8#256]⟩ = .ok s' ∧
    wrappedOwner s' 7#256 = some bob ∧ wrappedOwner s' 8#256 = some bob := by
  cases h : exec (run (init W U) (story.take 3)) ⟨alice, calm, .depositFor bob [7#256, 8#256]⟩ with
  | ok s' =>
    obtain ⟨h1, _⟩ := C54_deposit _ s' ⟨W, U, story.take 3, by decide, rfl⟩ calm alice bob _ h
    exact ⟨s', rfl, (h1 7#256 (by decide)).2.1, (h1 8#256 (by decide)).2.1⟩
  | error e =>
    exfalso
    have : (match exec (run (init W U) (story.take 3)) ⟨alice, calm, .depositFor bob [7#256, 8#256]⟩ with
      | .ok _ => true | .error _ => false) = true := by decide +kernel
    rw [h] at this; cases this

/-- C54: `deposit_for` of one id works exactly when the caller owns the underlying token, has let the
wrapper move it, and the account can receive the wrapped token (when nobody interferes). -/
theorem C54_deposit_succeeds_iff (s : State) (hr : Reachable s) (env : Env) (caller account : Address)
    (id : U256) (hc : caller ≠ s.self_ ∧ caller ≠ s.under ∧ caller ≠ ZERO) (ha : Accepts s env account) :
    (∃ s', exec s ⟨caller, env, .depositFor account [id]⟩ = .ok s') ↔
      account ≠ ZERO ∧ underOwner s id = some caller ∧ MayMove s.underlying s.self_ id := by
  have hs := reachable_inv hr
  have hx : exec s ⟨caller, env, .depositFor account [id]⟩ = depositFor env caller account s [id] := by
    unfold exec
    dsimp only
    rw [if_neg (by simp [hc])]
  rw [hx]
  constructor
  · rintro ⟨s', h⟩
    obtain ⟨h1, h2, h3, h4, h5, _⟩ := deposit_step.mp h
    exact ⟨h4, under_some.mpr ⟨h3, hc.2.2⟩,
      (Erc721.authorized_iff hs.und.toNoGhost hs.me).mp (h1.resolve_right hs.me)⟩
  · rintro ⟨h1, h2, h3⟩
    obtain ⟨h2, _⟩ := under_some.mp h2
    have h4 : s.token.owners id = ZERO := by
      by_contra h
      exact hc.1 (h2.symm.trans (hs.backed id h))
    refine ⟨_, deposit_step.mpr ⟨Or.inl ((Erc721.authorized_iff hs.und.toNoGhost hs.me).mpr h3), hs.me, h2, h1,
      h4, ?_, by rw [depositFor]⟩⟩
    intro f hf
    unfold locked at hf
    rw [if_neg ha.1] at hf
    exact ha.2 f hf _ _ _ _

example : Accepts (run (init W U) (story.take 3)) calm bob := ⟨by decide +kernel, by intro f hf; cases hf⟩

/-! ## Withdrawals -/

theorem withdraw_tokens {env : Env} {caller account : Address} (ids : List U256) :
    ∀ {s s' : State}, withdrawTo env caller account s ids = .ok s' →
      ∀ id, s'.token.owners id = if id ∈ ids then ZERO else s.token.owners id := by
  induction ids with
  | nil => intro s s' h id; rw [withdrawTo] at h; injection h with h; simp [h]
  | cons i ids ih =>
    intro s s' h id
    obtain ⟨_, _, _, _, _, h⟩ := withdraw_step.mp h
    rw [ih h id]
    dsimp only
    by_cases h1 : id = i
    · subst h1; rw [updated_self]; simp
    · rw [updated_ne h1]; simp [h1]

theorem auth_updated {t : Erc721.State} {d a c : Address} {i id : U256} (h : id ≠ i) :
    Erc721.isAuthorized (updated t d i) a c id = Erc721.isAuthorized t a c id := by
  unfold Erc721.isAuthorized Erc721.isApprovedForAll Erc721.getApprovedInternal updated
  dsimp only
  by_cases h0 : t.owners i = ZERO
  · rw [if_neg (not_not.mpr h0)]
  · simp only [if_pos h0, upd_ne _ _ h]

/-- C54: a successful `withdraw_to` burns exactly the named wrapped tokens, each of which the caller was
allowed to move; with no interference the account then owns each of them in the underlying. -/
theorem C54_withdraw (s s' : State) (hr : Reachable s) (env : Env) (caller account : Address)
    (ids : List U256) (h : exec s ⟨caller, env, .withdrawTo account ids⟩ = .ok s') :
    (∀ id ∈ ids, MayMove s.token caller id ∧ wrappedOwner s' id = none) ∧
    (∀ id, id ∉ ids → wrappedOwner s' id = wrappedOwner s id) ∧
    (Quiet env → (∀ id ∈ ids, underOwner s' id = some account) ∧
      ∀ id, id ∉ ids → underOwner s' id = underOwner s id) := by
  have hs := reachable_inv hr
  obtain ⟨hc1, -, hc3', hx⟩ := exec_cases h
  have hc3 : caller ≠ ZERO := hc3'
  clear h hc3'
  have h : withdrawTo env caller account s ids = .ok s' := hx
  clear hx
  have hk := withdraw_tokens ids h
  refine ⟨fun id hid => ⟨?_, ?_⟩, fun id hid => ?_, fun hq => ?_⟩
  · rw [← Erc721.authorized_iff hs.tok hc3]
    clear hk hc1 hr
    induction ids generalizing s with
    | nil => cases hid
    | cons i ids ih =>
      obtain ⟨ha, _, _, _, _, h⟩ := withdraw_step.mp h
      by_cases e : id = i
      · rw [e]; exact ha.resolve_left hc3
      · have := ih _ (inv_withdraw_step hs _) h (by simpa [e] using hid)
        dsimp only at this
        rwa [updated_ne e, auth_updated e] at this
  · rw [wrapped_none, hk id, if_pos hid]
  · unfold wrappedOwner
    rw [owner?_eq, owner?_eq, hk id, if_neg hid]
  · have key : ∀ id, s'.underlying.owners id = if id ∈ ids then account else s.underlying.owners id := by
      clear hk hc1 hr
      induction ids generalizing s with
      | nil => intro id; rw [withdrawTo] at h; injection h with h; simp [h]
      | cons i ids ih =>
        intro id
        obtain ⟨_, _, _, _, _, h⟩ := withdraw_step.mp h
        rw [ih _ (inv_withdraw_step hs _) h id]
        dsimp only
        rw [hq]
        by_cases h1 : id = i
        · subst h1
          simp [others, updated_self]
        · have : (others s.self_ (updated s.underlying account i) []).owners id = s.underlying.owners id := by
            rw [others, runOf_nil, updated_ne h1]
          rw [this]; simp [h1]
    constructor
    · intro id hid
      rw [under_some, key id, if_pos hid]
      refine ⟨rfl, ?_⟩
      cases ids with
      | nil => cases hid
      | cons i ids =>
        obtain ⟨_, ha, _⟩ := withdraw_step.mp h
        exact ha
    · intro id hid
      unfold underOwner
      rw [owner?_eq, owner?_eq, key id, if_neg hid]

theorem withdraw_succeeds {env : Env} {caller account : Address} (hz : account ≠ ZERO) (ids : List U256)
    (hnd : ids.Nodup) : ∀ {s : State}, Inv s → Accepts s env account →
      (∀ id ∈ ids, Erc721.isAuthorized s.token (s.token.owners id) caller id = true) →
      ∃ s', withdrawTo env caller account s ids = .ok s' := by
  induction ids with
  | nil => intro s _ _ _; exact ⟨s, by rw [withdrawTo]⟩
  | cons i ids ih =>
    intro s hs ha hau
    have hi := hau i (by simp)
    have h0 := Erc721.authorized_exists hs.tok hi
    have hb := hs.backed i h0
    have hni : i ∉ ids := (List.nodup_cons.mp hnd).1
    obtain ⟨s', h'⟩ := ih (List.nodup_cons.mp hnd).2
      (s := { s with token := updated s.token ZERO i
                     underlying := others s.self_ (updated s.underlying account i) (env.acts ids.length) })
      (inv_withdraw_step hs _) ha (by
        intro id hid
        have hne : id ≠ i := fun e => hni (e ▸ hid)
        dsimp only
        rw [updated_ne hne, auth_updated hne]
        exact hau id (by simp [hid]))
    refine ⟨s', withdraw_step.mpr ⟨Or.inr hi, hz, Or.inr ?_, hb, ?_, h'⟩⟩
    · rw [Erc721.authorized_iff hs.und.toNoGhost hs.me]
      exact ⟨s.self_, by rw [owner?_eq, nobody_some]; exact ⟨hb, hs.me⟩, Or.inl rfl⟩
    · intro f hf
      unfold locked at hf
      rw [if_neg ha.1] at hf
      exact ha.2 f hf _ _ _ _

/-- C54: wrapped tokens can always be redeemed.  Whoever may move a list of distinct wrapped tokens can
withdraw them all to any account that accepts tokens, whatever callees do to the underlying meanwhile. -/
theorem C54_withdraw_always_possible (s : State) (hr : Reachable s) (env : Env) (caller account : Address)
    (ids : List U256) (hc : caller ≠ s.self_ ∧ caller ≠ s.under ∧ caller ≠ ZERO) (hz : account ≠ ZERO)
    (ha : Accepts s env account) (hnd : ids.Nodup) (hm : ∀ id ∈ ids, MayMove s.token caller id) :
    ∃ s', exec s ⟨caller, env, .withdrawTo account ids⟩ = .ok s' := by
  have hs := reachable_inv hr
  unfold exec
  dsimp only
  rw [if_neg (by simp [hc])]
  exact withdraw_succeeds hz ids hnd hs ha
    (fun id hid => (Erc721.authorized_iff hs.tok hc.2.2).mpr (hm id hid))

example : ∃ s', exec world ⟨bob, calm, .withdrawTo alice [7#256]⟩ = .ok s' :=
  C54_withdraw_always_possible world world_reachable calm bob alice [7#256]
    (by decide +kernel) (by decide) ⟨by decide +kernel, by intro f hf; cases hf⟩ (by simp)
    (fun id hid => by
      simp only [List.mem_singleton] at hid
      subst hid
      exact ⟨bob, by decide +kernel, Or.inl rfl⟩)

/-- C54: withdrawing is the only way a wrapped token disappears, and only those who may move it can do it. -/
theorem C54_only_withdraw_unwraps (s s' : State) (hr : Reachable s) (tx : Tx) (h : exec s tx = .ok s')
    (id : U256) (a : Address) (h1 : wrappedOwner s id = some a) (h2 : wrappedOwner s' id = none) :
    ∃ account ids, tx.call = .withdrawTo account ids ∧ id ∈ ids ∧ MayMove s.token tx.caller id := by
  have hs := reachable_inv hr
  have hx := h
  obtain ⟨hc1, hc2, hc3, h⟩ := exec_cases h
  obtain ⟨rfl, h1⟩ := wrapped_some.mp h1
  rw [wrapped_none] at h2
  obtain ⟨caller, env, call⟩ := tx
  dsimp only at hc1 hc2 hc3 h
  have upd0 : ∀ {account i}, account ≠ ZERO → (updated s.token account i).owners id ≠ ZERO := by
    intro account i ha
    by_cases e : id = i
    · rw [e, updated_self]; exact ha
    · rw [updated_ne e]; exact h1
  cases call with
  | depositFor account ids =>
    exfalso
    rw [keep_wrapped ids h id] at h2
    by_cases hid : id ∈ ids
    · rw [if_pos hid] at h2
      cases ids with
      | nil => cases hid
      | cons i ids =>
        obtain ⟨_, _, _, ha, _⟩ := deposit_step.mp h
        exact ha h2
    · rw [if_neg hid] at h2; exact h1 h2
  | withdrawTo account ids =>
    by_cases hid : id ∈ ids
    · exact ⟨account, ids, rfl, hid, ((C54_withdraw s s' hr env caller account ids hx).1 id hid).1⟩
    · rw [withdraw_tokens ids h id, if_neg hid] at h2
      exact absurd h2 h1
  | onReceived op src i data =>
    obtain ⟨e, _⟩ := onReceived_ok.mp h
    exact absurd e.symm hc2
  | recover account i =>
    obtain ⟨_, ha, _, _, rfl⟩ := (recover_ok hs).mp h
    exact absurd h2 (upd0 ha)
  | token c =>
    dsimp only at h
    rw [bind_eq_ok] at h
    obtain ⟨t, ht, h⟩ := h
    injection h with h
    rw [lift_ok] at ht
    obtain ⟨_, b2⟩ := token_call hs.tok hc3 ht
    rw [← h] at h2
    exact absurd h2 ((b2 id).mpr h1)
  | underlying R c =>
    obtain ⟨hc, u, hu, hcase⟩ := execUnderlying_ok h
    rcases hcase with ⟨_, rfl⟩ | ⟨src, i, hk, a1, a2, rfl⟩
    · exact absurd h2 h1
    · exact absurd h2 (upd0 a1)

/-! ## The receiver hook and recovery -/

/-- C54: the receiver hook refuses every caller but the underlying token. -/
theorem C54_hook_refuses_strangers (s : State) (tx : Tx) (op src : Address) (id : U256) (data : Bytes)
    (hc : tx.caller ≠ s.self_ ∧ tx.caller ≠ s.under ∧ tx.caller ≠ ZERO)
    (h : tx.call = .onReceived op src id data) : exec s tx = .error (.unsupportedToken tx.caller) := by
  unfold exec
  rw [if_neg (by simp [hc]), h]
  dsimp only [onReceived]
  rw [if_pos (fun e => hc.2.1 e.symm)]
  rfl

/-- C54: a safe transfer of an underlying token to the wrapper wraps it for its previous owner. -/
theorem C54_safe_transfer_wraps (s s' : State) (hr : Reachable s) (env : Env) (R : Erc721.Receivers)
    (caller src : Address) (id : U256)
    (h : exec s ⟨caller, env, .underlying R (.user (.safeTransferFrom src s.self_ id))⟩ = .ok s') :
    underOwner s id = some src ∧ wrappedOwner s id = none ∧ wrappedOwner s' id = some src ∧
      underOwner s' id = some s.self_ := by
  have hs := reachable_inv hr
  have hx := (inv_exec hs h)
  obtain ⟨hc1, hc2, hc3, h⟩ := exec_cases h
  dsimp only at hc1 hc2 hc3 h
  obtain ⟨hc, u, hu, hcase⟩ := execUnderlying_ok h
  simp only [hooked, if_true] at hcase
  rcases hcase with ⟨e, _⟩ | ⟨src', i, hk, a1, a2, rfl⟩
  · cases e
  simp only [Option.some.injEq, Prod.mk.injEq] at hk
  obtain ⟨rfl, rfl⟩ := hk
  have ho : s.underlying.owners id = src := by
    unfold Erc721.exec at hu
    rw [if_neg hc3] at hu
    dsimp only [UCall.toCall] at hu
    obtain ⟨hu, _⟩ := Erc721.then_check_ok.mp hu
    obtain ⟨_, _, ho, _⟩ := Erc721.transferFrom_ok.mp hu
    exact ho
  have hw : (updated s.token src id).owners id = src := updated_self
  refine ⟨under_some.mpr ⟨ho, a1⟩, wrapped_none.mpr a2, wrapped_some.mpr ⟨hw, a1⟩, ?_⟩
  rw [under_some]
  exact ⟨hx.1.backed id (by rw [hw]; exact a1), hs.me⟩

example : ∃ s', exec (run (init W U) (story.take 4))
    ⟨alice, calm, .underlying (fun _ => none) (.user (.safeTransferFrom alice W 8#256))⟩ = .ok s' := by
  cases h : exec (run (init W U) (story.take 4))
    ⟨alice, calm, .underlying (fun _ => none) (.user (.safeTransferFrom alice W 8#256))⟩ with
  | ok s' => exact ⟨s', rfl⟩
  | error e =>
    exfalso
    have : (match exec (run (init W U) (story.take 4))
        ⟨alice, calm, .underlying (fun _ => none) (.user (.safeTransferFrom alice W 8#256))⟩ with
      | .ok _ => true | .error _ => false) = true := by decide +kernel
    rw [h] at this; cases this

/-- C54: recovery works exactly for tokens the wrapper holds without a wrapped counterpart, and wraps them
for the named account. -/
theorem C54_recover (s : State) (hr : Reachable s) (env : Env) (caller account : Address) (id : U256)
    (hc : caller ≠ s.self_ ∧ caller ≠ s.under ∧ caller ≠ ZERO) (ha : Accepts s env account) :
    ((∃ s', exec s ⟨caller, env, .recover account id⟩ = .ok s') ↔
      underOwner s id = some s.self_ ∧ wrappedOwner s id = none ∧ account ≠ ZERO) ∧
    ∀ s', exec s ⟨caller, env, .recover account id⟩ = .ok s' →
      wrappedOwner s' id = some account ∧ ∀ i, i ≠ id → wrappedOwner s' i = wrappedOwner s i := by
  have hs := reachable_inv hr
  have hx : exec s ⟨caller, env, .recover account id⟩ = recover env s caller account id := by
    unfold exec
    dsimp only
    rw [if_neg (by simp [hc])]
  rw [hx]
  refine ⟨⟨?_, ?_⟩, ?_⟩
  · rintro ⟨s', h⟩
    obtain ⟨h1, h2, h3, _⟩ := (recover_ok hs).mp h
    exact ⟨under_some.mpr ⟨h1, hs.me⟩, wrapped_none.mpr h3, h2⟩
  · rintro ⟨h1, h2, h3⟩
    refine ⟨_, (recover_ok hs).mpr ⟨(under_some.mp h1).1, h3, wrapped_none.mp h2, ?_, rfl⟩⟩
    intro f hf
    unfold locked at hf
    rw [if_neg ha.1] at hf
    exact ha.2 f hf _ _ _ _
  · intro s' h
    obtain ⟨_, h2, _, _, rfl⟩ := (recover_ok hs).mp h
    refine ⟨wrapped_some.mpr ⟨updated_self, h2⟩, fun i hi => ?_⟩
    unfold wrappedOwner
    rw [owner?_eq, owner?_eq]
    dsimp only
    rw [updated_ne hi]

/-- A token sent to the wrapper with a plain transfer can be recovered. -/
example : let s := run (init W U) (story.take 4 ++
      [⟨alice, calm, .underlying (fun _ => none) (.user (.transferFrom alice W 8#256))⟩])
    underOwner s 8#256 = some s.self_ ∧ wrappedOwner s 8#256 = none := by decide +kernel

end Verif.Props.Erc721Wrapper
