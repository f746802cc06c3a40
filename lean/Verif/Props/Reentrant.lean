import Verif.Spec.Reentrant
import Verif.Props.Erc721
import Verif.Props.Erc1155
/-! # C88: the token contracts survive re-entrant receivers -/

namespace Verif.Props.Reentrant
open Verif.Spec.Reentrant

/-! ## One call -/

private theorem check721 (inside : Erc721.State → Erc721.State) (R : Erc721.Receivers)
    (x : Except Erc721.Err Erc721.State) (op src dst : Address) (id : U256) (data : Bytes) :
    (do let s1 ← x; Erc721.Reentrant.checkOnReceived inside R s1 op src dst id data) =
      thenInside R (some dst) inside
        (do let s1 ← x; Erc721.checkOnReceived R op src dst id data; return s1) := by
  cases x with
  | error e => rfl
  | ok s =>
    simp only [except_bind_ok]
    unfold Erc721.Reentrant.checkOnReceived Erc721.checkOnReceived
    cases hR : R dst with
    | none => simp [thenInside, hR]
    | some f =>
      dsimp only
      cases f op src id data with
      | selector sel => dsimp only; split <;> simp [thenInside, hR]
      | revert r => dsimp only; split <;> simp [thenInside]
      | failure => simp [thenInside]

private theorem quiet {σ ε β : Type} (R : Address → Option β) (inside : σ → σ) (x : Except ε σ) :
    thenInside R none inside x = x := by cases x <;> rfl

/-- **C88.** A call of the ERC-721 contract during which the notified receiver does anything at all has
the result of the same call with a passive receiver, followed by what the receiver did; it fails exactly
when that call fails.  So the receiver acts on a finished movement, and nothing it does can change
whether the movement is valid. -/
theorem C88_erc721_call (inside : Erc721.State → Erc721.State) (s : Erc721.State) (tx : Erc721.Tx) :
    Erc721.Reentrant.execWith inside s tx =
      thenInside tx.receivers (notifies721 tx.call) inside (Erc721.exec s tx) := by
  obtain ⟨caller, R, call⟩ := tx
  unfold Erc721.Reentrant.execWith Erc721.exec
  dsimp only
  by_cases hc : caller = ZERO
  · rw [if_pos hc, if_pos hc]; rfl
  · rw [if_neg hc, if_neg hc]
    cases call with
    | inl c =>
      cases c with
      | safeTransferFrom src dst id => exact check721 inside R _ caller src dst id []
      | safeTransferFromWithData src dst id data => exact check721 inside R _ caller src dst id data
      | transferFrom => exact (quiet _ _ _).symm
      | approve => exact (quiet _ _ _).symm
      | setApprovalForAll => exact (quiet _ _ _).symm
      | burn => exact (quiet _ _ _).symm
    | inr c =>
      cases c with
      | safeMint dst id data => exact check721 inside R _ caller ZERO dst id data
      | safeTransfer src dst id data => exact check721 inside R _ caller src dst id data
      | mint => exact (quiet _ _ _).symm
      | transfer => exact (quiet _ _ _).symm
      | burn => exact (quiet _ _ _).symm

private theorem check1155 {σ : Type} (inside : σ → σ) (R : Erc1155.Receivers) (x : Except Erc1155.Err σ)
    (dst : Address) (hd : dst ≠ ZERO) (d : BitVec 32 × Erc1155.Notice) :
    (do let s1 ← x
        if dst ≠ ZERO then Erc1155.Reentrant.checkOnReceived inside R s1 dst d else return s1) =
      thenInside R (some dst) inside
        (do let s1 ← x
            if dst ≠ ZERO then Erc1155.checkOnReceived R dst d
            return s1) := by
  cases x with
  | error e => rfl
  | ok s =>
    simp only [except_bind_ok, if_pos hd]
    unfold Erc1155.Reentrant.checkOnReceived Erc1155.checkOnReceived
    cases hR : R dst with
    | none => simp [thenInside, hR]
    | some f =>
      dsimp only
      cases f d.2 with
      | selector sel => dsimp only; split <;> simp [thenInside, hR]
      | revert r => dsimp only; split <;> simp [thenInside]
      | failure => simp [thenInside]

private theorem check1155_burn {σ : Type} (inside : σ → σ) (R : Erc1155.Receivers)
    (x : Except Erc1155.Err σ) (d : BitVec 32 × Erc1155.Notice) :
    (do let s1 ← x
        if ZERO ≠ ZERO then Erc1155.Reentrant.checkOnReceived inside R s1 ZERO d else return s1) =
      thenInside R none inside
        (do let s1 ← x
            if ZERO ≠ ZERO then Erc1155.checkOnReceived R ZERO d
            return s1) := by
  cases x with
  | error e => rfl
  | ok s => simp [thenInside]

private theorem pass {σ ε α β : Type} (R : Address → Option β) (r : Option Address) (inside : σ → σ)
    (y : Except ε α) (f g : Except ε σ) (h : f = thenInside R r inside g) :
    (do let _ ← y; f) = thenInside R r inside (do let _ ← y; g) := by
  cases y with
  | error e => rfl
  | ok _ => exact h

private theorem mint1155 (inside : Erc1155.State → Erc1155.State) (R : Erc1155.Receivers) (s : Erc1155.State)
    (caller dst : Address) (ids vs : List U256) (data : Bytes) :
    Erc1155.Reentrant.doMint inside R s caller dst ids vs data =
      thenInside R (some dst) inside (Erc1155.doMint R s caller dst ids vs data) := by
  unfold Erc1155.Reentrant.doMint Erc1155.doMint
  by_cases hd : dst = ZERO
  · simp [hd, thenInside]
  · rw [if_neg hd, if_neg hd]; exact check1155 inside R _ dst hd _

private theorem transfer1155 (inside : Erc1155.State → Erc1155.State) (R : Erc1155.Receivers)
    (s : Erc1155.State) (caller src dst : Address) (ids vs : List U256) (data : Bytes) :
    Erc1155.Reentrant.doSafeTransferFrom inside R s caller src dst ids vs data =
      thenInside R (some dst) inside (Erc1155.doSafeTransferFrom R s caller src dst ids vs data) := by
  unfold Erc1155.Reentrant.doSafeTransferFrom Erc1155.doSafeTransferFrom
  by_cases hd : dst = ZERO
  · simp [hd, thenInside]
  · by_cases hs : src = ZERO
    · simp [hd, hs, thenInside]
    · rw [if_neg hd, if_neg hd, if_neg hs, if_neg hs]; exact check1155 inside R _ dst hd _

private theorem burn1155 (inside : Erc1155.State → Erc1155.State) (R : Erc1155.Receivers)
    (s : Erc1155.State) (caller src : Address) (ids vs : List U256) :
    Erc1155.Reentrant.doBurn inside R s caller src ids vs =
      thenInside R none inside (Erc1155.doBurn R s caller src ids vs) := by
  unfold Erc1155.Reentrant.doBurn Erc1155.doBurn
  by_cases hs : src = ZERO
  · simp [hs, thenInside]
  · rw [if_neg hs, if_neg hs]; exact check1155_burn inside R _ _

/-- **C88.** The same for every call of the ERC-1155 contract, batches included. -/
theorem C88_erc1155_call (inside : Erc1155.State → Erc1155.State) (s : Erc1155.State) (tx : Erc1155.Tx) :
    Erc1155.Reentrant.execWith inside s tx =
      thenInside tx.receivers (notifies1155 tx.call) inside (Erc1155.exec s tx) := by
  obtain ⟨caller, R, call⟩ := tx
  cases call with
  | inl c =>
    cases c with
    | safeTransferFrom src dst id v data => exact pass _ _ _ _ _ _ (transfer1155 ..)
    | safeBatchTransferFrom src dst ids vs data => exact pass _ _ _ _ _ _ (transfer1155 ..)
    | setApprovalForAll op b => exact (quiet _ _ _).symm
    | burn a id v => exact pass _ _ _ _ _ _ (burn1155 ..)
    | burnBatch a ids vs => exact pass _ _ _ _ _ _ (burn1155 ..)
  | inr c =>
    cases c with
    | mint dst id v data => exact mint1155 ..
    | mintBatch dst ids vs data => exact mint1155 ..
    | burn src id v => exact burn1155 ..
    | burnBatch src ids vs => exact burn1155 ..

private theorem mintS (inside : Erc1155Supply.State → Erc1155Supply.State) (R : Erc1155.Receivers)
    (s : Erc1155Supply.State) (caller dst : Address) (ids vs : List U256) (data : Bytes) :
    Erc1155Supply.Reentrant.doMint inside R s caller dst ids vs data =
      thenInside R (some dst) inside (Erc1155Supply.doMint R s caller dst ids vs data) := by
  unfold Erc1155Supply.Reentrant.doMint Erc1155Supply.doMint
  by_cases hd : dst = ZERO
  · simp [hd, thenInside]
  · rw [if_neg hd, if_neg hd]; exact check1155 inside R _ dst hd _

private theorem transferS (inside : Erc1155Supply.State → Erc1155Supply.State) (R : Erc1155.Receivers)
    (s : Erc1155Supply.State) (caller src dst : Address) (ids vs : List U256) (data : Bytes) :
    Erc1155Supply.Reentrant.doSafeTransferFrom inside R s caller src dst ids vs data =
      thenInside R (some dst) inside (Erc1155Supply.doSafeTransferFrom R s caller src dst ids vs data) := by
  unfold Erc1155Supply.Reentrant.doSafeTransferFrom Erc1155Supply.doSafeTransferFrom
  by_cases hd : dst = ZERO
  · simp [hd, thenInside]
  · by_cases hs : src = ZERO
    · simp [hd, hs, thenInside]
    · rw [if_neg hd, if_neg hd, if_neg hs, if_neg hs]; exact check1155 inside R _ dst hd _

private theorem burnS (inside : Erc1155Supply.State → Erc1155Supply.State) (R : Erc1155.Receivers)
    (s : Erc1155Supply.State) (caller src : Address) (ids vs : List U256) :
    Erc1155Supply.Reentrant.doBurn inside R s caller src ids vs =
      thenInside R none inside (Erc1155Supply.doBurn R s caller src ids vs) := by
  unfold Erc1155Supply.Reentrant.doBurn Erc1155Supply.doBurn
  by_cases hs : src = ZERO
  · simp [hs, thenInside]
  · rw [if_neg hs, if_neg hs]; exact check1155_burn inside R _ _

/-- **C88.** The same for the supply extension, whose totals are also final before anyone is notified. -/
theorem C88_supply_call (inside : Erc1155Supply.State → Erc1155Supply.State) (s : Erc1155Supply.State)
    (tx : Erc1155Supply.Tx) :
    Erc1155Supply.Reentrant.execWith inside s tx =
      thenInside tx.receivers (notifiesSupply tx.call) inside (Erc1155Supply.exec s tx) := by
  obtain ⟨caller, R, call⟩ := tx
  cases call with
  | safeTransferFrom src dst id v data => exact pass _ _ _ _ _ _ (transferS ..)
  | safeBatchTransferFrom src dst ids vs data => exact pass _ _ _ _ _ _ (transferS ..)
  | setApprovalForAll op b => exact (quiet _ _ _).symm
  | mint dst id v data => exact mintS ..
  | mintBatch dst ids vs data => exact mintS ..
  | burn src id v => exact burnS ..
  | burnBatch src ids vs => exact burnS ..

/-! ## Whole histories -/

private theorem thenInside_ok {σ ε β : Type} {R : Address → Option β} {r : Option Address}
    {inside : σ → σ} {x : Except ε σ} {s' : σ} (h : thenInside R r inside x = .ok s') :
    ∃ s1, x = .ok s1 ∧ (s' = inside s1 ∨ s' = s1) := by
  cases x with
  | error e => cases h
  | ok s1 =>
    refine ⟨s1, rfl, ?_⟩
    unfold thenInside at h
    dsimp only at h
    cases r with
    | none => cases h; exact Or.inr rfl
    | some d =>
      dsimp only at h
      cases hR : R d with
      | none => rw [hR] at h; cases h; exact Or.inr rfl
      | some f => rw [hR] at h; cases h; exact Or.inl rfl

/-- **C88.** However receivers call back, to any depth, the ERC-721 contract ends in a state that some
of the very same calls, made one after another without any nesting, produce, each of them succeeding. -/
theorem C88_erc721_linearises (s : Erc721.State) (calls : List (CallTree Erc721.Tx)) :
    ∃ txs, txs.Sublist (CallTree.callsAll calls) ∧ AllSucceed Erc721.exec s txs ∧
      Erc721.run s txs = Erc721.Reentrant.run s calls :=
  (CallTree.linearises Erc721.Reentrant.execWith Erc721.exec fun inside s tx _ h =>
    thenInside_ok (C88_erc721_call inside s tx ▸ h)).2 calls s

/-- **C88.** The same for ERC-1155. -/
theorem C88_erc1155_linearises (s : Erc1155.State) (calls : List (CallTree Erc1155.Tx)) :
    ∃ txs, txs.Sublist (CallTree.callsAll calls) ∧ AllSucceed Erc1155.exec s txs ∧
      Erc1155.run s txs = Erc1155.Reentrant.run s calls :=
  (CallTree.linearises Erc1155.Reentrant.execWith Erc1155.exec fun inside s tx _ h =>
    thenInside_ok (C88_erc1155_call inside s tx ▸ h)).2 calls s

/-- **C88.** The same for the supply extension. -/
theorem C88_supply_linearises (s : Erc1155Supply.State) (calls : List (CallTree Erc1155Supply.Tx)) :
    ∃ txs, txs.Sublist (CallTree.callsAll calls) ∧ AllSucceed Erc1155Supply.exec s txs ∧
      Erc1155Supply.run s txs = Erc1155Supply.Reentrant.run s calls :=
  (CallTree.linearises Erc1155Supply.Reentrant.execWith Erc1155Supply.exec fun inside s tx _ h =>
    thenInside_ok (C88_supply_call inside s tx ▸ h)).2 calls s

/-- **C88.** A history without callbacks is a history in which every callback does nothing. -/
theorem C88_erc721_passive (s : Erc721.State) (txs : List Erc721.Tx) :
    Erc721.Reentrant.run s (txs.map fun tx => .mk tx []) = Erc721.run s txs := by
  unfold Erc721.Reentrant.run Erc721.run
  induction txs generalizing s with
  | nil => rw [List.map_nil, CallTree.execAll]; rfl
  | cons tx txs ih =>
    rw [List.map_cons, CallTree.execAll, ih, runOf_cons, CallTree.exec, C88_erc721_call]
    congr 1
    unfold stepOf
    cases Erc721.exec s tx with
    | error e => rfl
    | ok s1 =>
      unfold thenInside
      dsimp only
      cases notifies721 tx.call with
      | none => rfl
      | some d => dsimp only; cases tx.receivers d <;> simp [CallTree.execAll]

/-! ## What follows for users -/

/-- **C88.** After every history with arbitrary nested callbacks, an account's ERC-721 balance is the
number of tokens it owns (short of one account owning all 2^256 of them). -/
theorem C88_erc721_balances (calls : List (CallTree Erc721.Tx)) (a : Address) (ha : a ≠ ZERO)
    (hsome : ∃ id, Spec.Erc721.owner? (Erc721.Reentrant.run Erc721.init calls) id ≠ some a) :
    Spec.Erc721.bal? (Erc721.Reentrant.run Erc721.init calls) a =
      some (Spec.Erc721.owned (Erc721.Reentrant.run Erc721.init calls) a) := by
  obtain ⟨txs, _, _, h⟩ := C88_erc721_linearises Erc721.init calls
  exact Erc721.C45_balance_is_count _ ⟨txs, h.symm⟩ a ha hsome

/-- **C88.** A token with no approval, whose owner has no operators, stays with its owner through every
history with arbitrary nested callbacks in which the owner makes no call, at any depth, and the
integrating contract uses none of its own powers. -/
theorem C88_erc721_safe_from_others (calls₀ calls : List (CallTree Erc721.Tx)) (o : Address) (id : U256) :
    let s := Erc721.Reentrant.run Erc721.init calls₀
    Spec.Erc721.owner? s id = some o → Spec.Erc721.approved? s id = none →
    (∀ p, Erc721.isApprovedForAll s o p = false) →
    (∀ tx ∈ CallTree.callsAll calls, tx.caller ≠ o ∧ ∃ c, tx.call = .inl c) →
    Spec.Erc721.owner? (Erc721.Reentrant.run s calls) id = some o := by
  intro s hown hno hop huser
  obtain ⟨txs0, _, _, h0⟩ := C88_erc721_linearises Erc721.init calls₀
  obtain ⟨txs, hsub, _, h⟩ := C88_erc721_linearises s calls
  rw [← h]
  exact Erc721.C47_safe_from_others s ⟨txs0, h0.symm⟩ o id hown hno hop txs
    fun tx htx => huser tx (hsub.subset htx)

/-- **C88.** The ERC-721 events still tell the whole truth: replaying them gives every owner, approval
and operator, and every event names the true previous owner. -/
theorem C88_erc721_events (calls : List (CallTree Erc721.Tx)) :
    let s := Erc721.Reentrant.run Erc721.init calls
    (∀ id, (Spec.Erc721.replay s.log).owner id = Spec.Erc721.owner? s id) ∧
    (∀ id, (Spec.Erc721.replay s.log).approved id = Spec.Erc721.approved? s id) ∧
    (∀ o p, (Spec.Erc721.replay s.log).operator o p = Erc721.isApprovedForAll s o p) ∧
    Spec.Erc721.Truthful s.log := by
  intro s
  obtain ⟨txs, _, _, h⟩ := C88_erc721_linearises Erc721.init calls
  have hs : s = Erc721.run Erc721.init txs := h.symm
  rw [hs]
  exact ⟨fun id => (Erc721.C51_events_replay txs id ZERO ZERO).1,
    fun id => (Erc721.C51_events_replay txs id ZERO ZERO).2.1,
    fun o p => (Erc721.C51_events_replay txs 0#256 o p).2.2, Erc721.C51_events_truthful txs⟩

/-- **C88.** When a receiver of `safe_transfer_from` runs, it already owns the token and no approval is
left on it: the state it acts on is one in which exactly this movement has happened. -/
theorem C88_erc721_receiver_sees_result (calls₀ : List (CallTree Erc721.Tx))
    (inside : Erc721.State → Erc721.State) (R : Erc721.Receivers) (caller src dst : Address) (id : U256)
    (data : Bytes) (f : Address → Address → U256 → Bytes → Erc721.Answer) (hf : R dst = some f)
    (s' : Erc721.State) :
    let s := Erc721.Reentrant.run Erc721.init calls₀
    Erc721.Reentrant.execWith inside s ⟨caller, R, .inl (.safeTransferFromWithData src dst id data)⟩ = .ok s' →
    ∃ s1, s' = inside s1 ∧ Spec.Erc721.owner? s1 id = some dst ∧ Spec.Erc721.approved? s1 id = none ∧
      (∀ i, i ≠ id → Spec.Erc721.owner? s1 i = Spec.Erc721.owner? s i) ∧
      s1.log = s.log ++ [.transfer src dst id] := by
  intro s h
  obtain ⟨txs0, _, _, h0⟩ := C88_erc721_linearises Erc721.init calls₀
  have hr : Spec.Erc721.Reachable s := ⟨txs0, h0.symm⟩
  rw [C88_erc721_call] at h
  unfold Erc721.exec at h
  dsimp only at h
  by_cases hc : caller = ZERO
  · rw [if_pos hc] at h; cases h
  rw [if_neg hc] at h
  have e : Erc721.execUser R s caller (.safeTransferFromWithData src dst id data) =
    Erc721.safeTransferFromWithData R s caller src dst id data := rfl
  rw [e] at h
  cases hx : Erc721.safeTransferFromWithData R s caller src dst id data with
  | error er => rw [hx] at h; cases h
  | ok s1 =>
    rw [hx] at h
    simp only [thenInside, notifies721, hf, Except.ok.injEq] at h
    have ht := ((Erc721.C50_safe_transfer R s s1 caller src dst id data).mp hx).1
    have hm := Erc721.C46_transferFrom_effect s s1 hr caller src dst hc id ht
    exact ⟨s1, h.symm, hm.1.after, hm.1.cleared, hm.1.others, hm.2⟩

/-- **C88.** After every history with arbitrary nested callbacks, every ERC-1155 balance is what the
event log says, and for every id the sum of balances is what was minted less what was burned. -/
theorem C88_erc1155_books (calls : List (CallTree Erc1155.Tx)) (a : Address) (id : U256) :
    let s := Erc1155.Reentrant.run Erc1155.init calls
    (a ≠ ZERO → (Erc1155.balanceOf s a id).toNat + Spec.Erc1155.sent s.log a id =
      Spec.Erc1155.received s.log a id) ∧
    (∑ a, (Erc1155.balanceOf s a id).toNat) + Spec.Erc1155.burned s.log id =
      Spec.Erc1155.minted s.log id := by
  intro s
  obtain ⟨txs, _, _, h⟩ := C88_erc1155_linearises Erc1155.init calls
  have hr : Spec.Erc1155.Reachable s := ⟨txs, h.symm⟩
  exact ⟨(Erc1155.Props.C55_balance_matches_log hr a id).1, Erc1155.Props.C55_supply_is_minted_minus_burned hr id⟩

/-- **C88.** After every history with arbitrary nested callbacks, `total_supply(id)` is the sum of the
balances of `id`, and `total_supply_all` the sum of the totals if no single batch adds up to more than a
word. -/
theorem C88_supply_totals (calls : List (CallTree Erc1155Supply.Tx)) (id : U256) :
    let s := Erc1155Supply.Reentrant.run Erc1155Supply.init calls
    (Erc1155Supply.totalSupplyOf s id).toNat = ∑ a, (Erc1155.balanceOf s.erc1155 a id).toNat ∧
    (Spec.Erc1155Supply.BatchesFit (CallTree.callsAll calls) →
      (Erc1155Supply.totalSupplyAllOf s).toNat = ∑ id, (Erc1155Supply.totalSupplyOf s id).toNat) := by
  intro s
  obtain ⟨txs, hsub, _, h⟩ := C88_supply_linearises Erc1155Supply.init calls
  have hs : s = Erc1155Supply.run Erc1155Supply.init txs := h.symm
  refine ⟨Erc1155Supply.Props.C58_total_is_sum ⟨txs, hs⟩ id, fun hfit => ?_⟩
  rw [hs]
  exact Erc1155Supply.Props.C59_aggregate_exact fun tx htx => hfit tx (hsub.subset htx)

/-! ## Concrete cases -/

section Examples

/-- Contract 7 accepts ERC-721 tokens. -/
private def R7 : Erc721.Receivers := fun a =>
  if a = 7#160 then some fun _ _ _ _ => .selector 0x150b7a02#32 else none

/-- Token 5 is minted safely to contract 7, which during the notification passes it on to 8, tries (in
vain) to send token 5 again, and is re-entered once more by 8 sending it back. -/
private def nested : List (CallTree Erc721.Tx) :=
  [.mk ⟨1#160, R7, .inr (.safeMint 7#160 5#256 [])⟩
    [.mk ⟨7#160, R7, .inl (.transferFrom 7#160 8#160 5#256)⟩ [],
     .mk ⟨7#160, R7, .inl (.transferFrom 7#160 9#160 5#256)⟩ [],
     .mk ⟨8#160, R7, .inl (.safeTransferFrom 8#160 7#160 5#256)⟩
       [.mk ⟨7#160, R7, .inl (.approve 3#160 5#256)⟩ []]]]

example : let s := Erc721.Reentrant.run Erc721.init nested
    Spec.Erc721.owner? s 5#256 = some 7#160 ∧ Spec.Erc721.approved? s 5#256 = some 3#160 ∧
    s.balances 7#160 = 1#256 ∧ s.balances 8#160 = 0#256 ∧
    s.log = [.transfer 0#160 7#160 5#256, .transfer 7#160 8#160 5#256, .transfer 8#160 7#160 5#256,
      .approval 7#160 3#160 5#256] := by
  decide +kernel

/-- A refusing receiver undoes everything that happened inside its notification. -/
example : let R : Erc721.Receivers := fun a => if a = 7#160 then some fun _ _ _ _ => .failure else none
    let s := Erc721.Reentrant.run Erc721.init
      [.mk ⟨1#160, R, .inr (.mint 1#160 4#256)⟩ [],
       .mk ⟨1#160, R, .inr (.safeMint 7#160 5#256 [])⟩
        [.mk ⟨1#160, R, .inl (.transferFrom 1#160 2#160 4#256)⟩ []]]
    Spec.Erc721.owner? s 5#256 = none ∧ Spec.Erc721.owner? s 4#256 = some 1#160 := by
  decide +kernel

/-- The hypotheses of `C88_erc721_safe_from_others` hold for 1's token 4 while 2, 7 and 8 play. -/
example :
    let s := Erc721.Reentrant.run Erc721.init
      [.mk ⟨1#160, R7, .inr (.mint 1#160 4#256)⟩ [], .mk ⟨1#160, R7, .inr (.mint 2#160 5#256)⟩ []]
    let play : List (CallTree Erc721.Tx) :=
      [.mk ⟨2#160, R7, .inl (.safeTransferFrom 2#160 7#160 5#256)⟩
        [.mk ⟨7#160, R7, .inl (.transferFrom 1#160 7#160 4#256)⟩ [],
         .mk ⟨7#160, R7, .inl (.approve 8#160 5#256)⟩ []]]
    Spec.Erc721.owner? s 4#256 = some 1#160 ∧ Spec.Erc721.approved? s 4#256 = none ∧
    (∀ p, Erc721.isApprovedForAll s 1#160 p = false) ∧
    (∀ tx ∈ CallTree.callsAll play, tx.caller ≠ 1#160 ∧ ∃ c, tx.call = .inl c) ∧
    Spec.Erc721.owner? (Erc721.Reentrant.run s play) 4#256 = some 1#160 := by
  refine ⟨by decide +kernel, by decide +kernel, fun p => rfl, ?_, by decide +kernel⟩
  intro tx htx
  simp only [CallTree.callsAll, CallTree.calls, List.append_nil, List.cons_append, List.nil_append,
    List.mem_cons, List.not_mem_nil, or_false] at htx
  rcases htx with rfl | rfl | rfl <;> exact ⟨by decide, _, rfl⟩

/-- ERC-1155: contract 7, notified of a mint, burns half of it before accepting; totals agree. -/
example : let R : Erc1155.Receivers := fun a =>
      if a = 7#160 then some fun _ => .selector 0xf23a6e61#32 else none
    let s := Erc1155Supply.Reentrant.run Erc1155Supply.init
      [.mk ⟨1#160, R, .mint 7#160 3#256 10#256 []⟩
        [.mk ⟨7#160, R, .burn 7#160 3#256 4#256⟩ [],
         .mk ⟨7#160, R, .safeTransferFrom 7#160 2#160 3#256 1#256 []⟩ []]]
    Erc1155.balanceOf s.erc1155 7#160 3#256 = 5#256 ∧ Erc1155.balanceOf s.erc1155 2#160 3#256 = 1#256 ∧
    Erc1155Supply.totalSupplyOf s 3#256 = 6#256 ∧ Erc1155Supply.totalSupplyAllOf s = 6#256 := by
  decide +kernel

end Examples

end Verif.Props.Reentrant
