import Verif.Proofs.Erc721
/-! # C45 - C51: ERC-721 -/

namespace Verif.Props.Erc721
open Verif.Erc721 Verif.Spec.Erc721

theorem bal?_eq {s : State} {a : Address} (ha : a ≠ ZERO) : bal? s a = some (s.balances a).toNat := by
  simp [bal?, balanceOf, ha]

/-! ## C45 -/

/-- **C45** In every reachable state `balance_of(a)` is the number of token ids owned by `a` (unless `a`
owns all `2^256` ids, a number that does not fit a word). -/
theorem C45_balance_is_count (s : State) (hs : Reachable s) (a : Address) (ha : a ≠ ZERO)
    (hsome : ∃ id, owner? s id ≠ some a) : bal? s a = some (owned s a) := by
  obtain ⟨id, hid⟩ := hsome
  rw [bal?_eq ha, owned_eq s ha, (reachable_inv hs).count a ha, BitVec.toNat_ofNat,
    Nat.mod_eq_of_lt]
  apply cnt_lt (id := id)
  intro e
  apply hid
  rw [owner?_eq, nobody_some]; exact ⟨e, ha⟩

/-- **C45** Without any side condition, the balance is that number modulo the word size. -/
theorem C45_balance_mod (s : State) (hs : Reachable s) (a : Address) (ha : a ≠ ZERO) :
    bal? s a = some (owned s a % 2 ^ 256) := by
  rw [bal?_eq ha, owned_eq s ha, (reachable_inv hs).count a ha, BitVec.toNat_ofNat]

/-- **C45** The zero address owns nothing and asking for its balance is an error. -/
theorem C45_zero_owns_nothing (s : State) (id : U256) :
    owner? s id ≠ some ZERO ∧ balanceOf s ZERO = .error (.invalidOwner ZERO) := by
  refine ⟨?_, by simp [balanceOf]⟩
  rw [owner?_eq]
  intro h
  exact (nobody_some.mp h).2 rfl

/-! ## C46 -/

/-- What moving token `id` from its owner to `dst` (both possibly nobody) means. -/
structure Moved (s s' : State) (src dst : Option Address) (id : U256) : Prop where
  before : owner? s id = src
  after : owner? s' id = dst
  others : ∀ i, i ≠ id → owner? s' i = owner? s i
  cleared : approved? s' id = none
  approvals : ∀ i, i ≠ id → approved? s' i = approved? s i
  operators : ∀ o p, isApprovedForAll s' o p = isApprovedForAll s o p
  balances : ∀ a, a ≠ ZERO →
    (s'.balances a) = s.balances a - (if src = some a then 1#256 else 0#256)
      + (if dst = some a then 1#256 else 0#256)

theorem moved_updated {s : State} (hs : Inv s) (dst : Address) (id : U256) :
    Moved s (updated s dst id) (nobody (s.owners id)) (nobody dst) id := by
  have hs' : NoGhost (updated s dst id) := by
    refine ⟨?_, hs.oper, hs.toZero⟩
    intro i hi
    simp only [updated] at hi ⊢
    by_cases he : i = id
    · subst he
      by_cases ho : s.owners i = ZERO
      · simp [ho, hs.appr i ho]
      · simp [ho]
    · rw [upd_ne _ _ he] at hi
      split
      · rw [upd_ne _ _ he]; exact hs.appr i hi
      · exact hs.appr i hi
  refine ⟨owner?_eq s id, ?_, ?_, ?_, ?_, fun _ _ => rfl, ?_⟩
  · rw [owner?_eq]; simp [updated]
  · intro i hi; rw [owner?_eq, owner?_eq]; simp [updated, upd_ne _ _ hi]
  · rw [approved?_eq hs', nobody_none]
    simp only [updated]
    split
    · simp
    · rename_i h; exact hs.appr id (not_not.mp h)
  · intro i hi
    rw [approved?_eq hs', approved?_eq hs.toNoGhost]
    simp only [updated]
    split
    · rw [upd_ne _ _ hi]
    · rfl
  · intro a ha
    have e1 : nobody (s.owners id) = some a ↔ s.owners id = a :=
      nobody_some.trans ⟨fun h => h.1, fun h => ⟨h, ha⟩⟩
    have e2 : nobody dst = some a ↔ dst = a := nobody_some.trans ⟨fun h => h.1, fun h => ⟨h, ha⟩⟩
    simp only [e1, e2, updated]
    unfold moveBal
    by_cases h1 : s.owners id = a <;> by_cases h2 : dst = a
    · rw [h1, h2]; simp [ha]
    · rw [h1]
      by_cases h3 : dst = ZERO
      · have : ZERO ≠ a := fun e => ha e.symm
        simp [ha, h3, this]
      · have h4 : a ≠ dst := fun e => h2 e.symm
        simp [ha, h2, h3, upd_ne _ _ h4]
    · rw [h2]
      by_cases h3 : s.owners id = ZERO
      · have : ZERO ≠ a := fun e => ha e.symm
        simp [ha, h3, this]
      · have h4 : a ≠ s.owners id := fun e => h1 e.symm
        simp [ha, h1, h3, upd_ne _ _ h4]
    · have h4 : a ≠ s.owners id := fun e => h1 e.symm
      have h5 : a ≠ dst := fun e => h2 e.symm
      rw [if_neg h1, if_neg h2, BitVec.add_zero, BitVec.sub_zero]
      by_cases h3 : s.owners id = ZERO <;> by_cases h6 : dst = ZERO
      · rw [if_neg (not_not.mpr h6), if_neg (not_not.mpr h3)]
      · rw [if_pos h6, upd_ne _ _ h5, if_neg (not_not.mpr h3)]
      · rw [if_neg (not_not.mpr h6), if_pos h3, upd_ne _ _ h4]
      · rw [if_pos h6, upd_ne _ _ h5, if_pos h3, upd_ne _ _ h4]

/-- **C46** `transfer_from` succeeds exactly when the receiver is not zero, `src` owns the token, and the
caller is the owner, an operator of the owner, or approved for the token. -/
theorem C46_transferFrom_succeeds_iff (s : State) (hs : Reachable s) (caller src dst : Address)
    (hc : caller ≠ ZERO) (id : U256) :
    (∃ s', transferFrom s caller src dst id = .ok s') ↔
      dst ≠ ZERO ∧ owner? s id = some src ∧ MayMove s caller id := by
  have hi := (reachable_inv hs).toNoGhost
  constructor
  · rintro ⟨s', h⟩
    obtain ⟨h1, h2, h3, _⟩ := transferFrom_ok.mp h
    rcases h2 with h2 | h2
    · exact absurd h2 hc
    · refine ⟨h1, ?_, (authorized_iff hi hc).mp h2⟩
      rw [owner?_eq, nobody_some]
      have := authorized_exists hi h2
      exact ⟨h3, h3 ▸ this⟩
  · rintro ⟨h1, h2, h3⟩
    rw [owner?_eq, nobody_some] at h2
    exact ⟨_, transferFrom_ok.mpr ⟨h1, Or.inr ((authorized_iff hi hc).mpr h3), h2.1, rfl⟩⟩

/-- **C46** Every way `transfer_from` can fail: the zero receiver is reported first, then a token that
does not exist, then a caller with no right to it, and last a `src` that is not its owner. -/
theorem C46_transferFrom_errors (s : State) (hs : Reachable s) (caller src dst : Address)
    (hc : caller ≠ ZERO) (id : U256) (e : Err) :
    transferFrom s caller src dst id = .error e ↔
      (dst = ZERO ∧ e = .invalidReceiver ZERO) ∨
      (dst ≠ ZERO ∧ owner? s id = none ∧ e = .nonexistentToken id) ∨
      (dst ≠ ZERO ∧ owner? s id ≠ none ∧ ¬ MayMove s caller id ∧ e = .insufficientApproval caller id) ∨
      (dst ≠ ZERO ∧ MayMove s caller id ∧
        ∃ o, owner? s id = some o ∧ o ≠ src ∧ e = .incorrectOwner src id o) := by
  have hi := (reachable_inv hs).toNoGhost
  have hai := authorized_iff hi hc (id := id)
  have hae := authorized_exists hi (caller := caller) (id := id)
  have sym : ∀ x : Err, ((.error x : Except Err State) = .error e) ↔ e = x :=
    fun x => ⟨fun k => (Except.error.inj k).symm, fun k => k ▸ rfl⟩
  by_cases h1 : dst = ZERO
  · have hx : transferFrom s caller src dst id = .error (.invalidReceiver ZERO) := by
      unfold transferFrom; simp [h1]
    rw [hx, sym]; simp [h1]
  by_cases h2 : isAuthorized s (s.owners id) caller id = true
  · have h0 := hae h2
    have hm := hai.mp h2
    have ho : owner? s id = some (s.owners id) := by rw [owner?_eq]; exact nobody_some.mpr ⟨rfl, h0⟩
    by_cases h3 : s.owners id = src
    · have hx : transferFrom s caller src dst id = .ok (updated s dst id) :=
        transferFrom_ok.mpr ⟨h1, .inr h2, h3, rfl⟩
      rw [hx]; simp [h1, h3, ho, hm]
    · have hx : transferFrom s caller src dst id = .error (.incorrectOwner src id (s.owners id)) := by
        unfold transferFrom; rw [update_eq]; simp [h1, h2, h3]
      rw [hx, sym]; simp [h1, h3, ho, hm]
  · have hm : ¬ MayMove s caller id := fun k => h2 (hai.mpr k)
    by_cases h0 : s.owners id = ZERO
    · have ho : owner? s id = none := by rw [owner?_eq, h0]; simp [nobody]
      have hx : transferFrom s caller src dst id = .error (.nonexistentToken id) := by
        have hu : update s dst id caller = .error (.nonexistentToken id) := by
          rw [update_eq, if_neg (by simp [hc, h2]), if_pos h0]
        unfold transferFrom; rw [hu]; simp [h1]
      rw [hx, sym]; simp [h1, ho, hm]
    · have ho : owner? s id = some (s.owners id) := by rw [owner?_eq]; exact nobody_some.mpr ⟨rfl, h0⟩
      have hx : transferFrom s caller src dst id = .error (.insufficientApproval caller id) := by
        have hu : update s dst id caller = .error (.insufficientApproval caller id) := by
          rw [update_eq, if_neg (by simp [hc, h2]), if_neg h0]
        unfold transferFrom; rw [hu]; simp [h1]
      rw [hx, sym]; simp [h1, ho, hm]

/-- **C46** A successful `transfer_from` moves exactly this token: its owner becomes `dst`, its approval
is cleared, balances move by one, nothing else changes, and one truthful event is logged. -/
theorem C46_transferFrom_effect (s s' : State) (hs : Reachable s) (caller src dst : Address)
    (hc : caller ≠ ZERO) (id : U256) (h : transferFrom s caller src dst id = .ok s') :
    Moved s s' (some src) (some dst) id ∧ s'.log = s.log ++ [.transfer src dst id] := by
  obtain ⟨h1, h2, h3, rfl⟩ := transferFrom_ok.mp h
  have hm := moved_updated (reachable_inv hs) dst id
  have ho : s.owners id ≠ ZERO := by
    rcases h2 with h2 | h2
    · exact absurd h2 hc
    · exact authorized_exists (reachable_inv hs).toNoGhost h2
  have e1 : nobody (s.owners id) = some src := nobody_some.mpr ⟨h3, h3 ▸ ho⟩
  have e2 : nobody dst = some dst := nobody_some.mpr ⟨rfl, h1⟩
  rw [e1, e2] at hm
  exact ⟨hm, by simp [updated, h3]⟩

/-- **C46** Balances move by exactly one (no wrap-around), for a transfer between different accounts -
except when the receiver thereby comes to own all `2^256` ids. -/
theorem C46_balances_move_by_one (s s' : State) (hs : Reachable s) (caller src dst : Address)
    (hc : caller ≠ ZERO) (id : U256) (hne : src ≠ dst)
    (h : transferFrom s caller src dst id = .ok s') (hsome : ∃ i, owner? s i ≠ some src) :
    (s'.balances src).toNat + 1 = (s.balances src).toNat ∧
    (s'.balances dst).toNat = (s.balances dst).toNat + 1 ∨
    (∀ i, owner? s' i = some dst) := by
  obtain ⟨hd, h2, h3, _⟩ := transferFrom_ok.mp h
  by_cases hall : ∀ i, owner? s' i = some dst
  · exact Or.inr hall
  left
  have hi := reachable_inv hs
  have ho : s.owners id ≠ ZERO := by
    rcases h2 with h2 | h2
    · exact absurd h2 hc
    · exact authorized_exists hi.toNoGhost h2
  have hsrc : src ≠ ZERO := h3 ▸ ho
  obtain ⟨hm, _⟩ := C46_transferFrom_effect s s' hs caller src dst hc id h
  have hi' : Inv s' := by
    obtain ⟨_, _, _, rfl⟩ := transferFrom_ok.mp h
    exact inv_effect hc hi (.move dst id (Or.inr hd))
  obtain ⟨i, hi2⟩ := not_forall.mp hall
  obtain ⟨j, hj⟩ := hsome
  have c1 : (s.balances src).toNat = cnt s.owners src := by
    rw [hi.count src hsrc, BitVec.toNat_ofNat, Nat.mod_eq_of_lt]
    apply cnt_lt (id := j); intro e; apply hj; rw [owner?_eq, nobody_some]; exact ⟨e, hsrc⟩
  have c2 : (s'.balances dst).toNat = cnt s'.owners dst := by
    rw [hi'.count dst hd, BitVec.toNat_ofNat, Nat.mod_eq_of_lt]
    apply cnt_lt (id := i); intro e; apply hi2; rw [owner?_eq, nobody_some]; exact ⟨e, hd⟩
  have p1 : 0 < cnt s.owners src := cnt_pos h3
  have p2 : 0 < cnt s'.owners dst := by
    have := hm.after
    rw [owner?_eq, nobody_some] at this
    exact cnt_pos this.1
  have b1 := hm.balances src hsrc
  have b2 := hm.balances dst hd
  have n1 : ¬ (some dst = some src) := fun e => hne (Option.some.inj e).symm
  have n2 : ¬ (some src = some dst) := fun e => hne (Option.some.inj e)
  rw [if_pos rfl, if_neg n1, BitVec.add_zero] at b1
  rw [if_pos rfl, if_neg n2, BitVec.sub_zero] at b2
  have o1 : (1#256).toNat = 1 := rfl
  constructor
  · rw [b1, toNat_sub_of_ge (by omega)]; omega
  · have hb : s.balances dst = s'.balances dst - 1#256 := by rw [b2, BitVec.add_sub_cancel]
    have hk : (s.balances dst).toNat = (s'.balances dst).toNat - 1 := by
      rw [hb]; exact toNat_sub_of_ge (by omega)
    omega

/-! ## C47 -/

/-- **C47** If a user's call changes the owner of an existing token, then the caller was its owner, an
operator of its owner, or approved for it. -/
theorem C47_no_theft (s s' : State) (hs : Reachable s) (R : Receivers) (caller : Address)
    (hc : caller ≠ ZERO) (c : UserCall) (h : execUser R s caller c = .ok s') (id : U256)
    (hex : owner? s id ≠ none) (hchg : owner? s' id ≠ owner? s id) : MayMove s caller id := by
  have hi := (reachable_inv hs).toNoGhost
  have key : ∀ dst j, s' = updated s dst j →
      (caller = ZERO ∨ isAuthorized s (s.owners j) caller j = true) → MayMove s caller id := by
    rintro dst j rfl h2
    by_cases he : id = j
    · subst he
      rcases h2 with h2 | h2
      · exact absurd h2 hc
      · exact (authorized_iff hi hc).mp h2
    · exfalso; apply hchg; rw [owner?_eq, owner?_eq]; simp [updated, upd_ne _ _ he]
  cases c with
  | transferFrom src dst j =>
    obtain ⟨_, h2, _, h4⟩ := transferFrom_ok.mp h
    exact key dst j h4 h2
  | safeTransferFrom src dst j =>
    obtain ⟨_, h2, _, h4⟩ := transferFrom_ok.mp (then_check_ok.mp h).1
    exact key dst j h4 h2
  | safeTransferFromWithData src dst j data =>
    obtain ⟨_, h2, _, h4⟩ := transferFrom_ok.mp (then_check_ok.mp h).1
    exact key dst j h4 h2
  | approve dst j =>
    obtain ⟨_, _, rfl⟩ := (approve_ok hc).mp h
    exact absurd rfl hchg
  | setApprovalForAll p b =>
    obtain ⟨_, rfl⟩ := setApprovalForAll_ok.mp h
    exact absurd rfl hchg
  | burn j =>
    obtain ⟨h2, h4⟩ := burn_ok.mp h
    exact key ZERO j h4 h2

/-- **C47** A user's call never creates a token. -/
theorem C47_users_cannot_mint (s s' : State) (hs : Reachable s) (R : Receivers) (caller : Address)
    (hc : caller ≠ ZERO) (c : UserCall) (h : execUser R s caller c = .ok s') (id : U256)
    (hex : owner? s id = none) : owner? s' id = none := by
  have hi := (reachable_inv hs).toNoGhost
  rw [owner?_eq, nobody_none] at hex
  have key : ∀ dst j, s' = updated s dst j →
      (caller = ZERO ∨ isAuthorized s (s.owners j) caller j = true) → owner? s' id = none := by
    rintro dst j rfl h2
    have h3 : s.owners j ≠ ZERO := by
      rcases h2 with h2 | h2
      · exact absurd h2 hc
      · exact authorized_exists hi h2
    have he : id ≠ j := by rintro rfl; exact h3 hex
    rw [owner?_eq, nobody_none]; simpa [updated, upd_ne _ _ he] using hex
  cases c with
  | transferFrom src dst j =>
    obtain ⟨_, h2, _, h4⟩ := transferFrom_ok.mp h
    exact key dst j h4 h2
  | safeTransferFrom src dst j =>
    obtain ⟨_, h2, _, h4⟩ := transferFrom_ok.mp (then_check_ok.mp h).1
    exact key dst j h4 h2
  | safeTransferFromWithData src dst j data =>
    obtain ⟨_, h2, _, h4⟩ := transferFrom_ok.mp (then_check_ok.mp h).1
    exact key dst j h4 h2
  | approve dst j =>
    obtain ⟨_, _, rfl⟩ := (approve_ok hc).mp h
    rw [owner?_eq, nobody_none]; exact hex
  | setApprovalForAll p b =>
    obtain ⟨_, rfl⟩ := setApprovalForAll_ok.mp h
    rw [owner?_eq, nobody_none]; exact hex
  | burn j =>
    obtain ⟨h2, h4⟩ := burn_ok.mp h
    exact key ZERO j h4 h2

/-- **C47** The whole-history form: a token whose owner never approves anyone for it and has no
operators stays with its owner through any history of other users' calls. -/
theorem C47_safe_from_others (s : State) (hs : Reachable s) (o : Address) (id : U256)
    (hown : owner? s id = some o) (hno : approved? s id = none)
    (hop : ∀ p, isApprovedForAll s o p = false) (txs : List Tx)
    (huser : ∀ tx ∈ txs, tx.caller ≠ o ∧ ∃ c, tx.call = .inl c) :
    owner? (run s txs) id = some o := by
  suffices H : ∀ (txs : List Tx) (s : State), Inv s → s.owners id = o → o ≠ ZERO →
      s.tokenApprovals id = ZERO → (∀ p, s.operatorApprovals o p = false) →
      (∀ tx ∈ txs, tx.caller ≠ o ∧ ∃ c, tx.call = .inl c) → (run s txs).owners id = o by
    have hi := reachable_inv hs
    rw [owner?_eq, nobody_some] at hown
    rw [approved?_eq hi.toNoGhost, nobody_none] at hno
    rw [owner?_eq, nobody_some]
    exact ⟨H txs s hi hown.1 hown.2 hno hop huser, hown.2⟩
  intro txs
  induction txs with
  | nil => intro s _ h _ _ _ _; exact h
  | cons tx txs ih =>
    intro s hi h1 h2 h3 h4 hu
    have hu' : ∀ t ∈ txs, t.caller ≠ o ∧ ∃ c, t.call = .inl c := fun t ht => hu t (by simp [ht])
    obtain ⟨hco, c, hcall⟩ := hu tx (by simp)
    show (runOf exec (stepOf exec s tx) txs).owners id = o
    cases hx : exec s tx with
    | error e => rw [stepOf_error hx]; exact ih s hi h1 h2 h3 h4 hu'
    | ok s' =>
      rw [stepOf_ok hx]
      have hi' := inv_exec hi hx
      have hc0 : tx.caller ≠ ZERO := (exec_effect hi.toNoGhost hx).1
      unfold exec at hx
      rw [if_neg hc0, hcall] at hx
      -- the caller is not authorised for this token
      have hna : ¬ isAuthorized s (s.owners id) tx.caller id = true := by
        unfold isAuthorized isApprovedForAll getApprovedInternal
        rw [h1, h4, h3]
        have e1 : ¬ o = tx.caller := fun e => hco e.symm
        have e2 : ¬ ZERO = tx.caller := fun e => hc0 e.symm
        simp [e1, e2]
      have key : ∀ dst j, s' = updated s dst j →
          (tx.caller = ZERO ∨ isAuthorized s (s.owners j) tx.caller j = true) →
          s'.owners id = o ∧ s'.tokenApprovals id = ZERO ∧ (∀ p, s'.operatorApprovals o p = false) := by
        rintro dst j rfl h
        have he : id ≠ j := by
          rintro rfl
          rcases h with h | h
          · exact hc0 h
          · exact hna h
        refine ⟨?_, ?_, h4⟩
        · simpa [updated, upd_ne _ _ he] using h1
        · simp only [updated]; split
          · rw [upd_ne _ _ he]; exact h3
          · exact h3
      have goal : s'.owners id = o ∧ s'.tokenApprovals id = ZERO ∧
          (∀ p, s'.operatorApprovals o p = false) := by
        cases c with
        | transferFrom src dst j =>
          obtain ⟨_, k2, _, k4⟩ := transferFrom_ok.mp hx
          exact key dst j k4 k2
        | safeTransferFrom src dst j =>
          obtain ⟨_, k2, _, k4⟩ := transferFrom_ok.mp (then_check_ok.mp hx).1
          exact key dst j k4 k2
        | safeTransferFromWithData src dst j data =>
          obtain ⟨_, k2, _, k4⟩ := transferFrom_ok.mp (then_check_ok.mp hx).1
          exact key dst j k4 k2
        | approve dst j =>
          obtain ⟨k1, k2, rfl⟩ := (approve_ok hc0).mp hx
          have he : id ≠ j := by
            rintro rfl
            rw [h1, h4] at k2
            rcases k2 with k2 | k2
            · exact hco k2.symm
            · cases k2
          exact ⟨h1, by simpa [approvedState, upd_ne _ _ he] using h3, h4⟩
        | setApprovalForAll p b =>
          obtain ⟨_, rfl⟩ := setApprovalForAll_ok.mp hx
          refine ⟨h1, h3, fun q => ?_⟩
          simp only [operatorState, upd2_apply]
          rw [if_neg (fun e => hco e.1.symm)]; exact h4 q
        | burn j =>
          obtain ⟨k2, k4⟩ := burn_ok.mp hx
          exact key ZERO j k4 k2
      exact ih s' hi' goal.1 h2 goal.2.1 goal.2.2 hu'

/-! ## C48 -/

/-- **C48** `_mint` succeeds exactly on an unowned id and a non-zero receiver; the errors tell which. -/
theorem C48_mint_result (s : State) (dst : Address) (id : U256) :
    ((∃ s', mint s dst id = .ok s') ↔ dst ≠ ZERO ∧ owner? s id = none) ∧
    (dst = ZERO → mint s dst id = .error (.invalidReceiver ZERO)) ∧
    (dst ≠ ZERO → owner? s id ≠ none → mint s dst id = .error (.invalidSender ZERO)) := by
  rw [owner?_eq, ne_eq, nobody_none]
  refine ⟨⟨?_, ?_⟩, ?_, ?_⟩
  · rintro ⟨s', h⟩
    obtain ⟨h1, h2, _⟩ := mint_ok.mp h
    exact ⟨h1, h2⟩
  · rintro ⟨h1, h2⟩; exact ⟨_, mint_ok.mpr ⟨h1, h2, rfl⟩⟩
  · intro h; simp [mint, h]
  · intro h1 h2
    have h3 : s.owners id ≠ ZERO := fun e => h2 (nobody_none.mpr e)
    simp [mint, update_zero, h1, h3]

/-- **C48** A successful `_mint` gives exactly this token to the receiver. -/
theorem C48_mint_effect (s s' : State) (hs : Reachable s) (dst : Address) (id : U256)
    (h : mint s dst id = .ok s') :
    Moved s s' none (some dst) id ∧ s'.log = s.log ++ [.transfer ZERO dst id] := by
  obtain ⟨h1, h2, rfl⟩ := mint_ok.mp h
  have hm := moved_updated (reachable_inv hs) dst id
  rw [nobody_none.mpr h2, nobody_some.mpr ⟨rfl, h1⟩] at hm
  exact ⟨hm, by simp [updated, h2]⟩

/-- **C48** `_burn` succeeds exactly on an existing token, and removes exactly it, approval included. -/
theorem C48_burn (s : State) (hs : Reachable s) (id : U256) :
    (owner? s id = none → burnInternal s id = .error (.nonexistentToken id)) ∧
    (∀ o, owner? s id = some o → ∃ s', burnInternal s id = .ok s' ∧
      Moved s s' (some o) none id ∧ s'.log = s.log ++ [.transfer o ZERO id]) := by
  rw [owner?_eq]
  constructor
  · intro h
    rw [nobody_none] at h
    simp [burnInternal, update_zero, h]
  · intro o h
    have h' := nobody_some.mp h
    refine ⟨_, burnInternal_ok.mpr ⟨h'.1 ▸ h'.2, rfl⟩, ?_, by simp [updated, h'.1]⟩
    have hm := moved_updated (reachable_inv hs) ZERO id
    rwa [h, nobody_none.mpr rfl] at hm

/-- **C48** The user's `burn` succeeds exactly for a caller that may move the token, and removes it. -/
theorem C48_user_burn (s : State) (hs : Reachable s) (caller : Address) (hc : caller ≠ ZERO) (id : U256) :
    ((∃ s', burn s caller id = .ok s') ↔ MayMove s caller id) ∧
    (∀ s' o, burn s caller id = .ok s' → owner? s id = some o → Moved s s' (some o) none id) := by
  have hi := (reachable_inv hs).toNoGhost
  refine ⟨⟨?_, ?_⟩, ?_⟩
  · rintro ⟨s', h⟩
    rcases (burn_ok.mp h).1 with h2 | h2
    · exact absurd h2 hc
    · exact (authorized_iff hi hc).mp h2
  · intro h
    exact ⟨_, burn_ok.mpr ⟨Or.inr ((authorized_iff hi hc).mpr h), rfl⟩⟩
  · intro s' o h ho
    obtain ⟨_, rfl⟩ := burn_ok.mp h
    have hm := moved_updated (reachable_inv hs) ZERO id
    rw [← owner?_eq, ho, nobody_none.mpr rfl] at hm
    exact hm

/-- **C48** A burnt id can be minted again. -/
theorem C48_remint (s s' : State) (hs : Reachable s) (id : U256) (h : burnInternal s id = .ok s')
    (dst : Address) (hd : dst ≠ ZERO) : ∃ s'', mint s' dst id = .ok s'' := by
  apply (C48_mint_result s' dst id).1.mpr
  refine ⟨hd, ?_⟩
  cases ho : owner? s id with
  | none => rw [(C48_burn s hs id).1 ho] at h; cases h
  | some o =>
    obtain ⟨t, h1, h2, _⟩ := (C48_burn s hs id).2 o ho
    rw [h] at h1
    injection h1 with h1
    rw [h1]; exact h2.after

/-! ## C49 -/

/-- **C49** Whenever a transaction changes a token's owner, its approval is gone afterwards. -/
theorem C49_cleared_on_change (s s' : State) (hs : Reachable s) (tx : Tx) (h : exec s tx = .ok s')
    (id : U256) (hchg : owner? s' id ≠ owner? s id) : approved? s' id = none := by
  have hi := reachable_inv hs
  obtain ⟨hc, he⟩ := exec_effect hi.toNoGhost h
  cases he with
  | move dst j hx =>
    by_cases hj : id = j
    · subst hj; exact (moved_updated hi dst id).cleared
    · exact absurd ((moved_updated hi dst j).others id hj) hchg
  | approve dst j hx hy => exact absurd rfl hchg
  | operator p b hx => exact absurd rfl hchg

/-- **C49** An approval appears or changes to an address only through the token's owner or an operator of
the owner, who is the caller. -/
theorem C49_set_only_by_owner (s s' : State) (hs : Reachable s) (tx : Tx) (h : exec s tx = .ok s')
    (id : U256) (a : Address) (hnew : approved? s' id = some a) (hold : approved? s id ≠ some a) :
    ∃ o, owner? s id = some o ∧ (tx.caller = o ∨ isApprovedForAll s o tx.caller = true) := by
  have hi := reachable_inv hs
  obtain ⟨hc, he⟩ := exec_effect hi.toNoGhost h
  cases he with
  | move dst j hx =>
    by_cases hj : id = j
    · subst hj; rw [(moved_updated hi dst id).cleared] at hnew; cases hnew
    · rw [(moved_updated hi dst j).approvals id hj] at hnew; exact absurd hnew hold
  | approve dst j hx hy =>
    have hi' := inv_effect hc hi (.approve dst j hx hy)
    rw [approved?_eq hi'.toNoGhost] at hnew
    rw [approved?_eq hi.toNoGhost] at hold
    by_cases hj : id = j
    · subst hj
      refine ⟨s.owners id, by rw [owner?_eq, nobody_some]; exact ⟨rfl, hx⟩, ?_⟩
      rcases hy with hy | hy
      · exact Or.inl hy.symm
      · exact Or.inr hy
    · simp only [approvedState, upd_ne _ _ hj] at hnew
      exact absurd hnew hold
  | operator p b hx => exact absurd hnew hold

/-- **C49** Tokens that do not exist never have an approval, in storage either. -/
theorem C49_no_approval_without_owner (s : State) (hs : Reachable s) (id : U256)
    (h : owner? s id = none) : approved? s id = none ∧ getApprovedInternal s id = ZERO := by
  have hi := (reachable_inv hs).toNoGhost
  rw [owner?_eq, nobody_none] at h
  exact ⟨by rw [approved?_eq hi, nobody_none]; exact hi.appr id h, hi.appr id h⟩

/-- **C49** `approve` succeeds exactly for the owner or an operator; single-token approval is not enough
to approve; and it sets exactly this token's approval. -/
theorem C49_approve (s : State) (hs : Reachable s) (caller dst : Address) (hc : caller ≠ ZERO)
    (id : U256) :
    ((∃ s', approve s caller dst id = .ok s') ↔
      ∃ o, owner? s id = some o ∧ (caller = o ∨ isApprovedForAll s o caller = true)) ∧
    (∀ s', approve s caller dst id = .ok s' → approved? s' id = nobody dst ∧
      (∀ i, i ≠ id → approved? s' i = approved? s i) ∧ (∀ i, owner? s' i = owner? s i) ∧
      (∀ a, balanceOf s' a = balanceOf s a) ∧
      (∀ o p, isApprovedForAll s' o p = isApprovedForAll s o p)) := by
  have hi := reachable_inv hs
  refine ⟨⟨?_, ?_⟩, ?_⟩
  · rintro ⟨s', h⟩
    obtain ⟨h1, h2, _⟩ := (approve_ok hc).mp h
    refine ⟨s.owners id, by rw [owner?_eq, nobody_some]; exact ⟨rfl, h1⟩, ?_⟩
    rcases h2 with h2 | h2
    · exact Or.inl h2.symm
    · exact Or.inr h2
  · rintro ⟨o, h1, h2⟩
    rw [owner?_eq, nobody_some] at h1
    obtain ⟨rfl, h1⟩ := h1
    refine ⟨_, (approve_ok hc).mpr ⟨h1, ?_, rfl⟩⟩
    rcases h2 with h2 | h2
    · exact Or.inl h2.symm
    · exact Or.inr h2
  · intro s' h
    obtain ⟨h1, h2, rfl⟩ := (approve_ok hc).mp h
    have hi' := inv_effect hc hi (.approve dst id h1 h2)
    refine ⟨?_, fun i he => ?_, fun _ => rfl, fun _ => rfl, fun _ _ => rfl⟩
    · rw [approved?_eq hi'.toNoGhost]; simp [approvedState]
    · rw [approved?_eq hi'.toNoGhost, approved?_eq hi.toNoGhost]; simp [approvedState, upd_ne _ _ he]

/-- **C49** `set_approval_for_all` sets exactly the caller's entry for this operator; the zero operator
is rejected. -/
theorem C49_operators (s : State) (caller p : Address) (b : Bool) :
    (p = ZERO → setApprovalForAll s caller p b = .error (.invalidOperator ZERO)) ∧
    (p ≠ ZERO → ∃ s', setApprovalForAll s caller p b = .ok s' ∧
      (∀ x y, isApprovedForAll s' x y = if x = caller ∧ y = p then b else isApprovedForAll s x y) ∧
      (∀ i, owner? s' i = owner? s i) ∧ (∀ i, approved? s' i = approved? s i) ∧
      (∀ a, balanceOf s' a = balanceOf s a)) := by
  constructor
  · intro h; simp [setApprovalForAll, setApprovalForAllInternal, h]
  · intro h
    exact ⟨_, setApprovalForAll_ok.mpr ⟨h, rfl⟩, fun _ _ => rfl, fun _ => rfl, fun _ => rfl, fun _ => rfl⟩

/-! ## C50 -/

/-- **C50** A safe transfer is a transfer whose receiver, if it has code, answered the magic selector when
asked about exactly this transfer. -/
theorem C50_safe_transfer (R : Receivers) (s s' : State) (caller src dst : Address) (id : U256)
    (data : Bytes) :
    safeTransferFromWithData R s caller src dst id data = .ok s' ↔
      transferFrom s caller src dst id = .ok s' ∧
      (∀ f, R dst = some f → f caller src id data = .selector 0x150b7a02#32) :=
  then_check_ok.trans (and_congr_right fun _ => checkOnReceived_ok)

/-- **C50** The same for the variant without data. -/
theorem C50_safe_transfer_no_data (R : Receivers) (s s' : State) (caller src dst : Address) (id : U256) :
    safeTransferFrom R s caller src dst id = .ok s' ↔
      transferFrom s caller src dst id = .ok s' ∧
      (∀ f, R dst = some f → f caller src id [] = .selector 0x150b7a02#32) :=
  C50_safe_transfer R s s' caller src dst id []

/-- **C50** The same for minting. -/
theorem C50_safe_mint (R : Receivers) (s s' : State) (caller dst : Address) (id : U256) (data : Bytes) :
    safeMint R s caller dst id data = .ok s' ↔
      mint s dst id = .ok s' ∧
      (∀ f, R dst = some f → f caller ZERO id data = .selector 0x150b7a02#32) :=
  then_check_ok.trans (and_congr_right fun _ => checkOnReceived_ok)

/-- **C50** The same for the internal transfer. -/
theorem C50_safe_transfer_internal (R : Receivers) (s s' : State) (caller src dst : Address) (id : U256)
    (data : Bytes) :
    safeTransferInternal R s caller src dst id data = .ok s' ↔
      transferInternal s src dst id = .ok s' ∧
      (∀ f, R dst = some f → f caller src id data = .selector 0x150b7a02#32) :=
  then_check_ok.trans (and_congr_right fun _ => checkOnReceived_ok)

/-- **C50** A refusal is reported: the revert reason if there is one, else the receiver. -/
theorem C50_refusal_reported (R : Receivers) (s s1 : State) (caller src dst : Address) (id : U256)
    (data : Bytes) (h : transferFrom s caller src dst id = .ok s1)
    (f : Address → Address → U256 → Bytes → Answer) (hf : R dst = some f) :
    (∀ reason, reason ≠ [] → f caller src id data = .revert reason →
      safeTransferFromWithData R s caller src dst id data = .error (.invalidReceiverWithReason reason)) ∧
    (∀ sel, sel ≠ 0x150b7a02#32 → f caller src id data = .selector sel →
      safeTransferFromWithData R s caller src dst id data = .error (.invalidReceiver dst)) ∧
    (f caller src id data = .failure ∨ f caller src id data = .revert [] →
      safeTransferFromWithData R s caller src dst id data = .error (.invalidReceiver dst)) := by
  refine ⟨fun r hr hx => ?_, fun sel hs hx => ?_, fun hx => ?_⟩
  · simp [safeTransferFromWithData, h, checkOnReceived, hf, hx, hr]
  · have : sel ≠ RECEIVER_FN_SELECTOR := hs
    simp [safeTransferFromWithData, h, checkOnReceived, hf, hx, this]
  · rcases hx with hx | hx <;> simp [safeTransferFromWithData, h, checkOnReceived, hf, hx]

/-! ## C51 -/

/-- **C51** For every history, replaying the log gives every owner, every approval and every operator. -/
theorem C51_events_replay (txs : List Tx) (id : U256) (o p : Address) :
    (replay (run init txs).log).owner id = owner? (run init txs) id ∧
    (replay (run init txs).log).approved id = approved? (run init txs) id ∧
    (replay (run init txs).log).operator o p = isApprovedForAll (run init txs) o p := by
  have hi := inv_run txs
  exact ⟨by rw [owner?_eq]; exact hi.owner id, by rw [approved?_eq hi.toNoGhost]; exact hi.approved id,
    hi.operator o p⟩

/-- **C51** Every transfer event names the true previous owner, every approval event the true owner. -/
theorem C51_events_truthful (txs : List Tx) : Truthful (run init txs).log := (inv_run txs).truthful

/-! ## Concrete cases -/

section Examples
/-- Address 7 has code and accepts tokens only if asked by address 1; address 8 reverts. -/
private def R0 : Receivers := fun a =>
  if a = 7#160 then some fun op _ _ _ => if op = 1#160 then .selector 0x150b7a02#32 else .selector 0#32
  else if a = 8#160 then some fun _ _ _ _ => .revert [1#8] else none
private def u (c : Address) (x : UserCall) : Tx := ⟨c, R0, .inl x⟩
private def adm (x : AdminCall) : Tx := ⟨9#160, R0, .inr x⟩
private def hist : List Tx := [adm (.mint 1#160 10#256), adm (.mint 1#160 0#256), adm (.mint 2#160 11#256),
  u 1#160 (.approve 3#160 10#256), u 3#160 (.transferFrom 1#160 4#160 10#256),
  u 1#160 (.setApprovalForAll 2#160 true), u 2#160 (.safeTransferFrom 1#160 7#160 0#256),
  u 1#160 (.safeTransferFrom 1#160 7#160 0#256), u 2#160 (.burn 11#256)]

example : owner? (run init hist) 10#256 = some 4#160 := by decide +kernel
example : owner? (run init hist) 0#256 = some 7#160 := by decide +kernel
example : owner? (run init hist) 11#256 = none := by decide +kernel
example : bal? (run init hist) 1#160 = some 0 := by decide +kernel
example : approved? (run init (hist.take 4)) 10#256 = some 3#160 := by decide +kernel
example : (run init hist).log.length = 8 := by decide +kernel
/-- The hypotheses of the history theorem of C47 are met: after three mints the owner 2 has approved
nobody. -/
example : owner? (run init (hist.take 3)) 11#256 = some 2#160 ∧
    approved? (run init (hist.take 3)) 11#256 = none ∧
    ∀ p, isApprovedForAll (run init (hist.take 3)) 2#160 p = false := by
  refine ⟨by decide +kernel, by decide +kernel, ?_⟩
  have : (run init (hist.take 3)).operatorApprovals = fun _ _ => false := by rfl
  intro p; unfold isApprovedForAll; rw [this]
example : Reachable (run init hist) := ⟨hist, rfl⟩
/-- Every branch of the error table of C46 occurs. -/
example : transferFrom (run init hist) 9#160 4#160 0#160 10#256 = .error (.invalidReceiver ZERO) ∧
    transferFrom (run init hist) 9#160 4#160 5#160 11#256 = .error (.nonexistentToken 11#256) ∧
    transferFrom (run init hist) 9#160 4#160 5#160 10#256
      = .error (.insufficientApproval 9#160 10#256) ∧
    transferFrom (run init hist) 4#160 9#160 5#160 10#256
      = .error (.incorrectOwner 9#160 10#256 4#160) := by
  refine ⟨(C46_transferFrom_errors _ ⟨hist, rfl⟩ _ _ _ (by decide) _ _).mpr (.inl (by decide)), ?_, ?_, ?_⟩
  · exact (C46_transferFrom_errors _ ⟨hist, rfl⟩ _ _ _ (by decide) _ _).mpr
      (.inr (.inl ⟨by decide, by decide +kernel, rfl⟩))
  · rfl
  · rfl
example : ∃ i, owner? (run init hist) i ≠ some 4#160 := ⟨11#256, by decide +kernel⟩
end Examples

end Verif.Props.Erc721
