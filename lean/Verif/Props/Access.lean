import Verif.Spec.Access
/-! # C38, C39 AccessControl, C40 Ownable, C41 Ownable2Step -/

namespace Verif.Props.Access

/-! ## C38, C39 -/
section
open Verif.AccessControl Verif.Spec.AccessControl

theorem grantRole_eq (s : State) (c : Address) (r : Role) (a : Address) :
    grantRole s c r a = if hasRole s (getRoleAdmin s r) c then .ok (grantInternal s c r a)
      else .error (.unauthorizedAccount c (getRoleAdmin s r)) := by
  unfold grantRole onlyRole checkRole
  cases hasRole s (getRoleAdmin s r) c <;> rfl

theorem revokeRole_eq (s : State) (c : Address) (r : Role) (a : Address) :
    revokeRole s c r a = if hasRole s (getRoleAdmin s r) c then .ok (revokeInternal s c r a)
      else .error (.unauthorizedAccount c (getRoleAdmin s r)) := by
  unfold revokeRole onlyRole checkRole
  cases hasRole s (getRoleAdmin s r) c <;> rfl

theorem hasRole_grant (s : State) (c : Address) (r : Role) (a : Address) (r' : Role) (a' : Address) :
    hasRole (grantInternal s c r a) r' a' = if r' = r ∧ a' = a then true else hasRole s r' a' := by
  unfold grantInternal
  by_cases h : hasRole s r a
  · by_cases h2 : r' = r ∧ a' = a
    · obtain ⟨rfl, rfl⟩ := h2; simp [h]
    · simp [h, h2]
  · simp only [h]; rfl

theorem hasRole_revoke (s : State) (c : Address) (r : Role) (a : Address) (r' : Role) (a' : Address) :
    hasRole (revokeInternal s c r a) r' a' = if r' = r ∧ a' = a then false else hasRole s r' a' := by
  unfold revokeInternal
  by_cases h : hasRole s r a
  · simp only [h]; rfl
  · by_cases h2 : r' = r ∧ a' = a
    · obtain ⟨rfl, rfl⟩ := h2; simp at h; simp [h]
    · simp [h, h2]

/-- **C38** The result of `grant_role`: accepted exactly for holders of the role's admin role, then
exactly this account holds exactly this role in addition; otherwise `UnauthorizedAccount` with the
caller and the missing role. -/
theorem C38_grant_role (s : State) (c : Address) (r : Role) (a : Address) :
    (hasRole s (getRoleAdmin s r) c = true → ∃ s', grantRole s c r a = .ok s' ∧
      (∀ r' a', hasRole s' r' a' = if r' = r ∧ a' = a then true else hasRole s r' a') ∧
      (∀ r', getRoleAdmin s' r' = getRoleAdmin s r')) ∧
    (hasRole s (getRoleAdmin s r) c = false →
      grantRole s c r a = .error (.unauthorizedAccount c (getRoleAdmin s r))) := by
  rw [grantRole_eq]
  refine ⟨fun h => ⟨grantInternal s c r a, by simp [h], hasRole_grant s c r a, ?_⟩, fun h => by simp [h]⟩
  intro r'; unfold grantInternal; split <;> rfl

/-- **C38** The result of `revoke_role`. -/
theorem C38_revoke_role (s : State) (c : Address) (r : Role) (a : Address) :
    (hasRole s (getRoleAdmin s r) c = true → ∃ s', revokeRole s c r a = .ok s' ∧
      (∀ r' a', hasRole s' r' a' = if r' = r ∧ a' = a then false else hasRole s r' a') ∧
      (∀ r', getRoleAdmin s' r' = getRoleAdmin s r')) ∧
    (hasRole s (getRoleAdmin s r) c = false →
      revokeRole s c r a = .error (.unauthorizedAccount c (getRoleAdmin s r))) := by
  rw [revokeRole_eq]
  refine ⟨fun h => ⟨revokeInternal s c r a, by simp [h], hasRole_revoke s c r a, ?_⟩, fun h => by simp [h]⟩
  intro r'; unfold revokeInternal; split <;> rfl

/-- **C38** The result of `renounce_role`: only for oneself. -/
theorem C38_renounce_role (s : State) (c : Address) (r : Role) (a : Address) :
    (c = a → ∃ s', renounceRole s c r a = .ok s' ∧
      (∀ r' a', hasRole s' r' a' = if r' = r ∧ a' = c then false else hasRole s r' a') ∧
      (∀ r', getRoleAdmin s' r' = getRoleAdmin s r')) ∧
    (c ≠ a → renounceRole s c r a = .error .badConfirmation) := by
  unfold renounceRole
  refine ⟨?_, fun h => by simp [h]⟩
  rintro rfl
  refine ⟨revokeInternal s c r c, by simp, hasRole_revoke s c r c, ?_⟩
  intro r'; unfold revokeInternal; split <;> rfl

/-- **C38** `only_role` passes exactly for holders. -/
theorem C38_only_role (s : State) (c : Address) (r : Role) :
    onlyRole s c r = if hasRole s r c = true then .ok () else .error (.unauthorizedAccount c r) := by
  unfold onlyRole checkRole
  cases hasRole s r c <;> rfl

/-- **C38** In one transaction an account gains a role only through `grant_role` called by a holder
of that role's admin role. -/
theorem C38_gain_only_by_admin_grant {s s' : State} {c : Address} {k : Call} {r : Role} {a : Address}
    (h : exec s (c, k) = .ok s') (h0 : hasRole s r a = false) (h1 : hasRole s' r a = true) :
    k = .grantRole r a ∧ hasRole s (getRoleAdmin s r) c = true := by
  cases k with
  | grantRole r' a' =>
    simp only [exec, grantRole_eq] at h
    split at h
    · rename_i hadm
      cases h
      rw [hasRole_grant] at h1
      by_cases he : r = r' ∧ a = a'
      · obtain ⟨rfl, rfl⟩ := he; exact ⟨rfl, hadm⟩
      · rw [if_neg he, h0] at h1; cases h1
    · cases h
  | revokeRole r' a' =>
    simp only [exec, revokeRole_eq] at h
    split at h
    · cases h
      rw [hasRole_revoke, h0] at h1
      split at h1 <;> cases h1
    · cases h
  | renounceRole r' a' =>
    simp only [exec, renounceRole] at h
    split at h
    · cases h
    · cases h
      rw [hasRole_revoke, h0] at h1
      split at h1 <;> cases h1

/-- **C38** In one transaction an account loses a role only through `revoke_role` called by a holder
of that role's admin role, or by renouncing itself. -/
theorem C38_lose_only_by_admin_or_self {s s' : State} {c : Address} {k : Call} {r : Role}
    {a : Address} (h : exec s (c, k) = .ok s') (h0 : hasRole s r a = true)
    (h1 : hasRole s' r a = false) :
    (k = .revokeRole r a ∧ hasRole s (getRoleAdmin s r) c = true) ∨
    (k = .renounceRole r a ∧ c = a) := by
  cases k with
  | grantRole r' a' =>
    simp only [exec, grantRole_eq] at h
    split at h
    · cases h
      rw [hasRole_grant, h0] at h1
      split at h1 <;> cases h1
    · cases h
  | revokeRole r' a' =>
    simp only [exec, revokeRole_eq] at h
    split at h
    · rename_i hadm
      cases h
      rw [hasRole_revoke] at h1
      by_cases he : r = r' ∧ a = a'
      · obtain ⟨rfl, rfl⟩ := he; exact .inl ⟨rfl, hadm⟩
      · rw [if_neg he, h0] at h1; cases h1
    · cases h
  | renounceRole r' a' =>
    simp only [exec, renounceRole] at h
    split at h
    · cases h
    · rename_i hc
      cases h
      rw [hasRole_revoke] at h1
      by_cases he : r = r' ∧ a = a'
      · obtain ⟨rfl, rfl⟩ := he; exact .inr ⟨rfl, by simpa using hc⟩
      · rw [if_neg he, h0] at h1; cases h1

theorem admin_exec {s s' : State} {op : Address × Call} (h : exec s op = .ok s') (r : Role) :
    getRoleAdmin s' r = getRoleAdmin s r := by
  obtain ⟨c, k⟩ := op
  cases k with
  | grantRole r' a' =>
    simp only [exec, grantRole_eq] at h
    split at h
    · cases h; unfold grantInternal; split <;> rfl
    · cases h
  | revokeRole r' a' =>
    simp only [exec, revokeRole_eq] at h
    split at h
    · cases h; unfold revokeInternal; split <;> rfl
    · cases h
  | renounceRole r' a' =>
    simp only [exec, renounceRole] at h
    split at h
    · cases h
    · cases h; unfold revokeInternal; split <;> rfl

/-- **C38** No history of public calls changes any role's admin role. -/
theorem C38_admin_fixed (s : State) (ops : List (Address × Call)) (r : Role) :
    getRoleAdmin (run s ops) r = getRoleAdmin s r := by
  apply run_invariant (exec := exec) (Inv := fun t => getRoleAdmin t r = getRoleAdmin s r)
  · intro t op t' ht h; rw [admin_exec h, ht]
  · rfl

/-- **C38** No privilege escalation: take any set `Bad` of accounts none of which holds the admin role
of any role.  A history of calls made only by them, of any length, gives nobody any role and takes no
role from anybody outside the set. -/
theorem C38_no_escalation (s : State) (Bad : Address → Prop)
    (hbad : ∀ a, Bad a → ∀ r, hasRole s (getRoleAdmin s r) a = false)
    (ops : List (Address × Call)) (hops : ∀ op ∈ ops, Bad op.1) :
    (∀ r a, hasRole (run s ops) r a = true → hasRole s r a = true) ∧
    (∀ r a, ¬ Bad a → hasRole (run s ops) r a = hasRole s r a) := by
  induction ops generalizing s with
  | nil => exact ⟨fun _ _ h => h, fun _ _ _ => rfl⟩
  | cons op ops ih =>
    have hb : Bad op.1 := hops op (by simp)
    have hrun : run s (op :: ops) = run (stepOf exec s op) ops := rfl
    rw [hrun]
    cases hx : exec s op with
    | error e =>
      rw [stepOf_error hx]
      exact ih s hbad (fun o ho => hops o (by simp [ho]))
    | ok s' =>
      rw [stepOf_ok hx]
      obtain ⟨c, k⟩ := op
      have hmono : ∀ r a, hasRole s' r a = true → hasRole s r a = true := by
        intro r a h1
        by_contra h0
        have := C38_gain_only_by_admin_grant hx (by simpa using h0) h1
        rw [hbad c hb r] at this
        cases this.2
      have hkeep : ∀ r a, ¬ Bad a → hasRole s' r a = hasRole s r a := by
        intro r a ha
        cases h0 : hasRole s r a with
        | false =>
          by_contra h1
          have := hmono r a (by simpa using h1)
          rw [h0] at this; cases this
        | true =>
          by_contra h1
          rcases C38_lose_only_by_admin_or_self hx h0 (by simpa using h1) with ⟨_, h2⟩ | ⟨_, h2⟩
          · rw [hbad c hb r] at h2; cases h2
          · exact ha (h2 ▸ hb)
      have hbad' : ∀ a, Bad a → ∀ r, hasRole s' (getRoleAdmin s' r) a = false := by
        intro a ha r
        rw [admin_exec hx]
        by_contra h1
        have := hmono _ a (by simpa using h1)
        rw [hbad a ha r] at this; cases this
      obtain ⟨i1, i2⟩ := ih s' hbad' (fun o ho => hops o (by simp [ho]))
      exact ⟨fun r a h => hmono r a (i1 r a h), fun r a ha => by rw [i2 r a ha, hkeep r a ha]⟩

/-- A state with an admin (account 1) that granted role 7 to account 2. -/
def sampleAC : State :=
  runAct init [.internalGrant 1#160 DEFAULT_ADMIN_ROLE 1#160, .call 1#160 (.grantRole 7#256 2#160)]

example : hasRole sampleAC 7#256 2#160 = true ∧
    exec sampleAC (2#160, .grantRole 7#256 3#160)
      = .error (.unauthorizedAccount 2#160 DEFAULT_ADMIN_ROLE) := ⟨by decide, rfl⟩
/-- `C38_no_escalation` applies to account 2 and 3 in the sample. -/
example : ∀ a, (a = 2#160 ∨ a = 3#160) → ∀ r, hasRole sampleAC (getRoleAdmin sampleAC r) a = false := by
  rintro a (rfl | rfl) r <;> rfl

/-! ### C39 -/

theorem memberByLog_append (l : List Event) (e : Event) (r : Role) (a : Address) :
    memberByLog r a (l ++ [e]) = match e with
      | .roleGranted r' a' _ => if r' = r ∧ a' = a then true else memberByLog r a l
      | .roleRevoked r' a' _ => if r' = r ∧ a' = a then false else memberByLog r a l
      | .roleAdminChanged _ _ _ => memberByLog r a l := by
  simp only [memberByLog, List.foldl_append, List.foldl_cons, List.foldl_nil]
  cases e <;> rfl

theorem adminByLog_append (l : List Event) (e : Event) (r : Role) :
    adminByLog r (l ++ [e]) = match e with
      | .roleAdminChanged r' _ n => if r' = r then n else adminByLog r l
      | _ => adminByLog r l := by
  simp only [adminByLog, List.foldl_append, List.foldl_cons, List.foldl_nil]
  cases e <;> rfl

/-- Log invariant: replay agrees with storage and no event is redundant. -/
def LogInv (s : State) : Prop :=
  (∀ r a, hasRole s r a = memberByLog r a s.log) ∧
  (∀ r, getRoleAdmin s r = adminByLog r s.log) ∧ NoRedundant s.log

theorem noRedundant_snoc {l : List Event} {e : Event} (h : NoRedundant l)
    (he : match e with
      | .roleGranted r a _ => memberByLog r a l = false
      | .roleRevoked r a _ => memberByLog r a l = true
      | .roleAdminChanged r p _ => adminByLog r l = p) : NoRedundant (l ++ [e]) := by
  intro pre post x hx
  rcases List.eq_nil_or_concat post with rfl | ⟨post', y, rfl⟩
  · have := List.append_inj' hx rfl
    obtain ⟨rfl, h2⟩ := this
    cases h2; exact he
  · rw [List.concat_eq_append, ← List.cons_append, ← List.append_assoc] at hx
    have := List.append_inj' hx rfl
    exact h pre post' x this.1

theorem logInv_grant {s : State} (h : LogInv s) (c : Address) (r : Role) (a : Address) :
    LogInv (grantInternal s c r a) := by
  obtain ⟨h1, h2, h3⟩ := h
  by_cases hh : hasRole s r a = true
  · have : grantInternal s c r a = s := by simp [grantInternal, hh]
    rw [this]; exact ⟨h1, h2, h3⟩
  · have hl : (grantInternal s c r a).log = s.log ++ [.roleGranted r a c] := by
      simp [grantInternal, hh]
    refine ⟨fun r' a' => ?_, fun r' => ?_, ?_⟩
    · rw [hasRole_grant, hl, memberByLog_append, h1]
      simp only [eq_comm]
    · have : getRoleAdmin (grantInternal s c r a) r' = getRoleAdmin s r' := by
        unfold grantInternal; split <;> rfl
      rw [this, hl, adminByLog_append, h2]
    · rw [hl]; exact noRedundant_snoc h3 (by dsimp only; rw [← h1]; simpa using hh)

theorem logInv_revoke {s : State} (h : LogInv s) (c : Address) (r : Role) (a : Address) :
    LogInv (revokeInternal s c r a) := by
  obtain ⟨h1, h2, h3⟩ := h
  by_cases hh : hasRole s r a = true
  · have hl : (revokeInternal s c r a).log = s.log ++ [.roleRevoked r a c] := by
      simp [revokeInternal, hh]
    refine ⟨fun r' a' => ?_, fun r' => ?_, ?_⟩
    · rw [hasRole_revoke, hl, memberByLog_append, h1]
      simp only [eq_comm]
    · have : getRoleAdmin (revokeInternal s c r a) r' = getRoleAdmin s r' := by
        unfold revokeInternal; split <;> rfl
      rw [this, hl, adminByLog_append, h2]
    · rw [hl]; exact noRedundant_snoc h3 (by dsimp only; rw [← h1]; simpa using hh)
  · have : revokeInternal s c r a = s := by simp [revokeInternal, hh]
    rw [this]; exact ⟨h1, h2, h3⟩

theorem logInv_setAdmin {s : State} (h : LogInv s) (r n : Role) :
    LogInv (setRoleAdminInternal s r n) := by
  obtain ⟨h1, h2, h3⟩ := h
  have hl : (setRoleAdminInternal s r n).log
      = s.log ++ [.roleAdminChanged r (getRoleAdmin s r) n] := rfl
  refine ⟨fun r' a' => ?_, fun r' => ?_, ?_⟩
  · rw [hl, memberByLog_append]; exact h1 r' a'
  · rw [hl, adminByLog_append]
    show (if r' = r then n else s.admin r') = _
    have := h2 r'
    unfold getRoleAdmin at this
    rw [this]; simp only [eq_comm]
  · rw [hl]; exact noRedundant_snoc h3 (h2 r).symm

theorem logInv_act {s s' : State} {x : Act} (hi : LogInv s) (h : execAct s x = .ok s') :
    LogInv s' := by
  cases x with
  | call c k =>
    cases k with
    | grantRole r a =>
      simp only [execAct, exec, grantRole_eq] at h
      split at h <;> cases h
      exact logInv_grant hi _ _ _
    | revokeRole r a =>
      simp only [execAct, exec, revokeRole_eq] at h
      split at h <;> cases h
      exact logInv_revoke hi _ _ _
    | renounceRole r a =>
      simp only [execAct, exec, renounceRole] at h
      split at h <;> cases h
      exact logInv_revoke hi _ _ _
  | internalGrant c r a => cases h; exact logInv_grant hi _ _ _
  | internalRevoke c r a => cases h; exact logInv_revoke hi _ _ _
  | internalSetAdmin r n => cases h; exact logInv_setAdmin hi _ _

theorem logInv_run (acts : List Act) : LogInv (runAct init acts) := by
  apply run_invariant (exec := execAct) (Inv := LogInv)
  · intro s x s' hi h; exact logInv_act hi h
  · refine ⟨fun _ _ => rfl, fun _ => rfl, ?_⟩
    intro pre post e he
    exact absurd he (by simp [init])

/-- **C39** Replaying the event log yields `has_role` and `get_role_admin`, for all roles and
accounts, after every history of public calls and of internal grants, revocations and admin changes
by the embedding contract. -/
theorem C39_log_replay (acts : List Act) (r : Role) (a : Address) :
    hasRole (runAct init acts) r a = memberByLog r a (runAct init acts).log ∧
    getRoleAdmin (runAct init acts) r = adminByLog r (runAct init acts).log :=
  ⟨(logInv_run acts).1 r a, (logInv_run acts).2.1 r⟩

/-- **C39** No event is redundant: each `RoleGranted` in the log is of a role the account did not have
at that moment, each `RoleRevoked` of one it had. -/
theorem C39_no_redundant_event (acts : List Act) : NoRedundant (runAct init acts).log :=
  (logInv_run acts).2.2

/-- **C39** A grant or revocation event carries the account that made the call. -/
theorem C39_event_names_sender {s s' : State} {c : Address} {k : Call}
    (h : exec s (c, k) = .ok s') :
    s'.log = s.log ∨ (∃ r a, s'.log = s.log ++ [.roleGranted r a c]) ∨
      (∃ r a, s'.log = s.log ++ [.roleRevoked r a c]) := by
  have hg : ∀ r a, (grantInternal s c r a).log = s.log ∨
      (grantInternal s c r a).log = s.log ++ [.roleGranted r a c] := by
    intro r a; unfold grantInternal; split <;> simp
  have hv : ∀ r a, (revokeInternal s c r a).log = s.log ∨
      (revokeInternal s c r a).log = s.log ++ [.roleRevoked r a c] := by
    intro r a; unfold revokeInternal; split <;> simp
  cases k with
  | grantRole r a =>
    simp only [exec, grantRole_eq] at h
    split at h <;> cases h
    rcases hg r a with h | h
    · exact .inl h
    · exact .inr (.inl ⟨r, a, h⟩)
  | revokeRole r a =>
    simp only [exec, revokeRole_eq] at h
    split at h <;> cases h
    rcases hv r a with h | h
    · exact .inl h
    · exact .inr (.inr ⟨r, a, h⟩)
  | renounceRole r a =>
    simp only [exec, renounceRole] at h
    split at h <;> cases h
    rcases hv r a with h | h
    · exact .inl h
    · exact .inr (.inr ⟨r, a, h⟩)

example : (runAct init [.internalGrant 1#160 0#256 1#160, .call 1#160 (.grantRole 7#256 2#160),
    .call 1#160 (.grantRole 7#256 2#160), .call 2#160 (.renounceRole 7#256 2#160)]).log
    = [.roleGranted 0#256 1#160 1#160, .roleGranted 7#256 2#160 1#160,
       .roleRevoked 7#256 2#160 2#160] := by decide

end

/-! ## C40 -/
section
open Verif.Ownable Verif.Spec.Ownable

/-- **C40** `only_owner` passes exactly for the owner. -/
theorem C40_only_owner (s : State) (c : Address) :
    onlyOwner s c = if c = s.owner then .ok () else .error (.unauthorizedAccount c) := by
  unfold onlyOwner
  by_cases h : c = s.owner
  · simp [h]
  · have : s.owner ≠ c := fun e => h e.symm
    simp [h, this]

/-- **C40** Complete behaviour of `transfer_ownership`. -/
theorem C40_transfer_ownership (s : State) (c n : Address) :
    transferOwnership s c n =
      if c ≠ s.owner then .error (.unauthorizedAccount c)
      else if n = ZERO then .error (.invalidOwner ZERO)
      else .ok { owner := n, log := s.log ++ [.transferred s.owner n] } := by
  unfold transferOwnership
  rw [C40_only_owner]
  by_cases h : c = s.owner <;> by_cases h2 : n = ZERO <;> simp [h, h2, transferInternal]

/-- **C40** Complete behaviour of `renounce_ownership`. -/
theorem C40_renounce_ownership (s : State) (c : Address) :
    renounceOwnership s c =
      if c ≠ s.owner then .error (.unauthorizedAccount c)
      else .ok { owner := ZERO, log := s.log ++ [.transferred s.owner ZERO] } := by
  unfold renounceOwnership
  rw [C40_only_owner]
  by_cases h : c = s.owner <;> simp [h, transferInternal]

/-- **C40** Every transaction that changes the owner was sent by the owner. -/
theorem C40_owner_changes_only_by_owner {s s' : State} {c : Address} {k : Call}
    (h : exec s (c, k) = .ok s') (hne : s'.owner ≠ s.owner) :
    c = s.owner ∧ ((∃ n, n ≠ ZERO ∧ k = .transferOwnership n ∧ s'.owner = n) ∨
      (k = .renounceOwnership ∧ s'.owner = ZERO)) := by
  cases k with
  | transferOwnership n =>
    simp only [exec, C40_transfer_ownership, guard_eq_ok] at h
    obtain ⟨h1, h2, h3⟩ := h
    cases h3
    exact ⟨by simpa using h1, .inl ⟨n, h2, rfl, rfl⟩⟩
  | renounceOwnership =>
    simp only [exec, C40_renounce_ownership, guard_eq_ok] at h
    obtain ⟨h1, h3⟩ := h
    cases h3
    exact ⟨by simpa using h1, .inr ⟨rfl, rfl⟩⟩

/-- **C40** Without transactions by the owner, no history changes the owner. -/
theorem C40_strangers_change_nothing (s : State) (ops : List (Address × Call))
    (hops : ∀ op ∈ ops, op.1 ≠ s.owner) : run s ops = s := by
  induction ops with
  | nil => rfl
  | cons op ops ih =>
    have hne := hops op (by simp)
    have : stepOf exec s op = s := by
      obtain ⟨c, k⟩ := op
      cases k with
      | transferOwnership n =>
        apply stepOf_error (e := .unauthorizedAccount c)
        simp only [exec, C40_transfer_ownership]; rw [if_pos hne]
      | renounceOwnership =>
        apply stepOf_error (e := .unauthorizedAccount c)
        simp only [exec, C40_renounce_ownership]; rw [if_pos hne]
    show run (stepOf exec s op) ops = s
    rw [this]
    exact ih (fun o ho => hops o (by simp [ho]))

/-- **C40** Renunciation is final: after it, no history of calls by non-zero senders changes
anything. -/
theorem C40_renounced_forever {s s' : State} {c : Address} (h : renounceOwnership s c = .ok s')
    (ops : List (Address × Call)) (hops : ∀ op ∈ ops, op.1 ≠ ZERO) :
    (run s' ops).owner = ZERO ∧ run s' ops = s' := by
  rw [C40_renounce_ownership, guard_eq_ok] at h
  obtain ⟨_, h3⟩ := h
  cases h3
  have := C40_strangers_change_nothing
    { owner := ZERO, log := s.log ++ [.transferred s.owner ZERO] } ops hops
  exact ⟨by rw [this], this⟩

/-- **C40** The event log determines the owner. -/
theorem C40_log_replay (o : Address) (ops : List (Address × Call)) :
    (run { owner := o, log := [] } ops).owner
      = ownerByLog o (run { owner := o, log := [] } ops).log := by
  apply run_invariant (exec := exec) (Inv := fun s => s.owner = ownerByLog o s.log)
  · rintro s ⟨c, k⟩ s' hi h
    cases k with
    | transferOwnership n =>
      simp only [exec, C40_transfer_ownership, guard_eq_ok] at h
      obtain ⟨h1, h2, h3⟩ := h
      cases h3
      simp [ownerByLog, List.foldl_append]
    | renounceOwnership =>
      simp only [exec, C40_renounce_ownership, guard_eq_ok] at h
      obtain ⟨h1, h3⟩ := h
      cases h3
      simp [ownerByLog, List.foldl_append]
  · rfl

example : (run { owner := 1#160, log := [] } [(2#160, .transferOwnership 2#160),
    (1#160, .transferOwnership 3#160), (3#160, .renounceOwnership),
    (3#160, .transferOwnership 3#160)]).log
    = [.transferred 1#160 3#160, .transferred 3#160 0#160] := by decide

end

/-! ## C41 -/
section
open Verif.Ownable2Step Verif.Spec.Ownable
open Verif.Ownable (Err Event)

/-- **C41** Complete behaviour of `transfer_ownership`: the owner stays, the nominee becomes pending
(the zero address cancels). -/
theorem C41_transfer_ownership (s : State) (c n : Address) :
    transferOwnership s c n =
      if c ≠ owner s then .error (.unauthorizedAccount c)
      else .ok { ownable := { owner := owner s, log := s.ownable.log ++ [.started (owner s) n] },
                 pendingOwner := n } := by
  unfold transferOwnership owner
  rw [C40_only_owner]
  by_cases h : c = s.ownable.owner <;> simp [h]

/-- **C41** Complete behaviour of `accept_ownership`. -/
theorem C41_accept_ownership (s : State) (c : Address) :
    acceptOwnership s c =
      if c ≠ pendingOwner s then .error (.unauthorizedAccount c)
      else .ok { ownable := { owner := c, log := s.ownable.log ++ [.transferred (owner s) c] },
                 pendingOwner := ZERO } := by
  unfold acceptOwnership transferInternal Ownable.transferInternal owner pendingOwner
  rfl

/-- **C41** Complete behaviour of `renounce_ownership`: also withdraws a pending nomination. -/
theorem C41_renounce_ownership (s : State) (c : Address) :
    renounceOwnership s c =
      if c ≠ owner s then .error (.unauthorizedAccount c)
      else .ok { ownable := { owner := ZERO, log := s.ownable.log ++ [.transferred (owner s) ZERO] },
                 pendingOwner := ZERO } := by
  unfold renounceOwnership owner
  rw [C40_only_owner]
  by_cases h : c = s.ownable.owner <;>
    simp [h, transferInternal, Ownable.transferInternal]

/-- A transaction that changes the owner is an acceptance by the pending owner or a renunciation by
the owner, and leaves no pending owner. -/
theorem C41_owner_change {s s' : State} {c : Address} {k : Call} (h : exec s (c, k) = .ok s')
    (hne : owner s' ≠ owner s) :
    pendingOwner s' = ZERO ∧
    ((k = .acceptOwnership ∧ c = pendingOwner s ∧ owner s' = c) ∨
     (k = .renounceOwnership ∧ c = owner s ∧ owner s' = ZERO)) := by
  cases k with
  | transferOwnership n =>
    simp only [exec, C41_transfer_ownership, guard_eq_ok] at h
    obtain ⟨_, h⟩ := h; cases h; exact absurd rfl hne
  | acceptOwnership =>
    simp only [exec, C41_accept_ownership, guard_eq_ok] at h
    obtain ⟨h1, h⟩ := h; cases h; exact ⟨rfl, .inl ⟨rfl, by simpa using h1, rfl⟩⟩
  | renounceOwnership =>
    simp only [exec, C41_renounce_ownership, guard_eq_ok] at h
    obtain ⟨h1, h⟩ := h; cases h; exact ⟨rfl, .inr ⟨rfl, by simpa using h1, rfl⟩⟩

/-- **C41** The pending owner changes only by a nomination (or cancellation) by the current owner, or
is cleared by the nominee accepting or the owner renouncing. -/
theorem C41_pending_change {s s' : State} {c : Address} {k : Call} (h : exec s (c, k) = .ok s')
    (hne : pendingOwner s' ≠ pendingOwner s) :
    (c = owner s ∧ k = .transferOwnership (pendingOwner s')) ∨
    (pendingOwner s' = ZERO ∧ ((k = .acceptOwnership ∧ c = pendingOwner s) ∨
      (k = .renounceOwnership ∧ c = owner s))) := by
  cases k with
  | transferOwnership n =>
    simp only [exec, C41_transfer_ownership, guard_eq_ok] at h
    obtain ⟨h1, h⟩ := h; cases h; exact .inl ⟨by simpa using h1, rfl⟩
  | acceptOwnership =>
    simp only [exec, C41_accept_ownership, guard_eq_ok] at h
    obtain ⟨h1, h⟩ := h; cases h; exact .inr ⟨rfl, .inl ⟨rfl, by simpa using h1⟩⟩
  | renounceOwnership =>
    simp only [exec, C41_renounce_ownership, guard_eq_ok] at h
    obtain ⟨h1, h⟩ := h; cases h; exact .inr ⟨rfl, .inr ⟨rfl, by simpa using h1⟩⟩

/-- In every reachable state a pending owner was nominated by the present owner, as the very last
ownership event. -/
theorem pending_nominated (o : Address) (ops : List (Address × Call)) :
    pendingOwner (run (init o) ops) ≠ ZERO →
      (run (init o) ops).ownable.log.getLast?
        = some (.started (owner (run (init o) ops)) (pendingOwner (run (init o) ops))) := by
  apply run_invariant (exec := exec) (Inv := fun s => pendingOwner s ≠ ZERO →
    s.ownable.log.getLast? = some (.started (owner s) (pendingOwner s)))
  · rintro s ⟨c, k⟩ s' hi h hp
    cases k with
    | transferOwnership n =>
      simp only [exec, C41_transfer_ownership, guard_eq_ok] at h
      obtain ⟨_, h⟩ := h; cases h
      simp [owner, pendingOwner]
    | acceptOwnership =>
      simp only [exec, C41_accept_ownership, guard_eq_ok] at h
      obtain ⟨h1, h⟩ := h; cases h; exact absurd rfl hp
    | renounceOwnership =>
      simp only [exec, C41_renounce_ownership, guard_eq_ok] at h
      obtain ⟨h1, h⟩ := h; cases h; exact absurd rfl hp
  · intro h; exact absurd rfl h

/-- **C41** Handshake: whenever, after any history, a (non-zero) account succeeds in accepting
ownership, the last ownership event was the current owner's nomination of exactly this account: the
nomination was made by the present owner and was neither replaced nor withdrawn. -/
theorem C41_accept_requires_nomination (o : Address) (ops : List (Address × Call)) {c : Address}
    {s' : State} (hc : c ≠ ZERO) (h : acceptOwnership (run (init o) ops) c = .ok s') :
    (run (init o) ops).ownable.log.getLast? = some (.started (owner (run (init o) ops)) c) ∧
      owner s' = c ∧ pendingOwner s' = ZERO := by
  rw [C41_accept_ownership, guard_eq_ok] at h
  obtain ⟨h1, h⟩ := h
  have h1 : c = pendingOwner (run (init o) ops) := by simpa using h1
  have := pending_nominated o ops (by rw [← h1]; exact hc)
  rw [← h1] at this
  cases h
  exact ⟨this, rfl, rfl⟩

/-- **C41** Nobody but the owner and the nominee can do anything: calls by others change nothing. -/
theorem C41_strangers_change_nothing (s : State) (ops : List (Address × Call))
    (hops : ∀ op ∈ ops, op.1 ≠ owner s ∧ op.1 ≠ pendingOwner s) : run s ops = s := by
  induction ops with
  | nil => rfl
  | cons op ops ih =>
    have hne := hops op (by simp)
    have : stepOf exec s op = s := by
      obtain ⟨c, k⟩ := op
      cases k with
      | transferOwnership n =>
        apply stepOf_error (e := .unauthorizedAccount c)
        simp only [exec, C41_transfer_ownership]; rw [if_pos hne.1]
      | acceptOwnership =>
        apply stepOf_error (e := .unauthorizedAccount c)
        simp only [exec, C41_accept_ownership]; rw [if_pos hne.2]
      | renounceOwnership =>
        apply stepOf_error (e := .unauthorizedAccount c)
        simp only [exec, C41_renounce_ownership]; rw [if_pos hne.1]
    show run (stepOf exec s op) ops = s
    rw [this]
    exact ih (fun o ho => hops o (by simp [ho]))

/-- **C41** After renouncing there is no owner and no nominee, for ever (senders are non-zero). -/
theorem C41_renounced_forever {s s' : State} {c : Address} (h : renounceOwnership s c = .ok s')
    (ops : List (Address × Call)) (hops : ∀ op ∈ ops, op.1 ≠ ZERO) :
    owner (run s' ops) = ZERO ∧ pendingOwner (run s' ops) = ZERO := by
  rw [C41_renounce_ownership, guard_eq_ok] at h
  obtain ⟨_, h⟩ := h
  have ho : owner s' = ZERO := by cases h; rfl
  have hp : pendingOwner s' = ZERO := by cases h; rfl
  have := C41_strangers_change_nothing s' ops
    (fun op hop => ⟨by rw [ho]; exact hops op hop, by rw [hp]; exact hops op hop⟩)
  rw [this]; exact ⟨ho, hp⟩

/-- A nominee that was replaced cannot accept any more; the second one can. -/
def sample2 : List (Address × Call) :=
  [(1#160, .transferOwnership 2#160), (1#160, .transferOwnership 3#160), (2#160, .acceptOwnership)]
example : owner (run (init 1#160) sample2) = 1#160 ∧ pendingOwner (run (init 1#160) sample2) = 3#160 ∧
    ∃ s', acceptOwnership (run (init 1#160) sample2) 3#160 = .ok s' := ⟨by decide, by decide, _, rfl⟩

end
end Verif.Props.Access
