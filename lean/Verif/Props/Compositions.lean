import Verif.Model.Compositions
import Verif.Model.Erc721Enumerable
import Verif.Spec.Erc721
import Verif.Spec.Erc1155
import Verif.Props.Erc20
import Verif.Props.Access
/-! # C85, C86: pausable and access-controlled compositions -/

namespace Verif.Props.Erc1155Example
open Verif.Erc1155Example

/-! ## C85: the pausable ERC-1155 token -/

/-- Does a call move tokens? -/
def Call.moves : Call → Bool
  | .setApprovalForAll .. => false
  | .pause => false
  | .unpause => false
  | _ => true

/-- The same call of the bare token; `none` for the toggles. -/
def bare : Call → Option (Erc1155.UserCall ⊕ Erc1155.AdminCall)
  | .mint dst id v data => some (.inr (.mint dst id v data))
  | .mintBatch dst ids vs data => some (.inr (.mintBatch dst ids vs data))
  | .burn a id v => some (.inl (.burn a id v))
  | .burnBatch a ids vs => some (.inl (.burnBatch a ids vs))
  | .safeTransferFrom src dst id v data => some (.inl (.safeTransferFrom src dst id v data))
  | .safeBatchTransferFrom src dst ids vs data => some (.inl (.safeBatchTransferFrom src dst ids vs data))
  | .setApprovalForAll op b => some (.inl (.setApprovalForAll op b))
  | .pause => none
  | .unpause => none

theorem gated_eq (s : State) (f : Except Erc1155.Err Erc1155.State) : gated s f =
    if s.pausable.paused = true then .error (.pausable .enforcedPause)
    else match f with | .ok t => .ok { s with erc1155 := t } | .error e => .error (.erc1155 e) := by
  unfold gated Pausable.whenNotPaused
  cases s.pausable.paused <;> cases f <;> rfl

/-- **C85** While paused, every mint, burn and transfer fails with `EnforcedPause`. -/
theorem C85_erc1155_paused_rejects {s : State} (hp : s.pausable.paused = true) (tx : Tx)
    (hm : Call.moves tx.call = true) : exec s tx = .error (.pausable .enforcedPause) := by
  obtain ⟨c, R, k⟩ := tx
  cases k <;> simp [Call.moves] at hm <;> simp [exec, gated_eq, hp]

/-- **C85** While paused, no history without `unpause` changes any balance, and the contract stays paused. -/
theorem C85_erc1155_paused_frozen (s : State) (hp : s.pausable.paused = true) (txs : List Tx)
    (htxs : ∀ tx ∈ txs, tx.call ≠ .unpause) :
    (∀ a id, Erc1155.balanceOf (run s txs).erc1155 a id = Erc1155.balanceOf s.erc1155 a id) ∧
      (run s txs).pausable.paused = true := by
  induction txs generalizing s with
  | nil => exact ⟨fun _ _ => rfl, hp⟩
  | cons tx txs ih =>
    have hne := htxs tx (by simp)
    have hrest : ∀ t ∈ txs, t.call ≠ .unpause := fun t ht => htxs t (by simp [ht])
    have hrun : run s (tx :: txs) = run (stepOf exec s tx) txs := rfl
    rw [hrun]
    cases hx : exec s tx with
    | error e => rw [stepOf_error hx]; exact ih s hp hrest
    | ok s' =>
      rw [stepOf_ok hx]
      cases hm : Call.moves tx.call with
      | true => rw [C85_erc1155_paused_rejects hp tx hm] at hx; simp at hx
      | false =>
        obtain ⟨c, R, k⟩ := tx
        have key : s'.pausable.paused = true ∧
            (∀ a id, Erc1155.balanceOf s'.erc1155 a id = Erc1155.balanceOf s.erc1155 a id) := by
          cases k with
          | setApprovalForAll op b =>
            simp only [exec, Erc1155.execUser, Erc1155.setApprovalForAll] at hx
            split at hx
            · simp [lift] at hx
            · simp only [lift, except_bind_ok, except_pure, Except.ok.injEq] at hx
              subst hx
              exact ⟨hp, fun _ _ => rfl⟩
          | pause => simp [exec, Pausable.pause, Pausable.whenNotPaused, hp, liftP] at hx
          | unpause => exact absurd rfl hne
          | _ => simp [Call.moves] at hm
        obtain ⟨i1, i2⟩ := ih s' key.1 hrest
        exact ⟨fun a id => by rw [i1 a id, key.2 a id], i2⟩

/-- **C85** Unpaused, every call of the token behaves exactly as on the bare token, and the approval call always
does. -/
theorem C85_erc1155_otherwise_bare_token (s : State) (tx : Tx) (k : Erc1155.UserCall ⊕ Erc1155.AdminCall)
    (hk : bare tx.call = some k) (hp : s.pausable.paused = false ∨ Call.moves tx.call = false) :
    exec s tx = match Erc1155.exec s.erc1155 ⟨tx.caller, tx.receivers, k⟩ with
      | .ok t => .ok { s with erc1155 := t }
      | .error e => .error (.erc1155 e) := by
  obtain ⟨c, R, call⟩ := tx
  cases call with
  | setApprovalForAll op b =>
    cases hk
    simp only [exec, Erc1155.exec]
    cases Erc1155.execUser R s.erc1155 c (.setApprovalForAll op b) <;> rfl
  | pause => cases hk
  | unpause => cases hk
  | _ =>
    cases hk
    have hp' : s.pausable.paused = false := by
      rcases hp with h | h
      · exact h
      · simp [Call.moves] at h
    simp only [exec, gated_eq, hp', Erc1155.exec]
    simp

/-- **C85** The toggles succeed exactly in the unpaused resp. paused state, and touch no token data. -/
theorem C85_erc1155_toggles (s : State) (c : Address) (R : Erc1155.Receivers) :
    exec s ⟨c, R, .pause⟩ = (if s.pausable.paused = true then .error (.pausable .enforcedPause)
      else .ok ⟨s.erc1155, ⟨true, s.pausable.log ++ [.paused c]⟩⟩) ∧
    exec s ⟨c, R, .unpause⟩ = (if s.pausable.paused = true
      then .ok ⟨s.erc1155, ⟨false, s.pausable.log ++ [.unpaused c]⟩⟩
      else .error (.pausable .expectedPause)) := by
  simp only [exec, Pausable.pause, Pausable.unpause, Pausable.whenNotPaused, Pausable.whenPaused]
  cases hp : s.pausable.paused <;> simp [liftP]

def sample : List Tx :=
  [⟨9#160, fun _ => none, .mint 1#160 7#256 50#256 []⟩, ⟨9#160, fun _ => none, .pause⟩,
   ⟨1#160, fun _ => none, .safeTransferFrom 1#160 2#160 7#256 5#256 []⟩,
   ⟨1#160, fun _ => none, .setApprovalForAll 2#160 true⟩, ⟨9#160, fun _ => none, .mint 1#160 7#256 50#256 []⟩]

/-- Paused with tokens in it, frozen, approvals still working; and back to normal after `unpause`. -/
example : (run init sample).pausable.paused = true ∧
    Erc1155.balanceOf (run init sample).erc1155 1#160 7#256 = 50#256 ∧
    Erc1155.isApprovedForAll (run init sample).erc1155 1#160 2#160 = true ∧
    Erc1155.balanceOf (run init (sample ++ [⟨9#160, fun _ => none, .unpause⟩,
      ⟨2#160, fun _ => none, .safeTransferFrom 1#160 2#160 7#256 5#256 []⟩])).erc1155 2#160 7#256 = 5#256 := by
  decide

end Verif.Props.Erc1155Example

namespace Verif.Props.Erc721Example
open Verif.Enumerable Verif.Spec.Erc721

/-! ## C85: the pausable, enumerable ERC-721 token -/

/-- Does a call move tokens? -/
def Call.moves : Call → Bool
  | .approve .. => false
  | .setApprovalForAll .. => false
  | .pause => false
  | .unpause => false
  | _ => true

theorem gate {s : State} (hp : s.pausable.paused = true) :
    liftP (Pausable.whenNotPaused s.pausable) = .error (.pausable .enforcedPause) := by
  simp [Pausable.whenNotPaused, hp, liftP]

/-- **C85** While paused, every mint, burn and transfer fails with `EnforcedPause`. -/
theorem C85_erc721_paused_rejects (cap : Nat) {s : State} (hp : s.pausable.paused = true) (tx : Tx)
    (hc : tx.caller ≠ ZERO) (hm : Call.moves tx.call = true) :
    exec cap s tx = .error (.pausable .enforcedPause) := by
  obtain ⟨c, R, k⟩ := tx
  cases k <;> simp [Call.moves] at hm <;>
    simp only [exec, if_neg hc, burn, mintVia, transferVia, gate hp, except_bind_error]

/-- **C85** While paused, no history without `unpause` changes an owner, a balance or the enumeration, and the
contract stays paused. -/
theorem C85_erc721_paused_frozen (cap : Nat) (s : State) (hp : s.pausable.paused = true) (txs : List Tx)
    (htxs : ∀ tx ∈ txs, tx.call ≠ .unpause) :
    (∀ id, owner? (run cap s txs).erc721 id = owner? s.erc721 id) ∧
    (∀ a, bal? (run cap s txs).erc721 a = bal? s.erc721 a) ∧
    (run cap s txs).lists = s.lists ∧ (run cap s txs).pausable.paused = true := by
  induction txs generalizing s with
  | nil => exact ⟨fun _ => rfl, fun _ => rfl, rfl, hp⟩
  | cons tx txs ih =>
    have hne := htxs tx (by simp)
    have hrest : ∀ t ∈ txs, t.call ≠ .unpause := fun t ht => htxs t (by simp [ht])
    have hrun : run cap s (tx :: txs) = run cap (stepOf (exec cap) s tx) txs := rfl
    rw [hrun]
    cases hx : exec cap s tx with
    | error e => rw [stepOf_error hx]; exact ih s hp hrest
    | ok s' =>
      rw [stepOf_ok hx]
      have hc : tx.caller ≠ ZERO := by
        intro h0
        simp [exec, h0] at hx
      cases hm : Call.moves tx.call with
      | true => rw [C85_erc721_paused_rejects cap hp tx hc hm] at hx; simp at hx
      | false =>
        obtain ⟨c, R, k⟩ := tx
        have key : s'.pausable.paused = true ∧ s'.lists = s.lists ∧ s'.erc721.owners = s.erc721.owners ∧
            s'.erc721.balances = s.erc721.balances := by
          cases k with
          | approve dst id =>
            simp only [exec, if_neg hc] at hx
            obtain ⟨t, ht, hx⟩ := bind_eq_ok.mp hx
            cases hx
            cases hap : Erc721.approve s.erc721 c dst id with
            | error e => rw [hap] at ht; simp [lift] at ht
            | ok t' =>
              rw [hap] at ht
              simp only [lift, Except.ok.injEq] at ht
              subst ht
              unfold Erc721.approve Erc721.approveInternal at hap
              simp only [true_or, if_true] at hap
              obtain ⟨o, _, hap⟩ := bind_eq_ok.mp hap
              split at hap
              · simp at hap
              · simp only [except_pure, except_bind_ok, Except.ok.injEq] at hap
                subst hap
                exact ⟨hp, rfl, rfl, rfl⟩
          | setApprovalForAll op b =>
            simp only [exec, if_neg hc, Erc721.setApprovalForAll, Erc721.setApprovalForAllInternal] at hx
            split at hx
            · simp [lift] at hx
            · simp only [lift, except_bind_ok, except_pure, Except.ok.injEq] at hx
              subst hx
              exact ⟨hp, rfl, rfl, rfl⟩
          | pause => simp only [exec, if_neg hc, Pausable.pause, Pausable.whenNotPaused, hp, if_true, liftP,
              except_bind_error] at hx; simp at hx
          | unpause => exact absurd rfl hne
          | _ => simp [Call.moves] at hm
        obtain ⟨k1, k2, k3, k4⟩ := key
        obtain ⟨i1, i2, i3, i4⟩ := ih s' k1 hrest
        refine ⟨fun id => ?_, fun a => ?_, i3.trans k2, i4⟩
        · rw [i1 id]
          unfold owner? Erc721.ownerOf Erc721.requireOwned Erc721.ownerOfInternal
          rw [k3]
        · rw [i2 a]
          unfold bal? Erc721.balanceOf
          rw [k4]

def sample : List Tx :=
  [⟨9#160, fun _ => none, .mint 1#160 7#256⟩, ⟨9#160, fun _ => none, .pause⟩,
   ⟨1#160, fun _ => none, .transferFrom 1#160 2#160 7#256⟩, ⟨1#160, fun _ => none, .approve 2#160 7#256⟩]

example : (run 100 init sample).pausable.paused = true ∧
    owner? (run 100 init sample).erc721 7#256 = some 1#160 ∧
    approved? (run 100 init sample).erc721 7#256 = some 2#160 ∧
    owner? (run 100 init (sample ++ [⟨9#160, fun _ => none, .unpause⟩,
      ⟨2#160, fun _ => none, .transferFrom 1#160 2#160 7#256⟩])).erc721 7#256 = some 2#160 := by decide

end Verif.Props.Erc721Example

namespace Verif.Props.OwnableExample
open Verif.OwnableExample

/-! ## C86: owner-gated transfers -/

/-- **C86** `transfer` works for the owner only, and for the owner exactly as on the bare token. -/
theorem C86_owner_gate (s : State) (c dst : Address) (v : U256) :
    exec s (c, .transfer dst v) =
      if c ≠ s.ownable.owner then .error (.ownable (.unauthorizedAccount c))
      else match Erc20.transfer s.erc20 c dst v with
        | .ok t => .ok { s with erc20 := t }
        | .error e => .error (.erc20 e) := by
  simp only [exec, transfer, Ownable.onlyOwner]
  by_cases h : c = s.ownable.owner
  · subst h
    simp only [ne_eq, not_true_eq_false, if_false, liftO, except_bind_ok]
    cases Erc20.transfer s.erc20 s.ownable.owner dst v <;> rfl
  · have h' : s.ownable.owner ≠ c := fun e => h e.symm
    simp [h, h', liftO]

/-- The ownership part of a history evolves on its own. -/
theorem ownable_run (s : State) (ops : List (Address × Call)) :
    (run s ops).ownable = Ownable.run s.ownable
      (ops.filterMap fun op => match op.2 with | .ownable c => some (op.1, c) | _ => none) := by
  induction ops generalizing s with
  | nil => rfl
  | cons op ops ih =>
    have hrun : run s (op :: ops) = run (stepOf exec s op) ops := rfl
    rw [hrun, ih]
    obtain ⟨c, k⟩ := op
    have frame : ∀ f : Except Erc20.Err Erc20.State, ∀ s',
        (do return { s with erc20 := (← lift f) } : Except Err State) = .ok s' → s'.ownable = s.ownable := by
      intro f s' h
      obtain ⟨t, _, h⟩ := bind_eq_ok.mp h
      cases h; rfl
    cases k with
    | transfer dst v =>
      have : (stepOf exec s (c, .transfer dst v)).ownable = s.ownable := by
        cases hx : exec s (c, .transfer dst v) with
        | error e => rw [stepOf_error hx]
        | ok s' =>
          rw [stepOf_ok hx]
          simp only [exec, transfer] at hx
          obtain ⟨_, _, hx⟩ := bind_eq_ok.mp hx
          exact frame _ _ hx
      rw [this]; rfl
    | transferFrom src dst v =>
      have : (stepOf exec s (c, .transferFrom src dst v)).ownable = s.ownable := by
        cases hx : exec s (c, .transferFrom src dst v) with
        | error e => rw [stepOf_error hx]
        | ok s' => rw [stepOf_ok hx]; exact frame _ _ hx
      rw [this]; rfl
    | approve sp v =>
      have : (stepOf exec s (c, .approve sp v)).ownable = s.ownable := by
        cases hx : exec s (c, .approve sp v) with
        | error e => rw [stepOf_error hx]
        | ok s' => rw [stepOf_ok hx]; exact frame _ _ hx
      rw [this]; rfl
    | ownable k =>
      have : (stepOf exec s (c, .ownable k)).ownable = stepOf Ownable.exec s.ownable (c, k) := by
        unfold stepOf
        simp only [exec]
        cases Ownable.exec s.ownable (c, k) <;> rfl
      rw [this]; rfl

/-- **C86** Once the ownership is renounced, `transfer` is dead: after any later history, it fails for everybody. -/
theorem C86_renounced_disables_transfer {s s' : State} {c : Address}
    (h : exec s (c, .ownable .renounceOwnership) = .ok s') (ops : List (Address × Call))
    (hops : ∀ op ∈ ops, op.1 ≠ ZERO) (a dst : Address) (v : U256) (ha : a ≠ ZERO) :
    exec (run s' ops) (a, .transfer dst v) = .error (.ownable (.unauthorizedAccount a)) := by
  rw [C86_owner_gate, if_pos]
  have hr : Ownable.renounceOwnership s.ownable c = .ok s'.ownable := by
    simp only [exec, Ownable.exec] at h
    cases hx : Ownable.renounceOwnership s.ownable c with
    | error e => rw [hx] at h; simp [liftO] at h
    | ok t => rw [hx] at h; simp [liftO] at h; rw [← h]
  have := (Props.Access.C40_renounced_forever hr
    (ops.filterMap fun op => match op.2 with | .ownable c => some (op.1, c) | _ => none) (by
      intro op hop
      rw [List.mem_filterMap] at hop
      obtain ⟨o, ho, he⟩ := hop
      have := hops o ho
      cases hk : o.2 with
      | ownable c => rw [hk] at he; simp only [Option.some.injEq] at he; rw [← he]; exact this
      | _ => rw [hk] at he; simp at he)).1
  rw [ownable_run, this]
  exact ha

/-- **C86** The gate covers `transfer` only.  Any holder, owner or not, and even after the ownership is renounced,
moves any part of their balance by approving themselves and calling `transferFrom`. -/
theorem C86_gate_is_bypassed (s : State) (hr : Spec.Erc20.Reachable s.erc20) (a dst : Address) (v : U256)
    (ha : a ≠ ZERO) (hd : dst ≠ ZERO) (hne : a ≠ dst)
    (hv : v.toNat ≤ (Erc20.balanceOf s.erc20 a).toNat) :
    let s' := run s [(a, .approve a v), (a, .transferFrom a dst v)]
    (Erc20.balanceOf s'.erc20 dst).toNat = (Erc20.balanceOf s.erc20 dst).toNat + v.toNat ∧
    (Erc20.balanceOf s'.erc20 a).toNat + v.toNat = (Erc20.balanceOf s.erc20 a).toNat := by
  intro s'
  obtain ⟨t1, h1⟩ : ∃ t, Erc20.approve s.erc20 a a v = .ok t := ⟨_, Erc20.approve_eq_ok.mpr ⟨ha, ha, rfl⟩⟩
  obtain ⟨_, _, e1⟩ := Erc20.approve_eq_ok.mp h1
  have hb1 : ∀ x, Erc20.balanceOf t1 x = Erc20.balanceOf s.erc20 x := by
    intro x; rw [e1]; rfl
  have ha1 : Erc20.allowance t1 a a = v := by
    rw [e1]; simp [Erc20.allowance]
  have hr1 : Spec.Erc20.Reachable t1 := by
    obtain ⟨ops, ho⟩ := hr
    refine ⟨ops ++ [(a, .approve a v)], ?_⟩
    unfold Erc20.run
    rw [runOf_append]
    show t1 = stepOf Erc20.exec (Erc20.run Erc20.init ops) (a, .approve a v)
    rw [← ho]
    exact (stepOf_ok (by simpa [Erc20.exec] using h1)).symm
  obtain ⟨t2, h2⟩ := (Props.C03_transferFrom_succeeds_iff t1 ha a dst v).mpr
    ⟨ha, hd, by rw [ha1], by rw [hb1]; exact hv⟩
  have hs' : s'.erc20 = t2 := by
    show (stepOf exec (stepOf exec s _) _).erc20 = t2
    have e1 : stepOf exec s (a, .approve a v) = { s with erc20 := t1 } := stepOf_ok (by simp [exec, h1, lift])
    rw [e1, stepOf_ok (s' := { s with erc20 := t2 }) (by simp [exec, h2, lift])]
  have := (Props.C03_transferFrom_effect hr1 h2).1
  rw [hs']
  have hd' := this dst
  have ha' := this a
  simp only [hb1, if_neg hne.symm, if_pos] at hd' ha'
  rw [if_neg hne] at ha'
  omega

def start : State := ⟨Erc20.run Erc20.init [(9#160, .mint 1#160 50#256)], ⟨9#160, []⟩⟩

/-- A non-owner cannot transfer, but can with the detour. -/
example : exec start (1#160, .transfer 2#160 5#256) = .error (.ownable (.unauthorizedAccount 1#160)) ∧
    Erc20.balanceOf (run start [(1#160, .approve 1#160 5#256), (1#160, .transferFrom 1#160 2#160 5#256)]).erc20 2#160
      = 5#256 := by
  refine ⟨?_, by decide⟩
  rw [C86_owner_gate]
  exact if_pos (by decide)

end Verif.Props.OwnableExample

namespace Verif.Props.Ownable2StepExample
open Verif.Ownable2StepExample
open Verif.OwnableExample (Err lift liftO)

/-- **C86** With two-step ownership too, `transfer` works for the owner only; a pending owner is not the owner. -/
theorem C86_owner_gate_two_step (s : State) (c dst : Address) (v : U256) :
    exec s (c, .transfer dst v) =
      if c ≠ Ownable2Step.owner s.ownable then .error (.ownable (.unauthorizedAccount c))
      else match Erc20.transfer s.erc20 c dst v with
        | .ok t => .ok { s with erc20 := t }
        | .error e => .error (.erc20 e) := by
  simp only [exec, transfer, Ownable.onlyOwner, Ownable2Step.owner]
  by_cases h : c = s.ownable.ownable.owner
  · subst h
    simp only [ne_eq, not_true_eq_false, if_false, liftO, except_bind_ok]
    cases Erc20.transfer s.erc20 s.ownable.ownable.owner dst v <;> rfl
  · have h' : s.ownable.ownable.owner ≠ c := fun e => h e.symm
    simp [h, h', liftO]

def start : State := ⟨Erc20.run Erc20.init [(9#160, .mint 1#160 50#256)], Ownable2Step.init 9#160⟩

/-- Account 1 can transfer only after accepting the ownership offered to it. -/
example :
    Erc20.balanceOf (run start [(9#160, .ownable (.transferOwnership 1#160)), (1#160, .transfer 2#160 5#256)]).erc20
      2#160 = 0#256 ∧
    Erc20.balanceOf (run start [(9#160, .ownable (.transferOwnership 1#160)), (1#160, .ownable .acceptOwnership),
      (1#160, .transfer 2#160 5#256)]).erc20 2#160 = 5#256 := by decide

end Verif.Props.Ownable2StepExample

namespace Verif.Props.AccessExample
open Verif.AccessExample
open Verif.AccessControl (Role hasRole)

/-! ## C86: role-gated transfers -/

/-- **C86** `transferFrom` works for holders of the transfer role only, and for them exactly as on the bare token. -/
theorem C86_role_gate (s : State) (c src dst : Address) (v : U256) :
    exec s (c, .transferFrom src dst v) =
      if hasRole s.access TRANSFER_ROLE c = false then .error (.access (.unauthorizedAccount c TRANSFER_ROLE))
      else match Erc20.transferFrom s.erc20 c src dst v with
        | .ok t => .ok { s with erc20 := t }
        | .error e => .error (.erc20 e) := by
  simp only [exec, transferFrom, AccessControl.onlyRole, AccessControl.checkRole]
  cases h : hasRole s.access TRANSFER_ROLE c
  · simp [liftA]
  · simp only [Bool.not_true, liftA, except_bind_ok]
    cases Erc20.transferFrom s.erc20 c src dst v <;> rfl

/-- **C86** If a transaction lowers the balance of `a`, either `a` called `transfer`, or the caller holds the
transfer role and had an allowance from `a` at least as large as what was taken. -/
theorem C86_role_needed_to_debit {s s' : State} (hr : Spec.Erc20.Reachable s.erc20) {op : Address × Call}
    (h : exec s op = .ok s') {a : Address}
    (hdrop : (Erc20.balanceOf s'.erc20 a).toNat < (Erc20.balanceOf s.erc20 a).toNat) :
    (op.1 = a ∧ ∃ dst v, op.2 = .transfer dst v) ∨
    (hasRole s.access TRANSFER_ROLE op.1 = true ∧
      (Erc20.balanceOf s.erc20 a).toNat - (Erc20.balanceOf s'.erc20 a).toNat ≤
        (Erc20.allowance s.erc20 a op.1).toNat) := by
  obtain ⟨c, k⟩ := op
  cases k with
  | makeAdmin x =>
    simp only [exec, makeAdmin] at h
    obtain ⟨_, _, h⟩ := bind_eq_ok.mp h
    obtain ⟨_, _, h⟩ := bind_eq_ok.mp h
    cases h; exact absurd hdrop (lt_irrefl _)
  | setRoleAdmin r n => cases h; exact absurd hdrop (lt_irrefl _)
  | access k =>
    simp only [exec] at h
    obtain ⟨_, _, h⟩ := bind_eq_ok.mp h
    cases h; exact absurd hdrop (lt_irrefl _)
  | approve sp v =>
    simp only [exec] at h
    obtain ⟨t, ht, h⟩ := bind_eq_ok.mp h
    cases h
    cases hx : Erc20.approve s.erc20 c sp v with
    | error e => rw [hx] at ht; simp [lift] at ht
    | ok t' =>
      rw [hx] at ht
      simp only [lift, Except.ok.injEq] at ht
      subst ht
      obtain ⟨_, _, e1⟩ := Erc20.approve_eq_ok.mp hx
      rw [e1] at hdrop
      exact absurd hdrop (lt_irrefl _)
  | transfer dst v =>
    simp only [exec] at h
    obtain ⟨t, ht, h⟩ := bind_eq_ok.mp h
    cases h
    cases hx : Erc20.transfer s.erc20 c dst v with
    | error e => rw [hx] at ht; simp [lift] at ht
    | ok t' =>
      rw [hx] at ht
      simp only [lift, Except.ok.injEq] at ht
      subst ht
      have := (Props.C02_transfer_effect hr hx).1 a
      left
      refine ⟨?_, dst, v, rfl⟩
      by_contra hne
      rw [if_neg (fun e => hne e.symm)] at this
      simp only at hdrop
      omega
  | transferFrom src dst v =>
    rw [C86_role_gate] at h
    split at h
    · simp at h
    · rename_i hrole
      right
      refine ⟨by simpa using hrole, ?_⟩
      cases hx : Erc20.transferFrom s.erc20 c src dst v with
      | error e => rw [hx] at h; simp at h
      | ok t =>
        rw [hx] at h
        cases h
        have hc : c ≠ ZERO ∨ c = ZERO := by tauto
        have := (Props.C03_transferFrom_effect hr hx).1 a
        simp only at hdrop ⊢
        have hsrc : a = src := by
          by_contra hne
          rw [if_neg hne] at this
          omega
        subst hsrc
        have hle : v.toNat ≤ (Erc20.allowance s.erc20 a c).toNat := by
          obtain ⟨t1, h1, _⟩ := Erc20.transferFrom_eq_ok.mp hx
          rcases Erc20.spend_eq_ok.mp h1 with h | h
          · unfold Erc20.allowance; rw [h.1]; have := v.isLt; simp; omega
          · unfold Erc20.allowance; tauto
        rw [if_pos rfl] at this
        omega

/-- **C86** Although anybody may redefine which role administers which, accounts that hold no role at all get
nowhere: a history of calls made only by such accounts changes nobody's roles. -/
theorem C86_no_role_no_escalation (s : State) (Bad : Address → Prop)
    (hbad : ∀ a, Bad a → ∀ r, hasRole s.access r a = false)
    (ops : List (Address × Call)) (hops : ∀ op ∈ ops, Bad op.1) (r : Role) (a : Address) :
    hasRole (run s ops).access r a = hasRole s.access r a := by
  induction ops generalizing s with
  | nil => rfl
  | cons op ops ih =>
    have hb : Bad op.1 := hops op (by simp)
    have step : ∀ r a, hasRole (stepOf exec s op).access r a = hasRole s.access r a := by
      intro r a
      cases hx : exec s op with
      | error e => rw [stepOf_error hx]
      | ok s' =>
        rw [stepOf_ok hx]
        obtain ⟨c, k⟩ := op
        cases k with
        | makeAdmin x =>
          simp [exec, makeAdmin, AccessControl.onlyRole, AccessControl.checkRole, hbad c hb, liftA] at hx
        | transferFrom src dst v =>
          simp [exec, transferFrom, AccessControl.onlyRole, AccessControl.checkRole, hbad c hb, liftA] at hx
        | setRoleAdmin x y => cases hx; rfl
        | transfer dst v =>
          obtain ⟨_, _, hx⟩ := bind_eq_ok.mp hx
          cases hx; rfl
        | approve sp v =>
          obtain ⟨_, _, hx⟩ := bind_eq_ok.mp hx
          cases hx; rfl
        | access k =>
          obtain ⟨t, ht, hx⟩ := bind_eq_ok.mp hx
          cases hx
          cases k with
          | grantRole x y =>
            simp [AccessControl.exec, AccessControl.grantRole, AccessControl.onlyRole, AccessControl.checkRole,
              hbad c hb, liftA] at ht
          | revokeRole x y =>
            simp [AccessControl.exec, AccessControl.revokeRole, AccessControl.onlyRole, AccessControl.checkRole,
              hbad c hb, liftA] at ht
          | renounceRole x y =>
            simp only [AccessControl.exec, AccessControl.renounceRole] at ht
            split at ht
            · simp [liftA] at ht
            · rename_i hcy
              simp only [ne_eq, not_not] at hcy
              subst hcy
              have : AccessControl.revokeInternal s.access c x c = s.access := by
                unfold AccessControl.revokeInternal
                rw [hbad c hb x]; rfl
              simp only [this, liftA, Except.ok.injEq] at ht
              rw [← ht]
    have hrun : run s (op :: ops) = run (stepOf exec s op) ops := rfl
    rw [hrun, ih (stepOf exec s op) (fun x hx r => by rw [step]; exact hbad x hx r)
      (fun o ho => hops o (by simp [ho])), step]

/-- **C86** But holding any role at all is enough to take every other one: the public `setRoleAdmin` makes the held
role the administrator of the wanted one. -/
theorem C86_any_role_is_every_role (s : State) (a : Address) (held wanted : Role)
    (h : hasRole s.access held a = true) :
    hasRole (run s [(a, .setRoleAdmin wanted held), (a, .access (.grantRole wanted a))]).access wanted a = true := by
  let s1 : State := { s with access := AccessControl.setRoleAdminInternal s.access wanted held }
  have h1 : hasRole s1.access held a = true := h
  have hadm : AccessControl.getRoleAdmin s1.access wanted = held := by
    simp [s1, AccessControl.getRoleAdmin, AccessControl.setRoleAdminInternal]
  obtain ⟨t, ht, hm, _⟩ := (Props.Access.C38_grant_role s1.access a wanted a).1 (by rw [hadm]; exact h1)
  show hasRole (stepOf exec (stepOf exec s _) _).access wanted a = true
  have e1 : stepOf exec s (a, .setRoleAdmin wanted held) = s1 := rfl
  rw [e1, stepOf_ok (s' := { s1 with access := t }) (by
    simp [exec, AccessControl.exec, ht, liftA])]
  show hasRole t wanted a = true
  rw [hm]; simp

/-- **C86** `make_admin` is for holders of the default administrator role who also administer the transfer role; for
them it gives `account` the transfer role and changes no other membership, no administrator and no balance. -/
theorem C86_make_admin (s : State) (c account : Address) :
    (hasRole s.access AccessControl.DEFAULT_ADMIN_ROLE c = false → exec s (c, .makeAdmin account) =
      .error (.access (.unauthorizedAccount c AccessControl.DEFAULT_ADMIN_ROLE))) ∧
    (hasRole s.access AccessControl.DEFAULT_ADMIN_ROLE c = true →
      hasRole s.access (AccessControl.getRoleAdmin s.access TRANSFER_ROLE) c = false → exec s (c, .makeAdmin account) =
      .error (.access (.unauthorizedAccount c (AccessControl.getRoleAdmin s.access TRANSFER_ROLE)))) ∧
    (hasRole s.access AccessControl.DEFAULT_ADMIN_ROLE c = true →
      hasRole s.access (AccessControl.getRoleAdmin s.access TRANSFER_ROLE) c = true →
      ∃ s', exec s (c, .makeAdmin account) = .ok s' ∧ s'.erc20 = s.erc20 ∧
        (∀ r a, hasRole s'.access r a = if r = TRANSFER_ROLE ∧ a = account then true else hasRole s.access r a) ∧
        (∀ r, AccessControl.getRoleAdmin s'.access r = AccessControl.getRoleAdmin s.access r)) := by
  have hg := Props.Access.C38_grant_role s.access c TRANSFER_ROLE account
  simp only [exec, makeAdmin, AccessControl.onlyRole, AccessControl.checkRole]
  refine ⟨fun h => by simp [h, liftA], fun h h2 => ?_, fun h h2 => ?_⟩
  · simp [h, liftA, hg.2 h2]
  · obtain ⟨t, ht, hm, ha⟩ := hg.1 h2
    exact ⟨{ s with access := t }, by simp [h, liftA, ht], rfl, hm, ha⟩

/-- Account 9 administers, account 1 holds tokens, account 3 has the role 77. -/
def start : State := ⟨Erc20.run Erc20.init [(9#160, .mint 1#160 50#256)],
  { AccessControl.init with members := fun r a => decide (r = 0#256 ∧ a = 9#160 ∨ r = 77#256 ∧ a = 3#160) }⟩

/-- The intended use: the administrator lets account 2 take what account 1 has approved. -/
example : Erc20.balanceOf (run start [(1#160, .approve 2#160 20#256), (2#160, .transferFrom 1#160 2#160 5#256),
      (9#160, .makeAdmin 2#160), (2#160, .transferFrom 1#160 2#160 6#256)]).erc20 2#160 = 6#256 ∧
    hasRole start.access 77#256 3#160 = true ∧ hasRole start.access TRANSFER_ROLE 3#160 = false := by decide

end Verif.Props.AccessExample
