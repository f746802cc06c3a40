import Verif.Proofs.OnWords
import Verif.Props.Constructors
/-! # Lemmas: the contracts with reserved functions on storage words -/

namespace Verif.Proofs.OwnableWords
open Verif Verif.Storage Verif.Ownable Verif.Spec.StoragePrograms Verif.OwnableWords
open Verif.Props.StoragePrograms (uses_bind uses_ite)
open Verif.Proofs.Deployed (Table)
open Verif.Proofs.Erc721Words (Sim unit look sim_bind sim_ite sim_fail sim_ret mask20)
open Verif.Proofs.OnWords (sim_congr sim_gate Under)

variable {w : List Step → Nat} {root : List Step}

/-- The state a table stands for. -/
def view (root : List Step) (c : Table) (log : List Event) : Ownable.State :=
  { owner := (c (ownerCell root)).setWidth 160, log := log }

theorem sim_owner : Sim w (view root) (owner root) (look fun s => .ok s.owner) := by
  intro c log
  show _ = Except.ok (_, view root c (log ++ []))
  rw [List.append_nil]
  rfl

theorem sim_only (caller : Address) : Sim w (view root) (onlyOwner root caller) (look fun s => Ownable.onlyOwner s caller) := by
  refine sim_congr (sim_bind sim_owner fun o => sim_ite (P := o ≠ caller) (sim_fail _) (sim_ret ())) fun s => ?_
  unfold look Ownable.onlyOwner
  dsimp only
  by_cases h : s.owner ≠ caller
  · rw [if_pos h]; show (if s.owner ≠ caller then _ else _) = _; rw [if_pos h]; rfl
  · rw [if_neg h]; show (if s.owner ≠ caller then _ else _) = _; rw [if_neg h]; rfl

theorem sim_transfer (hw : w (ownerCell root) = 20) (new : Address) :
    Sim w (view root) (OwnableWords.transferInternal root new) (unit fun s => .ok (Ownable.transferInternal s new)) := by
  intro c log
  show _ = Except.ok ((), view root (upd c (ownerCell root) (new.setWidth 256 &&& mask (w (ownerCell root))))
    (log ++ [.transferred ((c (ownerCell root)).setWidth 160) new]))
  rw [hw]
  unfold view
  rw [upd_same, mask20]
  rfl

theorem sim_code (hw : w (ownerCell root) = 20) (caller : Address) (call : Call) :
    Sim w (view root) (code root caller call) (unit fun s => Ownable.exec s (caller, call)) := by
  cases call with
  | transferOwnership new =>
    refine sim_congr (sim_gate (sim_only caller) (sim_ite (P := new = ZERO) (sim_fail _) (sim_transfer hw new))) fun s => ?_
    show _ = unit (fun s => Ownable.transferOwnership s caller new) s
    unfold unit Ownable.transferOwnership
    dsimp only
    cases Ownable.onlyOwner s caller with
    | error e => rfl
    | ok u =>
      show (if new = ZERO then _ else _) = _
      by_cases h : new = ZERO
      · rw [if_pos h, if_pos h]; rfl
      · rw [if_neg h, if_neg h]; rfl
  | renounceOwnership =>
    refine sim_congr (sim_gate (sim_only caller) (sim_transfer hw ZERO)) fun s => ?_
    show _ = unit (fun s => Ownable.renounceOwnership s caller) s
    unfold unit Ownable.renounceOwnership
    dsimp only
    cases Ownable.onlyOwner s caller <;> rfl

theorem uses_only (caller : Address) : Uses (fun p => p = ownerCell root) (onlyOwner root caller) :=
  uses_bind ⟨rfl, fun _ => trivial⟩ fun _ => uses_ite trivial trivial

theorem uses_transfer (new : Address) : Uses (fun p => p = ownerCell root) (OwnableWords.transferInternal root new) :=
  uses_bind ⟨rfl, fun _ => trivial⟩ fun _ => ⟨rfl, trivial⟩

theorem uses_code (caller : Address) (call : Call) : Uses (fun p => p = ownerCell root) (code root caller call) := by
  cases call with
  | transferOwnership new => exact uses_bind (uses_only caller) fun _ => uses_ite trivial (uses_transfer new)
  | renounceOwnership => exact uses_bind (uses_only caller) fun _ => uses_transfer ZERO

end Verif.Proofs.OwnableWords

namespace Verif.Proofs.Ownable2StepWords
open Verif Verif.Storage Verif.Ownable2Step Verif.Spec.StoragePrograms Verif.Ownable2StepWords
open Verif.OwnableWords (ownerCell Code)
open Verif.Ownable (Event)
open Verif.Props.StoragePrograms (uses_bind uses_ite onCells_bind)
open Verif.Proofs.Deployed (Table uses_mono)
open Verif.Proofs.Erc721Words (Sim unit look sim_bind sim_ite sim_fail sim_ret mask20)
open Verif.Proofs.OnWords (sim_congr sim_gate)

variable {w : List Step → Nat} {root : List Step}

/-- The state a table stands for. -/
def view (root : List Step) (c : Table) (log : List Event) : Ownable2Step.State :=
  { ownable := OwnableWords.view (base root) c log, pendingOwner := (c (pendingCell root)).setWidth 160 }

/-- The sizes of the cells. -/
structure Sizes (w : List Step → Nat) (root : List Step) : Prop where
  owner : w (ownerCell (base root)) = 20
  pending : w (pendingCell root) = 20

/-- The cells. -/
def Cells (root : List Step) (p : List Step) : Prop := p = ownerCell (base root) ∨ p = pendingCell root

theorem cells_ne : ownerCell (base root) ≠ pendingCell root := by
  simp [ownerCell, base, pendingCell]

/-- What `Ownable` does, it does here. -/
theorem sim_inner {α : Type} {m : Code α} {f : Ownable.State → Except Ownable.Err (α × Ownable.State)}
    (h : Sim w (OwnableWords.view (base root)) m f) (hu : Uses (fun p => p = ownerCell (base root)) m) :
    Sim w (view root) m fun s => (f s.ownable).map fun r => (r.1, { s with ownable := r.2 }) := by
  intro c log
  show (f (OwnableWords.view (base root) c log)).map _ = _
  rw [h c log]
  cases hm : Spec.StoragePrograms.onCells w m c with
  | error e => rfl
  | ok r =>
    have := Deployed.onCells_frame m hu hm (p := pendingCell root) (fun e => cells_ne e.symm)
    show Except.ok (r.1, ({ ownable := _, pendingOwner := (c (pendingCell root)).setWidth 160 } : Ownable2Step.State)) =
      Except.ok (r.1, ({ ownable := _, pendingOwner := (r.2.1 (pendingCell root)).setWidth 160 } : Ownable2Step.State))
    rw [this]

theorem sim_only (caller : Address) :
    Sim w (view root) (OwnableWords.onlyOwner (base root) caller) (look fun s => Ownable.onlyOwner s.ownable caller) := by
  refine sim_congr (sim_inner (OwnableWords.sim_only caller) (OwnableWords.uses_only caller)) fun s => ?_
  unfold look
  dsimp only
  cases Ownable.onlyOwner s.ownable caller <;> rfl

/-- The pending owner is set first. -/
theorem sim_pending {α : Type} (hw : Sizes w root) (a : Address) {m : Code α}
    {f : Ownable2Step.State → Except Ownable.Err (α × Ownable2Step.State)} (h : Sim w (view root) m f) :
    Sim w (view root) (.set (pendingCell root) (a.setWidth 256) m) fun s => f { s with pendingOwner := a } := by
  intro c log
  rw [onCells, ← h, hw.pending]
  show f _ = f _
  congr 1
  unfold view OwnableWords.view
  rw [upd_same, mask20, upd_ne _ _ cells_ne]

theorem sim_transfer (hw : Sizes w root) (new : Address) :
    Sim w (view root) (Ownable2StepWords.transferInternal root new) (unit fun s => .ok (Ownable2Step.transferInternal s new)) :=
  sim_congr (sim_pending hw ZERO (sim_inner (OwnableWords.sim_transfer hw.owner new) (OwnableWords.uses_transfer new))) fun _ => rfl

theorem sim_pendingOwner : Sim w (view root) (pendingOwner root) (look fun s => .ok s.pendingOwner) := by
  intro c log
  show _ = Except.ok (_, view root c (log ++ []))
  rw [List.append_nil]
  rfl

theorem sim_code (hw : Sizes w root) (caller : Address) (call : Call) :
    Sim w (view root) (code root caller call) (unit fun s => Ownable2Step.exec s (caller, call)) := by
  cases call with
  | transferOwnership new =>
    have h : Sim w (view root) ((OwnableWords.owner (base root)).bind fun current => .emit (.started current new) (.ret ()))
        (unit fun s => .ok { s with ownable := { s.ownable with log := s.ownable.log ++ [.started s.ownable.owner new] } }) :=
      fun _ _ => rfl
    refine sim_congr (sim_gate (sim_only caller) (sim_pending hw new h)) fun s => ?_
    show _ = unit (fun s => Ownable2Step.transferOwnership s caller new) s
    unfold unit Ownable2Step.transferOwnership
    dsimp only
    cases Ownable.onlyOwner s.ownable caller <;> rfl
  | acceptOwnership =>
    refine sim_congr (sim_bind sim_pendingOwner fun o => sim_ite (P := caller ≠ o) (sim_fail _) (sim_transfer hw caller)) fun s => ?_
    show _ = unit (fun s => Ownable2Step.acceptOwnership s caller) s
    unfold unit Ownable2Step.acceptOwnership
    dsimp only
    by_cases h : caller ≠ s.pendingOwner
    · rw [if_pos h]; show (if caller ≠ s.pendingOwner then _ else _) = _; rw [if_pos h]; rfl
    · rw [if_neg h]; show (if caller ≠ s.pendingOwner then _ else _) = _; rw [if_neg h]
  | renounceOwnership =>
    refine sim_congr (sim_gate (sim_only caller) (sim_transfer hw ZERO)) fun s => ?_
    show _ = unit (fun s => Ownable2Step.renounceOwnership s caller) s
    unfold unit Ownable2Step.renounceOwnership
    dsimp only
    cases Ownable.onlyOwner s.ownable caller <;> rfl

theorem uses_transfer (new : Address) : Uses (Cells root) (Ownable2StepWords.transferInternal root new) :=
  ⟨.inr rfl, uses_mono (fun _ => .inl) _ (OwnableWords.uses_transfer new)⟩

theorem uses_only (caller : Address) : Uses (Cells root) (OwnableWords.onlyOwner (base root) caller) :=
  uses_mono (fun _ => .inl) _ (OwnableWords.uses_only caller)

theorem uses_code (caller : Address) (call : Call) : Uses (Cells root) (code root caller call) := by
  cases call with
  | transferOwnership new =>
    exact uses_bind (uses_only caller) fun _ => ⟨.inr rfl, uses_bind ⟨.inl rfl, fun _ => trivial⟩ fun _ => trivial⟩
  | acceptOwnership => exact uses_bind ⟨.inr rfl, fun _ => trivial⟩ fun _ => uses_ite trivial (uses_transfer caller)
  | renounceOwnership => exact uses_bind (uses_only caller) fun _ => uses_transfer ZERO

end Verif.Proofs.Ownable2StepWords

namespace Verif.Proofs.AccessWords
open Verif Verif.Storage Verif.AccessControl Verif.Spec.StoragePrograms Verif.AccessWords
open Verif.Props.StoragePrograms (uses_bind uses_ite onCells_bind key_inj)
open Verif.Proofs.Deployed (Table UsedBy used_bind used_of_uses)
open Verif.Proofs.Erc721Words (Sim unit look sim_bind sim_ite sim_fail sim_ret mask32)
open Verif.Proofs.OnWords (sim_congr sim_gate Under)

variable {w : List Step → Nat} {root : List Step}

/-- The state a table stands for. -/
def view (root : List Step) (c : Table) (log : List Event) : AccessControl.State :=
  { members := fun r a => decide (c (memberCell root r a) ≠ 0#256), admin := fun r => c (adminCell root r), log := log }

/-- The sizes of the cells. -/
structure Sizes (w : List Step → Nat) (root : List Step) : Prop where
  member : ∀ r a, w (memberCell root r a) = 1
  admin : ∀ r, w (adminCell root r) = 32

theorem view_member (c : Table) (log : List Event) (r : Role) (a : Address) (v : U256) :
    view root (upd c (memberCell root r a) v) log =
    { view root c log with members := upd2 (view root c log).members r a (decide (v ≠ 0#256)) } := by
  unfold view
  congr 1
  · funext x y
    unfold upd2
    by_cases e : x = r ∧ y = a
    · obtain ⟨rfl, rfl⟩ := e
      simp
    · have : memberCell root x y ≠ memberCell root r a := by
        intro h
        have := List.append_cancel_left h
        simp only [List.cons.injEq, Step.key.injEq, and_true, true_and] at this
        exact e ⟨this.1, key_inj this.2⟩
      rw [upd_ne _ _ this]
      dsimp only
      split <;> simp_all
  · funext x
    rw [upd_ne _ _ (by simp [memberCell, adminCell])]

theorem view_admin (c : Table) (log : List Event) (r : Role) (v : U256) :
    view root (upd c (adminCell root r) v) log = { view root c log with admin := upd (view root c log).admin r v } := by
  unfold view
  congr 1
  · funext x y
    rw [upd_ne _ _ (by simp [memberCell, adminCell])]
  · funext x
    by_cases e : x = r
    · subst e; rw [upd_same, upd_same]
    · rw [upd_ne _ _ e, upd_ne _ _ (by simpa [adminCell] using e)]

theorem sim_hasRole (r : Role) (a : Address) : Sim w (view root) (AccessWords.hasRole root r a) (look fun s => .ok (s.members r a)) := by
  intro c log
  show _ = Except.ok (_, view root c (log ++ []))
  rw [List.append_nil]
  rfl

theorem sim_admin (r : Role) : Sim w (view root) (AccessWords.getRoleAdmin root r) (look fun s => .ok (s.admin r)) := by
  intro c log
  show _ = Except.ok (_, view root c (log ++ []))
  rw [List.append_nil]
  rfl

theorem sim_only (caller : Address) (r : Role) :
    Sim w (view root) (AccessWords.onlyRole root caller r) (look fun s => AccessControl.onlyRole s caller r) := by
  refine sim_congr (sim_bind (sim_hasRole r caller) fun b => sim_ite (P := (!b) = true) (sim_fail _) (sim_ret ())) fun s => ?_
  unfold look AccessControl.onlyRole checkRole AccessControl.hasRole
  dsimp only
  show (if (!s.members r caller) = true then _ else _) = _
  cases s.members r caller <;> rfl

/-- A membership is written. -/
theorem sim_member (hw : Sizes w root) (r : Role) (a : Address) {v : U256} (hv : v &&& mask 1 = v) (e : Event) :
    Sim (E := Err) w (view root) (.set (memberCell root r a) v (.emit e (.ret ())))
      (unit fun s => .ok { s with members := upd2 s.members r a (decide (v ≠ 0#256)), log := s.log ++ [e] }) := by
  intro c log
  show _ = Except.ok ((), view root (upd c (memberCell root r a) (v &&& mask (w (memberCell root r a)))) (log ++ [e]))
  rw [hw.member, hv, view_member]
  rfl

theorem sim_grantInternal (hw : Sizes w root) (caller : Address) (r : Role) (a : Address) :
    Sim w (view root) (AccessWords.grantInternal root caller r a) (unit fun s => .ok (AccessControl.grantInternal s caller r a)) := by
  refine sim_congr (sim_bind (sim_hasRole r a) fun b =>
    sim_ite (P := b = true) (sim_ret ()) (sim_member hw r a (v := 1#256) (by decide) (.roleGranted r a caller))) fun s => ?_
  unfold AccessControl.grantInternal AccessControl.hasRole unit
  dsimp only
  show (if s.members r a = true then _ else _) = _
  by_cases h : s.members r a = true
  · rw [if_pos h, if_pos h]; rfl
  · rw [if_neg h, if_neg h]; rfl

theorem sim_revokeInternal (hw : Sizes w root) (caller : Address) (r : Role) (a : Address) :
    Sim w (view root) (AccessWords.revokeInternal root caller r a) (unit fun s => .ok (AccessControl.revokeInternal s caller r a)) := by
  refine sim_congr (sim_bind (sim_hasRole r a) fun b =>
    sim_ite (P := b = true) (sim_member hw r a (v := 0#256) (by decide) (.roleRevoked r a caller)) (sim_ret ())) fun s => ?_
  unfold AccessControl.revokeInternal AccessControl.hasRole unit
  dsimp only
  show (if s.members r a = true then _ else _) = _
  by_cases h : s.members r a = true
  · rw [if_pos h, if_pos h]; rfl
  · rw [if_neg h, if_neg h]; rfl

theorem sim_setRoleAdmin (hw : Sizes w root) (r new : Role) :
    Sim w (view root) (AccessWords.setRoleAdminInternal root r new) (unit fun s => .ok (AccessControl.setRoleAdminInternal s r new)) := by
  intro c log
  show _ = Except.ok ((), view root (upd c (adminCell root r) (new &&& mask (w (adminCell root r)))) (log ++ [.roleAdminChanged r (c (adminCell root r)) new]))
  rw [hw.admin, mask32, view_admin]
  rfl

theorem sim_code (hw : Sizes w root) (caller : Address) (call : Call) :
    Sim w (view root) (code root caller call) (unit fun s => AccessControl.exec s (caller, call)) := by
  cases call with
  | grantRole r a =>
    refine sim_congr (sim_bind (sim_admin r) fun admin => sim_gate (sim_only caller admin) (sim_grantInternal hw caller r a)) fun s => ?_
    show _ = unit (fun s => AccessControl.grantRole s caller r a) s
    unfold unit AccessControl.grantRole AccessControl.getRoleAdmin
    dsimp only
    show (AccessControl.onlyRole s caller (s.admin r) >>= _) = _
    cases AccessControl.onlyRole s caller (s.admin r) <;> rfl
  | revokeRole r a =>
    refine sim_congr (sim_bind (sim_admin r) fun admin => sim_gate (sim_only caller admin) (sim_revokeInternal hw caller r a)) fun s => ?_
    show _ = unit (fun s => AccessControl.revokeRole s caller r a) s
    unfold unit AccessControl.revokeRole AccessControl.getRoleAdmin
    dsimp only
    show (AccessControl.onlyRole s caller (s.admin r) >>= _) = _
    cases AccessControl.onlyRole s caller (s.admin r) <;> rfl
  | renounceRole r a =>
    refine sim_congr (sim_ite (P := caller ≠ a) (sim_fail _) (sim_revokeInternal hw caller r a)) fun s => ?_
    show _ = unit (fun s => AccessControl.renounceRole s caller r a) s
    unfold unit AccessControl.renounceRole
    dsimp only
    by_cases h : caller ≠ a
    · rw [if_pos h, if_pos h]; rfl
    · rw [if_neg h, if_neg h]

/-! ### The cells in use -/

/-- The cells of these accounts and roles. -/
def Cells (root : List Step) (S : List Address) (N : List U256) (p : List Step) : Prop :=
  (∃ r ∈ N, ∃ a ∈ S, p = memberCell root r a) ∨ ∃ r ∈ N, p = adminCell root r

section
variable {S : List Address} {N : List U256}

theorem uses_only {caller : Address} {r : Role} (hc : caller ∈ S) (hr : r ∈ N) : Uses (Cells root S N) (AccessWords.onlyRole root caller r) :=
  uses_bind ⟨.inl ⟨r, hr, caller, hc, rfl⟩, fun _ => trivial⟩ fun _ => uses_ite trivial trivial

theorem uses_grantInternal {caller a : Address} {r : Role} (ha : a ∈ S) (hr : r ∈ N) :
    Uses (Cells root S N) (AccessWords.grantInternal root caller r a) :=
  uses_bind ⟨.inl ⟨r, hr, a, ha, rfl⟩, fun _ => trivial⟩ fun _ => uses_ite trivial ⟨.inl ⟨r, hr, a, ha, rfl⟩, trivial⟩

theorem uses_revokeInternal {caller a : Address} {r : Role} (ha : a ∈ S) (hr : r ∈ N) :
    Uses (Cells root S N) (AccessWords.revokeInternal root caller r a) :=
  uses_bind ⟨.inl ⟨r, hr, a, ha, rfl⟩, fun _ => trivial⟩ fun _ => uses_ite ⟨.inl ⟨r, hr, a, ha, rfl⟩, trivial⟩ trivial

theorem uses_setRoleAdmin {r new : Role} (hr : r ∈ N) : Uses (Cells root S N) (AccessWords.setRoleAdminInternal root r new) :=
  uses_bind ⟨.inr ⟨r, hr, rfl⟩, fun _ => trivial⟩ fun _ => ⟨.inr ⟨r, hr, rfl⟩, trivial⟩

/-- The account and the role of a call. -/
def Named (S : List Address) (N : List U256) : Call → Prop
  | .grantRole r a | .revokeRole r a | .renounceRole r a => r ∈ N ∧ a ∈ S

/-- The admin of a role is a role that takes part. -/
def Good (N : List U256) (s : AccessControl.State) : Prop := ∀ r ∈ N, s.admin r ∈ N

theorem used_code {c : Table} {log : List Event} (h : Good N (view root c log)) {caller : Address} (hc : caller ∈ S) {call : Call}
    (hn : Named S N call) : UsedBy w (Cells root S N) (code root caller call) c := by
  cases call with
  | grantRole r a =>
    exact ⟨.inr ⟨r, hn.1, rfl⟩, used_of_uses ((AccessWords.onlyRole root caller (c (adminCell root r))).bind
      fun _ => AccessWords.grantInternal root caller r a) _ (uses_bind (uses_only hc (h r hn.1)) fun _ => uses_grantInternal hn.2 hn.1)⟩
  | revokeRole r a =>
    exact ⟨.inr ⟨r, hn.1, rfl⟩, used_of_uses ((AccessWords.onlyRole root caller (c (adminCell root r))).bind
      fun _ => AccessWords.revokeInternal root caller r a) _ (uses_bind (uses_only hc (h r hn.1)) fun _ => uses_revokeInternal hn.2 hn.1)⟩
  | renounceRole r a => exact used_of_uses _ _ (uses_ite trivial (uses_revokeInternal hn.2 hn.1))

theorem under_code (caller : Address) (call : Call) : Uses (Under root) (code root caller call) := by
  have u1 : ∀ r a, Under root (memberCell root r a) := fun _ _ => ⟨_, rfl⟩
  have u2 : ∀ r, Under root (adminCell root r) := fun _ => ⟨_, rfl⟩
  have o : ∀ r, Uses (Under root) (AccessWords.onlyRole root caller r) := fun r =>
    uses_bind ⟨u1 _ _, fun _ => trivial⟩ fun _ => uses_ite trivial trivial
  have g : ∀ r a, Uses (Under root) (AccessWords.grantInternal root caller r a) := fun r a =>
    uses_bind ⟨u1 _ _, fun _ => trivial⟩ fun _ => uses_ite trivial ⟨u1 _ _, trivial⟩
  have v : ∀ r a, Uses (Under root) (AccessWords.revokeInternal root caller r a) := fun r a =>
    uses_bind ⟨u1 _ _, fun _ => trivial⟩ fun _ => uses_ite ⟨u1 _ _, trivial⟩ trivial
  cases call with
  | grantRole r a => exact uses_bind ⟨u2 _, fun _ => trivial⟩ fun _ => uses_bind (o _) fun _ => g r a
  | revokeRole r a => exact uses_bind ⟨u2 _, fun _ => trivial⟩ fun _ => uses_bind (o _) fun _ => v r a
  | renounceRole r a => exact uses_ite trivial (v r a)

theorem under_only (caller : Address) (r : Role) : Uses (Under root) (AccessWords.onlyRole root caller r) :=
  uses_bind ⟨⟨_, rfl⟩, fun _ => trivial⟩ fun _ => uses_ite trivial trivial

theorem under_setRoleAdmin (r new : Role) : Uses (Under root) (AccessWords.setRoleAdminInternal root r new) :=
  uses_bind ⟨⟨_, rfl⟩, fun _ => trivial⟩ fun _ => ⟨⟨_, rfl⟩, trivial⟩

theorem admin_exec {s s' : AccessControl.State} {op : Address × Call} (h : AccessControl.exec s op = .ok s') : s'.admin = s.admin := by
  have g : ∀ c r a, (AccessControl.grantInternal s c r a).admin = s.admin := fun c r a => by
    unfold AccessControl.grantInternal; split <;> rfl
  have v : ∀ c r a, (AccessControl.revokeInternal s c r a).admin = s.admin := fun c r a => by
    unfold AccessControl.revokeInternal; split <;> rfl
  obtain ⟨caller, call⟩ := op
  cases call with
  | grantRole r a => obtain ⟨_, _, h⟩ := bind_eq_ok.mp h; cases h; exact g _ _ _
  | revokeRole r a => obtain ⟨_, _, h⟩ := bind_eq_ok.mp h; cases h; exact v _ _ _
  | renounceRole r a =>
    change AccessControl.renounceRole s caller r a = _ at h
    unfold AccessControl.renounceRole at h
    split at h
    · cases h
    · cases h; exact v _ _ _

end
end Verif.Proofs.AccessWords

namespace Verif.Proofs.OwnableDeployed
open Verif Verif.Storage Verif.OwnableExample Verif.OwnableDeployed Verif.Spec.OwnableDeployed Verif.Spec.StoragePrograms
open Verif.OnWords (token inner)
open Verif.Spec.OnWords Verif.Proofs.OnWords
open Verif.Props.StoragePrograms (Wide wide)
open Verif.Proofs.Deployed (Table UsedBy used_bind used_of_uses uses_mono uses_lift)
open Verif.Proofs.Erc721Words (Sim unit look)
open Verif.Abi (Val Decoder Outcome)
open Verif.Spec.Deployed (answer)
open Verif.Spec.Contracts (Raw after)

/-- The state a table stands for. -/
abbrev view := both State.mk tokenView (OwnableWords.view gate)

theorem frame {c c' : Table} (h : ∀ p, ¬ Under token p → c' p = c p) (log : List Ownable.Event) :
    OwnableWords.view gate c' log = OwnableWords.view gate c log := by
  unfold OwnableWords.view
  rw [h _ (by simp [Under, token, OwnableWords.ownerCell, gate])]

theorem frame' {c c' : Table} (h : ∀ p, ¬ Under gate p → c' p = c p) (log : List Erc20.Event) : tokenView c' log = tokenView c log :=
  tokenView_frame (fun q => by simp [token, gate]) h log

theorem under {p : List Step} (h : p = OwnableWords.ownerCell gate) : Under gate p := ⟨_, h.symm⟩

/-- The sizes of the cells. -/
structure Sizes (w : List Step → Nat) : Prop where
  token : Wide w token
  owner : w (OwnableWords.ownerCell gate) = 20

section
variable {w : List Step → Nat}

theorem sim_inner (hw : Sizes w) (caller : Address) (c : Erc20.Call) :
    Sim w view (inner .erc20 caller c) (unit fun s => do return { s with erc20 := (← lift (Erc20.exec s.erc20 (caller, c))) }) :=
  sim_left (sim_token hw.token caller c) (under_token caller c) (fun _ _ h => frame h) fun a b => by
    unfold unit
    dsimp only
    cases Erc20.exec a (caller, c) <;> rfl

theorem sim_code (hw : Sizes w) (caller : Address) (call : Call) : Sim w view (code caller call) (unit fun s => exec s (caller, call)) := by
  cases call with
  | transfer dst v =>
    have hg : Sim w view ((OwnableWords.onlyOwner gate caller).lift .ownable .inr) (look fun s => liftO (Ownable.onlyOwner s.ownable caller)) :=
      sim_right (OwnableWords.sim_only caller) (uses_mono (fun _ => under) _ (OwnableWords.uses_only caller)) (fun _ _ h => frame' h) fun a b => by
        unfold look
        dsimp only
        cases Ownable.onlyOwner b caller <;> rfl
    refine sim_congr (sim_gate hg (sim_inner hw caller (.transfer dst v))) fun s => ?_
    show _ = unit (fun s => OwnableExample.transfer s caller dst v) s
    unfold unit OwnableExample.transfer
    dsimp only
    cases liftO (Ownable.onlyOwner s.ownable caller) <;> rfl
  | transferFrom src dst v => exact sim_inner hw caller _
  | approve p v => exact sim_inner hw caller _
  | ownable c =>
    refine sim_right (OwnableWords.sim_code hw.owner caller c) (uses_mono (fun _ => under) _ (OwnableWords.uses_code caller c))
      (fun _ _ h => frame' h) fun a b => ?_
    unfold unit OwnableExample.exec
    dsimp only
    cases Ownable.exec b (caller, c) <;> rfl

/-- The accounts of a call of the token. -/
def Named (S : List Address) : Call → Prop
  | .transfer dst _ => dst ∈ S
  | .transferFrom src dst _ => src ∈ S ∧ dst ∈ S
  | .approve p _ => p ∈ S
  | .ownable _ => True

theorem uses_inner {S : List Address} {caller : Address} {c : Erc20.Call} (h : ∀ a ∈ named (caller, c), a ∈ S) :
    Uses (Cells S) (inner (G := Ownable.Event) Err.erc20 caller c) :=
  uses_lift _ (uses_mono (fun _ => .inl) _ (Props.StoragePrograms.uses_code (op := (caller, c)) h))

theorem uses_code {S : List Address} {caller : Address} (hc : caller ∈ S) {call : Call} (hn : Named S call) :
    Uses (Cells S) (code caller call) := by
  have g : ∀ {α : Type} (m : OwnableWords.Code α), Uses (fun p => p = OwnableWords.ownerCell gate) m →
      Uses (Cells S) (m.lift Err.ownable (Sum.inr (α := Erc20.Event))) := fun m h => uses_lift _ (uses_mono (fun _ => .inr) _ h)
  cases call with
  | transfer dst v =>
    exact Props.StoragePrograms.uses_bind (g _ (OwnableWords.uses_only caller)) fun _ => uses_inner (by simp_all [named, Named])
  | transferFrom src dst v => exact uses_inner (by simp_all [named, Named])
  | approve p v => exact uses_inner (by simp_all [named, Named])
  | ownable c => exact g _ (OwnableWords.uses_code caller c)

theorem fits (hw : Sizes w) {S : List Address} {c : Table} {log : List Ev} (K : Hash) {caller : Address} (hc : caller ∈ S) (t f : String)
    {args : List Val} (ha : ∀ a, Val.address a ∈ args → a ∈ S) :
    Fits w (Cells S) view (fun _ => True) c log (program K caller t f args) (Contracts.ownable K caller t f args (view c log)) := by
  have r : ∀ {call : Call} (_ : Named S call) (r : List Val), Fits w (Cells S) view (fun _ => True) c log
      (OnWords.finish K Contracts.ownableReply (fun _ => r) (code caller call))
      (Entry.finish K Contracts.ownableReply r (exec (view c log) (caller, call))) := fun hn r =>
    fits_call K _ (sim_code hw caller _) (used_of_uses _ _ (uses_code hc hn)) (fun _ _ => trivial) r
  have v := fits_views (w := w) (C := Cells S) (S := S) (Good := fun _ => True) (mk := State.mk) (vg := OwnableWords.view gate) (c := c)
    (log := log) trivial (fun _ => .inl) ha
  unfold program Contracts.ownable
  refine fits_table (.cons ⟨rfl, rfl, ?_⟩ (.cons ⟨rfl, rfl, ?_⟩ (.cons ⟨rfl, rfl, ?_⟩ (.cons ⟨rfl, rfl, ?_⟩ (.cons ⟨rfl, rfl, ?_⟩
    (.cons ⟨rfl, rfl, ?_⟩ v))))))
  · takes r (by simp_all [Named]) _
  · takes r (by simp_all [Named]) _
  · takes r (by simp_all [Named]) _
  · takes fits_get trivial (.inr rfl) (fun v => [.address (v.setWidth 160)])
  · takes r (call := .ownable _) trivial _
  · takes r (call := .ownable _) trivial _

end

theorem sizes (K : Hash) : Sizes (widthAt K ownableExample) := ⟨wide (b := none) (d := 0) rfl, rfl⟩

/-- The contract with independent mappings. -/
def model (K : Hash) (D : Decoder) (caller : Address) (s : State) (value : U256) (input : Bytes) : Outcome State :=
  Abi.entry K D Router.ownableExample (Contracts.ownable K caller) s value input

section
variable {K : Hash} {n : Nat} {S : List Address}

/-- The words and the state agree. -/
abbrev Agrees (K : Hash) (S : List Address) := Inv K ownableExample (Cells S) view (fun _ => True)

theorem inv_step (h : Apart K n ownableExample (Cells S)) (D : Decoder) {w : OnWords.State Ev} {s : State} (hi : Agrees K S w s)
    {tx : Raw Address} (hx : Within K D Router.ownableExample S tx) :
    answer (entry K D tx.env w tx.value tx.input) = answer (model K D tx.env s tx.value tx.input) ∧
    Agrees K S ((entry K D tx.env w tx.value tx.input).after w) ((model K D tx.env s tx.value tx.input).after s) :=
  step (by decide) h D Router.ownableExample hi tx.value tx.input fun u f args hr hd _ _ _ =>
    fits (sizes K) K hx.sender u f.rustName (hx.addresses args ⟨u, f, hr, hd⟩)

theorem inv_run (h : Apart K n ownableExample (Cells S)) (D : Decoder) (txs : List (Raw Address)) {w : OnWords.State Ev} {s : State}
    (hi : Agrees K S w s) (hx : ∀ tx ∈ txs, Within K D Router.ownableExample S tx) :
    Agrees K S (after (entry K D) w txs) (after (model K D) s txs) :=
  steps (run := entry K D) (run' := model K D) (I := Agrees K S) (ok := Within K D Router.ownableExample S)
    (fun _ _ _ hi hx => (inv_step h D hi hx).2) txs hi hx

theorem inv_deploy (h : Apart K n ownableExample (Cells S)) {owner : Address} {w : OnWords.State Ev} (hd : deploy K owner = some w) :
    Agrees K S w ⟨Erc20.init, ⟨owner, []⟩⟩ := by
  have hz := Props.Constructors.C99_ownable K owner
  unfold deploy at hd
  obtain ⟨ws, h1, h2⟩ := Option.bind_eq_some_iff.mp hd
  obtain ⟨st, h3, rfl⟩ := Option.map_eq_some_iff.mp h2
  rw [h1, Option.bind_some, h3] at hz
  by_cases h0 : owner = 0#160
  · rw [if_pos h0] at hz; cases hz
  rw [if_neg h0] at hz
  obtain ⟨st', h4, h5⟩ := assign_one (t := ownableExample) (by decide) h (C := Cells S) (p := OwnableWords.ownerCell gate) (.inr rfl) (owner.setWidth 256)
  change Constructors.assign K ownableExample [(OwnableWords.ownerCell gate, _)] _ = _ at h4
  have hz : some st = some st' := hz.trans h4
  have hz := Option.some.inj hz
  subst hz
  refine ⟨trivial, _, h5, ?_⟩
  have e1 : tokenView (upd (fun _ => 0#256) (OwnableWords.ownerCell gate)
      (owner.setWidth 256 &&& mask (widthAt K ownableExample (OwnableWords.ownerCell gate)))) [] = tokenView (fun _ => 0#256) [] :=
    frame' (fun p hp => upd_ne _ _ fun e => hp (under e)) []
  have e2 : OwnableWords.view gate (upd (fun _ => 0#256) (OwnableWords.ownerCell gate)
      (owner.setWidth 256 &&& mask (widthAt K ownableExample (OwnableWords.ownerCell gate)))) [] = ⟨owner, []⟩ := by
    unfold OwnableWords.view
    rw [(sizes K).owner, upd_same, Proofs.Erc721Words.mask20]
  exact congrArg₂ State.mk e1 e2

theorem deploys (owner : Address) : deploy K owner = none ↔ owner = ZERO := by
  unfold deploy Constructors.ownableInit
  by_cases e : owner = 0#160
  · rw [if_pos e]; exact ⟨fun _ => e, fun _ => rfl⟩
  · rw [if_neg e]; exact ⟨fun h => (nomatch (h : some _ = none)), fun h => absurd h e⟩

end
end Verif.Proofs.OwnableDeployed

namespace Verif.Proofs.Ownable2StepDeployed
open Verif Verif.Storage Verif.Ownable2StepExample Verif.Ownable2StepDeployed Verif.Spec.Ownable2StepDeployed Verif.Spec.StoragePrograms
open Verif.OnWords (token inner)
open Verif.OwnableExample (Err lift liftO)
open Verif.OwnableDeployed (Ev)
open Verif.Spec.OnWords Verif.Proofs.OnWords
open Verif.Props.StoragePrograms (Wide wide)
open Verif.Proofs.Deployed (Table UsedBy used_bind used_of_uses uses_mono uses_lift)
open Verif.Proofs.Erc721Words (Sim unit look)
open Verif.Abi (Val Decoder Outcome)
open Verif.Spec.Deployed (answer)
open Verif.Spec.Contracts (Raw after)

/-- The state a table stands for. -/
abbrev view := both State.mk tokenView (Ownable2StepWords.view gate)

theorem frame {c c' : Table} (h : ∀ p, ¬ Under token p → c' p = c p) (log : List Ownable.Event) :
    Ownable2StepWords.view gate c' log = Ownable2StepWords.view gate c log := by
  unfold Ownable2StepWords.view
  unfold OwnableWords.view
  rw [h _ (by simp [Under, token, OwnableWords.ownerCell, Ownable2StepWords.base, gate]),
    h _ (by simp [Under, token, Ownable2StepWords.pendingCell, gate])]

theorem frame' {c c' : Table} (h : ∀ p, ¬ Under gate p → c' p = c p) (log : List Erc20.Event) : tokenView c' log = tokenView c log :=
  tokenView_frame (fun q => by simp [token, gate]) h log

theorem under {p : List Step} (h : Ownable2StepWords.Cells gate p) : Under gate p := by
  rcases h with rfl | rfl <;> exact ⟨_, rfl⟩

/-- The sizes of the cells. -/
structure Sizes (w : List Step → Nat) : Prop where
  token : Wide w token
  gate : Ownable2StepWords.Sizes w gate

section
variable {w : List Step → Nat}

theorem sim_inner (hw : Sizes w) (caller : Address) (c : Erc20.Call) :
    Sim w view (inner .erc20 caller c) (unit fun s => do return { s with erc20 := (← lift (Erc20.exec s.erc20 (caller, c))) }) :=
  sim_left (sim_token hw.token caller c) (under_token caller c) (fun _ _ h => frame h) fun a b => by
    unfold unit
    dsimp only
    cases Erc20.exec a (caller, c) <;> rfl

theorem sim_code (hw : Sizes w) (caller : Address) (call : Call) : Sim w view (code caller call) (unit fun s => exec s (caller, call)) := by
  cases call with
  | transfer dst v =>
    have hg : Sim w view ((OwnableWords.onlyOwner (Ownable2StepWords.base gate) caller).lift .ownable .inr) (look fun s => liftO (Ownable.onlyOwner s.ownable.ownable caller)) :=
      sim_right (Ownable2StepWords.sim_only caller) (uses_mono (fun _ => under) _ (Ownable2StepWords.uses_only caller)) (fun _ _ h => frame' h) fun a b => by
        unfold look
        dsimp only
        cases Ownable.onlyOwner b.ownable caller <;> rfl
    refine sim_congr (sim_gate hg (sim_inner hw caller (.transfer dst v))) fun s => ?_
    show _ = unit (fun s => Ownable2StepExample.transfer s caller dst v) s
    unfold unit Ownable2StepExample.transfer
    dsimp only
    cases liftO (Ownable.onlyOwner s.ownable.ownable caller) <;> rfl
  | transferFrom src dst v => exact sim_inner hw caller _
  | approve p v => exact sim_inner hw caller _
  | ownable c =>
    refine sim_right (Ownable2StepWords.sim_code hw.gate caller c) (uses_mono (fun _ => under) _ (Ownable2StepWords.uses_code caller c))
      (fun _ _ h => frame' h) fun a b => ?_
    unfold unit Ownable2StepExample.exec
    dsimp only
    cases Ownable2Step.exec b (caller, c) <;> rfl

/-- The accounts of a call of the token. -/
def Named (S : List Address) : Call → Prop
  | .transfer dst _ => dst ∈ S
  | .transferFrom src dst _ => src ∈ S ∧ dst ∈ S
  | .approve p _ => p ∈ S
  | .ownable _ => True

theorem uses_inner {S : List Address} {caller : Address} {c : Erc20.Call} (h : ∀ a ∈ named (caller, c), a ∈ S) :
    Uses (Cells S) (inner (G := Ownable.Event) Err.erc20 caller c) :=
  uses_lift _ (uses_mono (fun _ => .inl) _ (Props.StoragePrograms.uses_code (op := (caller, c)) h))

theorem uses_code {S : List Address} {caller : Address} (hc : caller ∈ S) {call : Call} (hn : Named S call) :
    Uses (Cells S) (code caller call) := by
  have g : ∀ {α : Type} (m : OwnableWords.Code α), Uses (Ownable2StepWords.Cells gate) m →
      Uses (Cells S) (m.lift Err.ownable (Sum.inr (α := Erc20.Event))) := fun m h => uses_lift _ (uses_mono (fun _ => .inr) _ h)
  cases call with
  | transfer dst v =>
    exact Props.StoragePrograms.uses_bind (g _ (Ownable2StepWords.uses_only caller)) fun _ => uses_inner (by simp_all [named, Named])
  | transferFrom src dst v => exact uses_inner (by simp_all [named, Named])
  | approve p v => exact uses_inner (by simp_all [named, Named])
  | ownable c => exact g _ (Ownable2StepWords.uses_code caller c)

theorem fits (hw : Sizes w) {S : List Address} {c : Table} {log : List Ev} (K : Hash) {caller : Address} (hc : caller ∈ S) (t f : String)
    {args : List Val} (ha : ∀ a, Val.address a ∈ args → a ∈ S) :
    Fits w (Cells S) view (fun _ => True) c log (program K caller t f args) (Contracts.ownable2Step K caller t f args (view c log)) := by
  have r : ∀ {call : Call} (_ : Named S call) (r : List Val), Fits w (Cells S) view (fun _ => True) c log
      (OnWords.finish K Contracts.ownableReply (fun _ => r) (code caller call))
      (Entry.finish K Contracts.ownableReply r (exec (view c log) (caller, call))) := fun hn r =>
    fits_call K _ (sim_code hw caller _) (used_of_uses _ _ (uses_code hc hn)) (fun _ _ => trivial) r
  have v := fits_views (w := w) (C := Cells S) (S := S) (Good := fun _ => True) (mk := State.mk) (vg := Ownable2StepWords.view gate) (c := c)
    (log := log) trivial (fun _ => .inl) ha
  unfold program Contracts.ownable2Step
  refine fits_table (.cons ⟨rfl, rfl, ?_⟩ (.cons ⟨rfl, rfl, ?_⟩ (.cons ⟨rfl, rfl, ?_⟩ (.cons ⟨rfl, rfl, ?_⟩ (.cons ⟨rfl, rfl, ?_⟩
    (.cons ⟨rfl, rfl, ?_⟩ (.cons ⟨rfl, rfl, ?_⟩ (.cons ⟨rfl, rfl, ?_⟩ v))))))))
  · takes r (by simp_all [Named]) _
  · takes r (by simp_all [Named]) _
  · takes r (by simp_all [Named]) _
  · takes fits_get trivial (.inr (.inl rfl)) (fun v => [.address (v.setWidth 160)])
  · takes fits_get trivial (.inr (.inr rfl)) (fun v => [.address (v.setWidth 160)])
  · takes r (call := .ownable _) trivial _
  · takes r (call := .ownable _) trivial _
  · takes r (call := .ownable _) trivial _

end

theorem sizes (K : Hash) : Sizes (widthAt K ownableTwoStepExample) := ⟨wide (b := none) (d := 0) rfl, rfl, rfl⟩

/-- The contract with independent mappings. -/
def model (K : Hash) (D : Decoder) (caller : Address) (s : State) (value : U256) (input : Bytes) : Outcome State :=
  Abi.entry K D Router.ownableTwoStepExample (Contracts.ownable2Step K caller) s value input

section
variable {K : Hash} {n : Nat} {S : List Address}

/-- The words and the state agree. -/
abbrev Agrees (K : Hash) (S : List Address) := Inv K ownableTwoStepExample (Cells S) view (fun _ => True)

theorem inv_step (h : Apart K n ownableTwoStepExample (Cells S)) (D : Decoder) {w : OnWords.State Ev} {s : State} (hi : Agrees K S w s)
    {tx : Raw Address} (hx : Within K D Router.ownableTwoStepExample S tx) :
    answer (entry K D tx.env w tx.value tx.input) = answer (model K D tx.env s tx.value tx.input) ∧
    Agrees K S ((entry K D tx.env w tx.value tx.input).after w) ((model K D tx.env s tx.value tx.input).after s) :=
  step (by decide) h D Router.ownableTwoStepExample hi tx.value tx.input fun u f args hr hd _ _ _ =>
    fits (sizes K) K hx.sender u f.rustName (hx.addresses args ⟨u, f, hr, hd⟩)

theorem inv_run (h : Apart K n ownableTwoStepExample (Cells S)) (D : Decoder) (txs : List (Raw Address)) {w : OnWords.State Ev} {s : State}
    (hi : Agrees K S w s) (hx : ∀ tx ∈ txs, Within K D Router.ownableTwoStepExample S tx) :
    Agrees K S (after (entry K D) w txs) (after (model K D) s txs) :=
  steps (run := entry K D) (run' := model K D) (I := Agrees K S) (ok := Within K D Router.ownableTwoStepExample S)
    (fun _ _ _ hi hx => (inv_step h D hi hx).2) txs hi hx

theorem inv_deploy (h : Apart K n ownableTwoStepExample (Cells S)) {owner : Address} {w : OnWords.State Ev} (hd : deploy K owner = some w) :
    Agrees K S w ⟨Erc20.init, Ownable2Step.init owner⟩ := by
  have hz := Props.Constructors.C99_ownable_two_step K owner
  unfold deploy at hd
  obtain ⟨ws, h1, h2⟩ := Option.bind_eq_some_iff.mp hd
  obtain ⟨st, h3, rfl⟩ := Option.map_eq_some_iff.mp h2
  rw [h1, Option.bind_some, h3] at hz
  by_cases h0 : owner = 0#160
  · rw [if_pos h0] at hz; cases hz
  rw [if_neg h0] at hz
  obtain ⟨st', h4, h5⟩ := assign_one (t := ownableTwoStepExample) (by decide) h (C := Cells S) (p := OwnableWords.ownerCell (Ownable2StepWords.base gate)) (.inr (.inl rfl)) (owner.setWidth 256)
  change Constructors.assign K ownableTwoStepExample [(OwnableWords.ownerCell (Ownable2StepWords.base gate), _)] _ = _ at h4
  have hz : some st = some st' := hz.trans h4
  have hz := Option.some.inj hz
  subst hz
  refine ⟨trivial, _, h5, ?_⟩
  have e1 : tokenView (upd (fun _ => 0#256) (OwnableWords.ownerCell (Ownable2StepWords.base gate))
      (owner.setWidth 256 &&& mask (widthAt K ownableTwoStepExample (OwnableWords.ownerCell (Ownable2StepWords.base gate))))) [] = tokenView (fun _ => 0#256) [] :=
    frame' (fun p hp => upd_ne _ _ fun e => hp (under (.inl e))) []
  have e2 : Ownable2StepWords.view gate (upd (fun _ => 0#256) (OwnableWords.ownerCell (Ownable2StepWords.base gate))
      (owner.setWidth 256 &&& mask (widthAt K ownableTwoStepExample (OwnableWords.ownerCell (Ownable2StepWords.base gate))))) [] =
      Ownable2Step.init owner := by
    unfold Ownable2StepWords.view OwnableWords.view
    rw [(sizes K).gate.owner, upd_same, Proofs.Erc721Words.mask20, upd_ne _ _ fun e => Ownable2StepWords.cells_ne e.symm]
    rfl
  exact congrArg₂ State.mk e1 e2

theorem deploys (owner : Address) : deploy K owner = none ↔ owner = ZERO := by
  unfold deploy Constructors.ownableInit
  by_cases e : owner = 0#160
  · rw [if_pos e]; exact ⟨fun _ => e, fun _ => rfl⟩
  · rw [if_neg e]; exact ⟨fun h => (nomatch (h : some _ = none)), fun h => absurd h e⟩

end
end Verif.Proofs.Ownable2StepDeployed

namespace Verif.Proofs.AccessDeployed
open Verif Verif.Storage Verif.AccessExample Verif.AccessDeployed Verif.Spec.AccessDeployed Verif.Spec.StoragePrograms
open Verif.OnWords (token inner)
open Verif.Spec.OnWords Verif.Proofs.OnWords
open Verif.Props.StoragePrograms (Wide wide)
open Verif.Proofs.Deployed (Table UsedBy used_bind used_of_uses uses_mono uses_lift)
open Verif.Proofs.Erc721Words (Sim unit look)
open Verif.Abi (Val Decoder Outcome)
open Verif.Spec.Deployed (answer)
open Verif.Spec.Contracts (Raw after)

/-- The state a table stands for. -/
abbrev view := both State.mk tokenView (AccessWords.view gate)

theorem frame {c c' : Table} (h : ∀ p, ¬ Under token p → c' p = c p) (log : List AccessControl.Event) :
    AccessWords.view gate c' log = AccessWords.view gate c log := by
  unfold AccessWords.view
  rw [funext fun r => h (AccessWords.adminCell gate r) (by simp [Under, token, AccessWords.adminCell, gate])]
  congr 1
  funext r a
  rw [h _ (by simp [Under, token, AccessWords.memberCell, gate])]

theorem frame' {c c' : Table} (h : ∀ p, ¬ Under gate p → c' p = c p) (log : List Erc20.Event) : tokenView c' log = tokenView c log :=
  tokenView_frame (fun q => by simp [token, gate]) h log

/-- The sizes of the cells. -/
structure Sizes (w : List Step → Nat) : Prop where
  token : Wide w token
  gate : AccessWords.Sizes w gate

section
variable {w : List Step → Nat}

theorem sim_inner (hw : Sizes w) (caller : Address) (c : Erc20.Call) :
    Sim w view (inner .erc20 caller c) (unit fun s => do return { s with erc20 := (← lift (Erc20.exec s.erc20 (caller, c))) }) :=
  sim_left (sim_token hw.token caller c) (under_token caller c) (fun _ _ h => frame h) fun a b => by
    unfold unit
    dsimp only
    cases Erc20.exec a (caller, c) <;> rfl

theorem sim_only (caller : Address) (r : AccessControl.Role) :
    Sim w view ((AccessWords.onlyRole gate caller r).lift .access .inr) (look fun s => liftA (AccessControl.onlyRole s.access caller r)) :=
  sim_right (AccessWords.sim_only caller r) (AccessWords.under_only caller r) (fun _ _ h => frame' h) fun a b => by
    unfold look
    dsimp only
    cases AccessControl.onlyRole b caller r <;> rfl

theorem sim_access (hw : Sizes w) (caller : Address) (c : AccessControl.Call) :
    Sim w view ((AccessWords.code gate caller c).lift .access .inr)
      (unit fun s => do return { s with access := (← liftA (AccessControl.exec s.access (caller, c))) }) :=
  sim_right (AccessWords.sim_code hw.gate caller c) (AccessWords.under_code caller c) (fun _ _ h => frame' h) fun a b => by
    unfold unit
    dsimp only
    cases AccessControl.exec b (caller, c) <;> rfl

theorem sim_code (hw : Sizes w) (caller : Address) (call : Call) : Sim w view (code caller call) (unit fun s => exec s (caller, call)) := by
  cases call with
  | makeAdmin a =>
    refine sim_congr (sim_gate (sim_only caller _) (sim_access hw caller (.grantRole TRANSFER_ROLE a))) fun s => ?_
    show _ = unit (fun s => AccessExample.makeAdmin s caller a) s
    unfold unit AccessExample.makeAdmin
    dsimp only
    cases liftA (AccessControl.onlyRole s.access caller AccessControl.DEFAULT_ADMIN_ROLE) <;> rfl
  | transferFrom src dst v =>
    refine sim_congr (sim_gate (sim_only caller _) (sim_inner hw caller (.transferFrom src dst v))) fun s => ?_
    show _ = unit (fun s => AccessExample.transferFrom s caller src dst v) s
    unfold unit AccessExample.transferFrom
    dsimp only
    cases liftA (AccessControl.onlyRole s.access caller TRANSFER_ROLE) <;> rfl
  | setRoleAdmin r n =>
    exact sim_right (AccessWords.sim_setRoleAdmin hw.gate r n) (AccessWords.under_setRoleAdmin r n) (fun _ _ h => frame' h) fun a b => rfl
  | transfer dst v => exact sim_inner hw caller _
  | approve p v => exact sim_inner hw caller _
  | access c => exact sim_access hw caller c

/-- The accounts and the roles of a call. -/
def Named (S : List Address) (N : List U256) : Call → Prop
  | .makeAdmin a => a ∈ S
  | .transferFrom src dst _ => src ∈ S ∧ dst ∈ S
  | .setRoleAdmin r n => r ∈ N ∧ n ∈ N
  | .transfer dst _ => dst ∈ S
  | .approve p _ => p ∈ S
  | .access c => AccessWords.Named S N c

/-- The admin of a role is a role that takes part. -/
abbrev Good (N : List U256) (s : State) : Prop := AccessWords.Good N s.access

section
variable {S : List Address} {N : List U256} {c : Table} {log : List Ev}

theorem cells {p : List Step} (h : AccessWords.Cells gate S N p) : Cells S N p := by
  rcases h with h | h
  · exact .inr (.inl h)
  · exact .inr (.inr h)

theorem used_inner {caller : Address} {call : Erc20.Call} (h : ∀ a ∈ named (caller, call), a ∈ S) :
    UsedBy w (Cells S N) (inner (G := AccessControl.Event) Err.erc20 caller call) c :=
  used_of_uses _ _ (uses_lift _ (uses_mono (fun _ => .inl) _ (Props.StoragePrograms.uses_code (op := (caller, call)) h)))

theorem used_only {caller : Address} (hc : caller ∈ S) {r : AccessControl.Role} (hr : r ∈ N) :
    UsedBy w (Cells S N) ((AccessWords.onlyRole gate caller r).lift Err.access (Sum.inr (α := Erc20.Event))) c :=
  used_of_uses _ _ (uses_lift _ (uses_mono (fun _ => cells) _ (AccessWords.uses_only hc hr)))

/-- Asking for a role changes nothing. -/
theorem only_same {caller : Address} {r : AccessControl.Role} {x : Unit × Table × List Ev}
    (h : onCells w ((AccessWords.onlyRole gate caller r).lift Err.access (Sum.inr (α := Erc20.Event))) c = .ok x) : x.2.1 = c := by
  change onCells w ((if (!decide (c (AccessWords.memberCell gate r caller) ≠ 0#256)) = true then Prog.fail _ else Prog.ret ()).lift _ _) c = _ at h
  split at h
  · cases h
  · cases h; rfl

theorem used_access (h : Good N (view c log)) {caller : Address} (hc : caller ∈ S) {call : AccessControl.Call}
    (hn : AccessWords.Named S N call) :
    UsedBy w (Cells S N) ((AccessWords.code gate caller call).lift Err.access (Sum.inr (α := Erc20.Event))) c :=
  used_lift _ (used_mono (fun _ => cells) _ (AccessWords.used_code (log := rights log) h hc hn))

theorem used_code (h0 : 0#256 ∈ N) (h1 : TRANSFER_ROLE ∈ N) (h : Good N (view c log)) {caller : Address} (hc : caller ∈ S) {call : Call}
    (hn : Named S N call) : UsedBy w (Cells S N) (code caller call) c := by
  cases call with
  | makeAdmin a =>
    refine used_bind (used_only hc h0) fun x hx => ?_
    rw [only_same hx]
    exact used_access h hc ⟨h1, hn⟩
  | transferFrom src dst v => exact used_bind (used_only hc h1) fun _ _ => used_inner (by simp_all [named, Named])
  | setRoleAdmin r n => exact used_of_uses _ _ (uses_lift _ (uses_mono (fun _ => cells) _ (AccessWords.uses_setRoleAdmin hn.1)))
  | transfer dst v => exact used_inner (by simp_all [named, Named])
  | approve p v => exact used_inner (by simp_all [named, Named])
  | access c => exact used_access h hc hn

theorem good_exec {s s' : State} (h : Good N s) {caller : Address} {call : Call} (hn : Named S N call)
    (he : exec s (caller, call) = .ok s') : Good N s' := by
  have token : ∀ {x : Except Erc20.Err Erc20.State},
      (do return { s with erc20 := (← lift x) } : Except Err State) = .ok s' → Good N s' := by
    intro x h'
    obtain ⟨t, _, h'⟩ := bind_eq_ok.mp h'
    cases h'
    exact h
  have access : ∀ {c : AccessControl.Call},
      (do return { s with access := (← liftA (AccessControl.exec s.access (caller, c))) } : Except Err State) = .ok s' → Good N s' := by
    intro c h'
    obtain ⟨t, ht, h'⟩ := bind_eq_ok.mp h'
    cases h'
    have ht : AccessControl.exec s.access (caller, c) = .ok t := by
      revert ht
      cases AccessControl.exec s.access (caller, c) with
      | ok y => intro h; cases h; rfl
      | error e => intro h; cases h
    intro r hr
    show t.admin r ∈ N
    rw [AccessWords.admin_exec ht]
    exact h r hr
  cases call with
  | makeAdmin a => obtain ⟨_, _, h'⟩ := bind_eq_ok.mp he; exact access (c := .grantRole TRANSFER_ROLE a) h'
  | transferFrom src dst v => obtain ⟨_, _, h'⟩ := bind_eq_ok.mp he; exact token h'
  | setRoleAdmin r n =>
    cases he
    intro x hx
    show upd s.access.admin r n x ∈ N
    by_cases e : x = r
    · subst e; rw [upd_same]; exact hn.2
    · rw [upd_ne _ _ e]; exact h x hx
  | transfer dst v => exact token he
  | approve p v => exact token he
  | access c => exact access he

theorem fits (hw : Sizes w) (h0 : 0#256 ∈ N) (h1 : TRANSFER_ROLE ∈ N) (h : Good N (view c log)) (K : Hash) {caller : Address}
    (hc : caller ∈ S) (t f : String) {args : List Val} (ha : ∀ a, Val.address a ∈ args → a ∈ S) (hr : ∀ r, Val.bytes32 r ∈ args → r ∈ N) :
    Fits w (Cells S N) view (Good N) c log (program K caller t f args) (Contracts.accessControl K caller t f args (view c log)) := by
  have r : ∀ {call : Call} (_ : Named S N call) (r : List Val), Fits w (Cells S N) view (Good N) c log
      (OnWords.finish K Contracts.accessReply (fun _ => r) (code caller call))
      (Entry.finish K Contracts.accessReply r (exec (view c log) (caller, call))) := fun hn r =>
    fits_call K _ (sim_code hw caller _) (used_code h0 h1 h hc hn) (fun _ e => good_exec h hn e) r
  have o : ∀ {x : AccessControl.Role} (_ : x ∈ N), Fits w (Cells S N) view (Good N) c log
      (OnWords.finish K Contracts.accessReply (fun _ => []) ((AccessWords.onlyRole gate caller x).lift .access .inr))
      (Contracts.view K Revert.accessControl (view c log) (Contracts.none_ (AccessControl.onlyRole (view c log).access caller x))) := by
    intro x hx
    have hr := fits_sim (w := w) (log := log) (Good := Good N) K Contracts.accessReply (sim_only caller x) (used_only (S := S) (c := c) hc hx)
      (fun _ _ e => (look_ok e).2 ▸ h) (fun _ => [])
    revert hr
    unfold look
    dsimp only
    cases AccessControl.onlyRole (view c log).access caller x <;> exact fun h => h
  have v := fits_views (w := w) (C := Cells S N) (S := S) (Good := Good N) (mk := State.mk) (vg := AccessWords.view gate) (c := c)
    (log := log) h (fun _ => .inl) ha
  unfold program Contracts.accessControl
  refine fits_table (.cons ⟨rfl, rfl, ?_⟩ (.cons ⟨rfl, rfl, ?_⟩ (.cons ⟨rfl, rfl, ?_⟩ (.cons ⟨rfl, rfl, ?_⟩ (.cons ⟨rfl, rfl, ?_⟩
    (.cons ⟨rfl, rfl, ?_⟩ (.cons ⟨rfl, rfl, ?_⟩ (.cons ⟨rfl, rfl, ?_⟩ (.cons ⟨rfl, rfl, ?_⟩ (.cons ⟨rfl, rfl, ?_⟩ (.cons ⟨rfl, rfl, ?_⟩ v)))))))))))
  · takes r (call := .makeAdmin _) (ha _ (by simp)) _
  · takes r (call := .transferFrom _ _ _) ⟨ha _ (by simp), ha _ (by simp)⟩ _
  · takes r (call := .setRoleAdmin _ _) ⟨hr _ (by simp), hr _ (by simp)⟩ _
  · takes r (call := .transfer _ _) (ha _ (by simp)) _
  · takes r (call := .approve _ _) (ha _ (by simp)) _
  · takes fits_get h (.inr (.inl ⟨_, hr _ (by simp), _, ha _ (by simp), rfl⟩)) (fun v => [.bool (decide (v ≠ 0#256))])
  · takes o (hr _ (by simp))
  · takes fits_get h (.inr (.inr ⟨_, hr _ (by simp), rfl⟩)) (fun v => [.bytes32 v])
  · takes r (call := .access (.grantRole _ _)) ⟨hr _ (by simp), ha _ (by simp)⟩ _
  · takes r (call := .access (.revokeRole _ _)) ⟨hr _ (by simp), ha _ (by simp)⟩ _
  · takes r (call := .access (.renounceRole _ _)) ⟨hr _ (by simp), ha _ (by simp)⟩ _

end
end

theorem sizes (K : Hash) : Sizes (widthAt K accessControlExample) := ⟨wide (b := none) (d := 0) rfl, fun _ _ => rfl, fun _ => rfl⟩

/-- The contract with independent mappings. -/
def model (K : Hash) (D : Decoder) (caller : Address) (s : State) (value : U256) (input : Bytes) : Outcome State :=
  Abi.entry K D Router.accessControlExample (Contracts.accessControl K caller) s value input

/-- The state after deployment: the deployer has the default admin role. -/
def start (deployer : Address) : State :=
  ⟨Erc20.init, { AccessControl.init with members := upd2 AccessControl.init.members 0#256 deployer true }⟩

section
variable {K : Hash} {n : Nat} {S : List Address} {N : List U256}

/-- The words and the state agree. -/
abbrev Agrees (K : Hash) (S : List Address) (N : List U256) := Inv K accessControlExample (Cells S N) view (Good N)

/-- What the transactions are about. -/
abbrev About (K : Hash) (D : Decoder) (S : List Address) (N : List U256) (tx : Raw Address) : Prop :=
  Within K D Router.accessControlExample S tx ∧ Roles K D Router.accessControlExample N tx

theorem inv_step (h : Setting K n S N) (D : Decoder) {w : OnWords.State Ev} {s : State} (hi : Agrees K S N w s)
    {tx : Raw Address} (hx : About K D S N tx) :
    answer (entry K D tx.env w tx.value tx.input) = answer (model K D tx.env s tx.value tx.input) ∧
    Agrees K S N ((entry K D tx.env w tx.value tx.input).after w) ((model K D tx.env s tx.value tx.input).after s) :=
  step (by decide) h.apart D Router.accessControlExample hi tx.value tx.input fun u f args hr hd _ _ hg =>
    fits (sizes K) h.admin h.transfer hg K hx.1.sender u f.rustName (hx.1.addresses args ⟨u, f, hr, hd⟩) (hx.2 args ⟨u, f, hr, hd⟩)

theorem inv_run (h : Setting K n S N) (D : Decoder) (txs : List (Raw Address)) {w : OnWords.State Ev} {s : State}
    (hi : Agrees K S N w s) (hx : ∀ tx ∈ txs, About K D S N tx) :
    Agrees K S N (after (entry K D) w txs) (after (model K D) s txs) :=
  steps (run := entry K D) (run' := model K D) (I := Agrees K S N) (ok := About K D S N)
    (fun _ _ _ hi hx => (inv_step h D hi hx).2) txs hi hx

theorem inv_deploy (h : Setting K n S N) {deployer : Address} (hs : deployer ∈ S) {w : OnWords.State Ev}
    (hd : deploy K deployer = some w) : Agrees K S N w (start deployer) := by
  have hz := Props.Constructors.C99_access_control K deployer
  unfold deploy at hd
  obtain ⟨ws, h1, h2⟩ := Option.bind_eq_some_iff.mp hd
  obtain ⟨st, h3, rfl⟩ := Option.map_eq_some_iff.mp h2
  rw [h1, Option.bind_some, h3] at hz
  obtain ⟨st', h4, h5⟩ := assign_one (t := accessControlExample) (by decide) h.apart (p := AccessWords.memberCell gate 0#256 deployer)
    (.inr (.inl ⟨_, h.admin, _, hs, rfl⟩)) 1#256
  have hz : some st = some st' := hz.trans h4
  have hz := Option.some.inj hz
  subst hz
  refine ⟨fun _ _ => h.admin, _, h5, ?_⟩
  have e0 : (1#256 &&& mask (widthAt K accessControlExample (AccessWords.memberCell gate 0#256 deployer))) = 1#256 := by
    rw [(sizes K).gate.member]; decide
  rw [e0]
  have e1 : tokenView (upd (fun _ => 0#256) (AccessWords.memberCell gate 0#256 deployer) 1#256) [] = tokenView (fun _ => 0#256) [] :=
    frame' (fun p hp => upd_ne _ _ fun e => hp ⟨_, e.symm⟩) []
  exact congrArg₂ State.mk e1 (AccessWords.view_member _ _ _ _ _)

theorem deploys (deployer : Address) : ∃ w, deploy K deployer = some w := by
  unfold deploy Constructors.accessControlInit
  dsimp only
  split <;> exact ⟨_, rfl⟩

end
end Verif.Proofs.AccessDeployed
