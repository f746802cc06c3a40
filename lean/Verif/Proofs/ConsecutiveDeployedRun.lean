import Verif.Spec.ConsecutiveDeployed
import Verif.Proofs.ConsecutiveDeployed
import Verif.Proofs.NftDeployedRun
import Verif.Props.ConsecutiveConstructor
/-! # Lemmas: the cells that the ERC-721 example with batches uses, its constructor and its histories -/

namespace Verif.Proofs.ConsecutiveDeployed
open Verif Verif.Storage Verif.Spec.Storage Verif.Spec.Constructors Verif.Spec.StoragePrograms Verif.Spec.ConsecutiveDeployed
open Verif.Props.StoragePrograms (SameOutcome onCells_bind uses_bind uses_ite)
open Verif.Proofs.Deployed (Table UsedBy used_bind used_of_uses uses_mono onCells_lift programs_run)
open Verif.Proofs.Erc721Words (Sim SimT unit look)
open Verif.Proofs.NftDeployed (look_ok unit_ok used_mono used_lift upd_owners)
open Verif.ConsecutiveDeployed (Ev Code token count keyAt valueAt bucket firstCell maxCell inner program)
open Verif.Consecutive (Err Inv)
open Verif.Abi (Val Decoder Outcome)
open Verif.Math (average)

/-! ## What holds of the states of a history -/

/-- The state of a history among the accounts `S` with the tokens `N` and at most `m` batches; the other tokens stay with `base`. -/
structure Good (base : U256 → Address) (S : List Address) (N : List U256) (m : Nat) (s : Consecutive.State) : Prop where
  inv : Inv s
  outside : ∀ id, id ∉ N → Consecutive.own s id = base id
  owners : ∀ id ∈ N, s.erc721.owners id ∈ S
  values : ∀ x ∈ s.sequentialOwnership, x.value ∈ S
  length : s.sequentialOwnership.length ≤ m

section
variable {base : U256 → Address} {S : List Address} {N : List U256} {m : Nat} {s : Consecutive.State}

theorem index_mem {t : Checkpoints.Trace 96 160} {pos : U256} {x : Checkpoints.Checkpoint 96 160}
    (h : Checkpoints.index t pos = .ok x) : x ∈ t := by
  unfold Checkpoints.index at h
  cases hx : t[pos.toNat]? with
  | none => rw [hx] at h; cases h
  | some y => rw [hx] at h; cases h; exact List.mem_of_getElem? hx

theorem lookup_mem (h0 : ZERO ∈ S) {t : Checkpoints.Trace 96 160} (h : ∀ x ∈ t, x.value ∈ S) {key : U96} {v : Address}
    (hv : Checkpoints.lowerLookup t key = .ok v) : v ∈ S := by
  unfold Checkpoints.lowerLookup at hv
  dsimp only at hv
  rw [bind_eq_ok] at hv
  obtain ⟨pos, _, hv⟩ := hv
  by_cases e : pos = Checkpoints.length t
  · rw [if_pos e] at hv
    cases hv
    exact h0
  · rw [if_neg e, bind_eq_ok] at hv
    obtain ⟨x, hx, hv⟩ := hv
    cases hv
    exact h x (index_mem hx)

theorem owner_mem (h0 : ZERO ∈ S) (h : Good base S N m s) {id : U256} (hid : id ∈ N) {a : Address}
    (ha : Consecutive.ownerOfInternal s id = .ok a) : a ∈ S := by
  unfold Consecutive.ownerOfInternal at ha
  dsimp only at ha
  split at ha
  · cases ha; exact h.owners id hid
  · split at ha
    · cases ha; exact h0
    · cases hl : Checkpoints.lowerLookup s.sequentialOwnership (id.setWidth 96) with
      | error e => rw [hl] at ha; cases ha
      | ok v => rw [hl] at ha; cases ha; exact lookup_mem h0 h.values hl

/-- The accounts of a call are in `S` and its tokens in `N`. -/
def Named (S : List Address) (N : List U256) : Consecutive.Call → Prop
  | .transferFrom src dst id => src ∈ S ∧ dst ∈ S ∧ id ∈ N
  | .safeTransferFrom src dst id => src ∈ S ∧ dst ∈ S ∧ id ∈ N
  | .safeTransferFromWithData src dst id _ => src ∈ S ∧ dst ∈ S ∧ id ∈ N
  | .approve dst id => dst ∈ S ∧ id ∈ N
  | .setApprovalForAll op _ => op ∈ S
  | .mint dst id => dst ∈ S ∧ id ∈ N
  | .safeMint dst id _ => dst ∈ S ∧ id ∈ N
  | .burn id => id ∈ N
  | .transfer src dst id => src ∈ S ∧ dst ∈ S ∧ id ∈ N
  | .safeTransfer src dst id _ => src ∈ S ∧ dst ∈ S ∧ id ∈ N

theorem good_update (h : Good base S N m s) {dst : Address} (hd : dst ∈ S) {id : U256} (hid : id ∈ N) {auth a : Address} {s' : Consecutive.State}
    (he : Consecutive.update s dst id auth = .ok (a, s')) : Good base S N m s' := by
  rw [Consecutive.update_eq h.inv.sorted] at he
  split at he
  · cases he
    refine ⟨Consecutive.inv_updatedC h.inv dst id, fun i hi => ?_, upd_owners h.owners hd, h.values, h.length⟩
    rw [Consecutive.own_updatedC h.inv, upd_ne _ _ fun e : i = id => hi (e ▸ hid)]
    exact h.outside i hi
  · split at he <;> cases he

theorem good_mint (h : Good base S N m s) {dst : Address} (hd : dst ∈ S) {id : U256} (hid : id ∈ N) {s' : Consecutive.State}
    (he : Consecutive.mint s dst id = .ok s') : Good base S N m s' := by
  unfold Consecutive.mint at he
  by_cases hz : dst = ZERO
  · rw [if_pos hz] at he; cases he
  rw [if_neg hz] at he
  simp only [except_pure] at he
  change (Consecutive.update s dst id ZERO >>= _) = _ at he
  rw [bind_eq_ok] at he
  obtain ⟨⟨a, t⟩, ht, he⟩ := he
  dsimp only at he
  split at he
  · cases he
  · cases he; exact good_update h hd hid ht

theorem good_burn (h0 : ZERO ∈ S) (h : Good base S N m s) {id : U256} (hid : id ∈ N) {s' : Consecutive.State}
    (he : Consecutive.burn s id = .ok s') : Good base S N m s' := by
  unfold Consecutive.burn at he
  rw [bind_eq_ok] at he
  obtain ⟨⟨a, t⟩, ht, he⟩ := he
  dsimp only at he
  split at he
  · cases he
  · cases he; exact good_update h h0 hid ht

theorem good_transfer (h : Good base S N m s) {src dst : Address} (hd : dst ∈ S) {id : U256} (hid : id ∈ N) {s' : Consecutive.State}
    (he : Consecutive.transferInternal s src dst id = .ok s') : Good base S N m s' := by
  unfold Consecutive.transferInternal at he
  by_cases hz : dst = ZERO
  · rw [if_pos hz] at he; cases he
  rw [if_neg hz] at he
  simp only [except_pure] at he
  change (Consecutive.update s dst id ZERO >>= _) = _ at he
  rw [bind_eq_ok] at he
  obtain ⟨⟨a, t⟩, ht, he⟩ := he
  dsimp only at he
  split at he
  · cases he
  · dsimp only [bind, Except.bind] at he
    split at he
    · cases he
    · cases he; exact good_update h hd hid ht

theorem good_transferFrom (h : Good base S N m s) {caller src dst : Address} (hd : dst ∈ S) {id : U256} (hid : id ∈ N) {s' : Consecutive.State}
    (he : Consecutive.transferFrom s caller src dst id = .ok s') : Good base S N m s' := by
  unfold Consecutive.transferFrom at he
  by_cases hz : dst = ZERO
  · rw [if_pos hz] at he; cases he
  rw [if_neg hz] at he
  simp only [except_pure] at he
  change (Consecutive.update s dst id caller >>= _) = _ at he
  rw [bind_eq_ok] at he
  obtain ⟨⟨a, t⟩, ht, he⟩ := he
  dsimp only at he
  split at he
  · cases he
  · cases he; exact good_update h hd hid ht

/-- The state before a receiver is asked. -/
theorem ask_ok {x : Except Err Consecutive.State} {c : Except Erc721.Err Unit} {s' : Consecutive.State}
    (h : (do let s1 ← x; Consecutive.lift c; (return s1 : Except Err Consecutive.State)) = .ok s') : x = .ok s' := by
  cases x with
  | error e => cases h
  | ok s1 =>
    cases c with
    | error e => cases h
    | ok _ => cases h; rfl

theorem good_exec (h0 : ZERO ∈ S) (h : Good base S N m s) {s' : Consecutive.State} {tx : Consecutive.Tx} (hn : Named S N tx.call)
    (he : Consecutive.exec s tx = .ok s') : Good base S N m s' := by
  obtain ⟨caller, R, call⟩ := tx
  unfold Consecutive.exec at he
  dsimp only at he hn
  by_cases hc : caller = ZERO
  · simp [hc] at he
  rw [if_neg hc] at he
  cases call with
  | transferFrom src dst id => exact good_transferFrom h hn.2.1 hn.2.2 he
  | safeTransferFrom src dst id => exact good_transferFrom h hn.2.1 hn.2.2 (ask_ok he)
  | safeTransferFromWithData src dst id data => exact good_transferFrom h hn.2.1 hn.2.2 (ask_ok he)
  | approve dst id =>
    dsimp only at he
    unfold Consecutive.approve Consecutive.approveInternal at he
    rw [if_pos (.inl rfl), bind_eq_ok] at he
    obtain ⟨o, _, he⟩ := he
    dsimp only [bind, Except.bind] at he
    split at he
    · cases he
    · cases he
      exact ⟨⟨h.inv.sorted, h.inv.room⟩, h.outside, h.owners, h.values, h.length⟩
  | setApprovalForAll op b =>
    dsimp only at he
    unfold Consecutive.setApprovalForAll at he
    rw [bind_eq_ok] at he
    obtain ⟨t, ht, he⟩ := he
    cases he
    cases hs : Erc721.setApprovalForAll s.erc721 caller op b with
    | error e => rw [hs] at ht; cases ht
    | ok t' =>
      rw [hs] at ht
      cases ht
      obtain ⟨_, rfl⟩ := Erc721.setApprovalForAll_ok.mp hs
      exact ⟨⟨h.inv.sorted, h.inv.room⟩, h.outside, h.owners, h.values, h.length⟩
  | mint dst id => exact good_mint h hn.1 hn.2 he
  | safeMint dst id data => exact good_mint h hn.1 hn.2 (ask_ok he)
  | burn id => exact good_burn h0 h hn he
  | transfer src dst id => exact good_transfer h hn.2.1 hn.2.2 he
  | safeTransfer src dst id data => exact good_transfer h hn.2.1 hn.2.2 (ask_ok he)

/-! ## The cells that are used -/

variable {w : List Step → Nat} {c : Table} {log : List Ev} {α β : Type}

theorem used_reads {E V : Type} {P : List Step → Prop} {p : Prog E V α} {g : α → Prog E V β} {x : Except E α} (hu : UsedBy w P p c)
    (hx : Reads w p c x) (hg : ∀ a, x = .ok a → UsedBy w P (g a) c) : UsedBy w P (p.bind g) c := by
  refine used_bind hu fun r hr => ?_
  unfold Reads at hx
  rw [hr] at hx
  cases x with
  | error e => cases hx
  | ok a =>
    injection hx with hx
    subst hx
    exact hg a rfl

theorem cell_count : Cells S N m count := .inr (.inr (.inr (.inr (.inl rfl))))
theorem cell_key {i : Nat} (h : i < m) : Cells S N m (keyAt i) := .inr (.inr (.inr (.inr (.inr (.inl ⟨i, h, rfl⟩)))))
theorem cell_value {i : Nat} (h : i < m) : Cells S N m (valueAt i) := .inr (.inr (.inr (.inr (.inr (.inr ⟨i, h, rfl⟩)))))
theorem cell_first : Cells S N m firstCell := .inr (.inl rfl)
theorem cell_max : Cells S N m maxCell := .inr (.inr (.inl rfl))
theorem cell_bucket {id : U256} (h : id ∈ N) : Cells S N m (bucket (BitMap.getBucket id)) := .inr (.inr (.inr (.inl ⟨id, h, rfl⟩)))

theorem used_inner {p : Erc721Words.Code α} (h : UsedBy w (Spec.Erc721Words.Cells token S N) p c) : UsedBy w (Cells S N m) (inner p) c :=
  used_lift p (used_mono (fun _ => Or.inl) p h)

theorem uses_inner {p : Erc721Words.Code α} (h : Uses (Spec.Erc721Words.Cells token S N) p) : Uses (Cells S N m) (inner p) :=
  Proofs.Deployed.uses_lift p (uses_mono (fun _ => Or.inl) p h)

/-- Reading a checkpoint. -/
theorem used_index (hl : (c count).toNat ≤ m) {pos : U256} {g : Nat → Code α}
    (hg : pos.toNat < m → UsedBy w (Cells S N m) (g pos.toNat) c) : UsedBy w (Cells S N m) ((ConsecutiveDeployed.index pos).bind g) c := by
  unfold ConsecutiveDeployed.index
  refine ⟨cell_count, ?_⟩
  dsimp only
  split
  · exact hg (by omega)
  · trivial

theorem used_lookup (hl : (c count).toNat ≤ m) (key : U96) (low high : U256) :
    UsedBy w (Cells S N m) (ConsecutiveDeployed.lowerBinaryLookup key low high) c := by
  rw [ConsecutiveDeployed.lowerBinaryLookup]
  split
  · next h =>
    refine used_index hl fun hi => ⟨cell_key hi, ?_⟩
    dsimp only
    split
    · exact used_lookup hl key (average low high + 1#256) high
    · exact used_lookup hl key low (average low high)
  · trivial
termination_by high.toNat - low.toNat
decreasing_by
  all_goals
    have h1 : low.toNat < high.toNat := BitVec.lt_def.mp (by assumption)
    have h2 := Verif.Math.average_toNat low high
    have _h3 := high.isLt
    try rw [toNat_add_of_lt (by rw [h2]; show _ + 1 < _; omega)]
    rw [h2]
    first
      | omega
      | show high.toNat - ((low.toNat + high.toNat) / 2 + 1) < _; omega

theorem used_lower (hl : (c count).toNat ≤ m) (key : U96) : UsedBy w (Cells S N m) (ConsecutiveDeployed.lowerLookup key) c := by
  refine ⟨cell_count, used_reads (used_lookup hl _ _ _) (reads_lookup c _ _ _) fun pos _ => ?_⟩
  split
  · trivial
  · exact used_index hl fun hi => ⟨cell_value hi, trivial⟩

theorem used_next (hl : (c count).toNat ≤ m) : UsedBy w (Cells S N m) ConsecutiveDeployed.nextConsecutiveId c := by
  refine used_reads (x := Consecutive.liftC (Checkpoints.latestCheckpoint (trace c))) ?_ (reads_latest c) fun a _ => ?_
  · refine ⟨cell_count, ?_⟩
    dsimp only
    split
    · trivial
    · exact used_index hl fun hi => ⟨cell_key hi, cell_value hi, trivial⟩
  · cases a with
    | none => exact ⟨cell_first, trivial⟩
    | some x => trivial

theorem length_eq (c : Table) (log : List Ev) : (view c log).sequentialOwnership.length = (c count).toNat := trace_length c

theorem used_owner (hl : (c count).toNat ≤ m) {id : U256} (hid : id ∈ N) :
    UsedBy w (Cells S N m) (ConsecutiveDeployed.ownerOfInternal id) c := by
  refine used_reads (x := .ok _) (used_inner ⟨.inl ⟨id, hid, rfl⟩, trivial⟩) rfl fun o _ => ?_
  split
  · trivial
  · refine used_reads (x := .ok _) ⟨cell_first, trivial⟩ rfl fun first _ => ?_
    split
    · trivial
    · refine used_reads (x := .ok _) ⟨cell_bucket hid, trivial⟩ rfl fun b _ => ?_
      split
      · trivial
      · exact used_lower hl _

theorem used_owned (hl : (c count).toNat ≤ m) {id : U256} (hid : id ∈ N) :
    UsedBy w (Cells S N m) (ConsecutiveDeployed.requireOwned id) c :=
  used_bind (used_owner hl hid) fun _ _ => used_of_uses _ _ (uses_ite trivial trivial)

theorem used_getApproved (hl : (c count).toNat ≤ m) {id : U256} (hid : id ∈ N) :
    UsedBy w (Cells S N m) (ConsecutiveDeployed.getApproved id) c :=
  used_bind (used_owned hl hid) fun _ _ => used_inner ⟨.inr (.inr (.inl ⟨id, hid, rfl⟩)), trivial⟩

theorem uses_store {dst : Address} {id : U256} (hid : id ∈ N) :
    Uses (Cells S N m) (inner (.set (Erc721Words.approved token id) (dst.setWidth 256) (.ret ()))) :=
  uses_inner ⟨.inr (.inr (.inl ⟨id, hid, rfl⟩)), trivial⟩

theorem used_approve (h0 : ZERO ∈ S) (h : Good base S N m (view c log)) {dst caller : Address} (hc : caller ∈ S) {id : U256} (hid : id ∈ N) :
    UsedBy w (Cells S N m) (ConsecutiveDeployed.approveInternal dst id caller true) c := by
  have hl : (c count).toNat ≤ m := by rw [← length_eq c log]; exact h.length
  unfold ConsecutiveDeployed.approveInternal
  dsimp only
  rw [if_pos (.inl rfl)]
  refine used_reads (used_owned hl hid) (reads_owned c log id) fun o ho => used_of_uses _ _ ?_
  have hm : o ∈ S := by
    unfold Consecutive.requireOwned at ho
    rw [bind_eq_ok] at ho
    obtain ⟨a, ha, ho⟩ := ho
    dsimp only [bind, Except.bind] at ho
    split at ho
    · cases ho
    · cases ho; exact owner_mem h0 h hid ha
  refine uses_bind (uses_ite (uses_bind (uses_inner ⟨.inr (.inr (.inr ⟨o, hm, caller, hc, rfl⟩)), fun _ => trivial⟩) fun _ =>
    uses_ite trivial trivial) trivial) fun _ => ?_
  rw [if_pos rfl]
  exact uses_inner ⟨.inr (.inr (.inl ⟨id, hid, rfl⟩)), trivial⟩

theorem used_update (hw : Sizes w) (h0 : ZERO ∈ S) (h : Good base S N m (view c log)) {dst auth : Address} (hd : dst ∈ S) (ha : auth ∈ S)
    {id : U256} (hid : id ∈ N) : UsedBy w (Cells S N m) (ConsecutiveDeployed.update dst id auth) c := by
  have hl : (c count).toNat ≤ m := by rw [← length_eq c log]; exact h.length
  refine used_bind ?_ fun r hr => used_bind ?_ fun _ _ => trivial
  · refine used_reads (used_owner hl hid) (reads_owner c log id) fun src hs => used_of_uses _ _ ?_
    have hs := owner_mem h0 h hid hs
    refine uses_bind (uses_ite (uses_inner (Proofs.Erc721Words.uses_check hs ha hid)) trivial) fun _ =>
      uses_bind (uses_ite (uses_bind ?_ fun _ => uses_inner (Proofs.Erc721Words.uses_change hs _)) trivial) fun _ =>
      uses_bind (uses_ite (uses_inner (Proofs.Erc721Words.uses_change hd _)) trivial) fun _ => uses_inner ⟨.inl ⟨id, hid, rfl⟩, trivial⟩
    unfold ConsecutiveDeployed.approveInternal
    dsimp only
    rw [if_neg (by simp)]
    exact uses_store hid
  · have hs := sim_updateBase hw dst id auth c log
    rw [hr] at hs
    have hs : Consecutive.updateBase (view c log) dst id auth = .ok (r.1, view r.2.1 (log ++ r.2.2)) := hs
    have hlen : (r.2.1 count).toNat ≤ m := by
      rw [← length_eq r.2.1 (log ++ r.2.2)]
      rw [Consecutive.updateBase_eq h.inv.sorted] at hs
      split at hs
      · injection hs with hs
        injection hs with _ hs
        rw [← hs]
        exact h.length
      · split at hs <;> cases hs
    unfold ConsecutiveDeployed.recordBurn
    split
    · refine used_reads (used_next hlen) (reads_next r.2.1 log) fun next _ => ?_
      split
      · refine used_reads (x := .ok _) ⟨cell_bucket hid, trivial⟩ rfl fun b _ => ?_
        split
        · trivial
        · exact ⟨cell_bucket hid, cell_bucket hid, trivial⟩
      · trivial
    · trivial

theorem used_transferFrom (hw : Sizes w) (h0 : ZERO ∈ S) (h : Good base S N m (view c log)) {caller src dst : Address} (hc : caller ∈ S)
    (hd : dst ∈ S) {id : U256} (hid : id ∈ N) : UsedBy w (Cells S N m) (ConsecutiveDeployed.transferFrom caller src dst id) c := by
  unfold ConsecutiveDeployed.transferFrom
  split
  · trivial
  · exact used_bind (used_update hw h0 h hd hc hid) fun _ _ => used_of_uses _ _ (uses_ite trivial trivial)

theorem used_mint (hw : Sizes w) (h0 : ZERO ∈ S) (h : Good base S N m (view c log)) {dst : Address} (hd : dst ∈ S) {id : U256} (hid : id ∈ N) :
    UsedBy w (Cells S N m) (ConsecutiveDeployed.mint dst id) c := by
  unfold ConsecutiveDeployed.mint
  split
  · trivial
  · exact used_bind (used_update hw h0 h hd h0 hid) fun _ _ => used_of_uses _ _ (uses_ite trivial trivial)

theorem used_transfer (hw : Sizes w) (h0 : ZERO ∈ S) (h : Good base S N m (view c log)) {src dst : Address} (hd : dst ∈ S) {id : U256}
    (hid : id ∈ N) : UsedBy w (Cells S N m) (ConsecutiveDeployed.transferInternal src dst id) c := by
  unfold ConsecutiveDeployed.transferInternal
  split
  · trivial
  · exact used_bind (used_update hw h0 h hd h0 hid) fun _ _ => used_of_uses _ _ (uses_ite trivial (uses_ite trivial trivial))

theorem used_ask {p : Code Unit} (h : UsedBy w (Cells S N m) p c) (R : Erc721.Receivers) (op src dst : Address) (id : U256) (data : Bytes) :
    UsedBy w (Cells S N m) (ConsecutiveDeployed.andAsk p R op src dst id data) c :=
  used_bind h fun _ _ => used_of_uses _ _ (uses_inner (Proofs.Erc721Words.uses_received ..))

theorem used_code (hw : Sizes w) (h0 : ZERO ∈ S) (h : Good base S N m (view c log)) (R : Erc721.Receivers) {caller : Address} (hc : caller ∈ S)
    {call : Consecutive.Call} (hn : Named S N call) : UsedBy w (Cells S N m) (ConsecutiveDeployed.code R caller call) c := by
  unfold ConsecutiveDeployed.code
  split
  · trivial
  cases call with
  | transferFrom src dst id => exact used_transferFrom hw h0 h hc hn.2.1 hn.2.2
  | safeTransferFrom src dst id => exact used_ask (used_transferFrom hw h0 h hc hn.2.1 hn.2.2) ..
  | safeTransferFromWithData src dst id data => exact used_ask (used_transferFrom hw h0 h hc hn.2.1 hn.2.2) ..
  | approve dst id => exact used_approve h0 h hc hn.2
  | setApprovalForAll op b =>
    exact used_inner (used_of_uses _ _ (uses_ite trivial ⟨.inr (.inr (.inr ⟨caller, hc, op, hn, rfl⟩)), trivial⟩))
  | mint dst id => exact used_mint hw h0 h hn.1 hn.2
  | safeMint dst id data => exact used_ask (used_mint hw h0 h hn.1 hn.2) ..
  | burn id => exact used_bind (used_update hw h0 h h0 h0 hn) fun _ _ => used_of_uses _ _ (uses_ite trivial trivial)
  | transfer src dst id => exact used_transfer hw h0 h hn.2.1 hn.2.2
  | safeTransfer src dst id data => exact used_ask (used_transfer hw h0 h hn.2.1 hn.2.2) ..

/-! ## The functions -/

/-- The program does what the function does, and uses the cells only. -/
def Row (w : List Step → Nat) (base : U256 → Address) (S : List Address) (N : List U256) (m : Nat) (c : Table) (log : List Ev)
    (p : Prog (Option Bytes) Ev (List Val)) (x : Except (Option Bytes) (Consecutive.State × List Val)) : Prop :=
  UsedBy w (Cells S N m) p c ∧ match onCells w p c, x with
    | .error e, .error e' => e = e'
    | .ok r, .ok y => y.2 = r.1 ∧ y.1 = view r.2.1 (log ++ r.2.2) ∧ Good base S N m y.1
    | _, _ => False

theorem row_fail : Row w base S N m c log (.fail none) (.error none) := ⟨trivial, rfl⟩

theorem row_ret (h : Good base S N m (view c log)) (r : List Val) : Row w base S N m c log (.ret r) (.ok (view c log, r)) :=
  ⟨trivial, rfl, (congrArg (view c) (List.append_nil log)).symm, h⟩

theorem row_sim (K : Hash) {p : Code α} {g : Consecutive.State → Except Err (α × Consecutive.State)} (hs : Sim w view p g)
    (hu : UsedBy w (Cells S N m) p c) (hg : ∀ a s', g (view c log) = .ok (a, s') → Good base S N m s') (f : α → List Val) :
    Row w base S N m c log (ConsecutiveDeployed.finish K f p) (match g (view c log) with
      | .error e => .error ((Revert.erc721Consecutive e).data K)
      | .ok r => .ok (r.2, f r.1)) := by
  refine ⟨used_bind (used_lift p hu) fun _ _ => trivial, ?_⟩
  have h1 := hs c log
  have e : onCells w (ConsecutiveDeployed.finish K f p) c = match onCells w p c with
      | .error e => .error ((Revert.erc721Consecutive e).data K)
      | .ok r => .ok (f r.1, r.2.1, r.2.2) := by
    unfold ConsecutiveDeployed.finish
    rw [onCells_bind, onCells_lift]
    cases onCells w p c with
    | error e => rfl
    | ok r =>
      show Except.ok (f r.1, r.2.1, r.2.2.map id ++ []) = _
      rw [List.map_id, List.append_nil]
  rw [e]
  cases hm : onCells w p c with
  | error e =>
    rw [hm] at h1
    rw [show g (view c log) = .error e from h1]
  | ok r =>
    rw [hm] at h1
    have h1 : g (view c log) = .ok (r.1, view r.2.1 (log ++ r.2.2)) := h1
    have h2 := hg _ _ h1
    rw [h1]
    exact ⟨rfl, rfl, h2⟩

theorem row_call (hw : Sizes w) (h0 : ZERO ∈ S) (h : Good base S N m (view c log)) (K : Hash) (R : Erc721.Receivers) {caller : Address}
    (hc : caller ∈ S) {call : Consecutive.Call} (hn : Named S N call) :
    Row w base S N m c log (ConsecutiveDeployed.finish K (fun _ => []) (ConsecutiveDeployed.code R caller call))
      (Entry.finish K Revert.erc721Consecutive [] (Consecutive.exec (view c log) ⟨caller, R, call⟩)) := by
  have hr := row_sim K (sim_code hw R caller call) (used_code hw h0 h R hc hn)
    (fun _ _ e => good_exec h0 h hn (unit_ok e)) (fun _ => [])
  revert hr
  unfold unit
  dsimp only
  cases Consecutive.exec (view c log) ⟨caller, R, call⟩ <;> exact fun h => h

theorem row_look (h : Good base S N m (view c log)) (K : Hash) {p : Code α} {g : Consecutive.State → Except Err α} (hs : Sim w view p (look g))
    (hu : UsedBy w (Cells S N m) p c) (f : α → Val) :
    Row w base S N m c log (ConsecutiveDeployed.finish K (fun a => [f a]) p)
      (Contracts.view K Revert.erc721Consecutive (view c log) (Contracts.one f (g (view c log)))) := by
  have hr := row_sim K hs hu (fun _ _ e => (look_ok e).2 ▸ h) (fun a => [f a])
  revert hr
  unfold look
  cases g (view c log) <;> exact fun h => h

theorem sim_balance (a : Address) :
    Sim w view (inner (Erc721Words.balanceOf token a)) (look fun s => Consecutive.balanceOf s a) := by
  have h := sim_inner (w := w) (under_balance a) (Proofs.Erc721Words.sim_balance a)
  intro c log
  refine Eq.trans ?_ (h c log)
  unfold look inside Consecutive.balanceOf
  dsimp only
  cases Erc721.balanceOf (view c log).erc721 a <;> rfl

theorem sim_getApproved (id : U256) : Sim w view (ConsecutiveDeployed.getApproved id) (look fun s => Consecutive.getApproved s id) :=
  sim_of_reads fun c log => reads_getApproved c log id

theorem sim_operator (o p : Address) : Sim w view (inner (Erc721Words.isApprovedForAll token o p))
    (look fun s => .ok (Consecutive.isApprovedForAll s o p)) :=
  sim_of_reads fun _ _ => rfl

theorem dispatch_row {t f : String} {args : List Val} {l : List (String × String × (List Val → Prog (Option Bytes) Ev (List Val)))}
    {l' : List (String × String × (List Val → Except (Option Bytes) (Consecutive.State × List Val)))}
    (h : List.Forall₂ (fun r r' => r.1 = r'.1 ∧ r.2.1 = r'.2.1 ∧ Row w base S N m c log (r.2.2 args) (r'.2.2 args)) l l') :
    Row w base S N m c log (ConsecutiveDeployed.dispatch t f args l) (Entry.dispatch t f args l') := by
  unfold ConsecutiveDeployed.dispatch Entry.dispatch
  induction h with
  | nil => exact row_fail
  | cons h _ ih =>
    obtain ⟨h1, h2, h3⟩ := h
    rw [List.find?_cons, List.find?_cons, h1, h2]
    cases decide (_ = t) && decide (_ = f) with
    | true => exact h3
    | false => exact ih

/-- A function that takes these arguments and no others. -/
syntax "argumentsC" term : tactic
macro_rules
  | `(tactic| argumentsC $t) => `(tactic| (
      dsimp only
      split
      · exact $t
      · next h =>
        split
        · first | exact absurd rfl h | exact absurd rfl (h _) | exact absurd rfl (h _ _) | exact absurd rfl (h _ _ _) | exact absurd rfl (h _ _ _ _)
        · exact row_fail))

theorem row_program (hw : Sizes w) (h0 : ZERO ∈ S) (h : Good base S N m (view c log)) (K : Hash) (D : Decoder) (env : Contracts.Env)
    (hc : env.caller ∈ S) (t f : String) {args : List Val} (ha : ∀ a, Val.address a ∈ args → a ∈ S)
    (hv : ∀ v, Val.uint256 v ∈ args → v ∈ N) :
    Row w base S N m c log (program K D env t f args) (Contracts.erc721Consecutive K D env t f args (view c log)) := by
  have hl : (c count).toNat ≤ m := by rw [← length_eq c log]; exact h.length
  unfold program Contracts.erc721Consecutive
  refine dispatch_row
    (.cons ⟨rfl, rfl, ?_⟩ (.cons ⟨rfl, rfl, ?_⟩ (.cons ⟨rfl, rfl, ?_⟩ (.cons ⟨rfl, rfl, ?_⟩ (.cons ⟨rfl, rfl, ?_⟩ (.cons ⟨rfl, rfl, ?_⟩ (.cons ⟨rfl, rfl, ?_⟩ (.cons ⟨rfl, rfl, ?_⟩ (.cons ⟨rfl, rfl, ?_⟩ (.cons ⟨rfl, rfl, ?_⟩ (.cons ⟨rfl, rfl, ?_⟩ (.cons ⟨rfl, rfl, ?_⟩ .nil))))))))))))
  · argumentsC row_call hw h0 h K _ hc (by simp_all [Named])
  · argumentsC row_call hw h0 h K _ hc (by simp_all [Named])
  · argumentsC row_ret h _
  · argumentsC row_call hw h0 h K _ hc (by simp_all [Named])
  · argumentsC row_call hw h0 h K _ hc (by simp_all [Named])
  · argumentsC row_call hw h0 h K _ hc (by simp_all [Named])
  · argumentsC row_call hw h0 h K _ hc (by simp_all [Named])
  · argumentsC row_call hw h0 h K _ hc (by simp_all [Named])
  · argumentsC row_look h K (sim_balance _)
      (used_inner (used_of_uses _ _ (uses_ite trivial ⟨.inr (.inl ⟨_, ha _ (by simp), rfl⟩), fun _ => trivial⟩))) _
  · argumentsC row_look h K (g := fun s => Consecutive.ownerOf s _) (sim_owned _) (used_owned hl (hv _ (by simp))) _
  · argumentsC row_look h K (sim_getApproved _) (used_getApproved hl (hv _ (by simp))) _
  · argumentsC row_look h K (sim_operator _ _)
      (used_inner ⟨.inr (.inr (.inr ⟨_, ha _ (by simp), _, ha _ (by simp), rfl⟩)), trivial⟩) _

end

/-! ## The contract -/

open Verif.Spec.Deployed (answer)
open Verif.Spec.Contracts (Raw after)

/-- The words and the state agree on everything the accounts can see. -/
def Inv' (K : Hash) (base : U256 → Address) (S : List Address) (N : List U256) (m : Nat) (w : ConsecutiveDeployed.State) (s : Consecutive.State) : Prop :=
  Good base S N m s ∧ ∃ c, Agree K erc721ConsecutiveExample (Cells S N m) w.words c ∧ view c w.log = s

theorem sizes (K : Hash) : Sizes (widthAt K erc721ConsecutiveExample) :=
  ⟨⟨fun _ => rfl, fun _ => rfl, fun _ => rfl, fun _ _ => rfl⟩, rfl, fun _ => rfl, fun _ => rfl, fun _ => rfl, rfl, rfl⟩

/-- The contract with independent mappings and lists. -/
def model (K : Hash) (D : Decoder) (env : Contracts.Env) (s : Consecutive.State) (value : U256) (input : Bytes) :
    Outcome Consecutive.State := Abi.entry K D Router.erc721ConsecutiveExample (Contracts.erc721Consecutive K D env) s value input

section
variable {K : Hash} {n : Nat} {base : U256 → Address} {S : List Address} {N : List U256} {receivers : List Address}

theorem inv_step (h : Setting K n S N receivers) (D : Decoder) {w : ConsecutiveDeployed.State} {s : Consecutive.State}
    (hi : Inv' K base S N receivers.length w s) {tx : Raw Contracts.Env} (hx : Within K D S N tx) :
    answer (ConsecutiveDeployed.entry K D tx.env w tx.value tx.input) = answer (model K D tx.env s tx.value tx.input) ∧
    Inv' K base S N receivers.length ((ConsecutiveDeployed.entry K D tx.env w tx.value tx.input).after w)
      ((model K D tx.env s tx.value tx.input).after s) := by
  unfold ConsecutiveDeployed.entry model Abi.entry
  split
  · exact ⟨rfl, hi⟩
  split
  · exact ⟨rfl, hi⟩
  cases hr : Router.erc721ConsecutiveExample.route K (Abi.selectorOf tx.input) with
  | none => exact ⟨rfl, hi⟩
  | some r =>
    obtain ⟨t, f⟩ := r
    dsimp only
    cases hd : D.read (Abi.flat f.args) (tx.input.drop 4) with
    | none => exact ⟨rfl, hi⟩
    | some args =>
      dsimp only
      obtain ⟨hg, c, hag, hv⟩ := hi
      obtain ⟨hu, hrow⟩ := row_program (log := w.log) (sizes K) h.zero (hv ▸ hg) K D tx.env hx.sender t f.rustName
        (hx.addresses args ⟨t, f, hr, hd⟩) (hx.numbers args ⟨t, f, hr, hd⟩)
      have hrun := programs_run h.bound (t := erc721ConsecutiveExample) (by decide) h.separate _ hu hag
      rw [hv] at hrow
      unfold ConsecutiveDeployed.onWords
      revert hrow hrun
      cases (program K D tx.env t f.rustName args).onWords K erc721ConsecutiveExample w.words with
      | error e =>
        cases onCells (widthAt K erc721ConsecutiveExample) (program K D tx.env t f.rustName args) c with
        | ok r => exact fun _ h => h.elim
        | error e' =>
          cases Contracts.erc721Consecutive K D tx.env t f.rustName args s with
          | ok y => exact fun h _ => h.elim
          | error e'' =>
            intro h h'
            cases h
            cases h'
            exact ⟨rfl, hg, c, hag, hv⟩
      | ok r =>
        cases onCells (widthAt K erc721ConsecutiveExample) (program K D tx.env t f.rustName args) c with
        | error e => exact fun _ h => h.elim
        | ok r' =>
          cases Contracts.erc721Consecutive K D tx.env t f.rustName args s with
          | error e => exact fun h _ => h.elim
          | ok y =>
            rintro ⟨e1, e2, e3⟩ ⟨e4, e5, e6⟩
            obtain ⟨y1, y2⟩ := y
            refine ⟨?_, e3, r'.2.1, e6, ?_⟩
            · show Except.ok (Abi.encode r.1) = Except.ok (Abi.encode y2)
              rw [e4, ← e1]
            · show view r'.2.1 (w.log ++ r.2.2) = y1
              rw [e5]
              exact e2.symm

theorem inv_run (h : Setting K n S N receivers) (D : Decoder) : ∀ (txs : List (Raw Contracts.Env)) {w : ConsecutiveDeployed.State}
    {s : Consecutive.State} (_ : Inv' K base S N receivers.length w s) (_ : ∀ tx ∈ txs, Within K D S N tx),
    Inv' K base S N receivers.length (after (ConsecutiveDeployed.entry K D) w txs) (after (model K D) s txs)
  | [], _, _, h, _ => h
  | tx :: txs, _, _, hi, hx =>
    inv_run h D txs (inv_step h D hi (hx tx List.mem_cons_self)).2 fun tx' h' => hx tx' (List.mem_cons_of_mem _ h')

end

/-! ## The constructor -/

section
variable {base : U256 → Address} {S : List Address} {N : List U256} {m : Nat} {w : List Step → Nat} {c : Table} {log : List Ev}

theorem mask12 (a : U96) : ((a.setWidth 256 &&& mask 12).setWidth 96 : U96) = a := by
  have h : mask 12 = BitVec.ofNat 256 (2 ^ 96 - 1) := by decide +kernel
  rw [h]
  ext i hi
  simp only [BitVec.getElem_setWidth, BitVec.getLsbD_and, BitVec.getLsbD_setWidth, BitVec.getLsbD_ofNat, Nat.testBit_two_pow_sub_one]
  rw [BitVec.getLsbD_eq_getElem hi]
  simp [show i < 256 by omega, hi]

/-- A cell of the checkpoints. -/
def Trail (p : List Step) : Prop := ∃ q, p = Step.field "erc721_consecutive" :: Step.field "sequential_ownership" :: q

theorem view_trail {c c' : Table} (h : ∀ p, ¬ Trail p → c' p = c p) (log : List Ev) :
    view c' log = { view c log with sequentialOwnership := trace c' } := by
  unfold view
  rw [view_under (c := c) (c' := c') (fun p hp => h p fun ⟨q, hq⟩ => by obtain ⟨q', hq'⟩ := hp; rw [hq] at hq'; simp at hq') (tokenLog log),
    h firstCell (by rintro ⟨q, hq⟩; simp [firstCell] at hq), h maxCell (by rintro ⟨q, hq⟩; simp [maxCell] at hq),
    funext fun b => h (bucket b) (by rintro ⟨q, hq⟩; simp [bucket] at hq)]

theorem trace_last (c : Table) (h : c count ≠ 0#256) : (trace c).getLast? =
    some ⟨(c (keyAt ((c count).toNat - 1))).setWidth 96, (c (valueAt ((c count).toNat - 1))).setWidth 160⟩ := by
  have h1 : 0 < (c count).toNat := by
    rcases Nat.eq_zero_or_pos (c count).toNat with e | e
    · exact absurd (BitVec.eq_of_toNat_eq e) h
    · exact e
  rw [List.getLast?_eq_getElem?, trace_length]
  exact trace_get c (by omega)

theorem trace_zero (c : Table) (h : c count = 0#256) : trace c = [] := by
  unfold trace
  rw [h]
  rfl

/-- Adding a checkpoint. -/
theorem trace_push (c : Table) (hn : (c count).toNat < 2 ^ 64) (key value : U256) :
    trace (upd (upd (upd c count (c count + 1#256)) (keyAt (c count).toNat) key) (valueAt (c count).toNat) value) =
    trace c ++ [⟨key.setWidth 96, value.setWidth 160⟩] := by
  have h1 : (c count + 1#256).toNat = (c count).toNat + 1 := by
    rw [BitVec.toNat_add, BitVec.toNat_ofNat]
    omega
  unfold trace
  rw [upd_ne _ _ (show count ≠ valueAt (c count).toNat by simp [count, valueAt]),
    upd_ne _ _ (show count ≠ keyAt (c count).toNat by simp [count, keyAt]), upd_same, h1, List.range_succ, List.map_append]
  refine congrArg₂ (· ++ ·) (List.map_congr_left fun i hi => ?_) ?_
  · have hi := List.mem_range.mp hi
    have hne : i ≠ (c count).toNat := by omega
    rw [upd_ne _ _ (show keyAt i ≠ valueAt (c count).toNat by simp [keyAt, valueAt]),
      upd_ne _ _ (show keyAt i ≠ keyAt (c count).toNat by simp [keyAt, hne]),
      upd_ne _ _ (show keyAt i ≠ count by simp [keyAt, count]),
      upd_ne _ _ (show valueAt i ≠ valueAt (c count).toNat by simp [valueAt, hne]),
      upd_ne _ _ (show valueAt i ≠ keyAt (c count).toNat by simp [keyAt, valueAt]),
      upd_ne _ _ (show valueAt i ≠ count by simp [valueAt, count])]
  · rw [List.map_singleton, upd_same,
      upd_ne _ _ (show keyAt (c count).toNat ≠ valueAt (c count).toNat by simp [keyAt, valueAt]), upd_same]

/-- Changing the value of the last checkpoint. -/
theorem trace_value (c : Table) (h : c count ≠ 0#256) (value : U256) :
    trace (upd c (valueAt ((c count).toNat - 1)) value) =
    (trace c).dropLast ++ [⟨(c (keyAt ((c count).toNat - 1))).setWidth 96, value.setWidth 160⟩] := by
  obtain ⟨k, hk⟩ : ∃ k, (c count).toNat = k + 1 := by
    rcases hc : (c count).toNat with _ | k
    · exact absurd (BitVec.eq_of_toNat_eq hc) h
    · exact ⟨k, rfl⟩
  unfold trace
  rw [upd_ne _ _ (show count ≠ valueAt ((c count).toNat - 1) by simp [count, valueAt]), hk, List.range_succ, List.map_append,
    List.map_append, List.map_singleton, List.map_singleton, List.dropLast_concat, Nat.add_sub_cancel]
  refine congrArg₂ (· ++ ·) (List.map_congr_left fun i hi => ?_) ?_
  · have hi := List.mem_range.mp hi
    have hne : i ≠ k := by omega
    rw [upd_ne _ _ (show keyAt i ≠ valueAt k by simp [keyAt, valueAt]), upd_ne _ _ (show valueAt i ≠ valueAt k by simp [valueAt, hne])]
  · rw [upd_same, upd_ne _ _ (show keyAt k ≠ valueAt k by simp [keyAt, valueAt])]

theorem trail_count : Trail count := ⟨_, rfl⟩
theorem trail_key (i : Nat) : Trail (keyAt i) := ⟨_, rfl⟩
theorem trail_value (i : Nat) : Trail (valueAt i) := ⟨_, rfl⟩

theorem upd_trail {p q : List Step} (hp : ¬ Trail p) (hq : Trail q) (c : Table) (v : U256) : upd c q v p = c p :=
  upd_ne _ _ fun e => hp (e ▸ hq)

/-- What a program does to the checkpoints and to nothing else. -/
def Inserts (w : List Step → Nat) (C : List Step → Prop) (c : Table) (p : ConsecutiveDeployed.Init Unit)
    (x : Option (Checkpoints.Trace 96 160)) : Prop :=
  UsedBy w C p c ∧ match x with
    | none => ∃ e, onCells w p c = .error e
    | some t => ∃ c', onCells w p c = .ok ((), c', []) ∧ trace c' = t ∧ (∀ p, ¬ Trail p → c' p = c p)

theorem inserts_push (hw : Sizes w) (hn : (c count).toNat < 2 ^ 64) (hm : (c count).toNat < m) (key : U96) (value : Address) :
    Inserts w (Cells S N m) c (ConsecutiveDeployed.solPush (c count) key value) (some (trace c ++ [⟨key, value⟩])) := by
  unfold ConsecutiveDeployed.solPush
  rw [if_pos hn]
  refine ⟨⟨cell_count, cell_key hm, cell_value hm, trivial⟩, _, rfl, ?_, fun p hp => ?_⟩
  · rw [hw.count, hw.key, hw.value, Proofs.Erc721Words.mask32, trace_push c hn, mask12, Proofs.Erc721Words.mask20]
  · rw [upd_trail hp (trail_value _), upd_trail hp (trail_key _), upd_trail hp trail_count]

theorem inserts (hw : Sizes w) (hn : (c count).toNat < 2 ^ 64) (hm : (c count).toNat < m) (key : U96) (value : Address) :
    Inserts w (Cells S N m) c (ConsecutiveDeployed.solInsert key value) (ConsecutiveConstructor.insert (trace c) key value) := by
  unfold ConsecutiveDeployed.solInsert ConsecutiveConstructor.insert
  by_cases h : c count = 0#256
  · obtain ⟨h1, h2⟩ := inserts_push (S := S) (N := N) hw hn hm key value
    rw [trace_zero c h] at h2 ⊢
    refine ⟨⟨cell_count, ?_⟩, ?_⟩
    · dsimp only; rw [if_pos h]; exact h1
    · rw [onCells, if_pos h]; exact h2
  · have hi : (c count).toNat - 1 < m := by omega
    rw [trace_last c h]
    unfold Inserts
    rw [onCells, if_neg h, onCells, onCells]
    dsimp only
    by_cases hlt : key < (c (keyAt ((c count).toNat - 1))).setWidth 96
    · rw [if_pos hlt, if_pos hlt]
      refine ⟨⟨cell_count, ?_⟩, (), rfl⟩
      dsimp only
      rw [if_neg h]
      refine ⟨cell_key hi, cell_value hi, ?_⟩
      dsimp only
      rw [if_pos hlt]
      trivial
    · rw [if_neg hlt, if_neg hlt]
      by_cases heq : (c (keyAt ((c count).toNat - 1))).setWidth 96 = key
      · rw [if_pos heq, if_pos heq]
        refine ⟨⟨cell_count, ?_⟩, _, rfl, ?_, fun p hp => upd_trail hp (trail_value _) ..⟩
        · dsimp only
          rw [if_neg h]
          refine ⟨cell_key hi, cell_value hi, ?_⟩
          dsimp only
          rw [if_neg hlt, if_pos heq]
          exact ⟨cell_value hi, trivial⟩
        · rw [hw.value, trace_value c h, Proofs.Erc721Words.mask20]
      · rw [if_neg heq, if_neg heq]
        obtain ⟨h1, h2⟩ := inserts_push (S := S) (N := N) hw hn hm key value
        refine ⟨⟨cell_count, ?_⟩, h2⟩
        dsimp only
        rw [if_neg h]
        refine ⟨cell_key hi, cell_value hi, ?_⟩
        dsimp only
        rw [if_neg hlt, if_neg heq]
        exact h1

/-- The batch mint gives the state that the specification's constructor gives, and adds one checkpoint at most. -/
def Builds (w : List Step → Nat) (C : List Step → Prop) (k : Nat) (c : Table) (log : List Ev) (p : ConsecutiveDeployed.Init Unit)
    (x : Option Consecutive.State) : Prop :=
  UsedBy w C p c ∧ match x with
    | none => ∃ e, onCells w p c = .error e
    | some s => ∃ c' l, onCells w p c = .ok ((), c', l) ∧ view c' (log ++ l) = s ∧ (c' count).toNat ≤ (c count).toNat + k

theorem builds_get {C : List Step → Prop} {k : Nat} {p : List Step} {g : U256 → ConsecutiveDeployed.Init Unit}
    {x : Option Consecutive.State} (hp : C p) (h : Builds w C k c log (g (c p)) x) : Builds w C k c log (.get p g) x :=
  ⟨⟨hp, h.1⟩, h.2⟩

theorem insert_length {t t' : Checkpoints.Trace 96 160} {key : U96} {value : Address}
    (h : ConsecutiveConstructor.insert t key value = some t') : t'.length ≤ t.length + 1 := by
  unfold ConsecutiveConstructor.insert at h
  split at h
  · cases h; simp
  · split at h
    · cases h
    · split at h <;> cases h <;> simp

theorem reads_solNext (c : Table) (log : List Ev) :
    Reads w ConsecutiveDeployed.solNext c (match ConsecutiveConstructor.nextConsecutiveId (view c log) with
      | some n => .ok n | none => .error ()) := by
  unfold Reads ConsecutiveDeployed.solNext ConsecutiveConstructor.nextConsecutiveId
  rw [onCells]
  rw [show (view c log).sequentialOwnership = trace c from rfl]
  by_cases h : c count = 0#256
  · rw [if_pos h, trace_zero c h]
    rfl
  · rw [if_neg h, trace_last c h, onCells, onCells]
    dsimp only
    cases checkedAdd ((c (keyAt ((c count).toNat - 1))).setWidth 96 : U96) 1#96 <;> rfl

theorem used_solNext (hm : (c count).toNat ≤ m) : UsedBy w (Cells S N m) ConsecutiveDeployed.solNext c := by
  unfold ConsecutiveDeployed.solNext
  refine ⟨cell_count, ?_⟩
  dsimp only
  by_cases h : c count = 0#256
  · rw [if_pos h]
    exact ⟨cell_first, trivial⟩
  · rw [if_neg h]
    have h1 : 0 < (c count).toNat := by
      rcases Nat.eq_zero_or_pos (c count).toNat with e | e
      · exact absurd (BitVec.eq_of_toNat_eq e) h
      · exact e
    refine ⟨cell_key (by omega), cell_value (by omega), ?_⟩
    split <;> trivial

theorem builds_mint (hw : Sizes w) (hn : (c count).toNat < 2 ^ 64) (hm : (c count).toNat < m) {dst : Address} (hd : dst ∈ S) (a : U96) :
    Builds w (Cells S N m) 1 c log (ConsecutiveDeployed.solMint dst a) (ConsecutiveConstructor.mintConsecutive (view c log) dst a) := by
  have hr := reads_solNext (w := w) c log
  unfold ConsecutiveDeployed.solMint ConsecutiveConstructor.mintConsecutive
  cases hx : ConsecutiveConstructor.nextConsecutiveId (view c log) with
  | none =>
    rw [hx] at hr
    refine ⟨used_reads (used_solNext (by omega)) hr fun _ h => (by cases h), (), ?_⟩
    unfold Reads at hr
    rw [onCells_bind, hr]
    rfl
  | some next =>
    rw [hx] at hr
    -- what is left after the first consecutive number
    suffices h : ∀ g : U96 → ConsecutiveDeployed.Init Unit, ∀ y, Builds w (Cells S N m) 1 c log (g next) y →
        Builds w (Cells S N m) 1 c log (ConsecutiveDeployed.solNext.bind g) y by
      refine h _ _ ?_
      show Builds w (Cells S N m) 1 c log _ (if 0#96 < a then _ else some (view c log))
      by_cases h0 : 0#96 < a
      · rw [if_pos h0, if_pos h0]
        by_cases hz : dst = ZERO
        · rw [if_pos hz, if_pos hz]
          exact ⟨trivial, (), rfl⟩
        · rw [if_neg hz, if_neg hz]
          refine builds_get cell_max ?_
          show Builds w (Cells S N m) 1 c log (if (c maxCell).setWidth 96 < a then .fail () else _)
            (if (c maxCell).setWidth 96 < a then none else _)
          by_cases hmx : (c maxCell).setWidth 96 < a
          · rw [if_pos hmx, if_pos hmx]
            exact ⟨trivial, (), rfl⟩
          · rw [if_neg hmx, if_neg hmx]
            cases he : checkedAdd next a with
            | none => exact ⟨trivial, (), rfl⟩
            | some e =>
              dsimp only
              show Builds w (Cells S N m) 1 c log _ (Option.bind (checkedSub e 1#96) _)
              cases hl : checkedSub e 1#96 with
              | none => exact ⟨trivial, (), rfl⟩
              | some last =>
                dsimp only
                obtain ⟨hu, hi⟩ := inserts (S := S) (N := N) hw hn hm last dst
                show Builds w (Cells S N m) 1 c log _ (Option.bind (ConsecutiveConstructor.insert (trace c) last dst) _)
                refine ⟨used_bind hu fun r _ => ?_, ?_⟩
                · exact ⟨.inl (.inr (.inl ⟨dst, hd, rfl⟩)), .inl (.inr (.inl ⟨dst, hd, rfl⟩)), trivial⟩
                · cases ht : ConsecutiveConstructor.insert (trace c) last dst with
                  | none =>
                    rw [ht] at hi
                    obtain ⟨e', hi⟩ := hi
                    refine ⟨e', ?_⟩
                    rw [onCells_bind, hi]
                  | some t =>
                    rw [ht] at hi
                    obtain ⟨c', hi, htr, hf⟩ := hi
                    have hlen := insert_length ht
                    rw [← htr, trace_length, trace_length] at hlen
                    have hq : ∀ q, ¬ Under q → upd c' (Erc721Words.balance token dst)
                        (c' (Erc721Words.balance token dst) + a.setWidth 256) q = c' q :=
                      fun q hq => upd_ne _ _ fun e => hq (e ▸ ⟨_, rfl⟩)
                    refine ⟨upd c' (Erc721Words.balance token dst) (c' (Erc721Words.balance token dst) + a.setWidth 256),
                      [.batch ⟨next.setWidth 256, last.setWidth 256, ZERO, dst⟩], ?_, ?_, ?_⟩
                    · rw [onCells_bind, hi]
                      dsimp only
                      rw [onCells, onCells, hw.token.balance, Proofs.Erc721Words.mask32]
                      rfl
                    · have h1 := view_trail hf log
                      unfold view at h1 ⊢
                      have h2 : Erc721Words.view token c' (tokenLog log) = Erc721Words.view token c (tokenLog log) :=
                        congrArg Consecutive.State.erc721 h1
                      have h3 := congrArg Consecutive.State.sequentialBurn h1
                      have h4 := congrArg Consecutive.State.firstConsecutiveId h1
                      have h5 := congrArg Consecutive.State.maxBatchSize h1
                      dsimp only at h3 h4 h5
                      rw [tokenLog_append, batchLog_append, trace_frame hq, hq firstCell not_first, hq maxCell not_max,
                        funext fun b => hq (bucket b) (not_bucket b), Proofs.Erc721Words.view_balance, htr, h3, h4, h5]
                      show Consecutive.State.mk _ _ _ _ _ _ = Consecutive.State.mk _ _ _ _ _ _
                      rw [show tokenLog log ++ tokenLog [_] = tokenLog log from List.append_nil _, h2]
                      unfold Erc721.increaseBalance
                      rw [show ((a.setWidth 128).setWidth 256 : U256) = a.setWidth 256 by
                        apply BitVec.eq_of_toNat_eq
                        have := a.isLt
                        rw [BitVec.toNat_setWidth, BitVec.toNat_setWidth, BitVec.toNat_setWidth, Nat.mod_eq_of_lt (a := a.toNat) (b := 2 ^ 128) (by omega)]]
                      have h6 : c' (Erc721Words.balance token dst) = (Erc721Words.view token c (tokenLog log)).balances dst := by
                        rw [← h2]; rfl
                      rw [h6]
                      rfl
                    · rw [hq count not_count]
                      exact hlen
      · rw [if_neg h0, if_neg h0]
        exact ⟨trivial, c, [], rfl, by rw [List.append_nil], by omega⟩
    intro g y hg
    obtain ⟨h1, h2⟩ := hg
    have he : onCells w (ConsecutiveDeployed.solNext.bind g) c = onCells w (g next) c := by
      unfold Reads at hr
      rw [onCells_bind, hr]
      show Except.map _ (onCells w (g next) c) = _
      cases onCells w (g next) c <;> rfl
    refine ⟨used_reads (used_solNext (by omega)) hr fun b hb => ?_, ?_⟩
    · cases hb
      exact h1
    · rw [he]
      exact h2

theorem builds_loop (hw : Sizes w) : ∀ (receivers : List Address) (amounts : List U96) {c : Table} {log : List Ev}
    (_ : (c count).toNat + receivers.length ≤ m) (_ : m ≤ 2 ^ 64) (_ : ∀ a ∈ receivers, a ∈ S),
    Builds w (Cells S N m) receivers.length c log (ConsecutiveDeployed.solLoop receivers amounts)
      (ConsecutiveConstructor.loop (view c log) receivers amounts)
  | [], _, c, log, _, _, _ => ⟨trivial, c, [], rfl, by rw [List.append_nil], by omega⟩
  | _ :: _, [], _, _, _, _, _ => ⟨trivial, (), rfl⟩
  | r :: receivers, a :: amounts, c, log, hl, hm, hs => by
    rw [List.length_cons] at hl
    obtain ⟨h1, h2⟩ := builds_mint (S := S) (N := N) (log := log) hw (by omega) (by omega : (c count).toNat < m)
      (hs r List.mem_cons_self) a
    unfold ConsecutiveDeployed.solLoop ConsecutiveConstructor.loop
    cases hx : ConsecutiveConstructor.mintConsecutive (view c log) r a with
    | none =>
      rw [hx] at h2
      obtain ⟨e, h2⟩ := h2
      refine ⟨used_bind h1 fun r hr => (by rw [h2] at hr; cases hr), e, ?_⟩
      rw [onCells_bind, h2]
    | some s =>
      rw [hx] at h2
      obtain ⟨c', l, h2, hv, hc⟩ := h2
      obtain ⟨h3, h4⟩ := builds_loop hw receivers amounts (c := c') (log := log ++ l) (by omega) hm
        fun b hb => hs b (List.mem_cons_of_mem _ hb)
      rw [hv] at h4
      refine ⟨used_bind h1 fun r hr => by rw [h2] at hr; cases hr; exact h3, ?_⟩
      show match ConsecutiveConstructor.loop s receivers amounts with | none => _ | some s => _
      rw [onCells_bind, h2]
      cases hy : ConsecutiveConstructor.loop s receivers amounts with
      | none =>
        rw [hy] at h4
        obtain ⟨e, h4⟩ := h4
        refine ⟨e, ?_⟩
        show Except.map _ (onCells w _ c') = _
        rw [h4]
        rfl
      | some s' =>
        rw [hy] at h4
        obtain ⟨c'', l', h4, hv', hc'⟩ := h4
        refine ⟨c'', l ++ l', ?_, ?_, by rw [List.length_cons]; omega⟩
        · show Except.map _ (onCells w _ c') = _
          rw [h4]
          rfl
        · rw [← List.append_assoc]
          exact hv'

end

section
variable {K : Hash} {n : Nat} {base : U256 → Address} {S : List Address} {N : List U256} {receivers : List Address}

/-- The table of the constructor before its loop. -/
def started (first maxBatch : U96) : Table :=
  upd (upd (fun _ => 0#256) firstCell (first.setWidth 256 &&& mask 12)) maxCell (maxBatch.setWidth 256 &&& mask 12)

theorem started_ne {first maxBatch : U96} {p : List Step} (h1 : p ≠ firstCell) (h2 : p ≠ maxCell) : started first maxBatch p = 0#256 := by
  unfold started
  rw [upd_ne _ _ h2, upd_ne _ _ h1]

theorem view_started (first maxBatch : U96) : view (started first maxBatch) [] = Consecutive.init first maxBatch := by
  have hu : ∀ p, Under p → started first maxBatch p = (fun _ => 0#256 : Table) p := fun p hp =>
    started_ne (fun e => not_first (e ▸ hp)) fun e => not_max (e ▸ hp)
  unfold view
  rw [view_under hu, trace_zero _ (started_ne (by simp [count, firstCell]) (by simp [count, maxCell])),
    funext fun b => started_ne (first := first) (maxBatch := maxBatch) (p := bucket b) (by simp [bucket, firstCell]) (by simp [bucket, maxCell])]
  unfold started
  rw [upd_same, upd_ne _ _ (show firstCell ≠ maxCell by simp [firstCell, maxCell]), upd_same, mask12, mask12]
  rfl

/-- The words that the constructor leaves are those of the state it builds; it reverts on the words when it reverts. -/
theorem deploy_agree (h : Setting K n S N receivers) (amounts : List U96) (first maxBatch : U96) :
    match ConsecutiveDeployed.deploy K receivers amounts first maxBatch, ConsecutiveConstructor.construct receivers amounts first maxBatch with
    | none, none => True
    | some w, some s => ∃ c, Agree K erc721ConsecutiveExample (Cells S N receivers.length) w.words c ∧ view c w.log = s ∧
        s.sequentialOwnership.length ≤ receivers.length
    | _, _ => False := by
  have hc0 : started first maxBatch count = 0#256 := started_ne (by simp [count, firstCell]) (by simp [count, maxCell])
  have hb := builds_loop (S := S) (N := N) (m := receivers.length) (sizes K) receivers amounts (c := started first maxBatch) (log := [])
    (by rw [hc0]; simp) h.length h.among
  rw [view_started] at hb
  obtain ⟨hu, hx⟩ := hb
  have hs : onCells (widthAt K erc721ConsecutiveExample) (ConsecutiveDeployed.solConstruct receivers amounts first maxBatch) (fun _ => 0#256) =
      onCells (widthAt K erc721ConsecutiveExample) (ConsecutiveDeployed.solLoop receivers amounts) (started first maxBatch) := by
    unfold ConsecutiveDeployed.solConstruct started
    rw [onCells, onCells, (sizes K).first, (sizes K).max]
  have hu' : UsedBy (widthAt K erc721ConsecutiveExample) (Cells S N receivers.length)
      (ConsecutiveDeployed.solConstruct receivers amounts first maxBatch) (fun _ => 0#256) := by
    refine ⟨cell_first, cell_max, ?_⟩
    rw [(sizes K).first, (sizes K).max]
    exact hu
  have hag : Agree K erc721ConsecutiveExample (Cells S N receivers.length) Constructors.fresh (fun _ => 0#256) := by
    intro p _ l _
    unfold Storage.read Constructors.fresh
    simp
  have hrun := programs_run h.bound (t := erc721ConsecutiveExample) (by decide) h.separate _ hu' hag
  rw [hs] at hrun
  unfold ConsecutiveDeployed.deploy ConsecutiveConstructor.construct
  revert hrun hx
  cases (ConsecutiveDeployed.solConstruct receivers amounts first maxBatch).onWords K erc721ConsecutiveExample Constructors.fresh with
  | error e =>
    cases ConsecutiveConstructor.loop (Consecutive.init first maxBatch) receivers amounts with
    | none => exact fun _ _ => trivial
    | some s =>
      rintro ⟨c', l, h1, _⟩ h2
      rw [h1] at h2
      exact h2.elim
  | ok r =>
    cases ConsecutiveConstructor.loop (Consecutive.init first maxBatch) receivers amounts with
    | none =>
      rintro ⟨e, h1⟩ h2
      rw [h1] at h2
      exact h2.elim
    | some s =>
      rintro ⟨c', l, h1, hv, hl⟩ h2
      rw [h1] at h2
      obtain ⟨_, e5, e6⟩ := h2
      refine ⟨c', e6, ?_, ?_⟩
      · show view c' r.2.2 = s
        rw [e5]
        exact hv
      · rw [← hv, length_eq]
        rw [hc0] at hl
        simpa using hl

/-- Batches leave the single tokens alone, and their owners are the receivers. -/
theorem mint_parts {s s' : Consecutive.State} {r : Address} {a : U96} (hr : r ∈ S) (hv : ∀ x ∈ s.sequentialOwnership, x.value ∈ S)
    (h : ConsecutiveConstructor.mintConsecutive s r a = some s') :
    s'.erc721.owners = s.erc721.owners ∧ ∀ x ∈ s'.sequentialOwnership, x.value ∈ S := by
  unfold ConsecutiveConstructor.mintConsecutive at h
  rw [Option.bind_eq_bind, Option.bind_eq_some_iff] at h
  obtain ⟨next, _, h⟩ := h
  by_cases h0 : 0#96 < a
  · rw [if_pos h0] at h
    by_cases hz : r = ZERO
    · rw [if_pos hz] at h; cases h
    rw [if_neg hz] at h
    by_cases hm : s.maxBatchSize < a
    · rw [if_pos hm] at h; cases h
    rw [if_neg hm, Option.bind_eq_bind, Option.bind_eq_some_iff] at h
    obtain ⟨e, _, h⟩ := h
    rw [Option.bind_eq_some_iff] at h
    obtain ⟨last, _, h⟩ := h
    rw [Option.bind_eq_some_iff] at h
    obtain ⟨t, ht, h⟩ := h
    cases h
    refine ⟨rfl, ?_⟩
    show ∀ x ∈ t, x.value ∈ S
    unfold ConsecutiveConstructor.insert at ht
    intro x hx
    split at ht
    · cases ht
      rcases List.mem_append.mp hx with hx | hx
      · exact hv x hx
      · rw [List.mem_singleton.mp hx]; exact hr
    · split at ht
      · cases ht
      · split at ht <;> cases ht
        · rcases List.mem_append.mp hx with hx | hx
          · exact hv x (List.dropLast_subset _ hx)
          · rw [List.mem_singleton.mp hx]; exact hr
        · rcases List.mem_append.mp hx with hx | hx
          · exact hv x hx
          · rw [List.mem_singleton.mp hx]; exact hr
  · rw [if_neg h0] at h
    cases h
    exact ⟨rfl, hv⟩

theorem loop_parts : ∀ (receivers : List Address) (amounts : List U96) {s s' : Consecutive.State} (_ : ∀ a ∈ receivers, a ∈ S)
    (_ : ∀ x ∈ s.sequentialOwnership, x.value ∈ S) (_ : ConsecutiveConstructor.loop s receivers amounts = some s'),
    s'.erc721.owners = s.erc721.owners ∧ ∀ x ∈ s'.sequentialOwnership, x.value ∈ S
  | [], _, _, _, _, hv, h => by cases h; exact ⟨rfl, hv⟩
  | _ :: _, [], _, _, _, _, h => by cases h
  | r :: receivers, a :: amounts, s, s', hr, hv, h => by
    unfold ConsecutiveConstructor.loop at h
    rw [Option.bind_eq_bind, Option.bind_eq_some_iff] at h
    obtain ⟨s1, h1, h⟩ := h
    obtain ⟨h2, h3⟩ := mint_parts (hr r List.mem_cons_self) hv h1
    obtain ⟨h4, h5⟩ := loop_parts receivers amounts (fun b hb => hr b (List.mem_cons_of_mem _ hb)) h3 h
    exact ⟨h4.trans h2, h5⟩

/-- The state after deployment. -/
theorem inv_deploy {bs : List (Address × U96)} (h : Setting K n S N (bs.map fun b => b.1)) {first mx : U96} {w : ConsecutiveDeployed.State}
    (hd : ConsecutiveDeployed.deploy K (bs.map fun b => b.1) (bs.map fun b => b.2) first mx = some w) :
    first.toNat + Spec.Consecutive.total bs < 2 ^ 96 ∧ ∃ s, Consecutive.deploy first mx bs = .ok s ∧
      Inv' K (Consecutive.own s) S N (bs.map fun b => b.1).length w s := by
  have ha := deploy_agree h (bs.map fun b => b.2) first mx
  rw [hd] at ha
  cases hc : ConsecutiveConstructor.construct (bs.map fun b => b.1) (bs.map fun b => b.2) first mx with
  | none => rw [hc] at ha; exact ha.elim
  | some s =>
    rw [hc] at ha
    obtain ⟨c, h1, h2, h3⟩ := ha
    obtain ⟨h4, h5⟩ := (Props.ConsecutiveConstructor.C99_consecutive first mx bs s).mp hc
    obtain ⟨h6, h7⟩ := loop_parts (S := S) _ _ h.among (fun x hx => by cases hx) hc
    refine ⟨h4, s, h5, ⟨(Consecutive.deploy_effect h4 h5).1, fun _ _ => rfl, fun id _ => ?_, h7, h3⟩, c, h1, h2⟩
    rw [h6]
    exact h.zero

end
end Verif.Proofs.ConsecutiveDeployed
