import Verif.Spec.Erc721Consecutive
import Verif.Proofs.Erc721
import Verif.Proofs.Erc721Enumerable
import Verif.Props.Checkpoints
import Verif.Props.Utils
/-! # Refinement of consecutive ERC-721 to plain ERC-721 -/

namespace Verif.Consecutive
open Verif.Spec.Checkpoints (Sorted firstAtOrAfter)
open Verif.Erc721 (moveBal cnt)

/-- Pure form of `_owner_of`. -/
def own (s : State) (id : U256) : Address :=
  if s.erc721.owners id ≠ ZERO ∨ id.toNat < s.firstConsecutiveId.toNat ∨ 2 ^ 96 ≤ id.toNat then
    s.erc721.owners id
  else if BitMap.get s.sequentialBurn id then ZERO
  else firstAtOrAfter s.sequentialOwnership (id.setWidth 96)

/-- Pure form of `_next_consecutive_id`. -/
def nextOf (s : State) : U96 :=
  match s.sequentialOwnership.getLast? with
  | none => s.firstConsecutiveId
  | some c => c.key + 1#96

/-- The plain token this contract stands for. -/
def abs (s : State) : Erc721.State := { s.erc721 with owners := own s }

/-- Checkpoints are sorted and none ends at the largest id. -/
structure Inv (s : State) : Prop where
  sorted : Sorted s.sequentialOwnership
  room : ∀ c ∈ s.sequentialOwnership, c.key.toNat + 1 < 2 ^ 96

theorem cond_iff (s : State) (id : U256) :
    (id < s.firstConsecutiveId.setWidth 256 ↔ id.toNat < s.firstConsecutiveId.toNat) ∧
    ((BitVec.allOnes 96).setWidth 256 < id ↔ 2 ^ 96 ≤ id.toNat) := by
  constructor
  · rw [BitVec.lt_def, BitVec.toNat_setWidth, Nat.mod_eq_of_lt]
    have := s.firstConsecutiveId.isLt; omega
  · rw [BitVec.lt_def, BitVec.toNat_setWidth, BitVec.toNat_allOnes, Nat.mod_eq_of_lt (by norm_num)]
    omega

theorem ownerOfInternal_eq {s : State} (h : Sorted s.sequentialOwnership) (id : U256) :
    ownerOfInternal s id = .ok (own s id) := by
  unfold ownerOfInternal own
  dsimp only
  rw [Props.Checkpoints.C36_lower_lookup (by norm_num) h]
  simp only [(cond_iff s id).1, (cond_iff s id).2]
  unfold Erc721.ownerOfInternal
  by_cases h1 : s.erc721.owners id ≠ ZERO ∨ id.toNat < s.firstConsecutiveId.toNat ∨ 2 ^ 96 ≤ id.toNat
  · rw [if_pos h1, if_pos h1]
  · rw [if_neg h1, if_neg h1]
    cases BitMap.get s.sequentialBurn id <;> rfl

theorem own_low {t : State} {id : U256} (h : id.toNat < t.firstConsecutiveId.toNat) :
    own t id = t.erc721.owners id := by
  unfold own
  rw [if_pos (Or.inr (Or.inl h))]

theorem nextConsecutiveId_eq {s : State} (h : Sorted s.sequentialOwnership) :
    nextConsecutiveId s = .ok (nextOf s) := by
  unfold nextConsecutiveId nextOf
  rw [(Props.Checkpoints.C35_observers (by norm_num) h).2.2.1]
  cases s.sequentialOwnership.getLast? <;> simp [liftC]

theorem requireOwned_eq {s : State} (h : Sorted s.sequentialOwnership) (id : U256) :
    requireOwned s id = lift (Erc721.requireOwned (abs s) id) := by
  unfold requireOwned Erc721.requireOwned Erc721.ownerOfInternal
  rw [ownerOfInternal_eq h]
  show (if own s id = ZERO then _ else _) = lift (if own s id = ZERO then _ else _)
  split <;> rfl

/-- State after a successful `_update`. -/
def updatedC (s : State) (dst : Address) (id : U256) : State :=
  { s with
    erc721 :=
      { owners := upd s.erc721.owners id dst
        balances := moveBal s.erc721.balances (own s id) dst
        tokenApprovals := if own s id ≠ ZERO then upd s.erc721.tokenApprovals id ZERO
          else s.erc721.tokenApprovals
        operatorApprovals := s.erc721.operatorApprovals
        log := s.erc721.log ++ [.transfer (own s id) dst id] }
    sequentialBurn :=
      if dst = ZERO ∧ id < (nextOf s).setWidth 256 ∧ BitMap.get s.sequentialBurn id = false then
        BitMap.set s.sequentialBurn id else s.sequentialBurn }

theorem approve_clear (s : State) (id : U256) : approveInternal s ZERO id ZERO false =
    .ok { s with erc721 := { s.erc721 with tokenApprovals := upd s.erc721.tokenApprovals id ZERO } } := by
  simp [approveInternal]

theorem checkAuthorized_abs (s : State) (o p : Address) (id : U256) :
    Erc721.checkAuthorized s.erc721 o p id = Erc721.checkAuthorized (abs s) o p id := rfl

theorem updateBase_eq {s : State} (h : Sorted s.sequentialOwnership) (dst : Address) (id : U256)
    (auth : Address) :
    updateBase s dst id auth =
      (if auth = ZERO ∨ Erc721.isAuthorized (abs s) (own s id) auth id = true
       then .ok (own s id, { updatedC s dst id with sequentialBurn := s.sequentialBurn })
       else if own s id = ZERO then .error (.erc721 (.nonexistentToken id))
       else .error (.erc721 (.insufficientApproval auth id))) := by
  unfold updateBase
  rw [ownerOfInternal_eq h]
  simp only [checkAuthorized_abs, except_bind_ok, approve_clear]
  unfold Erc721.checkAuthorized updatedC moveBal
  by_cases ha : auth = ZERO
  · by_cases h1 : own s id = ZERO <;> by_cases h2 : dst = ZERO <;> simp [ha, h1, h2]
  · by_cases hb : Erc721.isAuthorized (abs s) (own s id) auth id = true
    · by_cases h1 : own s id = ZERO
      · simp only [h1] at hb
        by_cases h2 : dst = ZERO <;> simp [ha, hb, h1, h2, lift]
      · by_cases h2 : dst = ZERO <;> simp [ha, hb, h1, h2, lift]
    · by_cases h1 : own s id = ZERO
      · simp only [h1] at hb; simp [ha, hb, h1, lift]
      · simp [ha, hb, h1, lift]

theorem update_eq {s : State} (h : Sorted s.sequentialOwnership) (dst : Address) (id : U256)
    (auth : Address) :
    update s dst id auth =
      (if auth = ZERO ∨ Erc721.isAuthorized (abs s) (own s id) auth id = true
       then .ok (own s id, updatedC s dst id)
       else if own s id = ZERO then .error (.erc721 (.nonexistentToken id))
       else .error (.erc721 (.insufficientApproval auth id))) := by
  unfold update
  rw [updateBase_eq h]
  split
  · rw [except_bind_ok]
    dsimp only
    rw [nextConsecutiveId_eq (by exact h), except_bind_ok, except_pure]
    have hn : nextOf { updatedC s dst id with sequentialBurn := s.sequentialBurn } = nextOf s := rfl
    rw [hn]
    by_cases hc : dst = ZERO ∧ id < (nextOf s).setWidth 256 ∧ BitMap.get s.sequentialBurn id = false
    · rw [if_pos hc]
      unfold updatedC
      simp only [if_pos hc]
    · rw [if_neg hc]
      unfold updatedC
      simp only [if_neg hc]
  · split <;> rfl

theorem firstAtOrAfter_none {t : Checkpoints.Trace 96 160} {k : U96}
    (h : ∀ c ∈ t, c.key.toNat < k.toNat) : firstAtOrAfter t k = ZERO := by
  unfold firstAtOrAfter
  have : t.find? (fun c => decide (k.toNat ≤ c.key.toNat)) = none := by
    rw [List.find?_eq_none]
    intro c hc
    simp only [decide_eq_true_eq, not_le]
    exact h c hc
  rw [this]
  rfl

theorem le_last {t : Checkpoints.Trace 96 160} (h : Sorted t) {d : Checkpoints.Checkpoint 96 160}
    (hd : t.getLast? = some d) : ∀ c ∈ t, c.key.toNat ≤ d.key.toNat := by
  rcases List.eq_nil_or_concat t with rfl | ⟨l, e, rfl⟩
  · simp at hd
  · rw [List.concat_eq_append] at *
    simp at hd
    subst hd
    intro c hc
    rcases List.mem_append.mp hc with hc | hc
    · have := (List.pairwise_append.mp h).2.2 c hc e (by simp)
      omega
    · simp at hc; rw [hc]

theorem nextOf_above {s : State} (h : Inv s) : ∀ c ∈ s.sequentialOwnership,
    c.key.toNat < (nextOf s).toNat := by
  intro c hc
  unfold nextOf
  cases hl : s.sequentialOwnership.getLast? with
  | none =>
    rw [List.getLast?_eq_none_iff] at hl
    rw [hl] at hc; simp at hc
  | some d =>
    dsimp only
    have h1 := le_last h.sorted hl c hc
    have h2 := h.room d (List.mem_of_getLast? hl)
    rw [toNat_add_of_lt (by show _ + 1 < _; exact h2)]
    show c.key.toNat < d.key.toNat + 1
    omega

theorem inv_updatedC {s : State} (h : Inv s) (dst : Address) (id : U256) : Inv (updatedC s dst id) :=
  ⟨h.sorted, h.room⟩

theorem own_updatedC {s : State} (h : Inv s) (dst : Address) (id : U256) :
    own (updatedC s dst id) = upd (own s) id dst := by
  funext x
  by_cases hx : x = id
  · subst hx
    rw [upd_same]
    unfold own
    have h0 : (updatedC s dst x).erc721.owners x = dst := upd_same _ _ _
    simp only [h0]
    by_cases hd : dst = ZERO
    · subst hd
      split
      · rfl
      · rename_i hc
        push Not at hc
        split
        · rfl
        · rename_i hb
          show firstAtOrAfter s.sequentialOwnership _ = _
          apply firstAtOrAfter_none
          intro c hcm
          have habove := nextOf_above h c hcm
          have hw : (x.setWidth 96).toNat = x.toNat := by
            rw [BitVec.toNat_setWidth, Nat.mod_eq_of_lt hc.2.2]
          rw [hw]
          by_contra hlt
          apply hb
          have hlt2 : x < (nextOf s).setWidth 256 := by
            rw [BitVec.lt_def, BitVec.toNat_setWidth, Nat.mod_eq_of_lt]
            · omega
            · have := (nextOf s).isLt; omega
          unfold updatedC
          dsimp only
          cases hg : BitMap.get s.sequentialBurn x with
          | true => simp [hg]
          | false =>
            rw [if_pos ⟨rfl, hlt2, rfl⟩, Props.Utils.get_set]
            simp
    · rw [if_pos (Or.inl hd)]
  · rw [upd_ne _ _ hx]
    unfold own
    have h1 : (updatedC s dst id).erc721.owners x = s.erc721.owners x := upd_ne _ _ hx
    have h2 : BitMap.get (updatedC s dst id).sequentialBurn x = BitMap.get s.sequentialBurn x := by
      unfold updatedC
      dsimp only
      split
      · rw [Props.Utils.get_set]; simp [hx]
      · rfl
    simp only [h1, h2]
    rfl

theorem abs_updatedC {s : State} (h : Inv s) (dst : Address) (id : U256) :
    abs (updatedC s dst id) = Erc721.updated (abs s) dst id := by
  unfold abs Erc721.updated
  rw [own_updatedC h]
  rfl

/-- A result of this contract and one of the plain contract agree. -/
def Sim : Except Err State → Except Erc721.Err Erc721.State → Prop
  | .ok s, .ok t => Inv s ∧ abs s = t
  | .error e, .error e' => e = .erc721 e'
  | _, _ => False

theorem sim_mint {s : State} (h : Inv s) (dst : Address) (id : U256) :
    Sim (mint s dst id) (Erc721.mint (abs s) dst id) := by
  unfold mint Erc721.mint
  rw [update_eq h.sorted, Erc721.update_zero, if_pos (Or.inl rfl)]
  by_cases h1 : dst = ZERO
  · simp [h1, Sim]
  · by_cases h2 : own s id = ZERO
    · have h2' : (abs s).owners id = ZERO := h2
      simp [h1, h2, h2', Sim]; exact ⟨inv_updatedC h dst id, abs_updatedC h dst id⟩
    · have h2' : ¬ (abs s).owners id = ZERO := h2
      simp [h1, h2, h2', Sim]

theorem sim_burn {s : State} (h : Inv s) (id : U256) :
    Sim (burn s id) (Erc721.burnInternal (abs s) id) := by
  unfold burn Erc721.burnInternal
  rw [update_eq h.sorted, Erc721.update_zero, if_pos (Or.inl rfl)]
  by_cases h2 : own s id = ZERO
  · have h2' : (abs s).owners id = ZERO := h2
    simp [h2, h2', Sim]
  · have h2' : ¬ (abs s).owners id = ZERO := h2
    simp [h2, h2', Sim]; exact ⟨inv_updatedC h ZERO id, abs_updatedC h ZERO id⟩

theorem sim_transferInternal {s : State} (h : Inv s) (src dst : Address) (id : U256) :
    Sim (transferInternal s src dst id) (Erc721.transferInternal (abs s) src dst id) := by
  unfold transferInternal Erc721.transferInternal
  rw [update_eq h.sorted, Erc721.update_zero, if_pos (Or.inl rfl)]
  have e : (abs s).owners id = own s id := rfl
  rw [e]
  by_cases h1 : dst = ZERO
  · simp [h1, Sim]
  · by_cases h2 : own s id = ZERO
    · simp [h1, h2, Sim]
    · by_cases h3 : own s id = src
      · simp only [h1, h2, h3, if_false]
        have := h3 ▸ h2
        simp [this, Sim]; exact ⟨inv_updatedC h dst id, abs_updatedC h dst id⟩
      · simp [h1, h2, h3, Sim]

theorem sim_transferFrom {s : State} (h : Inv s) (caller src dst : Address) (id : U256) :
    Sim (transferFrom s caller src dst id) (Erc721.transferFrom (abs s) caller src dst id) := by
  unfold transferFrom Erc721.transferFrom
  rw [update_eq h.sorted, Erc721.update_eq]
  have e : (abs s).owners id = own s id := rfl
  rw [e]
  by_cases h1 : dst = ZERO
  · simp [h1, Sim]
  · by_cases h2 : caller = ZERO ∨ Erc721.isAuthorized (abs s) (own s id) caller id = true
    · rw [if_pos h2, if_pos h2]
      by_cases h3 : own s id = src
      · simp [h1, h3, Sim]; exact ⟨inv_updatedC h dst id, abs_updatedC h dst id⟩
      · simp [h1, h3, Sim]
    · rw [if_neg h2, if_neg h2]
      by_cases h4 : own s id = ZERO
      · simp [h1, h4, Sim]
      · simp [h1, h4, Sim]

theorem sim_then {x : Except Err State} {y : Except Erc721.Err Erc721.State} (h : Sim x y)
    (c : Except Erc721.Err Unit) :
    Sim (do let s1 ← x; lift c; (return s1 : Except Err State))
      (do let s1 ← y; c; (return s1 : Except Erc721.Err Erc721.State)) := by
  cases x with
  | error e =>
    cases y with
    | error e' => exact h
    | ok t => exact h.elim
  | ok s =>
    cases y with
    | error e' => exact h.elim
    | ok t =>
      cases c with
      | error e => simp [lift, Sim]
      | ok u => simpa [lift, Sim] using h

theorem sim_approve {s : State} (h : Inv s) (caller dst : Address) (id : U256) :
    Sim (approve s caller dst id) (Erc721.approve (abs s) caller dst id) := by
  unfold approve Erc721.approve approveInternal Erc721.approveInternal
  rw [requireOwned_eq h.sorted]
  unfold Erc721.requireOwned Erc721.ownerOfInternal
  have e : (abs s).owners id = own s id := rfl
  have e2 : ∀ o p, Erc721.isApprovedForAll (abs s) o p = isApprovedForAll s o p := fun _ _ => rfl
  simp only [e, e2, true_or, if_true]
  by_cases h1 : own s id = ZERO
  · simp [h1, lift, Sim]
  · by_cases h2 : caller ≠ ZERO ∧ own s id ≠ caller ∧ isApprovedForAll s (own s id) caller = false
    · simp only [h1, if_false, lift, except_bind_ok]
      rw [if_pos h2, if_pos h2]
      simp [Sim]
    · simp only [h1, if_false, lift, except_bind_ok]
      rw [if_neg h2, if_neg h2]
      exact ⟨⟨h.sorted, h.room⟩, rfl⟩

theorem sim_setApprovalForAll {s : State} (h : Inv s) (caller p : Address) (b : Bool) :
    Sim (setApprovalForAll s caller p b) (Erc721.setApprovalForAll (abs s) caller p b) := by
  unfold setApprovalForAll Erc721.setApprovalForAll Erc721.setApprovalForAllInternal
  by_cases h1 : p = ZERO
  · simp [h1, lift, Sim]
  · simp only [h1, if_false, lift, except_bind_ok, except_pure]
    exact ⟨⟨h.sorted, h.room⟩, rfl⟩

open Verif.Spec.Consecutive in
theorem sim_exec {s : State} (h : Inv s) (tx : Tx) : Sim (exec s tx) (Erc721.exec (abs s) (plainTx tx)) := by
  obtain ⟨caller, R, call⟩ := tx
  unfold exec Erc721.exec plainTx
  by_cases hc : caller = ZERO
  · simp [hc, Sim]
  · rw [if_neg hc, if_neg hc]
    cases call with
    | transferFrom src dst id => exact sim_transferFrom h _ _ _ _
    | safeTransferFrom src dst id => exact sim_then (sim_transferFrom h _ _ _ _) _
    | safeTransferFromWithData src dst id data => exact sim_then (sim_transferFrom h _ _ _ _) _
    | approve dst id => exact sim_approve h _ _ _
    | setApprovalForAll p b => exact sim_setApprovalForAll h _ _ _
    | mint dst id => exact sim_mint h _ _
    | safeMint dst id data => exact sim_then (sim_mint h _ _) _
    | burn id => exact sim_burn h _
    | transfer src dst id => exact sim_transferInternal h _ _ _
    | safeTransfer src dst id data => exact sim_then (sim_transferInternal h _ _ _) _

open Verif.Spec.Consecutive in
theorem sim_run (txs : List Tx) : ∀ {s : State}, Inv s →
    Inv (run s txs) ∧ abs (run s txs) = Erc721.run (abs s) (txs.map plainTx) := by
  induction txs with
  | nil => intro s h; exact ⟨h, rfl⟩
  | cons tx txs ih =>
    intro s h
    have hs := sim_exec h tx
    unfold run Erc721.run
    rw [List.map_cons, runOf_cons, runOf_cons]
    cases hx : exec s tx with
    | error e =>
      cases hy : Erc721.exec (abs s) (plainTx tx) with
      | error e' => rw [stepOf_error hx, stepOf_error hy]; exact ih h
      | ok t => rw [hx, hy] at hs; exact hs.elim
    | ok s' =>
      cases hy : Erc721.exec (abs s) (plainTx tx) with
      | error e' => rw [hx, hy] at hs; exact hs.elim
      | ok t =>
        rw [hx, hy] at hs
        obtain ⟨h1, rfl⟩ := hs
        rw [stepOf_ok hx, stepOf_ok hy]
        exact ih h1

/-! ## Batches -/

attribute [local irreducible] Verif.Erc721.cnt

/-- State between two batches of a deployment; `n` is the next id. -/
structure D (s : State) (n : Nat) : Prop where
  owners : ∀ id, s.erc721.owners id = ZERO
  burn : ∀ id, BitMap.get s.sequentialBurn id = false
  sorted : Sorted s.sequentialOwnership
  below : ∀ c ∈ s.sequentialOwnership, c.key.toNat < n
  last : (s.sequentialOwnership = [] ∧ s.firstConsecutiveId.toNat = n) ∨
    ∃ c, s.sequentialOwnership.getLast? = some c ∧ c.key.toNat + 1 = n
  first : s.firstConsecutiveId.toNat ≤ n
  small : n < 2 ^ 96

theorem D.inv {s : State} {n : Nat} (h : D s n) : Inv s :=
  ⟨h.sorted, fun c hc => by have := h.below c hc; have := h.small; omega⟩

theorem D.next {s : State} {n : Nat} (h : D s n) : (nextOf s).toNat = n := by
  unfold nextOf
  rcases h.last with ⟨h1, h2⟩ | ⟨c, h1, h2⟩
  · rw [h1]; exact h2
  · rw [h1]
    dsimp only
    have := h.small
    rw [toNat_add_of_lt (by show _ + 1 < _; omega)]
    exact h2

theorem D.own_ge {s : State} {n : Nat} (h : D s n) {id : U256} (hid : n ≤ id.toNat) : own s id = ZERO := by
  unfold own
  rw [h.owners, h.burn]
  split
  · rfl
  · rename_i hc
    push Not at hc
    rw [if_neg (by simp)]
    apply firstAtOrAfter_none
    intro c hcm
    have := h.below c hcm
    rw [BitVec.toNat_setWidth, Nat.mod_eq_of_lt hc.2.2]; omega

/-- State after a successful batch. -/
def batched (s : State) (a : Address) (b : U96) : State :=
  { s with
    sequentialOwnership := s.sequentialOwnership ++ [⟨nextOf s + b - 1#96, a⟩]
    erc721 := Erc721.increaseBalance s.erc721 a (b.setWidth 128)
    batchLog := s.batchLog ++ [⟨(nextOf s).setWidth 256, (nextOf s + b - 1#96).setWidth 256, ZERO, a⟩] }

theorem last_toNat {n : Nat} {x b : U96} (hx : x.toNat = n) (h0 : 0 < b.toNat) (hb : n + b.toNat < 2 ^ 96) :
    (x + b - 1#96).toNat = n + b.toNat - 1 := by
  have e : (x + b).toNat = n + b.toNat := by rw [toNat_add_of_lt (by omega), hx]
  have o1 : (1#96).toNat = 1 := rfl
  rw [toNat_sub_of_ge (by omega), e, o1]

theorem push_eq {s : State} {n : Nat} (h : D s n) (a : Address) {b : U96} (h0 : 0 < b.toNat)
    (hb : n + b.toNat < 2 ^ 96) :
    ∃ v, Checkpoints.push s.sequentialOwnership (nextOf s + b - 1#96) a
      = .ok (v, a, s.sequentialOwnership ++ [⟨nextOf s + b - 1#96, a⟩]) := by
  have hl := last_toNat h.next h0 hb
  rcases h.last with ⟨h1, h2⟩ | ⟨c, h1, h2⟩
  · rw [h1]; exact ⟨_, Props.Checkpoints.C35_push_empty _ _⟩
  · exact ⟨_, (Props.Checkpoints.C35_push_nonempty (by norm_num) h.sorted h1 _ a).2.2 (by omega)⟩

theorem mintConsecutive_eq {s : State} {n : Nat} (h : D s n) (a : Address) (b : U96)
    (hb : n + b.toNat < 2 ^ 96) :
    mintConsecutive s a b =
      if b = 0#96 then .ok (nextOf s, s)
      else if a = ZERO then .error (.erc721 (.invalidReceiver ZERO))
      else if s.maxBatchSize < b then
        .error (.exceededMaxBatchMint (b.setWidth 256) (s.maxBatchSize.setWidth 256))
      else .ok (nextOf s, batched s a b) := by
  unfold mintConsecutive
  rw [nextConsecutiveId_eq h.sorted, except_bind_ok]
  by_cases hz : b = 0#96
  · rw [if_pos hz, hz]; rfl
  · have h0 : 0 < b.toNat := by
      rcases Nat.eq_zero_or_pos b.toNat with e | e
      · exact absurd (BitVec.eq_of_toNat_eq e) hz
      · exact e
    have h0' : 0#96 < b := by rw [BitVec.lt_def]; exact h0
    rw [if_pos h0', if_neg hz]
    obtain ⟨v, hv⟩ := push_eq h a h0 hb
    by_cases ha : a = ZERO
    · simp [ha]
    · by_cases hm : s.maxBatchSize < b
      · simp [ha, hm]
      · simp only [ha, hm, if_false]
        rw [hv]
        rfl

theorem D.batched {s : State} {n : Nat} (h : D s n) {a : Address} {b : U96} (h0 : 0 < b.toNat)
    (hb : n + b.toNat < 2 ^ 96) : D (batched s a b) (n + b.toNat) := by
  have hl := last_toNat h.next h0 hb
  refine ⟨h.owners, h.burn, ?_, ?_, Or.inr ⟨_, List.getLast?_concat, by dsimp only; omega⟩, ?_, hb⟩
  · show List.Pairwise _ (s.sequentialOwnership ++ [_])
    rw [List.pairwise_append]
    refine ⟨h.sorted, by simp, ?_⟩
    intro c hc d hd
    simp at hd
    subst hd
    have := h.below c hc
    dsimp only
    omega
  · intro c hc
    rcases List.mem_append.mp hc with hc | hc
    · have := h.below c hc; omega
    · simp at hc
      subst hc
      dsimp only
      omega
  · have := h.first
    show s.firstConsecutiveId.toNat ≤ _
    omega

theorem firstAtOrAfter_snoc (t : Checkpoints.Trace 96 160) (c : Checkpoints.Checkpoint 96 160) (k : U96) :
    firstAtOrAfter (t ++ [c]) k =
      if ∃ d ∈ t, k.toNat ≤ d.key.toNat then firstAtOrAfter t k
      else if k.toNat ≤ c.key.toNat then c.value else ZERO := by
  unfold firstAtOrAfter
  rw [List.find?_append]
  by_cases hc : ∃ d ∈ t, k.toNat ≤ d.key.toNat
  · rw [if_pos hc]
    obtain ⟨d, hd, hk⟩ := hc
    cases hf : t.find? (fun c => decide (k.toNat ≤ c.key.toNat)) with
    | none =>
      rw [List.find?_eq_none] at hf
      exact absurd (decide_eq_true hk) (hf d hd)
    | some e => rfl
  · have : t.find? (fun c => decide (k.toNat ≤ c.key.toNat)) = none := by
      rw [List.find?_eq_none]
      intro d hd
      simp only [decide_eq_true_eq]
      exact fun hk => hc ⟨d, hd, hk⟩
    rw [this, Option.none_or, if_neg hc]
    by_cases hk : k.toNat ≤ c.key.toNat
    · simp [hk]
    · simp [hk]; rfl

theorem own_batched {s : State} {n : Nat} (h : D s n) {a : Address} {b : U96} (h0 : 0 < b.toNat)
    (hb : n + b.toNat < 2 ^ 96) (id : U256) :
    own (batched s a b) id = if n ≤ id.toNat ∧ id.toNat < n + b.toNat then a else own s id := by
  have hl := last_toNat h.next h0 hb
  have hD := h.batched (a := a) h0 hb
  by_cases hge : n + b.toNat ≤ id.toNat
  · rw [hD.own_ge hge, if_neg (by omega), h.own_ge (by omega)]
  by_cases hfi : id.toNat < s.firstConsecutiveId.toNat
  · have := h.first
    rw [if_neg (by omega)]
    rw [own_low hfi, own_low (t := batched s a b) hfi]
    rfl
  · have hown : ∀ (t : State), t.erc721.owners id = ZERO → BitMap.get t.sequentialBurn id = false →
        t.firstConsecutiveId = s.firstConsecutiveId →
        own t id = firstAtOrAfter t.sequentialOwnership (id.setWidth 96) := by
      intro t h1 h2 h3
      unfold own
      rw [if_neg, if_neg (by rw [h2]; simp)]
      rw [h1, h3]
      push Not
      exact ⟨rfl, by omega, by omega⟩
    rw [hown s (h.owners id) (h.burn id) rfl, hown (batched s a b) (h.owners id) (h.burn id) rfl]
    show firstAtOrAfter (s.sequentialOwnership ++ [_]) _ = _
    rw [firstAtOrAfter_snoc]
    dsimp only
    have hw : (id.setWidth 96).toNat = id.toNat := by
      rw [BitVec.toNat_setWidth, Nat.mod_eq_of_lt (by omega)]
    rw [hw, hl]
    by_cases hn : n ≤ id.toNat
    · rw [if_neg, if_pos (by omega), if_pos ⟨hn, by omega⟩]
      rintro ⟨d, hd, hk⟩
      have := h.below d hd
      omega
    · rw [if_pos, if_neg (by omega)]
      rcases h.last with ⟨h1, h2⟩ | ⟨c, h1, h2⟩
      · omega
      · exact ⟨c, List.mem_of_getLast? h1, by omega⟩

/-! ### Counting -/

/-- Give the ids `n, …, n+b-1` to `d`. -/
def setRange (f : U256 → Address) (n : Nat) (d : Address) : Nat → U256 → Address
  | 0 => f
  | b + 1 => upd (setRange f n d b) (BitVec.ofNat 256 (n + b)) d

theorem setRange_apply (f : U256 → Address) (n : Nat) (d : Address) : ∀ (b : Nat), n + b ≤ 2 ^ 256 →
    ∀ id, setRange f n d b id = if n ≤ id.toNat ∧ id.toNat < n + b then d else f id
  | 0, _, id => by
    rw [if_neg (by omega)]; rfl
  | b + 1, hb, id => by
    unfold setRange
    rw [upd_apply, setRange_apply f n d b (by omega)]
    have e : (BitVec.ofNat 256 (n + b)).toNat = n + b := by
      rw [BitVec.toNat_ofNat, Nat.mod_eq_of_lt (by omega)]
    by_cases hid : id = BitVec.ofNat 256 (n + b)
    · rw [if_pos hid, if_pos]
      rw [hid, e]; omega
    · have hne : id.toNat ≠ n + b := fun h => hid (BitVec.eq_of_toNat_eq (h.trans e.symm))
      rw [if_neg hid]
      by_cases hc : n ≤ id.toNat ∧ id.toNat < n + b
      · rw [if_pos hc, if_pos (by omega)]
      · rw [if_neg hc, if_neg (by omega)]

theorem setRange_ne {f : U256 → Address} {n b : Nat} {d a : Address} (ha : a ≠ ZERO)
    (hb : n + (b + 1) ≤ 2 ^ 256)
    (hz : ∀ id : U256, n ≤ id.toNat → id.toNat < n + (b + 1) → f id = ZERO) :
    setRange f n d b (BitVec.ofNat 256 (n + b)) ≠ a := by
  have e : (BitVec.ofNat 256 (n + b)).toNat = n + b := by
    rw [BitVec.toNat_ofNat, Nat.mod_eq_of_lt (by omega)]
  rw [setRange_apply f n d b (by omega), e, if_neg (by omega), hz _ (by omega) (by omega)]
  exact fun h => ha h.symm

theorem cnt_setRange_same {f : U256 → Address} {n : Nat} {a : Address} (ha : a ≠ ZERO) : ∀ (b : Nat),
    n + b ≤ 2 ^ 256 → (∀ id : U256, n ≤ id.toNat → id.toNat < n + b → f id = ZERO) →
    cnt (setRange f n a b) a = cnt f a + b
  | 0, _, _ => (Nat.add_zero _).symm
  | b + 1, hb, hz => by
    have ih := cnt_setRange_same (f := f) (n := n) ha b (by omega) (fun id h1 h2 => hz id h1 (by omega))
    unfold setRange
    rw [Enumerable.cnt_gain (setRange_ne ha hb hz), ih, Nat.add_assoc]

theorem cnt_setRange_ne {f : U256 → Address} {n : Nat} {d a : Address} (ha : a ≠ ZERO) (hd : d ≠ a) :
    ∀ (b : Nat), n + b ≤ 2 ^ 256 → (∀ id : U256, n ≤ id.toNat → id.toNat < n + b → f id = ZERO) →
    cnt (setRange f n d b) a = cnt f a
  | 0, _, _ => rfl
  | b + 1, hb, hz => by
    have ih := cnt_setRange_ne (f := f) (n := n) ha hd b (by omega) (fun id h1 h2 => hz id h1 (by omega))
    unfold setRange
    rw [Enumerable.cnt_same (setRange_ne ha hb hz) hd, ih]

/-- Balances count the owned ids. -/
def Counts (t : Erc721.State) : Prop :=
  ∀ a, a ≠ ZERO → t.balances a = BitVec.ofNat 256 (cnt t.owners a)

theorem counts_batched {s : State} {n : Nat} (h : D s n) {a : Address} {b : U96} (h0 : 0 < b.toNat)
    (hb : n + b.toNat < 2 ^ 96) (hc : Counts (abs s)) : Counts (abs (batched s a b)) := by
  intro x hx
  have hown : own (batched s a b) = setRange (own s) n a b.toNat := by
    funext id
    rw [own_batched h h0 hb, setRange_apply _ _ _ _ (by omega)]
  show upd s.erc721.balances a _ x = BitVec.ofNat 256 (cnt (own (batched s a b)) x)
  have hx' : s.erc721.balances x = BitVec.ofNat 256 (cnt (own s) x) := hc x hx
  by_cases hax : a = x
  · subst hax
    rw [hown, cnt_setRange_same hx _ (by omega) (fun id h1 _ => h.own_ge h1)]
    generalize cnt (own s) a = k at *
    rw [upd_same, hx', BitVec.ofNat_add]
    congr 1
    apply BitVec.eq_of_toNat_eq
    have := b.isLt
    rw [BitVec.toNat_setWidth, BitVec.toNat_setWidth, BitVec.toNat_ofNat, Nat.mod_eq_of_lt (by omega),
      Nat.mod_eq_of_lt (by omega), Nat.mod_eq_of_lt (by omega)]
  · rw [hown, cnt_setRange_ne hx hax _ (by omega) (fun id h1 _ => h.own_ge h1), ← hx',
      upd_ne _ _ (fun e => hax e.symm)]

open Verif.Spec.Consecutive

/-- Effect of a list of batches. -/
theorem mintBatches_effect : ∀ (bs : List (Address × U96)) {s s' : State} {n : Nat}, D s n →
    n + total bs < 2 ^ 96 → mintBatches s bs = .ok s' →
    D s' (n + total bs) ∧
    (∀ id, own s' id = if id.toNat < n then own s id else (batchOwner n bs id.toNat).getD ZERO) ∧
    (∀ a, s'.erc721.balances a
      = s.erc721.balances a + BitVec.ofNat 256 (total (bs.filter fun b => b.1 = a))) ∧
    s'.erc721.tokenApprovals = s.erc721.tokenApprovals ∧
    s'.erc721.operatorApprovals = s.erc721.operatorApprovals ∧ s'.erc721.log = s.erc721.log ∧
    (Counts (abs s) → Counts (abs s'))
  | [], s, s', n, h, _, hm => by
    injection hm with hm
    subst hm
    refine ⟨h, fun id => ?_, fun a => ?_, rfl, rfl, rfl, fun h => h⟩
    · by_cases hid : id.toNat < n
      · rw [if_pos hid]
      · rw [if_neg hid, h.own_ge (by omega)]; rfl
    · show _ = _ + 0#256
      rw [BitVec.add_zero]
  | (a, b) :: bs, s, s', n, h, ht, hm => by
    have htot : total ((a, b) :: bs) = b.toNat + total bs := by simp [total]
    rw [htot] at ht ⊢
    unfold mintBatches at hm
    dsimp only at hm
    rw [mintConsecutive_eq h a b (by omega)] at hm
    by_cases hz : b = 0#96
    · have hb0 : b.toNat = 0 := by rw [hz]; rfl
      rw [if_pos hz, except_bind_ok] at hm
      obtain ⟨h1, h2, h3, h4, h5, h6, h7⟩ := mintBatches_effect bs h (by omega) hm
      refine ⟨by rw [hb0, Nat.zero_add]; exact h1, fun id => ?_, fun x => ?_, h4, h5, h6, h7⟩
      · rw [h2 id]
        show _ = if _ then _ else (if _ then _ else _ : Option Address).getD ZERO
        rw [hb0, Nat.add_zero]
        rw [if_neg (c := n ≤ id.toNat ∧ id.toNat < n) (by omega)]
      · rw [h3 x, List.filter_cons]
        split
        · simp [total, hb0]
        · rfl
    · rw [if_neg hz] at hm
      have h0 : 0 < b.toNat := by
        rcases Nat.eq_zero_or_pos b.toNat with e | e
        · exact absurd (BitVec.eq_of_toNat_eq e) hz
        · exact e
      by_cases ha : a = ZERO
      · rw [if_pos ha] at hm; cases hm
      rw [if_neg ha] at hm
      by_cases hmx : s.maxBatchSize < b
      · rw [if_pos hmx] at hm; cases hm
      rw [if_neg hmx, except_bind_ok] at hm
      dsimp only at hm
      obtain ⟨h1, h2, h3, h4, h5, h6, h7⟩ :=
        mintBatches_effect bs (h.batched (a := a) h0 (by omega)) (by omega) hm
      refine ⟨by rw [← Nat.add_assoc]; exact h1, fun id => ?_, fun x => ?_, h4, h5, h6,
        fun hc => h7 (counts_batched h h0 (by omega) hc)⟩
      · rw [h2 id, own_batched h h0 (by omega)]
        show _ = if _ then _ else (if _ then _ else _ : Option Address).getD ZERO
        by_cases c1 : id.toNat < n
        · rw [if_pos (by omega), if_neg (by omega), if_pos c1]
        · rw [if_neg c1]
          by_cases c2 : id.toNat < n + b.toNat
          · rw [if_pos c2, if_pos ⟨by omega, c2⟩, if_pos ⟨by omega, c2⟩]; rfl
          · rw [if_neg c2, if_neg (c := n ≤ id.toNat ∧ id.toNat < n + b.toNat) (by omega)]
      · rw [h3 x]
        show upd s.erc721.balances a _ x + _ = _
        have hbw : (BitVec.setWidth 256 (BitVec.setWidth 128 b)) = BitVec.ofNat 256 b.toNat := by
          apply BitVec.eq_of_toNat_eq
          have := b.isLt
          rw [BitVec.toNat_setWidth, BitVec.toNat_setWidth, BitVec.toNat_ofNat,
            Nat.mod_eq_of_lt (by omega), Nat.mod_eq_of_lt (by omega), Nat.mod_eq_of_lt (by omega)]
        by_cases hax : a = x
        · subst hax
          have : total (((a, b) :: bs).filter fun b => b.1 = a)
              = b.toNat + total (bs.filter fun b => b.1 = a) := by
            simp [total]
          rw [this, upd_same, hbw, BitVec.ofNat_add, BitVec.add_assoc]
        · have : ((a, b) :: bs).filter (fun b => b.1 = x) = bs.filter fun b => b.1 = x := by
            rw [List.filter_cons]; simp [hax]
          rw [this, upd_ne _ _ (fun e => hax e.symm)]

/-- When a list of batches is accepted. -/
theorem mintBatches_ok_iff : ∀ (bs : List (Address × U96)) {s : State} {n : Nat}, D s n →
    n + total bs < 2 ^ 96 →
    ((∃ s', mintBatches s bs = .ok s') ↔
      ∀ b ∈ bs, b.2 ≠ 0#96 → b.1 ≠ ZERO ∧ b.2.toNat ≤ s.maxBatchSize.toNat)
  | [], s, n, _, _ => by simp [mintBatches]
  | (a, b) :: bs, s, n, h, ht => by
    have htot : total ((a, b) :: bs) = b.toNat + total bs := by simp [total]
    rw [htot] at ht
    unfold mintBatches
    dsimp only
    rw [mintConsecutive_eq h a b (by omega)]
    rw [List.forall_mem_cons]
    by_cases hz : b = 0#96
    · have hb0 : b.toNat = 0 := by rw [hz]; rfl
      rw [if_pos hz, except_bind_ok]
      dsimp only
      rw [mintBatches_ok_iff bs h (by omega)]
      simp [hz]
    · rw [if_neg hz]
      have h0 : 0 < b.toNat := by
        rcases Nat.eq_zero_or_pos b.toNat with e | e
        · exact absurd (BitVec.eq_of_toNat_eq e) hz
        · exact e
      by_cases ha : a = ZERO
      · simp [ha, hz]
      rw [if_neg ha]
      by_cases hmx : s.maxBatchSize < b
      · rw [if_pos hmx]
        rw [BitVec.lt_def] at hmx
        constructor
        · rintro ⟨s', hs'⟩; cases hs'
        · rintro ⟨h1, _⟩
          have := (h1 hz).2
          dsimp only at this
          omega
      · rw [if_neg hmx, except_bind_ok]
        dsimp only
        rw [mintBatches_ok_iff bs (h.batched (a := a) h0 (by omega)) (by omega)]
        have hmx' : b.toNat ≤ s.maxBatchSize.toNat := by
          rw [BitVec.lt_def] at hmx; omega
        constructor
        · intro hh; exact ⟨fun _ => ⟨ha, hmx'⟩, hh⟩
        · exact fun hh => hh.2

theorem D_init (first mx : U96) : D (init first mx) first.toNat :=
  ⟨fun _ => rfl, fun _ => by simp [init, BitMap.get, BitMap.init], List.Pairwise.nil, by simp [init],
    Or.inl ⟨rfl, rfl⟩, le_refl _, first.isLt⟩

theorem cnt_zero {a : Address} (ha : a ≠ ZERO) (f : U256 → Address) (hf : ∀ id, f id = ZERO) :
    cnt f a = 0 := by
  unfold cnt
  apply Finset.sum_eq_zero
  intro id _
  rw [if_neg]
  rw [hf]; exact fun e => ha e.symm

theorem counts_init (first mx : U96) : Counts (abs (init first mx)) := by
  intro a ha
  show 0#256 = BitVec.ofNat 256 (cnt (own (init first mx)) a)
  rw [cnt_zero ha]
  intro id
  unfold own
  split
  · rfl
  · split <;> rfl

/-- Deployment. -/
theorem deploy_effect {first mx : U96} {bs : List (Address × U96)} {s : State}
    (hroom : first.toNat + total bs < 2 ^ 96) (h : deploy first mx bs = .ok s) :
    Inv s ∧ abs s = plain first bs ∧ Counts (abs s) := by
  obtain ⟨h1, h2, h3, h4, h5, h6, h7⟩ := mintBatches_effect bs (D_init first mx) hroom h
  refine ⟨h1.inv, ?_, h7 (counts_init first mx)⟩
  have e1 : own s = fun id : U256 => (batchOwner first.toNat bs id.toNat).getD ZERO := by
    funext id
    rw [h2 id]
    split
    · rename_i hid
      have : ∀ (bs : List (Address × U96)) (n : Nat), id.toNat < n → batchOwner n bs id.toNat = none := by
        intro bs
        induction bs with
        | nil => intro n _; rfl
        | cons b bs ih =>
          intro n hn
          unfold batchOwner
          rw [if_neg (by omega), ih _ (by omega)]
      rw [this _ _ hid]
      rw [own_low hid]; rfl
    · rfl
  have e2 : s.erc721.balances = fun a => BitVec.ofNat 256 (total (bs.filter fun b => b.1 = a)) := by
    funext a
    rw [h3 a]
    show 0#256 + _ = _
    rw [BitVec.zero_add]
  have e3 : s.erc721.tokenApprovals = Erc721.init.tokenApprovals := h4
  have e4 : s.erc721.operatorApprovals = Erc721.init.operatorApprovals := h5
  have e5 : s.erc721.log = Erc721.init.log := h6
  show Erc721.State.mk (own s) s.erc721.balances s.erc721.tokenApprovals s.erc721.operatorApprovals
    s.erc721.log = _
  rw [e1, e2, e3, e4, e5]
  rfl

/-- What a plain transaction does to owners and balances. -/
theorem plain_exec_move {t t' : Erc721.State} {tx : Tx} (h : Erc721.exec t (plainTx tx) = .ok t') :
    (t'.owners = t.owners ∧ t'.balances = t.balances) ∨ ∃ dst id, t' = Erc721.updated t dst id := by
  obtain ⟨caller, R, call⟩ := tx
  unfold Erc721.exec plainTx at h
  by_cases hc : caller = ZERO
  · simp [hc] at h
  · rw [if_neg hc] at h
    cases call with
    | transferFrom src dst id =>
      obtain ⟨_, _, _, rfl⟩ := Erc721.transferFrom_ok.mp h; exact Or.inr ⟨_, _, rfl⟩
    | safeTransferFrom src dst id =>
      obtain ⟨_, _, _, rfl⟩ := Erc721.transferFrom_ok.mp (Erc721.then_check_ok.mp h).1
      exact Or.inr ⟨_, _, rfl⟩
    | safeTransferFromWithData src dst id data =>
      obtain ⟨_, _, _, rfl⟩ := Erc721.transferFrom_ok.mp (Erc721.then_check_ok.mp h).1
      exact Or.inr ⟨_, _, rfl⟩
    | approve dst id =>
      obtain ⟨_, _, rfl⟩ := (Erc721.approve_ok hc).mp h; exact Or.inl ⟨rfl, rfl⟩
    | setApprovalForAll p b =>
      obtain ⟨_, rfl⟩ := Erc721.setApprovalForAll_ok.mp h; exact Or.inl ⟨rfl, rfl⟩
    | mint dst id =>
      obtain ⟨_, _, rfl⟩ := Erc721.mint_ok.mp h; exact Or.inr ⟨_, _, rfl⟩
    | safeMint dst id data =>
      obtain ⟨_, _, rfl⟩ := Erc721.mint_ok.mp (Erc721.then_check_ok.mp h).1
      exact Or.inr ⟨_, _, rfl⟩
    | burn id => obtain ⟨_, rfl⟩ := Erc721.burnInternal_ok.mp h; exact Or.inr ⟨_, _, rfl⟩
    | transfer src dst id =>
      obtain ⟨_, _, _, rfl⟩ := Erc721.transferInternal_ok.mp h; exact Or.inr ⟨_, _, rfl⟩
    | safeTransfer src dst id data =>
      obtain ⟨_, _, _, rfl⟩ := Erc721.transferInternal_ok.mp (Erc721.then_check_ok.mp h).1
      exact Or.inr ⟨_, _, rfl⟩

theorem counts_run (txs : List Tx) : ∀ {t : Erc721.State}, Counts t →
    Counts (Erc721.run t (txs.map plainTx)) := by
  induction txs with
  | nil => intro t h; exact h
  | cons tx txs ih =>
    intro t h
    unfold Erc721.run
    rw [List.map_cons, runOf_cons]
    cases hx : Erc721.exec t (plainTx tx) with
    | error e => rw [stepOf_error hx]; exact ih h
    | ok t' =>
      rw [stepOf_ok hx]
      refine ih ?_
      rcases plain_exec_move hx with ⟨h1, h2⟩ | ⟨dst, id, rfl⟩
      · intro a ha; rw [h1, h2]; exact h a ha
      · intro a ha
        exact Erc721.moveBal_count h dst id a ha

theorem lift_eq {α : Type} (x : Except Erc721.Err α) : lift x = x.mapError .erc721 := by
  cases x <;> rfl

theorem same_of_abs {s : State} (h : Inv s) : Same s (abs s) := by
  refine ⟨fun id => ?_, fun a => lift_eq _, fun id => ?_, fun _ _ => rfl, rfl⟩
  · unfold owner? Spec.Erc721.owner? ownerOf Erc721.ownerOf
    rw [requireOwned_eq h.sorted]
    cases Erc721.requireOwned (abs s) id <;> rfl
  · unfold getApproved Erc721.getApproved
    rw [requireOwned_eq h.sorted]
    cases Erc721.requireOwned (abs s) id <;> rfl

end Verif.Consecutive
