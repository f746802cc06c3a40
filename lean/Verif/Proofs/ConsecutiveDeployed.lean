import Verif.Model.ConsecutiveDeployed
import Verif.Proofs.Erc721Words
import Verif.Props.Erc721Words
import Verif.Props.ContractsErc721
/-! # Lemmas: the ERC-721 example with batches on a table of cells -/

namespace Verif.Proofs.ConsecutiveDeployed
open Verif Verif.Storage Verif.Spec.Storage Verif.Spec.Constructors Verif.Spec.StoragePrograms
open Verif.Props.StoragePrograms (SameOutcome onCells_bind uses_bind uses_ite key_inj)
open Verif.Proofs.Deployed (Table UsedBy used_bind used_of_uses uses_mono uses_lift onCells_lift onCells_frame programs_run)
open Verif.Proofs.Erc721Words (Sim SimT sim_ret sim_fail sim_bind sim_ite unit look)
open Verif.ConsecutiveDeployed (Ev Code token count keyAt valueAt bucket firstCell maxCell inner)
open Verif.Consecutive (Err)
open Verif.Math (average)

/-- The events of the token. -/
def tokenLog (l : List Ev) : List Erc721.Event := l.filterMap fun | .token e => some e | _ => none
/-- The events of the batches. -/
def batchLog (l : List Ev) : List Consecutive.ConsecutiveTransfer := l.filterMap fun | .batch e => some e | _ => none

theorem tokenLog_append (a b : List Ev) : tokenLog (a ++ b) = tokenLog a ++ tokenLog b := List.filterMap_append
theorem batchLog_append (a b : List Ev) : batchLog (a ++ b) = batchLog a ++ batchLog b := List.filterMap_append
theorem tokenLog_token (l : List Erc721.Event) : tokenLog (l.map .token) = l := by
  induction l with
  | nil => rfl
  | cons a l ih => exact congrArg (a :: ·) ih
theorem batchLog_token (l : List Erc721.Event) : batchLog (l.map .token) = [] := by
  induction l with
  | nil => rfl
  | cons a l ih => exact ih

/-- The checkpoints of a table. -/
def trace (c : Table) : Checkpoints.Trace 96 160 :=
  (List.range (c count).toNat).map fun i => ⟨(c (keyAt i)).setWidth 96, (c (valueAt i)).setWidth 160⟩

/-- The state a table stands for. -/
def view (c : Table) (log : List Ev) : Consecutive.State :=
  { erc721 := Erc721Words.view token c (tokenLog log), sequentialOwnership := trace c,
    sequentialBurn := ⟨fun b => c (bucket b)⟩, firstConsecutiveId := (c firstCell).setWidth 96,
    maxBatchSize := (c maxCell).setWidth 96, batchLog := batchLog log }

/-- The sizes of the cells. -/
structure Sizes (w : List Step → Nat) : Prop where
  token : Erc721Words.Sizes w token
  count : w count = 32
  key : ∀ i, w (keyAt i) = 12
  value : ∀ i, w (valueAt i) = 20
  bucket : ∀ b, w (bucket b) = 32
  first : w firstCell = 12
  max : w maxCell = 12

/-- A cell of the token. -/
def Under (p : List Step) : Prop := ∃ q, p = Step.field "erc721_consecutive" :: Step.field "erc721" :: q

theorem view_under {c c' : Table} (h : ∀ p, Under p → c' p = c p) (log : List Erc721.Event) :
    Erc721Words.view token c' log = Erc721Words.view token c log := by
  unfold Erc721Words.view
  have h1 := funext fun id => congrArg (BitVec.setWidth 160) (h (Erc721Words.owner token id) ⟨_, rfl⟩)
  have h2 := funext fun a => h (Erc721Words.balance token a) ⟨_, rfl⟩
  have h3 := funext fun id => congrArg (BitVec.setWidth 160) (h (Erc721Words.approved token id) ⟨_, rfl⟩)
  have h4 := funext fun a => funext fun b =>
    congrArg (fun v => decide (v ≠ 0#256)) (h (Erc721Words.operator token a b) ⟨_, rfl⟩)
  rw [h1, h2, h3, h4]

theorem not_count : ¬ Under count := by rintro ⟨q, hq⟩; simp [count] at hq
theorem not_key (i : Nat) : ¬ Under (keyAt i) := by rintro ⟨q, hq⟩; simp [keyAt] at hq
theorem not_value (i : Nat) : ¬ Under (valueAt i) := by rintro ⟨q, hq⟩; simp [valueAt] at hq
theorem not_bucket (b : U256) : ¬ Under (bucket b) := by rintro ⟨q, hq⟩; simp [bucket] at hq
theorem not_first : ¬ Under firstCell := by rintro ⟨q, hq⟩; simp [firstCell] at hq
theorem not_max : ¬ Under maxCell := by rintro ⟨q, hq⟩; simp [maxCell] at hq

theorem trace_frame {c c' : Table} (h : ∀ p, ¬ Under p → c' p = c p) : trace c' = trace c := by
  unfold trace
  have h1 := fun i => h (keyAt i) (not_key i)
  have h2 := fun i => h (valueAt i) (not_value i)
  simp only [h1, h2, h count not_count]

/-- A function of the token, on the whole state. -/
def inside {α : Type} (f : Erc721.State → Except Erc721.Err (α × Erc721.State)) (s : Consecutive.State) :
    Except Err (α × Consecutive.State) :=
  match f s.erc721 with
  | .error e => .error (.erc721 e)
  | .ok r => .ok (r.1, { s with erc721 := r.2 })

section
variable {w : List Step → Nat} {α β : Type}

theorem sim_inner {m : Erc721Words.Code α} {f : Erc721.State → Except Erc721.Err (α × Erc721.State)} (hu : Uses Under m)
    (h : SimT w token m f) : Sim w view (inner m) (inside f) := by
  intro c log
  have h1 := h c (tokenLog log)
  unfold inner inside
  rw [onCells_lift]
  show (match f (Erc721Words.view token c (tokenLog log)) with | .error e => _ | .ok r => _) = _
  rw [h1]
  cases hm : onCells w m c with
  | error e => rfl
  | ok r =>
    have hf : ∀ p, ¬ Under p → r.2.1 p = c p := fun p hp => onCells_frame _ hu hm hp
    show Except.ok (r.1, _) = Except.ok (r.1, _)
    unfold view
    rw [tokenLog_append, batchLog_append, tokenLog_token, batchLog_token, List.append_nil, trace_frame hf, hf firstCell not_first,
      hf maxCell not_max, funext fun b => hf (bucket b) (not_bucket b)]

/-! ## Only the cells of the token -/

theorem under_owner (id : U256) : Uses Under (Erc721Words.ownerOfInternal token id) := ⟨⟨_, rfl⟩, fun _ => trivial⟩

theorem under_approved (id : U256) : Uses Under (Erc721Words.getApprovedInternal token id) := ⟨⟨_, rfl⟩, fun _ => trivial⟩

theorem under_balance (a : Address) : Uses Under (Erc721Words.balanceOf token a) := uses_ite trivial ⟨⟨_, rfl⟩, fun _ => trivial⟩

theorem under_approvedForAll (a b : Address) : Uses Under (Erc721Words.isApprovedForAll token a b) := ⟨⟨_, rfl⟩, fun _ => trivial⟩

theorem under_check (o op : Address) (id : U256) : Uses Under (Erc721Words.checkAuthorized token o op id) :=
  uses_bind (uses_ite trivial (uses_ite trivial (uses_bind (under_approvedForAll _ _) fun _ =>
    uses_ite trivial ⟨⟨_, rfl⟩, fun _ => trivial⟩))) fun _ => uses_ite trivial (uses_ite trivial trivial)

theorem under_change (a : Address) (f : U256 → U256) : Uses Under (Erc721Words.change token a f) :=
  ⟨⟨_, rfl⟩, fun _ => ⟨⟨_, rfl⟩, trivial⟩⟩

theorem under_received (R : Erc721.Receivers) (op src dst : Address) (id : U256) (data : Bytes) :
    Uses Under (Erc721Words.received R op src dst id data) := by
  unfold Erc721Words.received
  split <;> trivial

theorem under_setAll (o op : Address) (b : Bool) : Uses Under (Erc721Words.setApprovalForAll token o op b) :=
  uses_ite trivial ⟨⟨_, rfl⟩, trivial⟩

/-! ## Programs that only read -/

/-- The program reads, and gives this result. -/
def Reads {E V : Type} (w : List Step → Nat) (m : Prog E V α) (c : Table) (x : Except E α) : Prop :=
  onCells w m c = x.map fun a => (a, c, [])

theorem reads_ret {E V : Type} (a : α) (c : Table) : Reads (E := E) (V := V) w (.ret a) c (.ok a) := rfl

theorem reads_bind {E V : Type} {m : Prog E V α} {g : α → Prog E V β} {c : Table} {x : Except E α} {y : α → Except E β}
    (hm : Reads w m c x) (hg : ∀ a, Reads w (g a) c (y a)) : Reads w (m.bind g) c (x >>= y) := by
  unfold Reads at *
  rw [onCells_bind, hm]
  cases x with
  | error e => rfl
  | ok a =>
    show Except.map _ (onCells w (g a) c) = Except.map _ (y a)
    rw [hg]
    cases y a <;> rfl

theorem reads_ite {E V : Type} {P : Prop} [Decidable P] {m m' : Prog E V α} {c : Table} {x x' : Except E α} (h : Reads w m c x)
    (h' : Reads w m' c x') : Reads w (if P then m else m') c (if P then x else x') := by
  by_cases hp : P
  · rw [if_pos hp, if_pos hp]; exact h
  · rw [if_neg hp, if_neg hp]; exact h'

theorem sim_of_reads {m : Code α} {f : Consecutive.State → Except Err α} (h : ∀ c log, Reads w m c (f (view c log))) :
    Sim w view m (look f) := by
  intro c log
  rw [show onCells w m c = _ from h c log]
  unfold look
  cases f (view c log) with
  | error e => rfl
  | ok a =>
    show Except.ok (a, view c log) = Except.ok (a, view c (log ++ []))
    rw [List.append_nil]

/-! ## The checkpoints -/

theorem trace_length (c : Table) : (trace c).length = (c count).toNat := by simp [trace]

theorem length_trace (c : Table) : Checkpoints.length (trace c) = c count := by
  unfold Checkpoints.length
  rw [trace_length, BitVec.ofNat_toNat, BitVec.setWidth_eq]

theorem trace_get (c : Table) {i : Nat} (h : i < (c count).toNat) :
    (trace c)[i]? = some ⟨(c (keyAt i)).setWidth 96, (c (valueAt i)).setWidth 160⟩ := by
  unfold trace
  rw [List.getElem?_map, List.getElem?_range h]
  rfl

/-- Reading a checkpoint that there is. -/
theorem index_ok {c : Table} {pos : U256} (h : pos.toNat < (c count).toNat) (g : Nat → Code α) :
    onCells w ((ConsecutiveDeployed.index pos).bind g) c = onCells w (g pos.toNat) c ∧
    Checkpoints.index (trace c) pos = .ok ⟨(c (keyAt pos.toNat)).setWidth 96, (c (valueAt pos.toNat)).setWidth 160⟩ := by
  constructor
  · unfold ConsecutiveDeployed.index
    rw [Prog.bind, onCells, if_pos h]
    rfl
  · unfold Checkpoints.index
    rw [trace_get c h]
    rfl

/-- Reading a checkpoint that there is not. -/
theorem index_panic {c : Table} {pos : U256} (h : ¬ pos.toNat < (c count).toNat) (g : Nat → Code α) :
    onCells w ((ConsecutiveDeployed.index pos).bind g) c = .error (.checkpoints .panic) ∧
    Checkpoints.index (trace c) pos = .error .panic := by
  constructor
  · unfold ConsecutiveDeployed.index
    rw [Prog.bind, onCells, if_neg h]
    rfl
  · unfold Checkpoints.index
    rw [List.getElem?_eq_none (by rw [trace_length]; omega)]
    rfl

theorem reads_lookup (c : Table) (key : U96) (low high : U256) : Reads w (ConsecutiveDeployed.lowerBinaryLookup key low high) c
    (Consecutive.liftC (Checkpoints.lowerBinaryLookup (trace c) key low high)) := by
  unfold Reads
  rw [ConsecutiveDeployed.lowerBinaryLookup, Checkpoints.lowerBinaryLookup]
  by_cases h : low < high
  · rw [dif_pos h, dif_pos h]
    by_cases hi : (average low high).toNat < (c count).toNat
    · rw [(index_ok hi _).1, (index_ok (α := Unit) (w := w) hi fun _ => .ret ()).2, onCells]
      dsimp only
      by_cases hk : (c (keyAt (average low high).toNat)).setWidth 96 < key
      · rw [if_pos hk, if_pos hk]
        exact reads_lookup c key (average low high + 1#256) high
      · rw [if_neg hk, if_neg hk]
        exact reads_lookup c key low (average low high)
    · rw [(index_panic hi _).1, (index_panic (α := Unit) (w := w) hi fun _ => .ret ()).2]
      rfl
  · rw [dif_neg h, dif_neg h]
    rfl
termination_by high.toNat - low.toNat
decreasing_by
  all_goals
    have h1 := BitVec.lt_def.mp h
    have h2 := Verif.Math.average_toNat low high
    have _h3 := high.isLt
    try rw [toNat_add_of_lt (by rw [h2]; show _ + 1 < _; omega)]
    rw [h2]
    first
      | omega
      | show high.toNat - ((low.toNat + high.toNat) / 2 + 1) < _; omega

theorem reads_lower (c : Table) (key : U96) :
    Reads w (ConsecutiveDeployed.lowerLookup key) c (Consecutive.liftC (Checkpoints.lowerLookup (trace c) key)) := by
  unfold Reads ConsecutiveDeployed.lowerLookup Checkpoints.lowerLookup
  rw [onCells, onCells_bind, show onCells w (ConsecutiveDeployed.lowerBinaryLookup key 0#256 (c count)) c = _ from reads_lookup c key _ _,
    length_trace]
  dsimp only
  cases Checkpoints.lowerBinaryLookup (trace c) key 0#256 (c count) with
  | error e => rfl
  | ok pos =>
    show Except.map _ (onCells w (if pos = c count then _ else _) c) = Except.map _ (Consecutive.liftC (if pos = c count then _ else _))
    by_cases hp : pos = c count
    · rw [if_pos hp, if_pos hp]; rfl
    · rw [if_neg hp, if_neg hp]
      by_cases hi : pos.toNat < (c count).toNat
      · rw [(index_ok hi _).1, (index_ok (α := Unit) (w := w) hi fun _ => .ret ()).2]
        rfl
      · rw [(index_panic hi _).1, (index_panic (α := Unit) (w := w) hi fun _ => .ret ()).2]
        rfl

theorem reads_latest (c : Table) :
    Reads w ConsecutiveDeployed.latestCheckpoint c (Consecutive.liftC (Checkpoints.latestCheckpoint (trace c))) := by
  unfold Reads ConsecutiveDeployed.latestCheckpoint Checkpoints.latestCheckpoint
  rw [onCells, length_trace]
  dsimp only
  by_cases h0 : c count = 0#256
  · rw [if_pos h0, if_pos h0]; rfl
  · rw [if_neg h0, if_neg h0]
    by_cases hi : (c count - 1#256).toNat < (c count).toNat
    · rw [(index_ok hi _).1, (index_ok (α := Unit) (w := w) hi fun _ => .ret ()).2]
      rfl
    · rw [(index_panic hi _).1, (index_panic (α := Unit) (w := w) hi fun _ => .ret ()).2]
      rfl

theorem reads_next (c : Table) (log : List Ev) :
    Reads w ConsecutiveDeployed.nextConsecutiveId c (Consecutive.nextConsecutiveId (view c log)) := by
  have h := reads_bind (reads_latest (w := w) c) (g := fun
      | none => ConsecutiveDeployed.firstConsecutiveId
      | some (latestId, _) => .ret (latestId + 1#96))
    (y := fun
      | none => .ok (view c log).firstConsecutiveId
      | some (latestId, _) => .ok (latestId + 1#96)) (by
      rintro (_ | ⟨a, b⟩) <;> rfl)
  exact h

/-- There is always a next token. -/
theorem next_ok (c : Table) (log : List Ev) : ∃ n, Consecutive.nextConsecutiveId (view c log) = .ok n := by
  unfold Consecutive.nextConsecutiveId Checkpoints.latestCheckpoint
  rw [show (view c log).sequentialOwnership = trace c from rfl, length_trace]
  dsimp only
  by_cases h0 : c count = 0#256
  · rw [if_pos h0]; exact ⟨_, rfl⟩
  · rw [if_neg h0]
    have hi : (c count - 1#256).toNat < (c count).toNat := by
      have h : c count ≠ 0#256 := h0
      generalize c count = v at h
      bv_omega
    rw [(index_ok (α := Unit) (w := fun _ => 0) hi fun _ => .ret ()).2]
    exact ⟨_, rfl⟩

theorem reads_burnt (c : Table) (log : List Ev) (id : U256) :
    Reads w (ConsecutiveDeployed.isBurnt id) c (.ok (BitMap.get (view c log).sequentialBurn id)) := by
  show Except.ok (decide (_ ≠ _), c, []) = Except.ok (_, c, [])
  have : ∀ x : U256, decide (x ≠ 0#256) = (x != 0#256) := by
    intro x
    by_cases e : x = 0#256 <;> simp [e]
  rw [this]
  rfl

theorem reads_owner (c : Table) (log : List Ev) (id : U256) :
    Reads w (ConsecutiveDeployed.ownerOfInternal id) c (Consecutive.ownerOfInternal (view c log) id) := by
  have h1 : Reads w (inner (Erc721Words.ownerOfInternal token id)) c (.ok (Erc721.ownerOfInternal (view c log).erc721 id)) := rfl
  have h2 : Reads w ConsecutiveDeployed.firstConsecutiveId c (.ok (view c log).firstConsecutiveId) := rfl
  have h := reads_bind h1 fun owner => reads_ite (P := owner ≠ ZERO) (reads_ret owner c)
    (reads_bind h2 fun first => reads_ite (P := id < first.setWidth 256 ∨ (BitVec.allOnes 96).setWidth 256 < id) (reads_ret owner c)
      (reads_bind (reads_burnt c log id) fun burnt => reads_ite (P := burnt = true) (reads_ret ZERO c) (reads_lower c (id.setWidth 96))))
  refine Eq.trans h (congrArg (Except.map _) ?_)
  unfold Consecutive.ownerOfInternal
  dsimp only [bind, Except.bind]
  by_cases a : Erc721.ownerOfInternal (view c log).erc721 id ≠ ZERO
  · rw [if_pos a, if_pos (.inl a)]
  · by_cases b : id < (view c log).firstConsecutiveId.setWidth 256 ∨ (BitVec.allOnes 96).setWidth 256 < id
    · rw [if_neg a, if_pos b, if_pos (.inr b)]
    · rw [if_neg a, if_neg b, if_neg (not_or.mpr ⟨a, b⟩)]
      rfl

theorem reads_owned (c : Table) (log : List Ev) (id : U256) :
    Reads w (ConsecutiveDeployed.requireOwned id) c (Consecutive.requireOwned (view c log) id) := by
  have hf : Reads (α := Address) (V := Ev) w (.fail (Err.erc721 (.nonexistentToken id))) c (.error (.erc721 (.nonexistentToken id))) := rfl
  have h := reads_bind (reads_owner (w := w) c log id) fun owner => reads_ite (P := owner = ZERO) hf (reads_ret owner c)
  refine Eq.trans h (congrArg (Except.map _) ?_)
  unfold Consecutive.requireOwned
  cases Consecutive.ownerOfInternal (view c log) id with
  | error e => rfl
  | ok o =>
    dsimp only [bind, Except.bind]
    split <;> rfl

theorem reads_getApproved (c : Table) (log : List Ev) (id : U256) :
    Reads w (ConsecutiveDeployed.getApproved id) c (Consecutive.getApproved (view c log) id) := by
  have h2 : Reads w (inner (Erc721Words.getApprovedInternal token id)) c (.ok (Erc721.getApprovedInternal (view c log).erc721 id)) := rfl
  exact reads_bind (reads_owned (w := w) c log id) fun _ => h2

/-! ## The functions that write -/

theorem sim_owner (id : U256) : Sim w view (ConsecutiveDeployed.ownerOfInternal id) (look fun s => Consecutive.ownerOfInternal s id) :=
  sim_of_reads fun c log => reads_owner c log id

theorem sim_owned (id : U256) : Sim w view (ConsecutiveDeployed.requireOwned id) (look fun s => Consecutive.requireOwned s id) :=
  sim_of_reads fun c log => reads_owned c log id

theorem sim_approve (hw : Sizes w) (dst : Address) (id : U256) (auth : Address) (emit : Bool) :
    Sim w view (ConsecutiveDeployed.approveInternal dst id auth emit) (unit fun s => Consecutive.approveInternal s dst id auth emit) := by
  have store := sim_inner (w := w) (m := .set (Erc721Words.approved token id) (dst.setWidth 256) (.ret ())) ⟨⟨_, rfl⟩, trivial⟩
    (Proofs.Erc721Words.sim_setApproved hw.token dst id)
  have emitted : ∀ o, Sim w view (inner (.emit (.approval o dst id) (.set (Erc721Words.approved token id) (dst.setWidth 256) (.ret ()))))
      (inside fun s => .ok ((), { s with tokenApprovals := upd s.tokenApprovals id dst, log := s.log ++ [.approval o dst id] })) := by
    intro o
    refine sim_inner ⟨⟨_, rfl⟩, trivial⟩ ?_
    intro c log
    show _ = Except.ok ((), Erc721Words.view token (upd c _ _) (log ++ [_]))
    rw [hw.token.approved, Proofs.Erc721Words.view_approved, Proofs.Erc721Words.mask20]
    rfl
  have h := sim_ite (P := emit = true ∨ auth ≠ ZERO)
    (sim_bind (sim_owned (w := w) id) fun o =>
      sim_bind (sim_ite (P := auth ≠ ZERO ∧ o ≠ auth)
        (sim_bind (sim_inner (under_approvedForAll o auth) (Proofs.Erc721Words.sim_operator o auth)) fun all =>
          sim_ite (P := all = true) (sim_ret ()) (sim_fail (.erc721 (.invalidApprover auth))))
        (sim_ret ())) fun _ => sim_ite (P := emit = true) (emitted o) store) store
  intro c log
  refine Eq.trans ?_ (h c log)
  generalize view c log = s
  unfold unit look inside Consecutive.approveInternal Consecutive.isApprovedForAll Erc721.isApprovedForAll
  dsimp only
  by_cases h1 : emit = true ∨ auth ≠ ZERO
  · rw [if_pos h1]
    simp only [if_pos h1]
    cases Consecutive.requireOwned s id with
    | error e => rfl
    | ok o =>
      by_cases h2 : auth ≠ ZERO ∧ o ≠ auth
      · cases h3 : s.erc721.operatorApprovals o auth with
        | true => cases emit <;> simp [h2, h3, Except.map, bind, Except.bind, pure, Except.pure]
        | false => cases emit <;> simp [h2, h3, Except.map, bind, Except.bind, throw, throwThe, MonadExceptOf.throw]
      · have h2' : ¬ (auth ≠ ZERO ∧ o ≠ auth ∧ s.erc721.operatorApprovals o auth = false) := fun h => h2 ⟨h.1, h.2.1⟩
        cases emit <;> simp [h2, h2', Except.map, bind, Except.bind, pure, Except.pure]
  · rw [if_neg h1]
    simp only [if_neg h1]
    rfl

theorem sim_updateBase (hw : Sizes w) (dst : Address) (id : U256) (auth : Address) :
    Sim w view (ConsecutiveDeployed.updateBase dst id auth) fun s => Consecutive.updateBase s dst id auth := by
  have h := sim_bind (sim_owner (w := w) id) fun src =>
    sim_bind (sim_ite (P := auth ≠ ZERO) (sim_inner (under_check src auth id) (Proofs.Erc721Words.sim_check src auth id)) (sim_ret ())) fun _ =>
    sim_bind (sim_ite (P := src ≠ ZERO) (sim_bind (sim_approve hw ZERO id ZERO false) fun _ =>
      sim_inner (under_change src _) (Proofs.Erc721Words.sim_change hw.token src fun b => b - 1#256)) (sim_ret ())) fun _ =>
    sim_bind (sim_ite (P := dst ≠ ZERO)
      (sim_inner (under_change dst _) (Proofs.Erc721Words.sim_change hw.token dst fun b => b + 1#256)) (sim_ret ())) fun _ =>
    sim_inner (m := .set (Erc721Words.owner token id) (dst.setWidth 256) (.emit (.transfer src dst id) (.ret src)))
      ⟨⟨_, rfl⟩, trivial⟩ (Proofs.Erc721Words.sim_transfer hw.token src dst id)
  intro c log
  refine Eq.trans ?_ (h c log)
  generalize view c log = s
  unfold Consecutive.updateBase unit look inside
  dsimp only
  cases ho : Consecutive.ownerOfInternal s id with
  | error e => rfl
  | ok src =>
    dsimp only [bind, Except.bind, Except.map]
    by_cases h1 : auth ≠ ZERO
    · simp only [if_pos h1]
      cases hk : Erc721.checkAuthorized s.erc721 src auth id with
      | error e => simp [Consecutive.lift]
      | ok _ =>
        by_cases h2 : src ≠ ZERO
        · by_cases h3 : dst ≠ ZERO <;>
            simp [h2, h3, Consecutive.approveInternal, Consecutive.lift, bind, Except.bind, pure, Except.pure]
        · by_cases h3 : dst ≠ ZERO <;> simp [h2, h3, Consecutive.lift, pure, Except.pure]
    · simp only [if_neg h1]
      by_cases h2 : src ≠ ZERO
      · by_cases h3 : dst ≠ ZERO <;>
          simp [h2, h3, Consecutive.approveInternal, bind, Except.bind, pure, Except.pure]
      · by_cases h3 : dst ≠ ZERO <;> simp [h2, h3, pure, Except.pure]

/-- Only the bits of the burnt tokens. -/
theorem view_bucket (c : Table) (log : List Ev) (b v : U256) :
    view (upd c (bucket b) v) log = { view c log with sequentialBurn := ⟨upd (view c log).sequentialBurn.data b v⟩ } := by
  have h1 : (fun x => upd c (bucket b) v (bucket x)) = upd (fun x => c (bucket x)) b v := by
    funext x
    by_cases e : x = b
    · rw [e, upd_same, upd_same]
    · rw [upd_ne _ _ e, upd_ne _ _ (show bucket x ≠ bucket b by simpa [bucket] using e)]
  have h2 : trace (upd c (bucket b) v) = trace c := by
    unfold trace
    rw [upd_ne _ _ (show count ≠ bucket b by simp [count, bucket])]
    refine List.map_congr_left fun i _ => ?_
    rw [upd_ne _ _ (show keyAt i ≠ bucket b by simp [keyAt, bucket]), upd_ne _ _ (show valueAt i ≠ bucket b by simp [valueAt, bucket])]
  unfold view
  rw [h1, h2, view_under (c := c) (c' := upd c (bucket b) v) (fun q hq => upd_ne _ _ (by rintro rfl; exact not_bucket b hq)),
    upd_ne _ _ (show firstCell ≠ bucket b by simp [firstCell, bucket]),
    upd_ne _ _ (show maxCell ≠ bucket b by simp [maxCell, bucket])]

theorem sim_mark (hw : Sizes w) (id : U256) :
    Sim w view (ConsecutiveDeployed.markBurnt id)
      fun s => .ok ((), { s with sequentialBurn := BitMap.set s.sequentialBurn id }) := by
  intro c log
  show _ = Except.ok ((), view (upd c _ (_ &&& mask (w (bucket _)))) (log ++ []))
  rw [List.append_nil, hw.bucket, view_bucket, Proofs.Erc721Words.mask32]
  rfl

theorem sim_update (hw : Sizes w) (dst : Address) (id : U256) (auth : Address) :
    Sim w view (ConsecutiveDeployed.update dst id auth) fun s => Consecutive.update s dst id auth := by
  have h := sim_bind (sim_updateBase hw dst id auth) fun previous => sim_bind
    (sim_ite (P := dst = ZERO) (sim_bind (sim_of_reads (w := w) (f := Consecutive.nextConsecutiveId) fun c log => reads_next c log) fun next =>
      sim_ite (P := id < next.setWidth 256) (sim_bind (sim_of_reads (f := fun s => .ok (BitMap.get s.sequentialBurn id))
        fun c log => reads_burnt c log id) fun burnt => sim_ite (P := burnt = true) (sim_ret ()) (sim_mark hw id)) (sim_ret ()))
      (sim_ret ())) fun _ => sim_ret previous
  intro c log
  refine Eq.trans ?_ (h c log)
  unfold Consecutive.update look
  dsimp only
  have hs := sim_updateBase hw dst id auth c log
  cases hu : Consecutive.updateBase (view c log) dst id auth with
  | error e => rfl
  | ok r =>
    dsimp only at hs
    obtain ⟨c', log', hv⟩ : ∃ c' log', r.2 = view c' log' := by
      rw [hu] at hs
      cases ho : onCells w (ConsecutiveDeployed.updateBase dst id auth) c with
      | error e => rw [ho] at hs; cases hs
      | ok q => rw [ho] at hs; cases hs; exact ⟨_, _, rfl⟩
    obtain ⟨n, hn⟩ := next_ok c' log'
    obtain ⟨p, s⟩ := r
    dsimp only at hv
    subst hv
    dsimp only [bind, Except.bind, Except.map]
    rw [hn]
    dsimp only
    by_cases h1 : dst = ZERO
    · by_cases h2 : id < n.setWidth 256
      · cases h3 : BitMap.get (view c' log').sequentialBurn id <;> simp [h1, h2, pure, Except.pure]
      · simp [h1, h2, pure, Except.pure]
    · simp [h1, pure, Except.pure]

theorem sim_mint (hw : Sizes w) (dst : Address) (id : U256) :
    Sim w view (ConsecutiveDeployed.mint dst id) (unit fun s => Consecutive.mint s dst id) := by
  have h := sim_ite (P := dst = ZERO) (sim_fail (.erc721 (.invalidReceiver ZERO))) (sim_bind (sim_update hw dst id ZERO) fun p =>
    sim_ite (P := p ≠ ZERO) (sim_fail (.erc721 (.invalidSender ZERO))) (sim_ret ()))
  intro c log
  refine Eq.trans ?_ (h c log)
  generalize view c log = s
  unfold unit Consecutive.mint
  dsimp only
  by_cases h1 : dst = ZERO
  · rw [if_pos h1, if_pos h1]; rfl
  · rw [if_neg h1, if_neg h1]
    cases Consecutive.update s dst id ZERO with
    | error e => rfl
    | ok r =>
      by_cases h2 : r.1 ≠ ZERO <;>
        simp [h2, Except.map, bind, Except.bind, pure, Except.pure, throw, throwThe, MonadExceptOf.throw]

theorem sim_burn (hw : Sizes w) (id : U256) :
    Sim w view (ConsecutiveDeployed.burn id) (unit fun s => Consecutive.burn s id) := by
  have h := sim_bind (sim_update hw ZERO id ZERO) fun p =>
    sim_ite (P := p = ZERO) (sim_fail (.erc721 (.nonexistentToken id))) (sim_ret ())
  intro c log
  refine Eq.trans ?_ (h c log)
  generalize view c log = s
  unfold unit Consecutive.burn
  dsimp only
  cases Consecutive.update s ZERO id ZERO with
  | error e => rfl
  | ok r =>
    by_cases h2 : r.1 = ZERO <;>
      simp [h2, Except.map, bind, Except.bind, pure, Except.pure, throw, throwThe, MonadExceptOf.throw]

theorem sim_transferInternal (hw : Sizes w) (src dst : Address) (id : U256) :
    Sim w view (ConsecutiveDeployed.transferInternal src dst id) (unit fun s => Consecutive.transferInternal s src dst id) := by
  have h := sim_ite (P := dst = ZERO) (sim_fail (.erc721 (.invalidReceiver ZERO))) (sim_bind (sim_update hw dst id ZERO) fun p =>
    sim_ite (P := p = ZERO) (sim_fail (.erc721 (.nonexistentToken id)))
      (sim_ite (P := p ≠ src) (sim_fail (.erc721 (.incorrectOwner src id p))) (sim_ret ())))
  intro c log
  refine Eq.trans ?_ (h c log)
  generalize view c log = s
  unfold unit Consecutive.transferInternal
  dsimp only
  by_cases h1 : dst = ZERO
  · rw [if_pos h1, if_pos h1]; rfl
  · rw [if_neg h1, if_neg h1]
    cases Consecutive.update s dst id ZERO with
    | error e => rfl
    | ok r =>
      by_cases h2 : r.1 = ZERO
      · simp [h2, Except.map, bind, Except.bind, throw, throwThe, MonadExceptOf.throw]
      · by_cases h3 : r.1 ≠ src <;>
          simp [h2, h3, Except.map, bind, Except.bind, pure, Except.pure, throw, throwThe, MonadExceptOf.throw]

theorem sim_transferFrom (hw : Sizes w) (caller src dst : Address) (id : U256) :
    Sim w view (ConsecutiveDeployed.transferFrom caller src dst id) (unit fun s => Consecutive.transferFrom s caller src dst id) := by
  have h := sim_ite (P := dst = ZERO) (sim_fail (.erc721 (.invalidReceiver ZERO))) (sim_bind (sim_update hw dst id caller) fun p =>
    sim_ite (P := p ≠ src) (sim_fail (.erc721 (.incorrectOwner src id p))) (sim_ret ()))
  intro c log
  refine Eq.trans ?_ (h c log)
  generalize view c log = s
  unfold unit Consecutive.transferFrom
  dsimp only
  by_cases h1 : dst = ZERO
  · rw [if_pos h1, if_pos h1]; rfl
  · rw [if_neg h1, if_neg h1]
    cases Consecutive.update s dst id caller with
    | error e => rfl
    | ok r =>
      by_cases h3 : r.1 ≠ src <;>
        simp [h3, Except.map, bind, Except.bind, pure, Except.pure, throw, throwThe, MonadExceptOf.throw]

/-- A change of the state, followed by the call of a receiver. -/
theorem sim_ask {m : Code Unit} {f : Consecutive.State → Except Err Consecutive.State} (h : Sim w view m (unit f))
    (R : Erc721.Receivers) (op src dst : Address) (id : U256) (data : Bytes) :
    Sim w view (ConsecutiveDeployed.andAsk m R op src dst id data)
      (unit fun s => do
        let s1 ← f s
        Consecutive.lift (Erc721.checkOnReceived R op src dst id data)
        return s1) := by
  have h := sim_bind h fun _ => sim_inner (under_received R op src dst id data) (Proofs.Erc721Words.sim_received R op src dst id data)
  intro c log
  refine Eq.trans ?_ (h c log)
  generalize view c log = s
  unfold unit look inside
  dsimp only
  cases f s with
  | error e => rfl
  | ok s1 =>
    dsimp only [bind, Except.bind, Except.map]
    cases Erc721.checkOnReceived R op src dst id data <;> rfl

theorem sim_setAll (hw : Sizes w) (o op : Address) (b : Bool) :
    Sim w view (inner (Erc721Words.setApprovalForAll token o op b)) (unit fun s => Consecutive.setApprovalForAll s o op b) := by
  have h := sim_inner (under_setAll o op b) (Proofs.Erc721Words.sim_setAll hw.token o op b)
  intro c log
  refine Eq.trans ?_ (h c log)
  generalize view c log = s
  unfold inside unit Consecutive.setApprovalForAll
  dsimp only
  cases Erc721.setApprovalForAll s.erc721 o op b <;> rfl

theorem sim_code (hw : Sizes w) (R : Erc721.Receivers) (caller : Address) (call : Consecutive.Call) :
    Sim w view (ConsecutiveDeployed.code R caller call) (unit fun s => Consecutive.exec s ⟨caller, R, call⟩) := by
  unfold ConsecutiveDeployed.code Consecutive.exec
  dsimp only
  by_cases hz : caller = ZERO
  · simp only [if_pos hz]
    exact sim_fail _
  · simp only [if_neg hz]
    cases call with
    | transferFrom src dst id => exact sim_transferFrom hw caller src dst id
    | safeTransferFrom src dst id => exact sim_ask (sim_transferFrom hw caller src dst id) R caller src dst id []
    | safeTransferFromWithData src dst id data => exact sim_ask (sim_transferFrom hw caller src dst id) R caller src dst id data
    | approve dst id => exact sim_approve hw dst id caller true
    | setApprovalForAll op b => exact sim_setAll hw caller op b
    | mint dst id => exact sim_mint hw dst id
    | safeMint dst id data => exact sim_ask (sim_mint hw dst id) R caller ZERO dst id data
    | burn id => exact sim_burn hw id
    | transfer src dst id => exact sim_transferInternal hw src dst id
    | safeTransfer src dst id data => exact sim_ask (sim_transferInternal hw src dst id) R caller src dst id data

end
end Verif.Proofs.ConsecutiveDeployed
