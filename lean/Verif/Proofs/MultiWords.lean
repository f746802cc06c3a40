import Verif.Spec.MultiDeployed
import Verif.Proofs.OnWords
/-! # Lemmas: multi-tokens and the pause flag on a table of cells -/

namespace Verif.Proofs.Erc1155Words
open Verif Verif.Storage Verif.Erc1155 Verif.Spec.StoragePrograms Verif.Spec.MultiDeployed
open Verif.Props.StoragePrograms (uses_bind uses_ite onCells_bind key_inj)
open Verif.Proofs.Deployed (Table)
open Verif.Proofs.Erc721Words (Sim unit look sim_bind sim_ite sim_fail sim_ret mask32)
open Verif.Proofs.OnWords (sim_congr sim_gate Under)
open Verif.Erc1155Words (Code)

variable {w : List Step → Nat} {root : List Step}

/-- The state a table stands for. -/
def view (root : List Step) (c : Table) (log : List Event) : Erc1155.State :=
  { balances := fun id a => c (Erc1155Words.balance root id a)
    operatorApprovals := fun a b => decide (c (Erc1155Words.operator root a b) ≠ 0#256)
    log := log }

/-- The sizes of the cells. -/
structure Sizes (w : List Step → Nat) (root : List Step) : Prop where
  balance : ∀ id a, w (Erc1155Words.balance root id a) = 32
  operator : ∀ a b, w (Erc1155Words.operator root a b) = 1

theorem view_balance (c : Table) (log : List Event) (id : U256) (a : Address) (v : U256) :
    view root (upd c (Erc1155Words.balance root id a) v) log =
    { view root c log with balances := upd2 (view root c log).balances id a v } := by
  unfold view
  congr 1
  · funext x y
    unfold upd2
    by_cases e : x = id ∧ y = a
    · obtain ⟨rfl, rfl⟩ := e
      simp
    · have : Erc1155Words.balance root x y ≠ Erc1155Words.balance root id a := by
        intro h
        have := List.append_cancel_left h
        simp only [List.cons.injEq, Step.key.injEq, and_true, true_and] at this
        exact e ⟨this.1, key_inj this.2⟩
      rw [upd_ne _ _ this, if_neg e]
  · funext x y
    rw [upd_ne _ _ (by simp [Erc1155Words.balance, Erc1155Words.operator])]

theorem view_operator (c : Table) (log : List Event) (a b : Address) (v : U256) :
    view root (upd c (Erc1155Words.operator root a b) v) log =
    { view root c log with operatorApprovals := upd2 (view root c log).operatorApprovals a b (decide (v ≠ 0#256)) } := by
  unfold view
  congr 1
  · funext x y
    rw [upd_ne _ _ (by simp [Erc1155Words.balance, Erc1155Words.operator])]
  · funext x y
    unfold upd2
    by_cases e : x = a ∧ y = b
    · obtain ⟨rfl, rfl⟩ := e
      simp
    · have : Erc1155Words.operator root x y ≠ Erc1155Words.operator root a b := by
        intro h
        have := List.append_cancel_left h
        simp only [List.cons.injEq, Step.key.injEq, and_true, true_and] at this
        exact e ⟨key_inj this.1, key_inj this.2⟩
      rw [upd_ne _ _ this, if_neg e]

theorem sim_equal {α β : Type} (l : List α) (l' : List β) :
    Sim w (view root) (Erc1155Words.equalLength l l') (look fun _ => requireEqualLength l l') := by
  unfold Erc1155Words.equalLength
  cases h : requireEqualLength l l' with
  | ok u => exact sim_ret _
  | error e => exact sim_fail _

theorem sim_balanceOf (a : Address) (id : U256) :
    Sim w (view root) (Erc1155Words.balanceOf root a id) (look fun s => .ok (Erc1155.balanceOf s a id)) := by
  intro c log
  show _ = Except.ok (_, view root c (log ++ []))
  rw [List.append_nil]
  rfl

theorem sim_balances : ∀ ps : List (Address × U256),
    Sim w (view root) (Erc1155Words.balances root ps) (look fun s => .ok (ps.map fun p => Erc1155.balanceOf s p.1 p.2))
  | [] => sim_ret _
  | p :: ps => sim_congr (sim_bind (sim_balanceOf p.1 p.2) fun v => sim_bind (sim_balances ps) fun vs => sim_ret (v :: vs)) fun _ => rfl

theorem sim_batch (as : List Address) (ids : List U256) :
    Sim w (view root) (Erc1155Words.balanceOfBatch root as ids) (look fun s => Erc1155.balanceOfBatch s as ids) :=
  sim_congr (sim_bind (sim_equal ids as) fun _ => sim_balances (as.zip ids)) fun s => by
    unfold look Erc1155.balanceOfBatch
    cases requireEqualLength ids as <;> rfl

/-- The first half of a move. -/
def takeFrom (s : Erc1155.State) (src : Address) (id v : U256) : Except Err Erc1155.State :=
  if src ≠ ZERO then
    if Erc1155.balanceOf s src id < v then .error (.insufficientBalance src (Erc1155.balanceOf s src id) v id)
    else .ok { s with balances := upd2 s.balances id src (s.balances id src - v) }
  else .ok s

/-- The second half. -/
def putTo (s : Erc1155.State) (dst : Address) (id v : U256) : Except Err Erc1155.State :=
  if dst ≠ ZERO then
    match checkedAdd (s.balances id dst) v with
    | some b => .ok { s with balances := upd2 s.balances id dst b }
    | none => .error .panic
  else .ok s

theorem doUpdate_eq (s : Erc1155.State) (src dst : Address) (id v : U256) :
    doUpdate s src dst id v = takeFrom s src id v >>= fun s' => putTo s' dst id v := by
  unfold doUpdate takeFrom putTo
  by_cases h : src ≠ ZERO
  · simp only [if_pos h]
    by_cases h' : Erc1155.balanceOf s src id < v
    · simp only [if_pos h']; rfl
    · simp only [if_neg h']
      by_cases hd : dst ≠ ZERO
      · simp only [if_pos hd]
        rw [except_bind_ok]
        show (orPanic Err.panic _ >>= _) = _
        dsimp only
        cases checkedAdd (upd2 s.balances id src (s.balances id src - v) id dst) v <;> rfl
      · simp only [if_neg hd]; rfl
  · simp only [if_neg h]
    by_cases hd : dst ≠ ZERO
    · simp only [if_pos hd]
      rw [except_bind_ok]
      show (orPanic Err.panic _ >>= _) = _
      cases checkedAdd (s.balances id dst) v <;> rfl
    · simp only [if_neg hd]; rfl

theorem sim_take (hw : Sizes w root) (src : Address) (id v : U256) :
    Sim w (view root) (Erc1155Words.take root src id v) (unit fun s => takeFrom s src id v) := by
  intro c log
  unfold Erc1155Words.take unit takeFrom
  by_cases h : src ≠ ZERO
  · simp only [if_pos h]
    show _ = Except.map _ (onCells w (if c (Erc1155Words.balance root id src) < v then _ else _) c)
    by_cases h' : c (Erc1155Words.balance root id src) < v
    · rw [if_pos h', if_pos (show Erc1155.balanceOf (view root c log) src id < v from h')]; rfl
    · rw [if_neg h', if_neg (show ¬ Erc1155.balanceOf (view root c log) src id < v from h')]
      show _ = Except.ok ((), view root (upd c _ (_ &&& mask (w (Erc1155Words.balance root id src)))) (log ++ []))
      rw [hw.balance, mask32, view_balance, List.append_nil]
      rfl
  · simp only [if_neg h]
    show _ = Except.ok ((), view root c (log ++ []))
    rw [List.append_nil]; rfl

theorem sim_put (hw : Sizes w root) (dst : Address) (id v : U256) :
    Sim w (view root) (Erc1155Words.put root dst id v) (unit fun s => putTo s dst id v) := by
  intro c log
  unfold Erc1155Words.put unit putTo
  by_cases h : dst ≠ ZERO
  · simp only [if_pos h]
    show Except.map _ (match checkedAdd (c (Erc1155Words.balance root id dst)) v with | some b => _ | none => _) = 
      Except.map _ (onCells w (match checkedAdd (c (Erc1155Words.balance root id dst)) v with | some b => _ | none => _) c)
    cases checkedAdd (c (Erc1155Words.balance root id dst)) v with
    | none => rfl
    | some b =>
      show _ = Except.ok ((), view root (upd c _ (_ &&& mask (w (Erc1155Words.balance root id dst)))) (log ++ []))
      rw [hw.balance, mask32, view_balance, List.append_nil]
      rfl
  · simp only [if_neg h]
    show _ = Except.ok ((), view root c (log ++ []))
    rw [List.append_nil]; rfl

theorem sim_moves (hw : Sizes w root) (src dst : Address) : ∀ ps : List (U256 × U256),
    Sim w (view root) (Erc1155Words.moves root src dst ps) (unit fun s => doUpdates s src dst ps)
  | [] => sim_ret ()
  | p :: ps => sim_congr (sim_bind (sim_take hw src p.1 p.2) fun _ => sim_bind (sim_put hw dst p.1 p.2) fun _ => sim_moves hw src dst ps)
      fun s => by
        unfold unit
        show _ = Except.map _ (doUpdate s src dst p.1 p.2 >>= fun s1 => doUpdates s1 src dst ps)
        rw [doUpdate_eq]
        dsimp only
        cases takeFrom s src p.1 p.2 with
        | error e => rfl
        | ok s1 =>
          show (Except.map _ (putTo s1 dst p.1 p.2) >>= _) = Except.map _ (putTo s1 dst p.1 p.2 >>= _)
          cases putTo s1 dst p.1 p.2 <;> rfl

theorem sim_emit (e : Event) : Sim (E := Err) w (view root) (.emit e (.ret ())) (unit fun s => .ok { s with log := s.log ++ [e] }) :=
  fun _ _ => rfl

theorem sim_update (hw : Sizes w root) (op src dst : Address) (ids vs : List U256) :
    Sim w (view root) (Erc1155Words.update root op src dst ids vs) (unit fun s => Erc1155.update s op src dst ids vs) :=
  sim_congr (sim_bind (sim_equal ids vs) fun _ => sim_bind (sim_moves hw src dst (ids.zip vs)) fun _ => sim_emit _) fun s => by
    unfold look unit Erc1155.update
    dsimp only
    cases requireEqualLength ids vs with
    | error e => rfl
    | ok u =>
      show (Except.map _ (doUpdates s src dst (ids.zip vs)) >>= _) = Except.map _ (doUpdates s src dst (ids.zip vs) >>= _)
      cases doUpdates s src dst (ids.zip vs) <;> rfl

/-- The receiver's answer does not concern the storage. -/
theorem sim_received {σ : Type} {view : Table → List Event → σ} (R : Receivers) (op src dst : Address) (ids vs : List U256) (data : Bytes) :
    Sim w view (Erc1155Words.received R op src dst ids vs data)
      (look fun _ => if dst ≠ ZERO then checkOnReceived R dst (receiverData op src ids vs data) else .ok ()) := by
  unfold Erc1155Words.received
  by_cases h : dst ≠ ZERO
  · simp only [if_pos h]
    cases checkOnReceived R dst (receiverData op src ids vs data) with
    | ok u => exact sim_ret _
    | error e => exact sim_fail _
  · simp only [if_neg h]
    exact sim_ret _

theorem sim_accepted (hw : Sizes w root) (R : Receivers) (op src dst : Address) (ids vs : List U256) (data : Bytes) :
    Sim w (view root) (Erc1155Words.updateAccepted root R op src dst ids vs data)
      (unit fun s => updateWithAcceptanceCheck R s op src dst ids vs data) :=
  sim_congr (sim_bind (sim_update hw op src dst ids vs) fun _ => sim_received R op src dst ids vs data) fun s => by
    unfold look unit updateWithAcceptanceCheck
    dsimp only
    cases Erc1155.update s op src dst ids vs with
    | error e => rfl
    | ok s' =>
      by_cases h : dst ≠ ZERO
      · simp only [if_pos h]
        show Except.map _ (checkOnReceived R dst _) = Except.map _ (checkOnReceived R dst _ >>= _)
        cases checkOnReceived R dst (receiverData op src ids vs data) <;> rfl
      · simp only [if_neg h]; rfl

theorem sim_mint (hw : Sizes w root) (R : Receivers) (caller dst : Address) (ids vs : List U256) (data : Bytes) :
    Sim w (view root) (Erc1155Words.doMint root R caller dst ids vs data) (unit fun s => Erc1155.doMint R s caller dst ids vs data) :=
  sim_congr (sim_ite (P := dst = ZERO) (sim_fail _) (sim_accepted hw R caller ZERO dst ids vs data)) fun s => by
    unfold unit Erc1155.doMint
    dsimp only
    split <;> rfl

theorem sim_burn (hw : Sizes w root) (R : Receivers) (caller src : Address) (ids vs : List U256) :
    Sim w (view root) (Erc1155Words.doBurn root R caller src ids vs) (unit fun s => Erc1155.doBurn R s caller src ids vs) :=
  sim_congr (sim_ite (P := src = ZERO) (sim_fail _) (sim_accepted hw R caller src ZERO ids vs [])) fun s => by
    unfold unit Erc1155.doBurn
    dsimp only
    split <;> rfl

theorem sim_transfer (hw : Sizes w root) (R : Receivers) (caller src dst : Address) (ids vs : List U256) (data : Bytes) :
    Sim w (view root) (Erc1155Words.doTransfer root R caller src dst ids vs data)
      (unit fun s => doSafeTransferFrom R s caller src dst ids vs data) :=
  sim_congr (sim_ite (P := dst = ZERO) (sim_fail _) (sim_ite (P := src = ZERO) (sim_fail _)
    (sim_accepted hw R caller src dst ids vs data))) fun s => by
    unfold unit doSafeTransferFrom
    dsimp only
    split
    · rfl
    · split <;> rfl

theorem sim_authorize (caller src : Address) :
    Sim w (view root) (Erc1155Words.authorize root caller src) (look fun s => authorizeTransfer s caller src) := by
  intro c log
  unfold Erc1155Words.authorize look authorizeTransfer
  by_cases h : src ≠ caller
  · simp only [if_pos h]
    show _ = Except.map _ (onCells w (if decide (c (Erc1155Words.operator root src caller) ≠ 0#256) = true then _ else _) c)
    show Except.map _ (if src ≠ caller ∧ decide (c (Erc1155Words.operator root src caller) ≠ 0#256) = false then _ else _) = _
    cases decide (c (Erc1155Words.operator root src caller) ≠ 0#256) with
    | true =>
      rw [if_neg (by simp), if_pos rfl]
      show _ = Except.ok ((), view root c (log ++ []))
      rw [List.append_nil]; rfl
    | false =>
      rw [if_pos ⟨h, rfl⟩, if_neg (by simp)]
      rfl
  · simp only [if_neg h]
    rw [if_neg (fun h' => h h'.1)]
    show _ = Except.ok ((), view root c (log ++ []))
    rw [List.append_nil]; rfl

theorem sim_approval (hw : Sizes w root) (caller op : Address) (b : Bool) :
    Sim w (view root) (Erc1155Words.setApprovalForAll root caller op b) (unit fun s => Erc1155.setApprovalForAll s caller op b) := by
  intro c log
  unfold Erc1155Words.setApprovalForAll unit Erc1155.setApprovalForAll
  by_cases h : op = ZERO
  · simp only [if_pos h]; rfl
  · simp only [if_neg h]
    have e : (if b then 1#256 else 0#256) &&& mask 1 = if b then 1#256 else 0#256 := by cases b <;> decide
    have e' : decide ((if b then 1#256 else 0#256) ≠ 0#256) = b := by cases b <;> decide
    show _ = Except.ok ((), view root (upd c _ (_ &&& mask (w (Erc1155Words.operator root caller op)))) (log ++ [_]))
    rw [hw.operator, e, view_operator, e']
    rfl

theorem sim_code (hw : Sizes w root) (R : Receivers) (caller : Address) (call : UserCall ⊕ AdminCall) :
    Sim w (view root) (Erc1155Words.code root R caller call) (unit fun s => Erc1155.exec s ⟨caller, R, call⟩) := by
  have g : ∀ {src : Address} {m : Code Unit} {f : Erc1155.State → Except Err Erc1155.State} {F : Erc1155.State → Except Err Erc1155.State}
      (_ : Sim w (view root) m (unit f)) (_ : ∀ s, F s = authorizeTransfer s caller src >>= fun _ => f s),
      Sim w (view root) ((Erc1155Words.authorize root caller src).bind fun _ => m) (unit F) := by
    intro src m f F h e
    refine sim_congr (sim_gate (sim_authorize caller src) h) fun s => ?_
    unfold unit
    rw [e]
    cases authorizeTransfer s caller src <;> rfl
  rcases call with (⟨src, dst, id, v, data⟩ | ⟨src, dst, ids, vs, data⟩ | ⟨op, b⟩ | ⟨a, id, v⟩ | ⟨a, ids, vs⟩) |
    (⟨dst, id, v, data⟩ | ⟨dst, ids, vs, data⟩ | ⟨src, id, v⟩ | ⟨src, ids, vs⟩)
  · exact g (sim_transfer hw R caller src dst [id] [v] data) fun _ => rfl
  · exact g (sim_transfer hw R caller src dst ids vs data) fun _ => rfl
  · exact sim_approval hw caller op b
  · exact g (sim_burn hw R caller a [id] [v]) fun _ => rfl
  · exact g (sim_burn hw R caller a ids vs) fun _ => rfl
  · exact sim_mint hw R caller dst [id] [v] data
  · exact sim_mint hw R caller dst ids vs data
  · exact sim_burn hw R caller src [id] [v]
  · exact sim_burn hw R caller src ids vs

/-! ### The cells in use -/

section
variable {C : List Step → Prop}

theorem uses_equal {α β : Type} (l : List α) (l' : List β) : Uses C (Erc1155Words.equalLength l l') := by
  unfold Erc1155Words.equalLength
  split <;> trivial

theorem uses_balances : ∀ {ps : List (Address × U256)} (_ : ∀ p ∈ ps, C (Erc1155Words.balance root p.2 p.1)),
    Uses C (Erc1155Words.balances root ps)
  | [], _ => trivial
  | p :: _, h => uses_bind ⟨h p List.mem_cons_self, fun _ => trivial⟩ fun _ =>
      uses_bind (uses_balances fun p hp => h p (List.mem_cons_of_mem _ hp)) fun _ => trivial

theorem uses_batch {as : List Address} {ids : List U256} (h : ∀ id ∈ ids, ∀ a ∈ as, C (Erc1155Words.balance root id a)) :
    Uses C (Erc1155Words.balanceOfBatch root as ids) :=
  uses_bind (uses_equal _ _) fun _ => uses_balances fun _ hp => h _ (List.of_mem_zip hp).2 _ (List.of_mem_zip hp).1

theorem uses_moves {src dst : Address} : ∀ {ps : List (U256 × U256)}
    (_ : ∀ p ∈ ps, ∀ a, a = src ∨ a = dst → a ≠ ZERO → C (Erc1155Words.balance root p.1 a)),
    Uses C (Erc1155Words.moves root src dst ps)
  | [], _ => trivial
  | p :: ps, h => by
    refine uses_bind ?_ fun _ => uses_bind ?_ fun _ => uses_moves fun p hp => h p (List.mem_cons_of_mem _ hp)
    · unfold Erc1155Words.take
      split
      · next hz =>
        have hs := h p List.mem_cons_self src (.inl rfl) hz
        exact uses_bind ⟨hs, fun _ => trivial⟩ fun _ => uses_ite trivial ⟨hs, fun _ => ⟨hs, trivial⟩⟩
      · trivial
    · unfold Erc1155Words.put
      split
      · next hz =>
        have hs := h p List.mem_cons_self dst (.inr rfl) hz
        refine ⟨hs, fun b => ?_⟩
        dsimp only
        split
        · exact ⟨hs, trivial⟩
        · trivial
      · trivial

/-- What a move needs. -/
def Moves (C : List Step → Prop) (root : List Step) (src dst : Address) (ids : List U256) : Prop :=
  ∀ id ∈ ids, ∀ a, a = src ∨ a = dst → a ≠ ZERO → C (Erc1155Words.balance root id a)

theorem uses_update {op src dst : Address} {ids vs : List U256} (h : Moves C root src dst ids) :
    Uses C (Erc1155Words.update root op src dst ids vs) :=
  uses_bind (uses_equal _ _) fun _ => uses_bind (uses_moves fun _ hp => h _ (List.of_mem_zip hp).1) fun _ => trivial

theorem uses_received {R : Receivers} {op src dst : Address} {ids vs : List U256} {data : Bytes} :
    Uses C (Erc1155Words.received R op src dst ids vs data) := by
  unfold Erc1155Words.received
  split
  · split <;> trivial
  · trivial

theorem uses_accepted {R : Receivers} {op src dst : Address} {ids vs : List U256} {data : Bytes} (h : Moves C root src dst ids) :
    Uses C (Erc1155Words.updateAccepted root R op src dst ids vs data) :=
  uses_bind (uses_update h) fun _ => uses_received

theorem uses_authorize {caller src : Address} (h : C (Erc1155Words.operator root src caller)) :
    Uses C (Erc1155Words.authorize root caller src) :=
  uses_ite (uses_bind ⟨h, fun _ => trivial⟩ fun _ => uses_ite trivial trivial) trivial

theorem uses_approval {caller op : Address} {b : Bool} (h : C (Erc1155Words.operator root caller op)) :
    Uses C (Erc1155Words.setApprovalForAll root caller op b) :=
  uses_ite trivial ⟨h, trivial⟩

/-- The accounts and the tokens of a call. -/
def Named (S : List Address) (N : List U256) : UserCall ⊕ AdminCall → Prop
  | .inl (.safeTransferFrom src dst id _ _) => src ∈ S ∧ dst ∈ S ∧ id ∈ N
  | .inl (.safeBatchTransferFrom src dst ids _ _) => src ∈ S ∧ dst ∈ S ∧ ∀ id ∈ ids, id ∈ N
  | .inl (.setApprovalForAll op _) => op ∈ S
  | .inl (.burn a id _) => a ∈ S ∧ id ∈ N
  | .inl (.burnBatch a ids _) => a ∈ S ∧ ∀ id ∈ ids, id ∈ N
  | .inr (.mint dst id _ _) => dst ∈ S ∧ id ∈ N
  | .inr (.mintBatch dst ids _ _) => dst ∈ S ∧ ∀ id ∈ ids, id ∈ N
  | .inr (.burn src id _) => src ∈ S ∧ id ∈ N
  | .inr (.burnBatch src ids _) => src ∈ S ∧ ∀ id ∈ ids, id ∈ N

variable {S : List Address} {N : List U256}

theorem moves {src dst : Address} (hs : src = ZERO ∨ src ∈ S) (hd : dst = ZERO ∨ dst ∈ S) {ids : List U256} (hi : ∀ id ∈ ids, id ∈ N) :
    Moves (Holdings root S N) root src dst ids := by
  intro id h a ha hz
  refine .inl ⟨id, hi id h, a, ?_, rfl⟩
  rcases ha with rfl | rfl
  · exact hs.resolve_left hz
  · exact hd.resolve_left hz

theorem uses_code {R : Receivers} {caller : Address} (hc : caller ∈ S) {call : UserCall ⊕ AdminCall} (h : Named S N call) :
    Uses (Holdings root S N) (Erc1155Words.code root R caller call) := by
  have z : (ZERO : Address) = ZERO ∨ (ZERO : Address) ∈ S := .inl rfl
  have one : ∀ {id : U256}, id ∈ N → ∀ i ∈ [id], i ∈ N := fun h i hi => by rw [List.mem_singleton.mp hi]; exact h
  rcases call with (⟨src, dst, id, v, data⟩ | ⟨src, dst, ids, vs, data⟩ | ⟨op, b⟩ | ⟨a, id, v⟩ | ⟨a, ids, vs⟩) |
    (⟨dst, id, v, data⟩ | ⟨dst, ids, vs, data⟩ | ⟨src, id, v⟩ | ⟨src, ids, vs⟩)
  · exact uses_bind (uses_authorize (.inr ⟨_, h.1, _, hc, rfl⟩)) fun _ => uses_ite trivial (uses_ite trivial
      (uses_accepted (moves (.inr h.1) (.inr h.2.1) (one h.2.2))))
  · exact uses_bind (uses_authorize (.inr ⟨_, h.1, _, hc, rfl⟩)) fun _ => uses_ite trivial (uses_ite trivial
      (uses_accepted (moves (.inr h.1) (.inr h.2.1) h.2.2)))
  · exact uses_approval (.inr ⟨_, hc, _, h, rfl⟩)
  · exact uses_bind (uses_authorize (.inr ⟨_, h.1, _, hc, rfl⟩)) fun _ => uses_ite trivial
      (uses_accepted (moves (.inr h.1) z (one h.2)))
  · exact uses_bind (uses_authorize (.inr ⟨_, h.1, _, hc, rfl⟩)) fun _ => uses_ite trivial
      (uses_accepted (moves (.inr h.1) z h.2))
  · exact uses_ite trivial (uses_accepted (moves z (.inr h.1) (one h.2)))
  · exact uses_ite trivial (uses_accepted (moves z (.inr h.1) h.2))
  · exact uses_ite trivial (uses_accepted (moves (.inr h.1) z (one h.2)))
  · exact uses_ite trivial (uses_accepted (moves (.inr h.1) z h.2))

theorem under_moves {src dst : Address} {ids : List U256} : Moves (Under root) root src dst ids := fun _ _ _ _ _ => ⟨_, rfl⟩

theorem under_code (R : Receivers) (caller : Address) (call : UserCall ⊕ AdminCall) :
    Uses (Under root) (Erc1155Words.code root R caller call) := by
  have auth : ∀ src, Uses (Under root) (Erc1155Words.authorize root caller src) := fun src => uses_authorize ⟨_, rfl⟩
  rcases call with (⟨src, dst, id, v, data⟩ | ⟨src, dst, ids, vs, data⟩ | ⟨op, b⟩ | ⟨a, id, v⟩ | ⟨a, ids, vs⟩) |
    (⟨dst, id, v, data⟩ | ⟨dst, ids, vs, data⟩ | ⟨src, id, v⟩ | ⟨src, ids, vs⟩)
  · exact uses_bind (auth _) fun _ => uses_ite trivial (uses_ite trivial (uses_accepted under_moves))
  · exact uses_bind (auth _) fun _ => uses_ite trivial (uses_ite trivial (uses_accepted under_moves))
  · exact uses_approval ⟨_, rfl⟩
  · exact uses_bind (auth _) fun _ => uses_ite trivial (uses_accepted under_moves)
  · exact uses_bind (auth _) fun _ => uses_ite trivial (uses_accepted under_moves)
  all_goals exact uses_ite trivial (uses_accepted under_moves)

theorem view_frame {r : List Step} (hr : ∀ q, ¬ r <+: root ++ q) {c c' : Table} (h : ∀ p, ¬ Under r p → c' p = c p) (log : List Event) :
    view root c' log = view root c log := by
  have e : ∀ q, c' (root ++ q) = c (root ++ q) := fun q => h _ (hr q)
  unfold view Erc1155Words.balance Erc1155Words.operator
  simp only [e]

end
end Verif.Proofs.Erc1155Words

namespace Verif.Proofs.PausableWords
open Verif Verif.Storage Verif.Pausable Verif.Spec.StoragePrograms
open Verif.Props.StoragePrograms (uses_bind uses_ite)
open Verif.Proofs.Deployed (Table)
open Verif.Proofs.Erc721Words (Sim unit look sim_bind sim_ite sim_fail sim_ret)
open Verif.Proofs.OnWords (sim_congr sim_gate Under)

variable {w : List Step → Nat} {root : List Step}

/-- The state a table stands for. -/
def view (root : List Step) (c : Table) (log : List Event) : Pausable.State :=
  { paused := decide (c (PausableWords.flag root) ≠ 0#256), log := log }

theorem sim_not : Sim w (view root) (PausableWords.whenNotPaused root) (look Pausable.whenNotPaused) := by
  intro c log
  show Except.map _ (if decide (c (PausableWords.flag root) ≠ 0#256) = true then _ else _) =
    Except.map _ (onCells w (if c (PausableWords.flag root) ≠ 0#256 then _ else _) c)
  by_cases h : c (PausableWords.flag root) ≠ 0#256
  · rw [if_pos h, if_pos (decide_eq_true h)]; rfl
  · rw [if_neg h, if_neg (by simpa using h)]
    show _ = Except.ok ((), view root c (log ++ []))
    rw [List.append_nil]; rfl

theorem sim_paused : Sim w (view root) (PausableWords.whenPaused root) (look Pausable.whenPaused) := by
  intro c log
  show Except.map _ (if (!decide (c (PausableWords.flag root) ≠ 0#256)) = true then _ else _) =
    Except.map _ (onCells w (if c (PausableWords.flag root) ≠ 0#256 then _ else _) c)
  by_cases h : c (PausableWords.flag root) ≠ 0#256
  · rw [if_pos h, if_neg (by simpa using h)]
    show _ = Except.ok ((), view root c (log ++ []))
    rw [List.append_nil]; rfl
  · rw [if_neg h, if_pos (by simpa using h)]; rfl

theorem sim_flag (hw : w (PausableWords.flag root) = 1) {v : U256} (hv : v &&& mask 1 = v) (e : Event) :
    Sim (E := Err) w (view root) (.set (PausableWords.flag root) v (.emit e (.ret ())))
      (unit fun s => .ok { s with paused := decide (v ≠ 0#256), log := s.log ++ [e] }) := by
  intro c log
  show _ = Except.ok ((), view root (upd c _ (_ &&& mask (w (PausableWords.flag root)))) (log ++ [_]))
  rw [hw, hv]
  unfold view
  rw [upd_same]
  rfl

theorem sim_code (hw : w (PausableWords.flag root) = 1) (caller : Address) (call : Call) :
    Sim w (view root) (PausableWords.code root caller call) (unit fun s => Pausable.exec s (caller, call)) := by
  cases call with
  | pause =>
    refine sim_congr (sim_gate sim_not (sim_flag hw (v := 1#256) (by decide) (.paused caller))) fun s => ?_
    show _ = unit (fun s => Pausable.pause s caller) s
    unfold unit Pausable.pause
    dsimp only
    cases Pausable.whenNotPaused s <;> rfl
  | unpause =>
    refine sim_congr (sim_gate sim_paused (sim_flag hw (v := 0#256) (by decide) (.unpaused caller))) fun s => ?_
    show _ = unit (fun s => Pausable.unpause s caller) s
    unfold unit Pausable.unpause
    dsimp only
    cases Pausable.whenPaused s <;> rfl

theorem uses_not : Uses (fun p => p = PausableWords.flag root) (PausableWords.whenNotPaused root) :=
  ⟨rfl, fun _ => uses_ite trivial trivial⟩

theorem uses_code (caller : Address) (call : Call) : Uses (fun p => p = PausableWords.flag root) (PausableWords.code root caller call) := by
  cases call with
  | pause => exact uses_bind uses_not fun _ => ⟨rfl, trivial⟩
  | unpause => exact uses_bind ⟨rfl, fun _ => uses_ite trivial trivial⟩ fun _ => ⟨rfl, trivial⟩

theorem under {p : List Step} (h : p = PausableWords.flag root) : Under root p := ⟨_, h.symm⟩

end Verif.Proofs.PausableWords
