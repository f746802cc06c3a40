import Verif.Proofs.Chained
import Verif.Proofs.GatesDeployed
import Verif.Spec.VestingDeployed
/-! # Lemmas: the vesting wallet on storage words -/

namespace Verif.Proofs.VestingWords
open Verif Verif.Storage Verif.Outside Verif.Outside.Wallet Verif.VestingWords Verif.Spec.StoragePrograms
open Verif.Props.StoragePrograms (onCells_bind uses_bind uses_ite)
open Verif.Proofs.Deployed (Table UsedBy used_bind used_of_uses uses_mono uses_lift onCells_lift onCells_frame)
open Verif.Proofs.Erc721Words (Sim unit mask20)
open Verif.Proofs.OnWords (lefts rights lefts_append rights_append lefts_inl rights_inl)

variable {w : List Step → Nat} {root : List Step} {τ : Type}

/-- The state a table stands for. -/
def view (root : List Step) (self : Address) (c : Table) (log : List Ev) (t : τ) : State τ :=
  { self_ := self, ownable := OwnableWords.view (gate root) c (lefts log), released := c (releasedCell root),
    erc20Released := fun k => c (tokenCell root k), start := (c (startCell root)).setWidth 64,
    duration := (c (durationCell root)).setWidth 64, log := rights log, world := t }

/-- The sizes of the cells that are written. -/
structure Sizes (w : List Step → Nat) (root : List Step) : Prop where
  owner : w (OwnableWords.ownerCell (gate root)) = 20
  released : w (releasedCell root) = 32
  token : ∀ k, w (tokenCell root k) = 32

/-- The cells, with those of the tokens of `S`. -/
def Cells (root : List Step) (S : List Address) (p : List Step) : Prop :=
  p = OwnableWords.ownerCell (gate root) ∨ p = releasedCell root ∨ p = startCell root ∨ p = durationCell root ∨
  ∃ k ∈ S, p = tokenCell root k

theorem mask32 (v : U256) : v &&& mask 32 = v := by
  have e : mask 32 = BitVec.allOnes 256 := by decide +kernel
  rw [e, BitVec.and_allOnes]

/-! ## What a program reads -/

/-- A program that only looks, with this outcome. -/
def Reads {α : Type} (w : List Step → Nat) (m : Code α) (c : Table) (x : Except Err α) : Prop :=
  onCells w m c = x.map fun a => (a, c, [])

theorem reads_ret {α : Type} {c : Table} (a : α) : Reads w (.ret a) c (.ok a) := rfl

theorem reads_bind {α β : Type} {c : Table} {m : Code α} {x : Except Err α} {g : α → Code β} {y : α → Except Err β}
    (hm : Reads w m c x) (hg : ∀ a, Reads w (g a) c (y a)) : Reads w (m.bind g) c (x >>= y) := by
  unfold Reads at *
  rw [onCells_bind, hm]
  cases x with
  | error e => rfl
  | ok a =>
    show (onCells w (g a) c).map _ = (y a).map _
    rw [hg a]
    cases y a <;> rfl

theorem reads_get {c : Table} (p : List Step) (f : U256 → U256) : Reads w (.get p fun v => .ret (f v)) c (.ok (f (c p))) := rfl

theorem reads_expect {α : Type} {c : Table} (x : Option α) : Reads w (expect x) c (lift (orPanic .panic x)) := by
  cases x <;> rfl

theorem reads_settle {c : Table} (x : Except Err τ) : Reads w (settle x) c x := by
  cases x <;> rfl

theorem reads_ite {α : Type} {c : Table} {P : Prop} [Decidable P] {m m' : Code α} {x x' : Except Err α} (h : Reads w m c x)
    (h' : Reads w m' c x') : Reads w (if P then m else m') c (if P then x else x') := by
  by_cases hp : P
  · rw [if_pos hp, if_pos hp]; exact h
  · rw [if_neg hp, if_neg hp]; exact h'

section
variable {self : Address} {c : Table} {log : List Ev} {t : τ} (W : Chain τ) (K : Hash) (D : Abi.Decoder)

theorem reads_owner : Reads w (owner root) c (.ok (view root self c log t).ownable.owner) := rfl
theorem reads_start (now : U64) : Reads w (start root) c (.ok (Vesting.start (seen W K D now (view root self c log t)))) := rfl
theorem reads_duration (now : U64) : Reads w (duration root) c (.ok (Vesting.duration (seen W K D now (view root self c log t)))) := rfl
theorem reads_end (now : U64) : Reads w (end' root) c (.ok (Vesting.end' (seen W K D now (view root self c log t)))) := rfl
theorem reads_releasedEth : Reads w (releasedEth root) c (.ok (view root self c log t).released) := rfl
theorem reads_releasedErc20 (k : Address) : Reads w (releasedErc20 root k) c (.ok ((view root self c log t).erc20Released k)) := rfl

theorem reads_schedule (now : U64) (total : U256) (ts : U64) :
    Reads w (schedule root total ts) c (lift (Vesting.vestingSchedule (seen W K D now (view root self c log t)) total ts)) := by
  have h := reads_bind (reads_start (w := w) (root := root) (self := self) (c := c) (log := log) (t := t) W K D now) fun a =>
    reads_ite (P := ts.setWidth 256 < a) (reads_ret 0#256)
      (reads_bind (reads_end (root := root) (self := self) (log := log) (t := t) W K D now) fun e =>
        reads_ite (P := e ≤ ts.setWidth 256) (reads_ret total)
          (reads_bind (reads_start (root := root) (self := self) (log := log) (t := t) W K D now) fun a =>
            reads_bind (reads_expect (checkedMul total (ts.setWidth 256 - a))) fun x =>
              reads_bind (reads_duration (root := root) (self := self) (log := log) (t := t) W K D now) fun d => reads_ret (x / d)))
  refine Eq.trans (show onCells w (schedule root total ts) c = _ from h) (congrArg _ ?_)
  unfold Vesting.vestingSchedule
  generalize seen W K D now (view root self c log t) = v
  show (if _ then _ else if _ then _ else _) = _
  dsimp only
  by_cases h1 : ts.setWidth 256 < Vesting.start v
  · rw [if_pos h1, if_pos h1]; rfl
  · rw [if_neg h1, if_neg h1]
    by_cases h2 : Vesting.end' v ≤ ts.setWidth 256
    · rw [if_pos h2, if_pos h2]; rfl
    · rw [if_neg h2, if_neg h2]
      show (lift (orPanic _ (checkedMul total (ts.setWidth 256 - Vesting.start v))) >>= _) = _
      cases checkedMul total (ts.setWidth 256 - Vesting.start v) <;> rfl

theorem reads_vestedEth (now ts : U64) :
    Reads w (vestedEth root W self t ts) c (lift (Vesting.vestedAmountEth (seen W K D now (view root self c log t)) ts)) := by
  have h := reads_bind (reads_releasedEth (w := w) (root := root) (self := self) (c := c) (log := log) (t := t)) fun r =>
    reads_bind (reads_expect (checkedAdd (W.balance t self) r)) fun total =>
      reads_schedule (root := root) (self := self) (log := log) (t := t) W K D now total ts
  refine Eq.trans (show onCells w (vestedEth root W self t ts) c = _ from h) (congrArg _ ?_)
  unfold Vesting.vestedAmountEth
  show (lift (orPanic _ (checkedAdd (W.balance t self) (c (releasedCell root)))) >>= _) =
    lift (orPanic _ (checkedAdd (W.balance t self) (c (releasedCell root))) >>= _)
  cases checkedAdd (W.balance t self) (c (releasedCell root)) <;> rfl

theorem reads_balanceOf (now : U64) (k : Address) :
    Reads w (balanceOf W K D self t k) c
      (lift (orPanic (.invalidToken k) ((seen W K D now (view root self c log t)).tokenBalance k))) := by
  unfold balanceOf
  show Reads w _ c (lift (orPanic _ (Calls.uintReply D (W.ask t 0 self k ((Calls.Message.balanceOf self).bytes K)))))
  cases Calls.uintReply D (W.ask t 0 self k ((Calls.Message.balanceOf self).bytes K)) <;> rfl

theorem reads_vestedErc20 (now : U64) (k : Address) (ts : U64) :
    Reads w (vestedErc20 root W K D self t k ts) c
      (lift (Vesting.vestedAmountErc20 (seen W K D now (view root self c log t)) k ts)) := by
  have h := reads_bind (reads_balanceOf (w := w) (root := root) (self := self) (c := c) (log := log) (t := t) W K D now k) fun b =>
    reads_bind (reads_releasedErc20 (root := root) (self := self) (log := log) (t := t) k) fun r =>
      reads_bind (reads_expect (checkedAdd b r)) fun total =>
        reads_schedule (root := root) (self := self) (log := log) (t := t) W K D now total ts
  refine Eq.trans (show onCells w (vestedErc20 root W K D self t k ts) c = _ from h) (congrArg _ ?_)
  unfold Vesting.vestedAmountErc20
  cases (seen W K D now (view root self c log t)).tokenBalance k with
  | none => rfl
  | some b =>
    show (lift (orPanic _ (checkedAdd b (c (tokenCell root k)))) >>= _) = lift (orPanic _ (checkedAdd b (c (tokenCell root k))) >>= _)
    cases checkedAdd b (c (tokenCell root k)) <;> rfl

theorem reads_releasableEth (now : U64) :
    Reads w (releasableEth root W self t now) c (lift (Vesting.releasableEth (seen W K D now (view root self c log t)))) := by
  have h := reads_bind (reads_vestedEth (w := w) (root := root) (self := self) (c := c) (log := log) (t := t) W K D now now) fun v =>
    reads_bind (reads_releasedEth (root := root) (self := self) (log := log) (t := t)) fun r => reads_ret (v - r)
  refine Eq.trans (show onCells w (releasableEth root W self t now) c = _ from h) (congrArg _ ?_)
  unfold Vesting.releasableEth
  show (lift (Vesting.vestedAmountEth _ now) >>= _) = lift (Vesting.vestedAmountEth _ now >>= _)
  cases Vesting.vestedAmountEth (seen W K D now (view root self c log t)) now <;> rfl

theorem reads_releasableErc20 (now : U64) (k : Address) :
    Reads w (releasableErc20 root W K D self t now k) c
      (lift (Vesting.releasableErc20 (seen W K D now (view root self c log t)) k)) := by
  have h := reads_bind (reads_vestedErc20 (w := w) (root := root) (self := self) (c := c) (log := log) (t := t) W K D now k now) fun v =>
    reads_bind (reads_releasedErc20 (root := root) (self := self) (log := log) (t := t) k) fun r => reads_ret (v - r)
  refine Eq.trans (show onCells w (releasableErc20 root W K D self t now k) c = _ from h) (congrArg _ ?_)
  unfold Vesting.releasableErc20
  show (lift (Vesting.vestedAmountErc20 _ k now) >>= _) = lift (Vesting.vestedAmountErc20 _ k now >>= _)
  cases Vesting.vestedAmountErc20 (seen W K D now (view root self c log t)) k now <;> rfl

/-! ## What a program writes -/

theorem run_read {α β : Type} {m : Code α} {x : Except Err α} (h : Reads w m c x) (g : α → Code β) :
    onCells w (m.bind g) c = x >>= fun a => onCells w (g a) c := by
  rw [onCells_bind, h]
  cases x with
  | error e => rfl
  | ok a =>
    show (onCells w (g a) c).map _ = onCells w (g a) c
    cases onCells w (g a) c <;> rfl

theorem view_released (hw : Sizes w root) (v : U256) (l : List Ev) :
    view root self (upd c (releasedCell root) (v &&& mask (w (releasedCell root)))) l t =
      { view root self c l t with released := v } := by
  have e1 : OwnableWords.ownerCell (gate root) ≠ releasedCell root := by simp [OwnableWords.ownerCell, gate, releasedCell]
  have e2 : startCell root ≠ releasedCell root := by simp [startCell, releasedCell]
  have e3 : durationCell root ≠ releasedCell root := by simp [durationCell, releasedCell]
  have e4 : ∀ k, tokenCell root k ≠ releasedCell root := by intro k; simp [tokenCell, releasedCell]
  unfold view OwnableWords.view
  rw [hw.released, mask32, upd_same, upd_ne _ _ e1, upd_ne _ _ e2, upd_ne _ _ e3]
  congr 1
  funext k
  exact upd_ne _ _ (e4 k)

theorem view_token (hw : Sizes w root) (k : Address) (v : U256) (l : List Ev) :
    view root self (upd c (tokenCell root k) (v &&& mask (w (tokenCell root k)))) l t =
      { view root self c l t with erc20Released := upd (fun k => c (tokenCell root k)) k v } := by
  have e1 : OwnableWords.ownerCell (gate root) ≠ tokenCell root k := by simp [OwnableWords.ownerCell, gate, tokenCell]
  have e2 : startCell root ≠ tokenCell root k := by simp [startCell, tokenCell]
  have e3 : durationCell root ≠ tokenCell root k := by simp [durationCell, tokenCell]
  have e4 : releasedCell root ≠ tokenCell root k := by simp [releasedCell, tokenCell]
  unfold view OwnableWords.view
  rw [hw.token, mask32, upd_ne _ _ e1, upd_ne _ _ e2, upd_ne _ _ e3, upd_ne _ _ e4]
  congr 1
  funext k'
  by_cases hk : k' = k
  · subst hk; rw [upd_same, upd_same]
  · rw [upd_ne _ _ hk]
    refine upd_ne _ _ fun h => hk ?_
    have h := List.append_cancel_left h
    simp only [List.cons.injEq, Step.key.injEq, and_true, true_and] at h
    exact Props.StoragePrograms.key_inj h

/-- The outcome of a program that changes the rest of the chain. -/
def Does (w : List Step → Nat) (root : List Step) (self : Address) (log : List Ev) (m : Code τ) (c : Table) (x : Except Err (State τ)) : Prop :=
  x = (onCells w m c).map fun r => view root self r.2.1 (log ++ r.2.2) r.1

theorem does_releaseEth (hw : Sizes w root) (now : U64) :
    Does w root self log (releaseEth root W self t now) c (Wallet.releaseEth W K D now (view root self c log t)) := by
  unfold Does VestingWords.releaseEth Wallet.releaseEth
  rw [run_read (reads_releasableEth (log := log) W K D now)]
  cases lift (Vesting.releasableEth (seen W K D now (view root self c log t))) with
  | error e => rfl
  | ok amount =>
    show _ = (onCells w (Prog.bind (releasedEth root) _) c).map _
    rw [run_read (reads_releasedEth (self := self) (log := log) (t := t))]
    show _ = (onCells w (Prog.bind (expect (checkedAdd (view root self c log t).released amount)) _) c).map _
    rw [run_read (reads_expect _)]
    show (lift (orPanic .panic (checkedAdd (view root self c log t).released amount)) >>= _) = _
    cases lift (orPanic .panic (checkedAdd (view root self c log t).released amount)) with
    | error e => rfl
    | ok r' =>
      show (paid (W.pay t self ((c (OwnableWords.ownerCell (gate root))).setWidth 160) amount []) >>= _) =
        (onCells w (Prog.bind (owner root) _) (upd c (releasedCell root) _)).map _
      rw [run_read (reads_owner (self := self) (log := log) (t := t)), view_released hw]
      show _ = (onCells w (Prog.bind (settle (paid (W.pay t self ((c (OwnableWords.ownerCell (gate root))).setWidth 160) amount []))) _) _).map _
      rw [run_read (reads_settle _)]
      cases paid (W.pay t self ((c (OwnableWords.ownerCell (gate root))).setWidth 160) amount []) with
      | error e => rfl
      | ok t' =>
        show Except.ok _ = Except.ok (view root self _ (log ++ [.inr (.etherReleased amount)]) t')
        rw [view_released hw]
        show Except.ok _ = Except.ok _
        unfold view
        rw [lefts_append, rights_append]
        show Except.ok _ = Except.ok ({ ownable := OwnableWords.view (gate root) c (lefts log ++ []), .. } : State τ)
        rw [List.append_nil]
        rfl

theorem does_releaseErc20 (hw : Sizes w root) (now : U64) (k : Address) :
    Does w root self log (releaseErc20 root W K D self t now k) c (Wallet.releaseErc20 W K D now (view root self c log t) k) := by
  unfold Does VestingWords.releaseErc20 Wallet.releaseErc20
  rw [run_read (reads_releasableErc20 (log := log) W K D now k)]
  cases lift (Vesting.releasableErc20 (seen W K D now (view root self c log t)) k) with
  | error e => rfl
  | ok amount =>
    show _ = (onCells w (Prog.bind (owner root) _) c).map _
    rw [run_read (reads_owner (self := self) (log := log) (t := t))]
    show _ = (onCells w (Prog.bind (releasedErc20 root k) _) c).map _
    rw [run_read (reads_releasedErc20 (self := self) (log := log) (t := t) k)]
    show _ = (onCells w (Prog.bind (expect (checkedAdd ((view root self c log t).erc20Released k) amount)) _) c).map _
    rw [run_read (reads_expect _)]
    show (lift (orPanic .panic (checkedAdd ((view root self c log t).erc20Released k) amount)) >>= _) = _
    cases lift (orPanic .panic (checkedAdd ((view root self c log t).erc20Released k) amount)) with
    | error e => rfl
    | ok r' =>
      show (settled (.safe k) (SafeErc20.safeTransfer (W.token K t self k) t ((c (OwnableWords.ownerCell (gate root))).setWidth 160) amount)
        >>= _) = (onCells w (Prog.bind (settle (settled (.safe k) (SafeErc20.safeTransfer (W.token K t self k) t
          ((c (OwnableWords.ownerCell (gate root))).setWidth 160) amount))) _) (upd c (tokenCell root k) _)).map _
      rw [run_read (reads_settle _)]
      cases settled (Err.safe k) (SafeErc20.safeTransfer (W.token K t self k) t ((c (OwnableWords.ownerCell (gate root))).setWidth 160) amount) with
      | error e => rfl
      | ok t' =>
        show Except.ok _ = Except.ok (view root self _ (log ++ [.inr (.erc20Released k amount)]) t')
        rw [view_token hw]
        show Except.ok _ = Except.ok _
        unfold view
        rw [lefts_append, rights_append]
        show Except.ok _ = Except.ok ({ ownable := OwnableWords.view (gate root) c (lefts log ++ []), .. } : State τ)
        rw [List.append_nil]
        rfl

/-- The owner changes. -/
theorem does_owned (hw : Sizes w root) (caller : Address) (call : Ownable.Call) :
    Wallet.owned (view root self c log t) (Ownable.exec (view root self c log t).ownable (caller, call)) =
      (onCells w (owned root caller call) c).map fun r => view root self r.2.1 (log ++ r.2.2) t := by
  have h := OwnableWords.sim_code (w := w) hw.owner caller call c (lefts log)
  unfold VestingWords.owned
  rw [onCells_lift]
  have hf := fun r (hr : onCells w (OwnableWords.code (gate root) caller call) c = .ok r) p hp =>
    onCells_frame _ (OwnableWords.uses_code (root := gate root) caller call) hr (p := p) hp
  revert h hf
  show unit (fun s => Ownable.exec s (caller, call)) (view root self c log t).ownable = _ → _ → _
  cases onCells w (OwnableWords.code (gate root) caller call) c with
  | error e =>
    intro h _
    unfold unit at h
    dsimp only at h
    revert h
    cases Ownable.exec (view root self c log t).ownable (caller, call) with
    | error e' => intro h; cases h; rfl
    | ok o => intro h; cases h
  | ok r =>
    intro h hf
    have hf := hf r rfl
    unfold unit at h
    dsimp only at h
    revert h
    cases Ownable.exec (view root self c log t).ownable (caller, call) with
    | error e' => intro h; cases h
    | ok o =>
      intro h
      have ho : o = OwnableWords.view (gate root) r.2.1 (lefts log ++ r.2.2) := congrArg Prod.snd (Except.ok.inj h)
      subst ho
      have e2 := hf (startCell root) (by simp [startCell, OwnableWords.ownerCell, gate])
      have e3 := hf (durationCell root) (by simp [durationCell, OwnableWords.ownerCell, gate])
      have e4 := hf (releasedCell root) (by simp [releasedCell, OwnableWords.ownerCell, gate])
      have e5 := fun k => hf (tokenCell root k) (by simp [tokenCell, OwnableWords.ownerCell, gate])
      show Except.ok _ = Except.ok (view root self r.2.1 (log ++ r.2.2.map .inl) t)
      unfold view
      rw [lefts_append, rights_append, lefts_inl, rights_inl, List.append_nil, e2, e3, e4, funext e5]

/-! ## The cells that are used -/

variable {S : List Address}

theorem uses_owner : Uses (Cells root S) (owner root) := ⟨.inl rfl, fun _ => trivial⟩
theorem uses_start : Uses (Cells root S) (start root) := ⟨.inr (.inr (.inl rfl)), fun _ => trivial⟩
theorem uses_duration : Uses (Cells root S) (duration root) := ⟨.inr (.inr (.inr (.inl rfl))), fun _ => trivial⟩
theorem uses_end : Uses (Cells root S) (end' root) := uses_bind uses_start fun _ => uses_bind uses_duration fun _ => trivial
theorem uses_releasedEth : Uses (Cells root S) (releasedEth root) := ⟨.inr (.inl rfl), fun _ => trivial⟩
theorem uses_releasedErc20 {k : Address} (hk : k ∈ S) : Uses (Cells root S) (releasedErc20 root k) :=
  ⟨.inr (.inr (.inr (.inr ⟨k, hk, rfl⟩))), fun _ => trivial⟩
theorem uses_expect {α : Type} (x : Option α) : Uses (Cells root S) (expect x) := by cases x <;> trivial
theorem uses_settle (x : Except Err τ) : Uses (Cells root S) (settle x) := by cases x <;> trivial
theorem uses_schedule (total : U256) (ts : U64) : Uses (Cells root S) (schedule root total ts) :=
  uses_bind uses_start fun _ => uses_ite trivial (uses_bind uses_end fun _ => uses_ite trivial
    (uses_bind uses_start fun _ => uses_bind (uses_expect _) fun _ => uses_bind uses_duration fun _ => trivial))
theorem uses_vestedEth (ts : U64) : Uses (Cells root S) (vestedEth root W self t ts) :=
  uses_bind uses_releasedEth fun _ => uses_bind (uses_expect _) fun _ => uses_schedule _ _
theorem uses_balanceOf (k : Address) : Uses (Cells root S) (balanceOf W K D self t k) := by
  unfold balanceOf
  cases Calls.uintReply D (W.ask t 0 self k ((Calls.Message.balanceOf self).bytes K)) <;> trivial
theorem uses_vestedErc20 {k : Address} (hk : k ∈ S) (ts : U64) : Uses (Cells root S) (vestedErc20 root W K D self t k ts) :=
  uses_bind (uses_balanceOf W K D k) fun _ => uses_bind (uses_releasedErc20 hk) fun _ =>
    uses_bind (uses_expect _) fun _ => uses_schedule _ _
theorem uses_releasableEth (now : U64) : Uses (Cells root S) (releasableEth root W self t now) :=
  uses_bind (uses_vestedEth W now) fun _ => uses_bind uses_releasedEth fun _ => trivial
theorem uses_releasableErc20 (now : U64) {k : Address} (hk : k ∈ S) : Uses (Cells root S) (releasableErc20 root W K D self t now k) :=
  uses_bind (uses_vestedErc20 W K D hk now) fun _ => uses_bind (uses_releasedErc20 hk) fun _ => trivial
theorem uses_releaseEth (now : U64) : Uses (Cells root S) (releaseEth root W self t now) :=
  uses_bind (uses_releasableEth W now) fun _ => uses_bind uses_releasedEth fun _ => uses_bind (uses_expect _) fun _ =>
    ⟨.inr (.inl rfl), uses_bind uses_owner fun _ => uses_bind (uses_settle _) fun _ => trivial⟩
theorem uses_releaseErc20 (now : U64) {k : Address} (hk : k ∈ S) : Uses (Cells root S) (releaseErc20 root W K D self t now k) :=
  uses_bind (uses_releasableErc20 W K D now hk) fun _ => uses_bind uses_owner fun _ => uses_bind (uses_releasedErc20 hk) fun _ =>
    uses_bind (uses_expect _) fun _ => ⟨.inr (.inr (.inr (.inr ⟨k, hk, rfl⟩))), uses_bind (uses_settle _) fun _ => trivial⟩
theorem uses_owned (caller : Address) (call : Ownable.Call) : Uses (Cells root S) (owned root caller call) :=
  uses_lift _ (uses_mono (fun _ => .inl) _ (OwnableWords.uses_code caller call))

end
end Verif.Proofs.VestingWords

namespace Verif.Proofs.VestingDeployed
open Verif Verif.Storage Verif.Outside Verif.Outside.Wallet Verif.VestingDeployed Verif.Spec.VestingDeployed Verif.Spec.Storage
open Verif.Spec.StoragePrograms Verif.Spec.OnWords
open Verif.OnWords (Chained conclude)
open Verif.VestingWords (Ev Code)
open Verif.Proofs.VestingWords
open Verif.Proofs.Chained (Fits Inv fits_conclude fits_table)
open Verif.Proofs.Deployed (Table UsedBy used_of_uses uses_mono)
open Verif.Proofs.OnWords (fresh_agree)
open Verif.Proofs.Erc721Words (mask20)
open Verif.Abi (Val Decoder Outcome)
open Verif.Spec.Deployed (answer)
open Verif.Spec.Contracts (Raw)

variable {τ : Type}

/-- The state of the wallet. -/
abbrev view (self : Address) := VestingWords.view (τ := τ) root self

section
variable {w : List Step → Nat} {S : List Address} {self : Address} {c : Table} {log : List Ev} {t : τ}

theorem cells {p : List Step} (h : VestingWords.Cells root S p) : Cells S p := h

/-- A question. -/
theorem fits_ask (K : Hash) {α : Type} {m : Code α} {x : Except Verif.Vesting.Err α}
    (h : Reads w m c (lift x)) (hu : Uses (VestingWords.Cells root S) m) (f : α → Val) :
    Fits w (Cells S) (view self) c log (conclude K errReply (fun a => ([f a], t)) m)
      (Contracts.view K (Revert.vesting []) (view self c log t) (Contracts.one f x)) := by
  refine fits_conclude K _ _ (used_of_uses _ _ hu) ?_
  rw [h]
  cases x with
  | error e => rfl
  | ok a =>
    show Except.ok _ = Except.ok (view self c (log ++ []) t, _)
    rw [List.append_nil]

/-- A function that changes the state. -/
theorem fits_go (K : Hash) {m : Code τ} {x : Except Err (State τ)} (h : Does w root self log m c x)
    (hu : Uses (VestingWords.Cells root S) m) :
    Fits w (Cells S) (view self) c log (conclude K errReply (fun t' => ([], t')) m) (Entry.finish K errReply [] x) := by
  refine fits_conclude K _ _ (used_of_uses _ _ hu) ?_
  rw [show x = _ from h]
  cases onCells w m c <;> rfl

/-- The same for a change of the owner. -/
theorem fits_owned (hw : Sizes w root) (K : Hash) (caller : Address) (call : Ownable.Call) :
    Fits w (Cells S) (view self) c log (conclude K errReply (fun _ => ([], t)) (VestingWords.owned root caller call))
      (Entry.finish K errReply [] (Wallet.owned (view self c log t) (Ownable.exec (view self c log t).ownable (caller, call)))) := by
  refine fits_conclude K _ _ (used_of_uses _ _ (uses_owned (root := root) (S := S) caller call)) ?_
  rw [show Wallet.owned _ _ = _ from does_owned hw caller call]
  cases onCells w (VestingWords.owned root caller call) c <;> rfl

theorem fits (hw : Sizes w root) (W : Chain τ) (K : Hash) (D : Decoder) (env : Env) (u f : String) {args : List Val}
    (ha : ∀ a, Val.address a ∈ args → a ∈ S) :
    Fits w (Cells S) (view self) c log (program W K D env self t u f args) (handler W K D env u f args (view self c log t)) := by
  unfold program handler
  refine fits_table (.cons ⟨rfl, rfl, ?_⟩ (.cons ⟨rfl, rfl, ?_⟩ (.cons ⟨rfl, rfl, ?_⟩ (.cons ⟨rfl, rfl, ?_⟩ (.cons ⟨rfl, rfl, ?_⟩
    (.cons ⟨rfl, rfl, ?_⟩ (.cons ⟨rfl, rfl, ?_⟩ (.cons ⟨rfl, rfl, ?_⟩ (.cons ⟨rfl, rfl, ?_⟩ (.cons ⟨rfl, rfl, ?_⟩
    (.cons ⟨rfl, rfl, ?_⟩ (.cons ⟨rfl, rfl, ?_⟩ (.cons ⟨rfl, rfl, ?_⟩ (.cons ⟨rfl, rfl, ?_⟩ .nil))))))))))))))
  · hears fits_ask K (x := .ok _) (reads_owner (self := self) (log := log) (t := t)) uses_owner _
  · hears fits_owned hw K env.caller (.transferOwnership _)
  · hears fits_owned hw K env.caller .renounceOwnership
  · hears fits_ask K (x := .ok _) (reads_start (self := self) (log := log) (t := t) W K D env.now) uses_start _
  · hears fits_ask K (x := .ok _) (reads_duration (self := self) (log := log) (t := t) W K D env.now) uses_duration _
  · hears fits_ask K (x := .ok _) (reads_end (self := self) (log := log) (t := t) W K D env.now) uses_end _
  · hears fits_ask K (x := .ok _) (reads_releasedEth (self := self) (log := log) (t := t)) uses_releasedEth _
  · hears fits_ask K (x := .ok _) (reads_releasedErc20 (self := self) (log := log) (t := t) _) (uses_releasedErc20 (ha _ (by simp))) _
  · hears fits_ask K (reads_releasableEth W K D env.now) (uses_releasableEth W env.now) _
  · hears fits_ask K (reads_releasableErc20 W K D env.now _) (uses_releasableErc20 W K D env.now (ha _ (by simp))) _
  · hears fits_go K (does_releaseEth W K D hw env.now) (uses_releaseEth W env.now)
  · hears fits_go K (does_releaseErc20 W K D hw env.now _) (uses_releaseErc20 W K D env.now (ha _ (by simp)))
  · hears fits_ask K (reads_vestedEth W K D env.now _) (uses_vestedEth W _) _
  · hears fits_ask K (reads_vestedErc20 W K D env.now _ _) (uses_vestedErc20 W K D (ha _ (by simp)) _) _

end

theorem sizes (K : Hash) : Sizes (widthAt K vestingWalletExample) root := ⟨rfl, rfl, fun _ => rfl⟩

section
variable {K : Hash} {n : Nat} {S : List Address}

/-- The words and the state agree. -/
abbrev Agrees (K : Hash) (S : List Address) : Chained Ev τ → State τ → Prop := Inv K vestingWalletExample (Cells S) view

theorem inv_run (h : Apart K n vestingWalletExample (Cells S)) (W : Chain τ) (D : Decoder) {w : Chained Ev τ} {s : State τ}
    (hi : Agrees K S w s) {tx : Raw Env} (hx : Within K D S tx) :
    answer (VestingDeployed.run W K D tx.env w tx.value tx.input) = answer (Wallet.run W K D tx.env s tx.value tx.input) ∧
    Agrees K S ((VestingDeployed.run W K D tx.env w tx.value tx.input).after w) ((Wallet.run W K D tx.env s tx.value tx.input).after s) := by
  unfold VestingDeployed.run Wallet.run
  by_cases e : tx.input = []
  · rw [if_pos e, if_pos e]; exact ⟨rfl, hi⟩
  · rw [if_neg e, if_neg e]
    have := Chained.step (by decide) h D Router.vestingWalletExample (P := program W K D tx.env) (H := handler W K D tx.env) hi
      tx.value tx.input fun u f args hr hd _ _ _ => fits (sizes K) W K D tx.env u f.rustName (hx args ⟨u, f, hr, hd⟩)
    exact ⟨this.1, this.2.1⟩

theorem step_agree (h : Apart K n vestingWalletExample (Cells S)) (W : Chain τ) (D : Decoder) {w : Chained Ev τ} {s : State τ}
    (hi : Agrees K S w s) {x : Spec.VestingBytes.Step τ} (hx : About K D S x) :
    Agrees K S (Spec.VestingDeployed.step W K D w x) (match x with
      | .call env value input f => match Wallet.run W K D env { s with world := f s.world } value input with
        | .returned s' _ => s'
        | .reverted _ => s
      | .outside f => { s with world := f s.world }) := by
  have hf : ∀ f : τ → τ, Agrees K S { w with world := f w.world } { s with world := f s.world } := by
    obtain ⟨c, h1, rfl, hz⟩ := hi
    exact fun f => ⟨c, h1, rfl, hz⟩
  cases x with
  | outside f => exact hf f
  | call env value input f =>
    obtain ⟨h1, h2⟩ := inv_run h W D (hf f) (tx := ⟨env, value, input⟩) hx
    dsimp only [Spec.VestingDeployed.step]
    revert h1 h2
    dsimp only
    cases VestingDeployed.run W K D env { w with world := f w.world } value input with
    | returned w' d =>
      cases Wallet.run W K D env { s with world := f s.world } value input with
      | returned s' d' => exact fun _ h2 => h2
      | reverted d' => exact fun h1 _ => by cases h1
    | reverted d =>
      cases Wallet.run W K D env { s with world := f s.world } value input with
      | returned s' d' => exact fun h1 _ => by cases h1
      | reverted d' => exact fun _ _ => hi

theorem mask8 (a : U64) : ((a.setWidth 256 &&& mask 8).setWidth 64 : U64) = a := by
  apply BitVec.eq_of_getLsbD_eq
  intro i hi
  have e : mask 8 = BitVec.setWidth 256 (BitVec.allOnes 64) := by decide +kernel
  rw [e]
  simp only [BitVec.getLsbD_setWidth, BitVec.getLsbD_and, BitVec.getLsbD_allOnes]
  have : i < 256 := by omega
  simp [hi, this]

theorem inv_deploy (h : Apart K n vestingWalletExample (Cells S)) {self beneficiary : Address} {start duration : U64} {t : τ}
    {w : Chained Ev τ} (hd : deploy K self beneficiary start duration t = some w) :
    Agrees K S w (Spec.VestingBytes.newWallet self beneficiary start duration t) := by
  have hz := Props.Constructors.C99_vesting_wallet K beneficiary start duration
  unfold deploy at hd
  obtain ⟨ws, h1, h2⟩ := Option.bind_eq_some_iff.mp hd
  obtain ⟨st, h3, rfl⟩ := Option.map_eq_some_iff.mp h2
  rw [h1, Option.bind_some, h3] at hz
  by_cases h0 : beneficiary = 0#160
  · rw [if_pos h0] at hz; cases hz
  rw [if_neg h0] at hz
  obtain ⟨st', h4, h5, h6⟩ := Chained.assigned (t := vestingWalletExample) (by decide) h
    [(OwnableWords.ownerCell (VestingWords.gate root), beneficiary.setWidth 256), (VestingWords.startCell root, start.setWidth 256),
      (VestingWords.durationCell root, duration.setWidth 256)] (fresh_agree K _ (Cells S)) (fun _ _ => rfl) (by
      intro e he
      simp only [List.mem_cons, List.not_mem_nil, or_false] at he
      rcases he with rfl | rfl | rfl
      · exact .inl rfl
      · exact .inr (.inr (.inl rfl))
      · exact .inr (.inr (.inr (.inl rfl))))
  have hz : some st = some st' := hz.trans h4
  have hz := Option.some.inj hz
  subst hz
  refine ⟨_, h5, ?_, h6⟩
  have e1 : widthAt K vestingWalletExample (OwnableWords.ownerCell (VestingWords.gate root)) = 20 := rfl
  have e2 : widthAt K vestingWalletExample (VestingWords.startCell root) = 8 := rfl
  have e3 : widthAt K vestingWalletExample (VestingWords.durationCell root) = 8 := rfl
  have n1 : OwnableWords.ownerCell (VestingWords.gate root) ≠ VestingWords.startCell root := by decide
  have n2 : OwnableWords.ownerCell (VestingWords.gate root) ≠ VestingWords.durationCell root := by decide
  have n3 : VestingWords.startCell root ≠ VestingWords.durationCell root := by decide
  have n4 : VestingWords.releasedCell root ≠ OwnableWords.ownerCell (VestingWords.gate root) := by decide
  have n5 : VestingWords.releasedCell root ≠ VestingWords.startCell root := by decide
  have n6 : VestingWords.releasedCell root ≠ VestingWords.durationCell root := by decide
  show VestingWords.view root self (upd (upd (upd (fun _ => 0#256) _ _) _ _) _ _) [] t = _
  unfold VestingWords.view OwnableWords.view Spec.VestingBytes.newWallet
  rw [upd_same, upd_ne _ _ n2, upd_ne _ _ n1, upd_same, upd_ne _ _ n3, upd_same, upd_ne _ _ n6, upd_ne _ _ n5, upd_ne _ _ n4,
    e1, e2, e3, mask20, mask8, mask8]
  congr 1

theorem deploys (self beneficiary : Address) (start duration : U64) (t : τ) :
    deploy K self beneficiary start duration t = none ↔ beneficiary = ZERO := by
  unfold deploy Constructors.vestingWalletInit
  by_cases e : beneficiary = 0#160
  · rw [if_pos e]; exact ⟨fun _ => e, fun _ => rfl⟩
  · rw [if_neg e]; exact ⟨fun h => (nomatch (h : some _ = none)), fun h => absurd h e⟩

end
end Verif.Proofs.VestingDeployed
