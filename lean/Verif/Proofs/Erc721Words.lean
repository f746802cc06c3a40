import Verif.Spec.Erc721Words
import Verif.Proofs.Deployed
import Verif.Props.Erc721
/-! # Lemmas: the ERC-721 token on a table of cells -/

namespace Verif.Proofs.Erc721Words
open Verif Verif.Storage Verif.Spec.Storage Verif.Spec.Constructors Verif.Spec.StoragePrograms Verif.Spec.Erc721Words
open Verif.Props.StoragePrograms (SameOutcome onCells_bind uses_bind uses_ite key_inj)
open Verif.Proofs.Deployed (Table UsedBy used_bind used_of_uses uses_mono onCells_frame programs_run)
open Verif.Erc721 (Err Event Receivers)

section
variable {E V α β σ : Type}

/-- A program does to a table what `f` does to the state it stands for. -/
def Sim (w : List Step → Nat) (view : Table → List V → σ) (m : Prog E V α) (f : σ → Except E (α × σ)) : Prop :=
  ∀ c log, f (view c log) = (onCells w m c).map fun r => (r.1, view r.2.1 (log ++ r.2.2))

variable {w : List Step → Nat} {view : Table → List V → σ}

theorem sim_ret (a : α) : Sim (E := E) w view (.ret a) fun s => .ok (a, s) := by
  intro c log
  show _ = Except.ok (a, view c (log ++ []))
  rw [List.append_nil]

theorem sim_fail (e : E) : Sim (α := α) w view (.fail e) fun _ => .error e := fun _ _ => rfl

theorem sim_bind {m : Prog E V α} {g : α → Prog E V β} {f : σ → Except E (α × σ)} {h : α → σ → Except E (β × σ)}
    (hm : Sim w view m f) (hg : ∀ a, Sim w view (g a) (h a)) : Sim w view (m.bind g) fun s => f s >>= fun p => h p.1 p.2 := by
  intro c log
  dsimp only
  rw [hm c log, onCells_bind]
  cases onCells w m c with
  | error e => rfl
  | ok r =>
    show h r.1 (view r.2.1 (log ++ r.2.2)) = Except.map _ (Except.map _ (onCells w (g r.1) r.2.1))
    rw [hg]
    cases onCells w (g r.1) r.2.1 with
    | error e => rfl
    | ok r' =>
      show Except.ok (r'.1, view r'.2.1 (log ++ r.2.2 ++ r'.2.2)) = Except.ok (r'.1, view r'.2.1 (log ++ (r.2.2 ++ r'.2.2)))
      rw [List.append_assoc]

theorem sim_get {p : List Step} {k : U256 → Prog E V α} {f : σ → Except E (α × σ)}
    (h : ∀ c log, f (view c log) = (onCells w (k (c p)) c).map fun r => (r.1, view r.2.1 (log ++ r.2.2))) :
    Sim w view (.get p k) f := h

theorem sim_ite {P : Prop} [Decidable P] {m m' : Prog E V α} {f f' : σ → Except E (α × σ)} (h : Sim w view m f)
    (h' : Sim w view m' f') : Sim w view (if P then m else m') fun s => if P then f s else f' s := by
  by_cases hp : P
  · simp only [if_pos hp]; exact h
  · simp only [if_neg hp]; exact h'

end

section
variable {root : List Step}

/-- The state a table stands for. -/
def view (root : List Step) (c : Table) (log : List Event) : Erc721.State :=
  { owners := fun id => (c (Erc721Words.owner root id)).setWidth 160
    balances := fun a => c (Erc721Words.balance root a)
    tokenApprovals := fun id => (c (Erc721Words.approved root id)).setWidth 160
    operatorApprovals := fun a b => decide (c (Erc721Words.operator root a b) ≠ 0#256)
    log := log }

/-- The sizes of the cells. -/
structure Sizes (w : List Step → Nat) (root : List Step) : Prop where
  owner : ∀ id, w (Erc721Words.owner root id) = 20
  balance : ∀ a, w (Erc721Words.balance root a) = 32
  approved : ∀ id, w (Erc721Words.approved root id) = 20
  operator : ∀ a b, w (Erc721Words.operator root a b) = 1

theorem mask20 (a : Address) : ((a.setWidth 256 &&& mask 20).setWidth 160 : Address) = a := by
  apply BitVec.eq_of_getLsbD_eq
  intro i hi
  have e : mask 20 = BitVec.setWidth 256 (BitVec.allOnes 160) := by decide +kernel
  rw [e]
  simp only [BitVec.getLsbD_setWidth, BitVec.getLsbD_and, BitVec.getLsbD_allOnes]
  simp [hi, show i < 256 by omega]

theorem mask32 (v : U256) : v &&& mask 32 = v := by
  have e : mask 32 = BitVec.allOnes 256 := by decide +kernel
  rw [e, BitVec.and_allOnes]

syntax "paths" : tactic
macro_rules
  | `(tactic| paths) => `(tactic| (
      simp only [Erc721Words.owner, Erc721Words.balance, Erc721Words.approved, Erc721Words.operator, ne_eq, List.append_cancel_left_eq,
        List.cons.injEq, Step.field.injEq, reduceCtorEq, false_and, and_false, not_false_eq_true, String.reduceEq]))

theorem view_owner (c : Table) (log : List Event) (id : U256) (v : U256) :
    view root (upd c (Erc721Words.owner root id) v) log =
    { view root c log with owners := upd (view root c log).owners id (v.setWidth 160) } := by
  unfold view
  congr 1
  · funext i
    by_cases e : i = id
    · subst e; rw [upd_same, upd_same]
    · rw [upd_ne _ _ e, upd_ne _ _ (by simpa [Erc721Words.owner] using e)]
  · funext a; rw [upd_ne _ _ (by paths)]
  · funext a; rw [upd_ne _ _ (by paths)]
  · funext a b; rw [upd_ne _ _ (by paths)]

theorem view_balance (c : Table) (log : List Event) (a : Address) (v : U256) :
    view root (upd c (Erc721Words.balance root a) v) log =
    { view root c log with balances := upd (view root c log).balances a v } := by
  unfold view
  congr 1
  · funext a; rw [upd_ne _ _ (by paths)]
  · funext b
    by_cases e : b = a
    · subst e; rw [upd_same, upd_same]
    · rw [upd_ne _ _ e, upd_ne _ _ (by
        intro h
        have := List.append_cancel_left h
        simp only [List.cons.injEq, Step.key.injEq, and_true, true_and] at this
        exact e (key_inj this))]
  · funext a; rw [upd_ne _ _ (by paths)]
  · funext a b; rw [upd_ne _ _ (by paths)]

theorem view_approved (c : Table) (log : List Event) (id : U256) (v : U256) :
    view root (upd c (Erc721Words.approved root id) v) log =
    { view root c log with tokenApprovals := upd (view root c log).tokenApprovals id (v.setWidth 160) } := by
  unfold view
  congr 1
  · funext a; rw [upd_ne _ _ (by paths)]
  · funext a; rw [upd_ne _ _ (by paths)]
  · funext i
    by_cases e : i = id
    · subst e; rw [upd_same, upd_same]
    · rw [upd_ne _ _ e, upd_ne _ _ (by simpa [Erc721Words.approved] using e)]
  · funext a b; rw [upd_ne _ _ (by paths)]

theorem view_operator (c : Table) (log : List Event) (a b : Address) (v : U256) :
    view root (upd c (Erc721Words.operator root a b) v) log =
    { view root c log with operatorApprovals := upd2 (view root c log).operatorApprovals a b (decide (v ≠ 0#256)) } := by
  unfold view
  congr 1
  · funext a; rw [upd_ne _ _ (by paths)]
  · funext a; rw [upd_ne _ _ (by paths)]
  · funext a; rw [upd_ne _ _ (by paths)]
  · funext x y
    unfold upd2
    by_cases e : x = a ∧ y = b
    · obtain ⟨rfl, rfl⟩ := e
      simp
    · have : Erc721Words.operator root x y ≠ Erc721Words.operator root a b := by
        intro h
        have := List.append_cancel_left h
        simp only [List.cons.injEq, Step.key.injEq, and_true, true_and] at this
        exact e ⟨key_inj this.1, key_inj this.2⟩
      rw [upd_ne _ _ this]
      dsimp only
      split <;> simp_all

variable {w : List Step → Nat}

abbrev SimT (w : List Step → Nat) (root : List Step) {α : Type} (m : Erc721Words.Code α)
    (f : Erc721.State → Except Err (α × Erc721.State)) : Prop := Sim w (view root) m f

/-- A function that only changes the state. -/
def unit {σ E : Type} (f : σ → Except E σ) (s : σ) : Except E (Unit × σ) := (f s).map fun s' => ((), s')

/-- A function that does not change the state. -/
def look {σ E α : Type} (f : σ → Except E α) (s : σ) : Except E (α × σ) := (f s).map fun a => (a, s)

theorem sim_owner (id : U256) : SimT w root (Erc721Words.ownerOfInternal root id) fun s => .ok (s.owners id, s) := by
  intro c log
  show _ = Except.ok (_, view root c (log ++ []))
  rw [List.append_nil]
  rfl

theorem sim_approved (id : U256) : SimT w root (Erc721Words.getApprovedInternal root id) fun s => .ok (s.tokenApprovals id, s) := by
  intro c log
  show _ = Except.ok (_, view root c (log ++ []))
  rw [List.append_nil]
  rfl

theorem sim_operator (a b : Address) :
    SimT w root (Erc721Words.isApprovedForAll root a b) fun s => .ok (s.operatorApprovals a b, s) := by
  intro c log
  show _ = Except.ok (_, view root c (log ++ []))
  rw [List.append_nil]
  rfl

theorem sim_balance (a : Address) :
    SimT w root (Erc721Words.balanceOf root a) (look fun s => Erc721.balanceOf s a) := by
  intro c log
  unfold Erc721Words.balanceOf look Erc721.balanceOf
  dsimp only
  by_cases h : a = ZERO
  · rw [if_pos h, if_pos h]; rfl
  · rw [if_neg h, if_neg h]
    show _ = Except.ok (_, view root c (log ++ []))
    rw [List.append_nil]
    rfl

theorem sim_owned (id : U256) : SimT w root (Erc721Words.requireOwned root id) (look fun s => Erc721.requireOwned s id) := by
  have h := sim_bind (sim_owner (w := w) (root := root) id) fun o =>
    sim_ite (P := o = ZERO) (sim_fail (.nonexistentToken id)) (sim_ret o)
  intro c log
  refine Eq.trans ?_ (h c log)
  unfold look Erc721.requireOwned Erc721.ownerOfInternal
  show _ = if (view root c log).owners id = ZERO then _ else _
  dsimp only
  split <;> rfl

theorem sim_getApproved (id : U256) : SimT w root (Erc721Words.getApproved root id) (look fun s => Erc721.getApproved s id) := by
  have h := sim_bind (sim_owned (w := w) (root := root) id) fun _ => sim_approved id
  intro c log
  refine Eq.trans ?_ (h c log)
  unfold look Erc721.getApproved
  dsimp only
  cases Erc721.requireOwned (view root c log) id <;> rfl

theorem sim_authorized (o sp : Address) (id : U256) :
    SimT w root (Erc721Words.isAuthorized root o sp id) (look fun s => .ok (Erc721.isAuthorized s o sp id)) := by
  have h := sim_ite (P := sp = ZERO) (sim_ret false) (sim_ite (P := o = sp) (sim_ret true)
    (sim_bind (sim_operator (w := w) (root := root) o sp) fun all =>
      sim_ite (P := all = true) (sim_ret true) (sim_bind (sim_approved id) fun a => sim_ret (decide (a = sp)))))
  intro c log
  refine Eq.trans ?_ (h c log)
  unfold look Erc721.isAuthorized Erc721.isApprovedForAll Erc721.getApprovedInternal
  by_cases h1 : sp = ZERO
  · simp [h1, Except.map]
  · by_cases h2 : o = sp
    · simp [h1, h2, Except.map]
    · simp only [h1, h2, if_false, ne_eq, not_false_eq_true, decide_true, decide_false, Bool.true_and, Bool.false_or]
      show _ = if (view root c log).operatorApprovals o sp = true then _ else _
      by_cases h3 : (view root c log).operatorApprovals o sp = true
      · rw [if_pos h3, h3]; rfl
      · rw [if_neg h3, Bool.not_eq_true _ |>.mp h3]; rfl

theorem sim_check (o op : Address) (id : U256) :
    SimT w root (Erc721Words.checkAuthorized root o op id) (look fun s => Erc721.checkAuthorized s o op id) := by
  have h := sim_bind (sim_authorized (w := w) (root := root) o op id) fun ok =>
    sim_ite (P := ok = true) (sim_ret ()) (sim_ite (P := o = ZERO) (sim_fail (.nonexistentToken id))
      (sim_fail (.insufficientApproval op id)))
  intro c log
  refine Eq.trans ?_ (h c log)
  unfold look Erc721.checkAuthorized
  show _ = if Erc721.isAuthorized (view root c log) o op id = true then _ else _
  dsimp only
  split
  · rfl
  · split <;> rfl

theorem sim_setApproved (hw : Sizes w root) (dst : Address) (id : U256) :
    SimT w root (.set (Erc721Words.approved root id) (dst.setWidth 256) (.ret ()))
      fun s => .ok ((), { s with tokenApprovals := upd s.tokenApprovals id dst }) := by
  intro c log
  show _ = Except.ok ((), view root (upd c _ _) (log ++ []))
  rw [List.append_nil, hw.approved, view_approved, mask20]

theorem sim_approve (hw : Sizes w root) (dst : Address) (id : U256) (auth : Address) (emit : Bool) :
    SimT w root (Erc721Words.approveInternal root dst id auth emit)
      (unit fun s => Erc721.approveInternal s dst id auth emit) := by
  have store := sim_setApproved hw dst id
  have emitted : ∀ o, SimT w root (.emit (.approval o dst id) (.set (Erc721Words.approved root id) (dst.setWidth 256) (.ret ())))
      fun s => .ok ((), { s with tokenApprovals := upd s.tokenApprovals id dst, log := s.log ++ [.approval o dst id] }) := by
    intro o c log
    show _ = Except.ok ((), view root (upd c _ _) (log ++ [_]))
    rw [hw.approved, view_approved, mask20]
    rfl
  have h := sim_ite (P := emit = true ∨ auth ≠ ZERO)
    (sim_bind (sim_owned (w := w) (root := root) id) fun o =>
      sim_bind (sim_ite (P := auth ≠ ZERO ∧ o ≠ auth)
        (sim_bind (sim_operator o auth) fun all => sim_ite (P := all = true) (sim_ret ()) (sim_fail (.invalidApprover auth)))
        (sim_ret ())) fun _ => sim_ite (P := emit = true) (emitted o) store) store
  intro c log
  refine Eq.trans ?_ (h c log)
  unfold unit look Erc721.approveInternal Erc721.isApprovedForAll
  dsimp only
  by_cases h1 : emit = true ∨ auth ≠ ZERO
  · rw [if_pos h1]
    simp only [if_pos h1]
    cases Erc721.requireOwned (view root c log) id with
    | error e => rfl
    | ok o =>
      by_cases h2 : auth ≠ ZERO ∧ o ≠ auth
      · cases h3 : (view root c log).operatorApprovals o auth with
        | true => cases emit <;> simp [h2, h3, Except.map, bind, Except.bind, pure, Except.pure]
        | false => cases emit <;> simp [h2, h3, Except.map, bind, Except.bind, throw, throwThe, MonadExceptOf.throw]
      · have h2' : ¬ (auth ≠ ZERO ∧ o ≠ auth ∧ (view root c log).operatorApprovals o auth = false) := fun h => h2 ⟨h.1, h.2.1⟩
        cases emit <;> simp [h2, h2', Except.map, bind, Except.bind, pure, Except.pure]
  · rw [if_neg h1]
    simp only [if_neg h1]
    rfl

theorem sim_change (hw : Sizes w root) (a : Address) (f : U256 → U256) :
    SimT w root (Erc721Words.change root a f) fun s => .ok ((), { s with balances := upd s.balances a (f (s.balances a)) }) := by
  intro c log
  show _ = Except.ok ((), view root (upd c _ _) (log ++ []))
  rw [List.append_nil, hw.balance, view_balance, mask32]
  rfl

theorem sim_transfer (hw : Sizes w root) (src dst : Address) (id : U256) :
    SimT w root (.set (Erc721Words.owner root id) (dst.setWidth 256) (.emit (.transfer src dst id) (.ret src)))
      fun s => .ok (src, { s with owners := upd s.owners id dst, log := s.log ++ [.transfer src dst id] }) := by
  intro c log
  show _ = Except.ok (src, view root (upd c _ _) (log ++ [_]))
  rw [hw.owner, view_owner, mask20]
  rfl

theorem sim_update (hw : Sizes w root) (dst : Address) (id : U256) (auth : Address) :
    SimT w root (Erc721Words.update root dst id auth) fun s => Erc721.update s dst id auth := by
  have h := sim_bind (sim_owner (w := w) (root := root) id) fun src =>
    sim_bind (sim_ite (P := auth ≠ ZERO) (sim_check src auth id) (sim_ret ())) fun _ =>
    sim_bind (sim_ite (P := src ≠ ZERO) (sim_bind (sim_approve hw ZERO id ZERO false) fun _ =>
      sim_change hw src fun b => b - 1#256) (sim_ret ())) fun _ =>
    sim_bind (sim_ite (P := dst ≠ ZERO) (sim_change hw dst fun b => b + 1#256) (sim_ret ())) fun _ => sim_transfer hw src dst id
  intro c log
  refine Eq.trans ?_ (h c log)
  generalize view root c log = s
  unfold Erc721.update Erc721.ownerOfInternal unit look
  dsimp only
  show _ = Except.bind _ _
  by_cases h1 : auth ≠ ZERO
  · simp only [if_pos h1]
    cases hk : Erc721.checkAuthorized s (s.owners id) auth id with
    | error e => simp [hk, Except.map, bind, Except.bind]
    | ok _ =>
      by_cases h2 : s.owners id ≠ ZERO
      · by_cases h3 : dst ≠ ZERO <;>
          simp [hk, h2, h3, Erc721.approveInternal, Except.map, bind, Except.bind, pure, Except.pure]
      · by_cases h3 : dst ≠ ZERO <;> simp [hk, h2, h3, Except.map, bind, Except.bind, pure, Except.pure]
  · simp only [if_neg h1]
    by_cases h2 : s.owners id ≠ ZERO
    · by_cases h3 : dst ≠ ZERO <;>
        simp [h2, h3, Erc721.approveInternal, Except.map, bind, Except.bind, pure, Except.pure]
    · by_cases h3 : dst ≠ ZERO <;> simp [h2, h3, bind, Except.bind, pure, Except.pure]

theorem sim_mint (hw : Sizes w root) (dst : Address) (id : U256) :
    SimT w root (Erc721Words.mint root dst id) (unit fun s => Erc721.mint s dst id) := by
  have h := sim_ite (P := dst = ZERO) (sim_fail (.invalidReceiver ZERO)) (sim_bind (sim_update hw dst id ZERO) fun p =>
    sim_ite (P := p ≠ ZERO) (sim_fail (.invalidSender ZERO)) (sim_ret ()))
  intro c log
  refine Eq.trans ?_ (h c log)
  generalize view root c log = s
  unfold unit Erc721.mint
  dsimp only
  by_cases h1 : dst = ZERO
  · rw [if_pos h1, if_pos h1]; rfl
  · rw [if_neg h1, if_neg h1]
    cases Erc721.update s dst id ZERO with
    | error e => rfl
    | ok r =>
      by_cases h2 : r.1 ≠ ZERO <;>
        simp [h2, Except.map, bind, Except.bind, pure, Except.pure, throw, throwThe, MonadExceptOf.throw]

theorem sim_burnInternal (hw : Sizes w root) (id : U256) :
    SimT w root (Erc721Words.burnInternal root id) (unit fun s => Erc721.burnInternal s id) := by
  have h := sim_bind (sim_update hw ZERO id ZERO) fun p =>
    sim_ite (P := p = ZERO) (sim_fail (.nonexistentToken id)) (sim_ret ())
  intro c log
  refine Eq.trans ?_ (h c log)
  generalize view root c log = s
  unfold unit Erc721.burnInternal
  dsimp only
  cases Erc721.update s ZERO id ZERO with
  | error e => rfl
  | ok r =>
    by_cases h2 : r.1 = ZERO <;>
      simp [h2, Except.map, bind, Except.bind, pure, Except.pure, throw, throwThe, MonadExceptOf.throw]

theorem sim_transferInternal (hw : Sizes w root) (src dst : Address) (id : U256) :
    SimT w root (Erc721Words.transferInternal root src dst id) (unit fun s => Erc721.transferInternal s src dst id) := by
  have h := sim_ite (P := dst = ZERO) (sim_fail (.invalidReceiver ZERO)) (sim_bind (sim_update hw dst id ZERO) fun p =>
    sim_ite (P := p = ZERO) (sim_fail (.nonexistentToken id))
      (sim_ite (P := p ≠ src) (sim_fail (.incorrectOwner src id p)) (sim_ret ())))
  intro c log
  refine Eq.trans ?_ (h c log)
  generalize view root c log = s
  unfold unit Erc721.transferInternal
  dsimp only
  by_cases h1 : dst = ZERO
  · rw [if_pos h1, if_pos h1]; rfl
  · rw [if_neg h1, if_neg h1]
    cases Erc721.update s dst id ZERO with
    | error e => rfl
    | ok r =>
      by_cases h2 : r.1 = ZERO
      · simp [h2, Except.map, bind, Except.bind, throw, throwThe, MonadExceptOf.throw]
      · by_cases h3 : r.1 ≠ src <;>
          simp [h2, h3, Except.map, bind, Except.bind, pure, Except.pure, throw, throwThe, MonadExceptOf.throw]

theorem sim_transferFrom (hw : Sizes w root) (caller src dst : Address) (id : U256) :
    SimT w root (Erc721Words.transferFrom root caller src dst id) (unit fun s => Erc721.transferFrom s caller src dst id) := by
  have h := sim_ite (P := dst = ZERO) (sim_fail (.invalidReceiver ZERO)) (sim_bind (sim_update hw dst id caller) fun p =>
    sim_ite (P := p ≠ src) (sim_fail (.incorrectOwner src id p)) (sim_ret ()))
  intro c log
  refine Eq.trans ?_ (h c log)
  generalize view root c log = s
  unfold unit Erc721.transferFrom
  dsimp only
  by_cases h1 : dst = ZERO
  · rw [if_pos h1, if_pos h1]; rfl
  · rw [if_neg h1, if_neg h1]
    cases Erc721.update s dst id caller with
    | error e => rfl
    | ok r =>
      by_cases h3 : r.1 ≠ src <;>
        simp [h3, Except.map, bind, Except.bind, pure, Except.pure, throw, throwThe, MonadExceptOf.throw]

theorem sim_received (R : Receivers) (op src dst : Address) (id : U256) (data : Bytes) :
    SimT w root (Erc721Words.received R op src dst id data) (look fun _ => Erc721.checkOnReceived R op src dst id data) := by
  unfold Erc721Words.received look
  cases Erc721.checkOnReceived R op src dst id data with
  | ok _ => exact sim_ret ()
  | error e => exact sim_fail e

/-- A change of the state, followed by the call of a receiver. -/
theorem sim_then {m : Erc721Words.Code Unit} {f : Erc721.State → Except Err Erc721.State} (h : SimT w root m (unit f))
    (R : Receivers) (op src dst : Address) (id : U256) (data : Bytes) :
    SimT w root (m.bind fun _ => Erc721Words.received R op src dst id data)
      (unit fun s => do
        let s1 ← f s
        Erc721.checkOnReceived R op src dst id data
        return s1) := by
  have h := sim_bind h fun _ => sim_received R op src dst id data
  intro c log
  refine Eq.trans ?_ (h c log)
  generalize view root c log = s
  unfold unit look
  dsimp only
  cases f s with
  | error e => rfl
  | ok s1 => cases Erc721.checkOnReceived R op src dst id data <;> rfl

theorem sim_setAll (hw : Sizes w root) (o op : Address) (b : Bool) :
    SimT w root (Erc721Words.setApprovalForAll root o op b) (unit fun s => Erc721.setApprovalForAll s o op b) := by
  intro c log
  unfold Erc721Words.setApprovalForAll unit Erc721.setApprovalForAll Erc721.setApprovalForAllInternal
  dsimp only
  by_cases h : op = ZERO
  · rw [if_pos h, if_pos h]; rfl
  · rw [if_neg h, if_neg h]
    show Except.ok _ = Except.ok ((), view root (upd c _ _) (log ++ [_]))
    rw [hw.operator, view_operator]
    cases b <;> rfl

theorem sim_burn (hw : Sizes w root) (caller : Address) (id : U256) :
    SimT w root (Erc721Words.burn root caller id) (unit fun s => Erc721.burn s caller id) := by
  have h := sim_bind (sim_update hw ZERO id caller) fun _ => sim_ret ()
  intro c log
  refine Eq.trans ?_ (h c log)
  generalize view root c log = s
  unfold unit Erc721.burn
  dsimp only
  cases Erc721.update s ZERO id caller <;> rfl

theorem sim_code (hw : Sizes w root) (tx : Erc721.Tx) (hc : tx.caller ≠ ZERO) :
    SimT w root (Erc721Words.code root tx.receivers tx.caller tx.call) (unit fun s => Erc721.exec s tx) := by
  obtain ⟨caller, R, call⟩ := tx
  dsimp only at hc ⊢
  unfold Erc721.exec
  dsimp only
  simp only [if_neg hc]
  cases call with
  | inl u =>
    cases u with
    | transferFrom src dst id => exact sim_transferFrom hw caller src dst id
    | safeTransferFrom src dst id => exact sim_then (sim_transferFrom hw caller src dst id) R caller src dst id []
    | safeTransferFromWithData src dst id data => exact sim_then (sim_transferFrom hw caller src dst id) R caller src dst id data
    | approve dst id => exact sim_approve hw dst id caller true
    | setApprovalForAll op b => exact sim_setAll hw caller op b
    | burn id => exact sim_burn hw caller id
  | inr a =>
    cases a with
    | mint dst id => exact sim_mint hw dst id
    | safeMint dst id data => exact sim_then (sim_mint hw dst id) R caller ZERO dst id data
    | burn id => exact sim_burnInternal hw id
    | transfer src dst id => exact sim_transferInternal hw src dst id
    | safeTransfer src dst id data => exact sim_then (sim_transferInternal hw src dst id) R caller src dst id data

/-! ## The cells that are used -/

variable {S : List Address} {T : List U256}

theorem uses_check {o op : Address} {id : U256} (h1 : o ∈ S) (h2 : op ∈ S) (h3 : id ∈ T) :
    Uses (Cells root S T) (Erc721Words.checkAuthorized root o op id) := by
  refine uses_bind (uses_ite trivial (uses_ite trivial (uses_bind ⟨?_, fun _ => trivial⟩ fun _ =>
    uses_ite trivial (uses_bind ⟨?_, fun _ => trivial⟩ fun _ => trivial)))) fun _ => uses_ite trivial (uses_ite trivial trivial)
  · exact .inr (.inr (.inr ⟨o, h1, op, h2, rfl⟩))
  · exact .inr (.inr (.inl ⟨id, h3, rfl⟩))

theorem uses_change {a : Address} (h : a ∈ S) (f : U256 → U256) : Uses (Cells root S T) (Erc721Words.change root a f) :=
  ⟨.inr (.inl ⟨a, h, rfl⟩), fun _ => ⟨.inr (.inl ⟨a, h, rfl⟩), trivial⟩⟩

theorem uses_clear {id : U256} (h : id ∈ T) : Uses (Cells root S T) (Erc721Words.approveInternal root ZERO id ZERO false) := by
  unfold Erc721Words.approveInternal
  rw [if_neg (by simp)]
  exact ⟨.inr (.inr (.inl ⟨id, h, rfl⟩)), trivial⟩

theorem used_update {c : Table} {dst auth : Address} {id : U256} (h1 : dst ∈ S) (h2 : auth ∈ S) (h3 : id ∈ T)
    (h4 : (c (Erc721Words.owner root id)).setWidth 160 ∈ S) : UsedBy w (Cells root S T) (Erc721Words.update root dst id auth) c := by
  simp only [Erc721Words.update, Erc721Words.ownerOfInternal, Prog.bind, UsedBy]
  refine ⟨.inl ⟨id, h3, rfl⟩, used_of_uses _ _ ?_⟩
  exact uses_bind (uses_ite (uses_check h4 h2 h3) trivial) fun _ => uses_bind (uses_ite (uses_bind (uses_clear h3) fun _ =>
    uses_change h4 _) trivial) fun _ => uses_bind (uses_ite (uses_change h1 _) trivial) fun _ => ⟨.inl ⟨id, h3, rfl⟩, trivial⟩

theorem used_owned {c : Table} {id : U256} (h : id ∈ T) : UsedBy w (Cells root S T) (Erc721Words.requireOwned root id) c := by
  simp only [Erc721Words.requireOwned, Erc721Words.ownerOfInternal, Prog.bind, UsedBy]
  exact ⟨.inl ⟨id, h, rfl⟩, used_of_uses _ _ (uses_ite trivial trivial)⟩

theorem used_approve {c : Table} {dst auth : Address} {id : U256} (h2 : auth ∈ S) (h3 : id ∈ T)
    (h4 : (c (Erc721Words.owner root id)).setWidth 160 ∈ S) :
    UsedBy w (Cells root S T) (Erc721Words.approveInternal root dst id auth true) c := by
  have hs : Uses (E := Err) (V := Event) (Cells root S T) (.set (Erc721Words.approved root id) (dst.setWidth 256) (.ret ())) :=
    ⟨.inr (.inr (.inl ⟨id, h3, rfl⟩)), trivial⟩
  unfold Erc721Words.approveInternal
  simp only [Erc721Words.requireOwned, Erc721Words.ownerOfInternal, Prog.bind, UsedBy, true_or, if_true]
  refine ⟨.inl ⟨id, h3, rfl⟩, ?_⟩
  by_cases hz : (c (Erc721Words.owner root id)).setWidth 160 = ZERO
  · rw [if_pos hz]; trivial
  · rw [if_neg hz]
    simp only [Prog.bind]
    refine used_of_uses _ _ (uses_bind (uses_ite (uses_bind ⟨?_, fun _ => trivial⟩ fun _ => uses_ite trivial trivial) trivial)
      fun _ => hs)
    exact .inr (.inr (.inr ⟨_, h4, auth, h2, rfl⟩))

theorem uses_received (R : Receivers) (op src dst : Address) (id : U256) (data : Bytes) :
    Uses (Cells root S T) (Erc721Words.received R op src dst id data) := by
  unfold Erc721Words.received
  split <;> trivial

theorem used_transferFrom {c : Table} {caller src dst : Address} {id : U256} (h1 : dst ∈ S) (h2 : caller ∈ S) (h3 : id ∈ T)
    (h4 : (c (Erc721Words.owner root id)).setWidth 160 ∈ S) :
    UsedBy w (Cells root S T) (Erc721Words.transferFrom root caller src dst id) c := by
  unfold Erc721Words.transferFrom
  split
  · trivial
  · exact used_bind (used_update h1 h2 h3 h4) fun _ _ => used_of_uses _ _ (uses_ite trivial trivial)

theorem used_mint {c : Table} {dst : Address} {id : U256} (h0 : ZERO ∈ S) (h1 : dst ∈ S) (h3 : id ∈ T)
    (h4 : (c (Erc721Words.owner root id)).setWidth 160 ∈ S) :
    UsedBy w (Cells root S T) (Erc721Words.mint root dst id) c := by
  unfold Erc721Words.mint
  split
  · trivial
  · exact used_bind (used_update h1 h0 h3 h4) fun _ _ => used_of_uses _ _ (uses_ite trivial trivial)

theorem used_transferInternal {c : Table} {src dst : Address} {id : U256} (h0 : ZERO ∈ S) (h1 : dst ∈ S) (h3 : id ∈ T)
    (h4 : (c (Erc721Words.owner root id)).setWidth 160 ∈ S) :
    UsedBy w (Cells root S T) (Erc721Words.transferInternal root src dst id) c := by
  unfold Erc721Words.transferInternal
  split
  · trivial
  · exact used_bind (used_update h1 h0 h3 h4) fun _ _ => used_of_uses _ _ (uses_ite trivial (uses_ite trivial trivial))

theorem used_code {c : Table} {tx : Erc721.Tx} (h0 : ZERO ∈ S) (hx : Names S T tx)
    (h4 : ∀ id ∈ T, (c (Erc721Words.owner root id)).setWidth 160 ∈ S) :
    UsedBy w (Cells root S T) (Erc721Words.code root tx.receivers tx.caller tx.call) c := by
  obtain ⟨caller, R, call⟩ := tx
  obtain ⟨ha, ht⟩ := hx
  cases call with
  | inl u =>
    cases u <;> simp only [accounts, tokens, List.mem_cons, List.not_mem_nil, or_false, forall_eq_or_imp, forall_eq] at ha ht
    · exact used_transferFrom ha.2.2 ha.1 ht (h4 _ ht)
    · exact used_bind (used_transferFrom ha.2.2 ha.1 ht (h4 _ ht)) fun _ _ => used_of_uses _ _ (uses_received ..)
    · exact used_bind (used_transferFrom ha.2.2 ha.1 ht (h4 _ ht)) fun _ _ => used_of_uses _ _ (uses_received ..)
    · exact used_approve ha.1 ht (h4 _ ht)
    · refine used_of_uses _ _ (uses_ite trivial ⟨?_, trivial⟩)
      exact .inr (.inr (.inr ⟨_, ha.1, _, ha.2, rfl⟩))
    · exact used_bind (used_update h0 ha ht (h4 _ ht)) fun _ _ => trivial
  | inr u =>
    cases u <;> simp only [accounts, tokens, List.mem_cons, List.not_mem_nil, or_false, forall_eq_or_imp, forall_eq] at ha ht
    · exact used_mint h0 ha.2 ht (h4 _ ht)
    · exact used_bind (used_mint h0 ha.2 ht (h4 _ ht)) fun _ _ => used_of_uses _ _ (uses_received ..)
    · exact used_bind (used_update h0 h0 ht (h4 _ ht)) fun _ _ => used_of_uses _ _ (uses_ite trivial trivial)
    · exact used_transferInternal h0 ha.2.2 ht (h4 _ ht)
    · exact used_bind (used_transferInternal h0 ha.2.2 ht (h4 _ ht)) fun _ _ => used_of_uses _ _ (uses_received ..)

/-! ## Owners are among the accounts -/

theorem exec_owners {s s' : Erc721.State} {tx : Erc721.Tx} (h : Erc721.exec s tx = .ok s') (i : U256) :
    s'.owners i = s.owners i ∨ (s'.owners i ∈ ZERO :: accounts tx ∧ i ∈ tokens tx) := by
  have key : ∀ dst id, dst ∈ ZERO :: accounts tx → id ∈ tokens tx →
      (Erc721.updated s dst id).owners i = s.owners i ∨ ((Erc721.updated s dst id).owners i ∈ ZERO :: accounts tx ∧ i ∈ tokens tx) := by
    intro dst id hd hi
    show upd s.owners id dst i = _ ∨ (upd s.owners id dst i ∈ _ ∧ _)
    by_cases e : i = id
    · subst e; rw [upd_same]; exact .inr ⟨hd, hi⟩
    · rw [upd_ne _ _ e]; exact .inl rfl
  obtain ⟨caller, R, call⟩ := tx
  unfold Erc721.exec at h
  dsimp only at h
  split at h
  · cases h
  · next hc =>
    cases call with
    | inl u =>
      cases u with
      | transferFrom src dst id =>
        obtain ⟨_, _, _, rfl⟩ := Erc721.transferFrom_ok.mp h
        exact key _ _ (by simp [accounts]) (by simp [tokens])
      | safeTransferFrom src dst id =>
        obtain ⟨_, _, _, rfl⟩ := Erc721.transferFrom_ok.mp (Erc721.then_check_ok.mp h).1
        exact key _ _ (by simp [accounts]) (by simp [tokens])
      | safeTransferFromWithData src dst id data =>
        obtain ⟨_, _, _, rfl⟩ := Erc721.transferFrom_ok.mp (Erc721.then_check_ok.mp h).1
        exact key _ _ (by simp [accounts]) (by simp [tokens])
      | approve dst id =>
        obtain ⟨_, _, rfl⟩ := (Erc721.approve_ok hc).mp h
        exact .inl rfl
      | setApprovalForAll p b =>
        obtain ⟨_, rfl⟩ := Erc721.setApprovalForAll_ok.mp h
        exact .inl rfl
      | burn id =>
        obtain ⟨_, rfl⟩ := Erc721.burn_ok.mp h
        exact key _ _ (by simp) (by simp [tokens])
    | inr u =>
      cases u with
      | mint dst id =>
        obtain ⟨_, _, rfl⟩ := Erc721.mint_ok.mp h
        exact key _ _ (by simp [accounts]) (by simp [tokens])
      | safeMint dst id data =>
        obtain ⟨_, _, rfl⟩ := Erc721.mint_ok.mp (Erc721.then_check_ok.mp h).1
        exact key _ _ (by simp [accounts]) (by simp [tokens])
      | burn id =>
        obtain ⟨_, rfl⟩ := Erc721.burnInternal_ok.mp h
        exact key _ _ (by simp) (by simp [tokens])
      | transfer src dst id =>
        obtain ⟨_, _, _, rfl⟩ := Erc721.transferInternal_ok.mp h
        exact key _ _ (by simp [accounts]) (by simp [tokens])
      | safeTransfer src dst id data =>
        obtain ⟨_, _, _, rfl⟩ := Erc721.transferInternal_ok.mp (Erc721.then_check_ok.mp h).1
        exact key _ _ (by simp [accounts]) (by simp [tokens])

/-! ## The words -/

/-- The words and the state agree on everything that belongs to the accounts and tokens. -/
def Inv (K : Hash) (t : Ty) (root : List Step) (S : List Address) (T : List U256) (w : Erc721Words.State) (s : Erc721.State) : Prop :=
  ∃ c, Agree K t (Cells root S T) w.words c ∧ view root c w.log = s ∧ ∀ id ∈ T, s.owners id ∈ S

section
variable {K : Hash} {t : Ty}

theorem sizes {b : Option Bytes} {d : Nat} (hr : cell K t root = some ⟨b, d, 0, erc721⟩) : Sizes (widthAt K t) root := by
  have key : ∀ p, cell K t (root ++ p) = Loc.walk K ⟨b, d, 0, erc721⟩ p := by
    intro p
    unfold cell at hr ⊢
    rw [Verif.Props.Storage.walk_append, hr, Option.bind_some]
  refine ⟨fun id => ?_, fun a => ?_, fun id => ?_, fun a b => ?_⟩
  · unfold widthAt Erc721Words.owner; rw [key]; rfl
  · unfold widthAt Erc721Words.balance; rw [key]; rfl
  · unfold widthAt Erc721Words.approved; rw [key]; rfl
  · unfold widthAt Erc721Words.operator; rw [key]; rfl

theorem inv_step {n : Nat} (hn : n < 2 ^ 256) (ht : Ty.ok t = true) {b : Option Bytes} {d : Nat}
    (hr : cell K t root = some ⟨b, d, 0, erc721⟩) (h0 : ZERO ∈ S) (hS : Separate K n t (Cells root S T))
    {w : Erc721Words.State} {s : Erc721.State} (h : Inv K t root S T w s) {tx : Erc721.Tx} (hx : Names S T tx) :
    match Erc721Words.exec root K t w tx, Erc721.exec s tx with
    | .error e, .error e' => e = e'
    | .ok w', .ok s' => Inv K t root S T w' s'
    | _, _ => False := by
  obtain ⟨c, hag, hv, ho⟩ := h
  unfold Erc721Words.exec
  by_cases hc : tx.caller = ZERO
  · rw [if_pos hc]
    unfold Erc721.exec
    rw [if_pos hc]
  · rw [if_neg hc]
    have hu := used_code (w := widthAt K t) (root := root) (c := c) h0 hx (by intro id hid; rw [← hv] at ho; exact ho id hid)
    have h1 := programs_run hn ht hS _ hu hag
    have h2 := sim_code (sizes hr) tx hc c w.log
    rw [hv] at h2
    unfold unit at h2
    dsimp only at h2
    revert h1 h2
    cases (Erc721Words.code root tx.receivers tx.caller tx.call).onWords K t w.words with
    | error e =>
      cases onCells (widthAt K t) (Erc721Words.code root tx.receivers tx.caller tx.call) c with
      | ok r => exact fun h => h.elim
      | error e' =>
        cases Erc721.exec s tx with
        | ok s' => intro _ h; cases h
        | error e'' =>
          intro h h'
          cases h
          cases h'
          rfl
    | ok r =>
      cases onCells (widthAt K t) (Erc721Words.code root tx.receivers tx.caller tx.call) c with
      | error e' => exact fun h => h.elim
      | ok r' =>
        cases he : Erc721.exec s tx with
        | error e => intro _ h; cases h
        | ok s' =>
          rintro ⟨_, e2, e3⟩ h
          have h' : s' = view root r'.2.1 (w.log ++ r'.2.2) := congrArg Prod.snd (Except.ok.inj h)
          refine ⟨r'.2.1, e3, ?_, fun id hid => ?_⟩
          · show view root r'.2.1 (w.log ++ r.2.2) = s'
            rw [e2, h']
          · rcases exec_owners he id with e | ⟨e, _⟩
            · rw [e]; exact ho id hid
            · rcases List.mem_cons.mp e with e | e
              · rw [e]; exact h0
              · exact hx.1 _ e

theorem inv_run {n : Nat} (hn : n < 2 ^ 256) (ht : Ty.ok t = true) {b : Option Bytes} {d : Nat}
    (hr : cell K t root = some ⟨b, d, 0, erc721⟩) (h0 : ZERO ∈ S) (hS : Separate K n t (Cells root S T)) :
    ∀ (txs : List Erc721.Tx) {w : Erc721Words.State} {s : Erc721.State} (_ : Inv K t root S T w s) (_ : ∀ tx ∈ txs, Names S T tx),
    Inv K t root S T (Erc721Words.run root K t w txs) (Erc721.run s txs)
  | [], _, _, h, _ => h
  | tx :: txs, w, s, h, hx => by
    have h1 := inv_step hn ht hr h0 hS h (hx tx List.mem_cons_self)
    unfold Erc721Words.run Erc721.run runOf
    rw [List.foldl_cons, List.foldl_cons]
    refine inv_run hn ht hr h0 hS txs ?_ fun o h => hx o (List.mem_cons_of_mem _ h)
    unfold stepOf
    revert h1
    cases Erc721Words.exec root K t w tx with
    | error e =>
      cases Erc721.exec s tx with
      | error e' => exact fun _ => h
      | ok s' => exact fun h => h.elim
    | ok w' =>
      cases Erc721.exec s tx with
      | error e' => exact fun h => h.elim
      | ok s' => exact fun h => h

theorem inv_fresh (h0 : ZERO ∈ S) : Inv K t root S T ⟨Constructors.fresh, []⟩ Erc721.init := by
  refine ⟨fun _ => 0#256, fun p _ l _ => ?_, rfl, fun _ _ => h0⟩
  unfold Storage.read Constructors.fresh
  rw [BitVec.zero_ushiftRight, BitVec.zero_and]

theorem read_narrow {K : Hash} {st : Words} {l : Loc} (h : l.ty.width = 20) :
    ((Storage.read K st l).setWidth 160).setWidth 256 = Storage.read K st l := by
  unfold Storage.read
  rw [h]
  generalize st (l.slot K) >>> (8 * l.low) = x
  apply BitVec.eq_of_getLsbD_eq
  intro i hi
  have e : mask 20 = BitVec.setWidth 256 (BitVec.allOnes 160) := by decide +kernel
  rw [e]
  simp only [BitVec.getLsbD_setWidth, BitVec.getLsbD_and, BitVec.getLsbD_allOnes, hi, decide_true, Bool.true_and]
  by_cases h : i < 160 <;> simp [h]

theorem inv_shows {n : Nat} {b : Option Bytes} {d : Nat} (hr : cell K t root = some ⟨b, d, 0, erc721⟩)
    (hS : Separate K n t (Cells root S T)) {w : Erc721Words.State} {s : Erc721.State} (h : Inv K t root S T w s) :
    Shows K t root S T w s := by
  obtain ⟨c, hag, rfl, _⟩ := h
  have get : ∀ p, Cells root S T p → value K t w.words p = some (c p) ∧ ∃ l, cell K t p = some l ∧ Storage.read K w.words l = c p := by
    intro p hp
    obtain ⟨l, hl, _⟩ := hS.cells p hp
    have := hag p hp l hl
    refine ⟨?_, l, hl, this⟩
    unfold value Constructors.get
    rw [hl, Option.map_some, this]
  have narrow : ∀ p, Cells root S T p → widthAt K t p = 20 → ((c p).setWidth 160).setWidth 256 = c p := by
    intro p hp hw
    obtain ⟨_, l, hl, e⟩ := get p hp
    unfold widthAt at hw
    rw [hl] at hw
    rw [← e]
    exact read_narrow hw
  refine ⟨fun id hid => ?_, fun a ha => ?_, fun id hid => ?_, fun a ha b hb => ?_, rfl⟩
  · have hp : Cells root S T (Erc721Words.owner root id) := .inl ⟨id, hid, rfl⟩
    rw [(get _ hp).1]
    exact congrArg some (narrow _ hp ((sizes hr).owner id)).symm
  · exact (get _ (.inr (.inl ⟨a, ha, rfl⟩))).1
  · have hp : Cells root S T (Erc721Words.approved root id) := .inr (.inr (.inl ⟨id, hid, rfl⟩))
    rw [(get _ hp).1]
    exact congrArg some (narrow _ hp ((sizes hr).approved id)).symm
  · exact ⟨_, (get _ (.inr (.inr (.inr ⟨a, ha, b, hb, rfl⟩)))).1, by simp [view]⟩

end
end
end Verif.Proofs.Erc721Words
