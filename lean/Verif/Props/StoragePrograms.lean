import Verif.Spec.StoragePrograms
import Verif.Props.Constructors
import Verif.Props.Erc20
/-! # C100: code on raw storage behaves as on independent cells -/

namespace Verif.Props.StoragePrograms
open Verif Verif.Storage Verif.Spec.Storage Verif.Spec.Constructors Verif.Spec.StoragePrograms
open Verif.Props.Storage Verif.Proofs.Constructors

/-- The outcomes of a run on words and of a run on a table: the same value and events or the same error, and the stores agree
afterwards. -/
def SameOutcome {E V α : Type} (K : Hash) (t : Ty) (S : List Step → Prop) :
    Except E (α × Words × List V) → Except E (α × (List Step → U256) × List V) → Prop
  | .error e, .error e' => e = e'
  | .ok r, .ok r' => r.1 = r'.1 ∧ r.2.2 = r'.2.2 ∧ Agree K t S r.2.1 r'.2.1
  | _, _ => False

theorem agree_write {K : Hash} {n : Nat} (hn : n < 2 ^ 256) {t : Ty} (ht : Ty.ok t = true) {S : List Step → Prop}
    (hS : Separate K n t S) {st : Words} {c : List Step → U256} (h : Agree K t S st c) {p : List Step} (hp : S p) {l : Loc}
    (hl : cell K t p = some l) (v : U256) : Agree K t S (write K st l v) (upd c p (v &&& mask (widthAt K t p))) := by
  intro q hq m hm
  obtain ⟨l', hl', ll, wl⟩ := hS.cells p hp
  cases hl.symm.trans hl'
  obtain ⟨m', hm', lm, wm⟩ := hS.cells q hq
  cases hm.symm.trans hm'
  by_cases e : p = q
  · subst e
    cases hl.symm.trans hm
    rw [upd_same, C98_read_own_write K st l v (cell_fits ht hl ll)]
    unfold widthAt
    rw [hl]
    rfl
  · rw [upd_ne _ _ (Ne.symm e), ← h q hq m hm]
    exact C98_frame K st l m v (cell_fits ht hl ll) (cell_fits ht hm lm)
      fun ho => hS.clear p hp q hq e (C98_isolation K hn ht e hl hm ll lm wl wm ho)

/-- C100: a program that uses cells whose hash values do not coincide behaves on the words of the storage as on a table with an
entry for each cell: it fails with the same error, or returns the same value and emits the same events and the storage
agrees with the table afterwards.  For every storage struct, every program and every number of steps. -/
theorem C100_programs {E V α : Type} {K : Hash} {n : Nat} (hn : n < 2 ^ 256) {t : Ty} (ht : Ty.ok t = true)
    {S : List Step → Prop} (hS : Separate K n t S) : ∀ (m : Prog E V α) {st : Words} {c : List Step → U256} (_ : Uses S m)
    (_ : Agree K t S st c), SameOutcome K t S (m.onWords K t st) (onCells (widthAt K t) m c)
  | .ret a, st, c, _, h => ⟨rfl, rfl, h⟩
  | .fail e, st, c, _, h => rfl
  | .get p k, st, c, hu, h => by
    obtain ⟨l, hl, _⟩ := hS.cells p hu.1
    rw [Prog.onWords, onCells, hl]
    show SameOutcome K t S ((k (Storage.read K st l)).onWords K t st) _
    rw [h p hu.1 l hl]
    exact C100_programs hn ht hS (k (c p)) (hu.2 _) h
  | .set p v k, st, c, hu, h => by
    obtain ⟨l, hl, _⟩ := hS.cells p hu.1
    rw [Prog.onWords, onCells, hl]
    exact C100_programs hn ht hS k hu.2 (agree_write hn ht hS h hu.1 hl v)
  | .emit v k, st, c, hu, h => by
    rw [Prog.onWords, onCells]
    have := C100_programs hn ht hS k hu h
    revert this
    cases k.onWords K t st with
    | error e =>
      cases onCells (widthAt K t) k c with
      | error e' => exact fun h => h
      | ok r' => exact fun h => h
    | ok r =>
      cases onCells (widthAt K t) k c with
      | error e' => exact fun h => h
      | ok r' => exact fun h => ⟨h.1, by show v :: r.2.2 = v :: r'.2.2; rw [h.2.1], h.2.2⟩

/-- C100: and it leaves every other cell of the contract alone. -/
theorem C100_programs_frame {E V α : Type} {K : Hash} {n : Nat} (hn : n < 2 ^ 256) {t : Ty} (ht : Ty.ok t = true)
    {S : List Step → Prop} (hS : Separate K n t S) {q : List Step} {m : Loc} (hm : cell K t q = some m) (hq : Cell K n t q)
    (hne : ¬ S q) (hc : ∀ p, S p → ¬ Coincidence K n t p q) : ∀ (c : Prog E V α) {st : Words} (_ : Uses S c)
    {a : α} {st' : Words} {log : List V} (_ : c.onWords K t st = .ok (a, st', log)), Storage.read K st' m = Storage.read K st m
  | .ret a, st, _, _, _, _, h => by cases h; rfl
  | .fail e, st, _, _, _, _, h => by cases h
  | .get p k, st, hu, _, _, _, h => by
    rw [Prog.onWords] at h
    exact C100_programs_frame hn ht hS hm hq hne hc _ (hu.2 _) h
  | .set p v k, st, hu, _, _, _, h => by
    obtain ⟨l, hl, ll, wl⟩ := hS.cells p hu.1
    obtain ⟨m', hm', lm, wm⟩ := hq
    cases hm.symm.trans hm'
    rw [Prog.onWords, hl] at h
    rw [C100_programs_frame hn ht hS hm ⟨m, hm, lm, wm⟩ hne hc _ hu.2 h]
    exact C98_frame K st l m v (cell_fits ht hl ll) (cell_fits ht hm lm)
      fun ho => hc p hu.1 (C98_isolation K hn ht (fun e => hne (e ▸ hu.1)) hl hm ll lm wl wm ho)
  | .emit v k, st, hu, _, _, _, h => by
    rw [Prog.onWords] at h
    cases hk : k.onWords K t st with
    | error e => rw [hk] at h; cases h
    | ok r =>
      rw [hk] at h
      obtain ⟨r1, r2, r3⟩ := r
      cases h
      exact C100_programs_frame hn ht hS hm hq hne hc k hu hk

/-! ## The ERC-20 token -/

section
variable {root : List Step}

/-- The state a table stands for. -/
def view (root : List Step) (c : List Step → U256) (log : List Erc20.Event) : Erc20.State :=
  { balances := fun a => c (Erc20Words.balance root a), allowances := fun a b => c (Erc20Words.allowance root a b),
    totalSupply := c (Erc20Words.supply root), log := log }

theorem key_inj {a b : Address} (h : a.setWidth 256 = b.setWidth 256) : a = b := by
  apply BitVec.eq_of_toNat_eq
  have := congrArg BitVec.toNat h
  rw [BitVec.toNat_setWidth, BitVec.toNat_setWidth, Nat.mod_eq_of_lt (by have := a.isLt; omega),
    Nat.mod_eq_of_lt (by have := b.isLt; omega)] at this
  exact this

theorem balance_inj {a b : Address} (h : Erc20Words.balance root a = Erc20Words.balance root b) : a = b := by
  have := List.append_cancel_left h
  simp only [List.cons.injEq, Step.key.injEq, and_true, true_and] at this
  exact key_inj this

theorem allowance_inj {a b a' b' : Address} (h : Erc20Words.allowance root a b = Erc20Words.allowance root a' b') :
    a = a' ∧ b = b' := by
  have := List.append_cancel_left h
  simp only [List.cons.injEq, Step.key.injEq, and_true, true_and] at this
  exact ⟨key_inj this.1, key_inj this.2⟩

theorem balance_ne_allowance {a b c : Address} : Erc20Words.balance root a ≠ Erc20Words.allowance root b c := by
  intro h
  have := List.append_cancel_left h
  simp at this

theorem balance_ne_supply {a : Address} : Erc20Words.balance root a ≠ Erc20Words.supply root := by
  intro h
  have := List.append_cancel_left h
  simp at this

theorem allowance_ne_supply {a b : Address} : Erc20Words.allowance root a b ≠ Erc20Words.supply root := by
  intro h
  have := List.append_cancel_left h
  simp at this

theorem view_balance (c : List Step → U256) (log : List Erc20.Event) (a : Address) (v : U256) :
    view root (upd c (Erc20Words.balance root a) v) log =
    { view root c log with balances := upd (view root c log).balances a v } := by
  unfold view
  congr 1
  · funext b
    by_cases e : b = a
    · subst e; rw [upd_same, upd_same]
    · rw [upd_ne _ _ e, upd_ne _ _ fun h => e (balance_inj h)]
  · funext x y
    rw [upd_ne _ _ balance_ne_allowance.symm]
  · rw [upd_ne _ _ balance_ne_supply.symm]

theorem view_supply (c : List Step → U256) (log : List Erc20.Event) (v : U256) :
    view root (upd c (Erc20Words.supply root) v) log = { view root c log with totalSupply := v } := by
  unfold view
  congr 1
  · funext b
    rw [upd_ne _ _ balance_ne_supply]
  · funext x y
    rw [upd_ne _ _ allowance_ne_supply]
  · rw [upd_same]

theorem view_allowance (c : List Step → U256) (log : List Erc20.Event) (a b : Address) (v : U256) :
    view root (upd c (Erc20Words.allowance root a b) v) log =
    { view root c log with allowances := upd2 (view root c log).allowances a b v } := by
  unfold view
  congr 1
  · funext x
    rw [upd_ne _ _ balance_ne_allowance]
  · funext x y
    unfold upd2
    by_cases e : x = a ∧ y = b
    · obtain ⟨rfl, rfl⟩ := e
      simp [upd]
    · have : Erc20Words.allowance root x y ≠ Erc20Words.allowance root a b := fun h => e (allowance_inj h)
      rw [upd_ne _ _ this]
      simp only [upd]
      split <;> simp_all
  · rw [upd_ne _ _ allowance_ne_supply.symm]

/-- A program does to a table what `f` does to the state it stands for. -/
def Sim (w : List Step → Nat) (root : List Step) (m : Erc20Words.Code Unit) (f : Erc20.State → Except Erc20.Err Erc20.State) : Prop :=
  ∀ c log, match onCells w m c with
    | .error e => f (view root c log) = .error e
    | .ok r => f (view root c log) = .ok (view root r.2.1 (log ++ r.2.2))

theorem onCells_bind {E V α β : Type} (w : List Step → Nat) : ∀ (m : Prog E V α) (g : α → Prog E V β) (c : List Step → U256),
    onCells w (m.bind g) c = match onCells w m c with
      | .error e => .error e
      | .ok r => (onCells w (g r.1) r.2.1).map fun r' => (r'.1, r'.2.1, r.2.2 ++ r'.2.2)
  | .ret a, g, c => by
    rw [Prog.bind, onCells]
    dsimp only
    cases onCells w (g a) c with
    | error e => rfl
    | ok r => rfl
  | .fail e, g, c => rfl
  | .get p k, g, c => by rw [Prog.bind, onCells, onCells]; exact onCells_bind w (k (c p)) g c
  | .set p v k, g, c => by rw [Prog.bind, onCells, onCells]; exact onCells_bind w k g _
  | .emit v k, g, c => by
    rw [Prog.bind, onCells, onCells, onCells_bind w k g c]
    cases onCells w k c with
    | error e => rfl
    | ok r =>
      show Except.map _ (Except.map _ (onCells w (g r.1) r.2.1)) = _
      show _ = Except.map _ (onCells w (g r.1) r.2.1)
      cases onCells w (g r.1) r.2.1 with
      | error e => rfl
      | ok r' => rfl

theorem sim_bind {w : List Step → Nat} {m m' : Erc20Words.Code Unit} {f g : Erc20.State → Except Erc20.Err Erc20.State}
    (h : Sim w root m f) (h' : Sim w root m' g) : Sim w root (m.bind fun _ => m') fun s => (f s) >>= g := by
  intro c log
  rw [onCells_bind]
  have h1 := h c log
  cases hm : onCells w m c with
  | error e =>
    rw [hm] at h1
    dsimp only at h1 ⊢
    rw [h1]
    rfl
  | ok r =>
    rw [hm] at h1
    dsimp only at h1 ⊢
    have h2 := h' r.2.1 (log ++ r.2.2)
    rw [h1]
    cases hm' : onCells w m' r.2.1 with
    | error e =>
      rw [hm'] at h2
      exact h2
    | ok r' =>
      rw [hm'] at h2
      show g _ = .ok (view root r'.2.1 (log ++ (r.2.2 ++ r'.2.2)))
      rw [← List.append_assoc]
      exact h2

/-- The cells of the token have 32 bytes. -/
structure Wide (w : List Step → Nat) (root : List Step) : Prop where
  supply : w (Erc20Words.supply root) = 32
  balance : ∀ a, w (Erc20Words.balance root a) = 32
  allowance : ∀ a b, w (Erc20Words.allowance root a b) = 32

theorem view_log (c : List Step → U256) (log l : List Erc20.Event) :
    view root c (log ++ l) = { view root c log with log := (view root c log).log ++ l } := rfl

theorem sim_update {w : List Step → Nat} (hw : Wide w root) (src dst : Address) (value : U256) :
    Sim w root (Erc20Words.update root src dst value) (fun s => Erc20.update s src dst value) := by
  intro c log
  have second : ∀ c1 : List Step → U256,
      onCells w (if dst = ZERO then
        Prog.get (Erc20Words.supply root) fun t => .set (Erc20Words.supply root) (t - value) (.emit (.transfer src dst value) (.ret ()))
      else .get (Erc20Words.balance root dst) fun b =>
        .set (Erc20Words.balance root dst) (b + value) (.emit (Erc20.Event.transfer src dst value) (.ret ()))) c1 =
      (Except.ok ((), (if dst = ZERO then upd c1 (Erc20Words.supply root) (c1 (Erc20Words.supply root) - value)
        else upd c1 (Erc20Words.balance root dst) (c1 (Erc20Words.balance root dst) + value)),
        [Erc20.Event.transfer src dst value]) : Except Erc20.Err _) := by
    intro c1
    split
    · rw [onCells, onCells, onCells, hw.supply, mask32]; rfl
    · rw [onCells, onCells, onCells, hw.balance, mask32]; rfl
  have second' : ∀ c1 : List Step → U256, view root (if dst = ZERO then
      upd c1 (Erc20Words.supply root) (c1 (Erc20Words.supply root) - value)
      else upd c1 (Erc20Words.balance root dst) (c1 (Erc20Words.balance root dst) + value))
        (log ++ [Erc20.Event.transfer src dst value]) =
      { Erc20.credit (view root c1 log) dst value with
        log := (Erc20.credit (view root c1 log) dst value).log ++ [Erc20.Event.transfer src dst value] } := by
    intro c1
    unfold Erc20.credit
    split
    · rw [view_log, view_supply]; rfl
    · rw [view_log, view_balance]; rfl
  unfold Erc20Words.update Erc20.update Erc20.debit
  dsimp only
  by_cases hs : src = ZERO
  · rw [if_pos hs, if_pos hs, onCells]
    have e : (view root c log).totalSupply = c (Erc20Words.supply root) := rfl
    rw [e]
    cases checkedAdd (c (Erc20Words.supply root)) value with
    | none => rfl
    | some t =>
      dsimp only
      rw [onCells, second, hw.supply, mask32]
      dsimp only
      rw [second', view_supply]
      rfl
  · rw [if_neg hs, if_neg hs, onCells]
    have e : (view root c log).balances src = c (Erc20Words.balance root src) := rfl
    rw [e]
    by_cases hb : c (Erc20Words.balance root src) < value
    · rw [if_pos hb, if_pos hb]; rfl
    · rw [if_neg hb, if_neg hb, onCells, second, hw.balance, mask32]
      dsimp only
      rw [second', view_balance]
      rfl

theorem sim_fail {w : List Step → Nat} {e : Erc20.Err} : Sim w root (.fail e) (fun _ => .error e) := fun _ _ => rfl

theorem sim_ite {w : List Step → Nat} {P : Prop} [Decidable P] {m m' : Erc20Words.Code Unit}
    {f g : Erc20.State → Except Erc20.Err Erc20.State} (h : Sim w root m f) (h' : Sim w root m' g) :
    Sim w root (if P then m else m') (fun s => if P then f s else g s) := by
  by_cases hp : P
  · simp only [hp, if_true]; exact h
  · simp only [hp, if_false]; exact h'

theorem sim_approve {w : List Step → Nat} (hw : Wide w root) (owner spender : Address) (value : U256) (emit : Bool) :
    Sim w root (Erc20Words.approveInternal root owner spender value emit)
      (fun s => Erc20.approveInternal s owner spender value emit) := by
  unfold Erc20Words.approveInternal Erc20.approveInternal
  refine sim_ite sim_fail (sim_ite sim_fail ?_)
  intro c log
  rw [onCells, hw.allowance, mask32]
  cases emit with
  | true =>
    show Except.ok _ = Except.ok (view root (upd c _ value) (log ++ [_]))
    rw [view_log, view_allowance]
    rfl
  | false =>
    show Except.ok _ = Except.ok (view root (upd c _ value) (log ++ []))
    rw [List.append_nil, view_allowance]
    rfl

theorem sim_spend {w : List Step → Nat} (hw : Wide w root) (owner spender : Address) (value : U256) :
    Sim w root (Erc20Words.spendAllowance root owner spender value) (fun s => Erc20.spendAllowance s owner spender value) := by
  intro c log
  unfold Erc20Words.spendAllowance Erc20.spendAllowance
  have e : (view root c log).allowances owner spender = c (Erc20Words.allowance root owner spender) := rfl
  rw [onCells]
  dsimp only
  rw [e]
  by_cases h1 : c (Erc20Words.allowance root owner spender) ≠ maxU256
  · rw [if_pos h1, if_pos h1]
    by_cases h2 : c (Erc20Words.allowance root owner spender) < value
    · rw [if_pos h2, if_pos h2]; rfl
    · rw [if_neg h2, if_neg h2]
      exact sim_approve hw _ _ _ _ c log
  · rw [if_neg h1, if_neg h1]
    show Except.ok _ = Except.ok (view root c (log ++ []))
    rw [List.append_nil]

theorem sim_code {w : List Step → Nat} (hw : Wide w root) (op : Address × Erc20.Call) :
    Sim w root (Erc20Words.code root op.1 op.2) (fun s => Erc20.exec s op) := by
  obtain ⟨caller, call⟩ := op
  cases call with
  | transfer dst v => exact sim_ite sim_fail (sim_ite sim_fail (sim_update hw _ _ _))
  | transferFrom src dst v => exact sim_bind (sim_spend hw _ _ _) (sim_ite sim_fail (sim_ite sim_fail (sim_update hw _ _ _)))
  | approve sp v => exact sim_approve hw _ _ _ _
  | mint a v => exact sim_ite sim_fail (sim_update hw _ _ _)
  | burn v => exact sim_ite sim_fail (sim_update hw _ _ _)
  | burnFrom a v => exact sim_bind (sim_spend hw _ _ _) (sim_ite sim_fail (sim_update hw _ _ _))

/-! Which cells the code uses. -/

theorem uses_bind {E V α β : Type} {S : List Step → Prop} {m : Prog E V α} {g : α → Prog E V β} (hm : Uses S m)
    (hg : ∀ a, Uses S (g a)) : Uses S (m.bind g) := by
  induction m with
  | ret a => exact hg a
  | fail _ => trivial
  | get _ _ ih => exact ⟨hm.1, fun v => ih v (hm.2 v)⟩
  | set _ _ _ ih => exact ⟨hm.1, ih hm.2⟩
  | emit _ _ ih => exact ih hm

theorem uses_ite {E V α : Type} {S : List Step → Prop} {P : Prop} [Decidable P] {m m' : Prog E V α} (h : Uses S m)
    (h' : Uses S m') : Uses S (if P then m else m') := by
  split
  · exact h
  · exact h'

theorem uses_update {S : List Address} {src dst : Address} (h : src = ZERO ∨ src ∈ S) (h' : dst = ZERO ∨ dst ∈ S) (v : U256) :
    Uses (Accounts root S) (Erc20Words.update root src dst v) := by
  unfold Erc20Words.update
  dsimp only
  have second : Uses (Accounts root S) (if dst = ZERO then
        Prog.get (Erc20Words.supply root) fun t => .set (Erc20Words.supply root) (t - v) (.emit (.transfer src dst v) (.ret ()))
      else (.get (Erc20Words.balance root dst) fun b =>
        .set (Erc20Words.balance root dst) (b + v) (.emit (Erc20.Event.transfer src dst v) (.ret ())) : Erc20Words.Code Unit)) := by
    by_cases hd : dst = ZERO
    · rw [if_pos hd]
      exact ⟨Or.inl rfl, fun _ => ⟨Or.inl rfl, trivial⟩⟩
    · rw [if_neg hd]
      have := h'.resolve_left hd
      exact ⟨Or.inr (Or.inl ⟨dst, this, rfl⟩), fun _ => ⟨Or.inr (Or.inl ⟨dst, this, rfl⟩), trivial⟩⟩
  by_cases hs : src = ZERO
  · rw [if_pos hs]
    refine ⟨Or.inl rfl, fun t => ?_⟩
    dsimp only
    cases checkedAdd t v with
    | none => trivial
    | some t' => exact ⟨Or.inl rfl, second⟩
  · rw [if_neg hs]
    have := h.resolve_left hs
    refine ⟨Or.inr (Or.inl ⟨src, this, rfl⟩), fun b => ?_⟩
    exact uses_ite trivial ⟨Or.inr (Or.inl ⟨src, this, rfl⟩), second⟩

theorem uses_approve {S : List Address} {o sp : Address} (h : o ∈ S) (h' : sp ∈ S) (v : U256) (e : Bool) :
    Uses (Accounts root S) (Erc20Words.approveInternal root o sp v e) := by
  unfold Erc20Words.approveInternal
  refine uses_ite trivial (uses_ite trivial ⟨Or.inr (Or.inr ⟨o, h, sp, h', rfl⟩), ?_⟩)
  exact uses_ite trivial trivial

theorem uses_spend {S : List Address} {o sp : Address} (h : o ∈ S) (h' : sp ∈ S) (v : U256) :
    Uses (Accounts root S) (Erc20Words.spendAllowance root o sp v) :=
  ⟨Or.inr (Or.inr ⟨o, h, sp, h', rfl⟩), fun _ => uses_ite (uses_ite trivial (uses_approve h h' _ _)) trivial⟩

theorem uses_code {S : List Address} {op : Address × Erc20.Call} (h : ∀ a ∈ named op, a ∈ S) :
    Uses (Accounts root S) (Erc20Words.code root op.1 op.2) := by
  obtain ⟨caller, call⟩ := op
  cases call with
  | transfer dst v =>
    exact uses_ite trivial (uses_ite trivial (uses_update (Or.inr (h _ (by simp [named]))) (Or.inr (h _ (by simp [named]))) _))
  | transferFrom src dst v =>
    exact uses_bind (uses_spend (h _ (by simp [named])) (h _ (by simp [named])) _) fun _ =>
      uses_ite trivial (uses_ite trivial (uses_update (Or.inr (h _ (by simp [named]))) (Or.inr (h _ (by simp [named]))) _))
  | approve sp v => exact uses_approve (h _ (by simp [named])) (h _ (by simp [named])) _ _
  | mint a v => exact uses_ite trivial (uses_update (Or.inl rfl) (Or.inr (h _ (by simp [named]))) _)
  | burn v => exact uses_ite trivial (uses_update (Or.inr (h _ (by simp [named]))) (Or.inl rfl) _)
  | burnFrom a v =>
    exact uses_bind (uses_spend (h _ (by simp [named])) (h _ (by simp [named])) _) fun _ =>
      uses_ite trivial (uses_update (Or.inr (h _ (by simp [named]))) (Or.inl rfl) _)

theorem wide {K : Hash} {t : Ty} {b : Option Bytes} {d : Nat} (hr : cell K t root = some ⟨b, d, 0, erc20⟩) :
    Wide (widthAt K t) root := by
  have key : ∀ p, cell K t (root ++ p) = Loc.walk K ⟨b, d, 0, erc20⟩ p := by
    intro p
    unfold cell at hr ⊢
    rw [walk_append, hr, Option.bind_some]
  refine ⟨?_, fun a => ?_, fun a b => ?_⟩
  · unfold widthAt Erc20Words.supply; rw [key]; rfl
  · unfold widthAt Erc20Words.balance; rw [key]; rfl
  · unfold widthAt Erc20Words.allowance; rw [key]; rfl

/-- A table with what the words hold in the cells of `S`, and what the state says elsewhere. -/
noncomputable def table (K : Hash) (t : Ty) (root : List Step) (S : List Address) (st : Words) (s : Erc20.State) :
    List Step → U256 := by
  classical
  exact fun p =>
    if Accounts root S p then ((cell K t p).map (Storage.read K st)).getD 0#256
    else if h : ∃ a, p = Erc20Words.balance root a then s.balances h.choose
    else if h : ∃ x : Address × Address, p = Erc20Words.allowance root x.1 x.2 then s.allowances h.choose.1 h.choose.2
    else 0#256

theorem table_view {K : Hash} {n : Nat} {t : Ty} {S : List Address} (hS : Separate K n t (Accounts root S)) {w : Erc20Words.State}
    {s : Erc20.State} (h : Shows K t root S w s) : view root (table K t root S w.words s) s.log = s := by
  have get : ∀ p, Accounts root S p → ∃ l, cell K t p = some l ∧ table K t root S w.words s p = Storage.read K w.words l := by
    intro p hp
    obtain ⟨l, hl, _⟩ := hS.cells p hp
    refine ⟨l, hl, ?_⟩
    unfold table
    rw [if_pos hp, hl]
    rfl
  obtain ⟨bal, all, sup, log⟩ := s
  unfold view
  congr 1
  · funext a
    by_cases ha : Accounts root S (Erc20Words.balance root a)
    · obtain ⟨l, hl, e⟩ := get _ ha
      rw [e]
      rcases ha with e1 | ⟨b, hb, e1⟩ | ⟨x, _, y, _, e1⟩
      · exact absurd e1 balance_ne_supply
      · cases balance_inj e1
        exact h.balances a hb l hl
      · exact absurd e1 balance_ne_allowance
    · unfold table
      dsimp only
      have hx : ∃ b, Erc20Words.balance root a = Erc20Words.balance root b := ⟨a, rfl⟩
      rw [if_neg ha, dif_pos hx, ← balance_inj hx.choose_spec]
  · funext a b
    by_cases ha : Accounts root S (Erc20Words.allowance root a b)
    · obtain ⟨l, hl, e⟩ := get _ ha
      rw [e]
      rcases ha with e1 | ⟨x, _, e1⟩ | ⟨x, hx, y, hy, e1⟩
      · exact absurd e1 allowance_ne_supply
      · exact absurd e1.symm balance_ne_allowance
      · obtain ⟨rfl, rfl⟩ := allowance_inj e1
        exact h.allowances a hx b hy l hl
    · unfold table
      dsimp only
      have hx : ∃ x : Address × Address, Erc20Words.allowance root a b = Erc20Words.allowance root x.1 x.2 := ⟨(a, b), rfl⟩
      have hy : ¬ ∃ c, Erc20Words.allowance root a b = Erc20Words.balance root c :=
        fun ⟨c, e⟩ => balance_ne_allowance e.symm
      rw [if_neg ha, dif_neg hy, dif_pos hx, ← (allowance_inj hx.choose_spec).1, ← (allowance_inj hx.choose_spec).2]
  · obtain ⟨l, hl, e⟩ := get _ (Or.inl rfl)
    rw [e]
    exact h.supply l hl

/-- C100: the ERC-20 token on raw storage, placed anywhere in a contract's storage struct: for accounts whose cells' hash
values do not coincide, a transaction that names only these accounts fails with the same error as in the model with
independent balances and allowances, or succeeds with the same events and leaves balances, allowances and the supply the same. -/
theorem C100_erc20_step {K : Hash} {n : Nat} (hn : n < 2 ^ 256) {t : Ty} (ht : Ty.ok t = true) {b : Option Bytes} {d : Nat}
    (hr : cell K t root = some ⟨b, d, 0, erc20⟩) {S : List Address} (hS : Separate K n t (Accounts root S))
    {w : Erc20Words.State} {s : Erc20.State} (h : Shows K t root S w s) {op : Address × Erc20.Call} (ho : ∀ a ∈ named op, a ∈ S) :
    match Erc20Words.exec root K t w op, Erc20.exec s op with
    | .error e, .error e' => e = e'
    | .ok w', .ok s' => Shows K t root S w' s'
    | _, _ => False := by
  have hagree : Agree K t (Accounts root S) w.words (table K t root S w.words s) := by
    intro p hp l hl
    unfold table
    rw [if_pos hp, hl]
    rfl
  have hv := table_view hS h
  have h1 := C100_programs hn ht hS (Erc20Words.code root op.1 op.2) (uses_code ho) hagree
  have h2 := sim_code (wide hr) op (table K t root S w.words s) s.log
  rw [hv] at h2
  unfold Erc20Words.exec
  cases hw : (Erc20Words.code root op.1 op.2).onWords K t w.words with
  | error e =>
    rw [hw] at h1
    cases hc : onCells (widthAt K t) (Erc20Words.code root op.1 op.2) (table K t root S w.words s) with
    | error e' => rw [hc] at h1 h2; dsimp only at h2; rw [h2]; exact h1
    | ok r => rw [hc] at h1; exact h1.elim
  | ok r =>
    rw [hw] at h1
    cases hc : onCells (widthAt K t) (Erc20Words.code root op.1 op.2) (table K t root S w.words s) with
    | error e' => rw [hc] at h1; exact h1.elim
    | ok r' =>
      rw [hc] at h1 h2
      dsimp only at h2
      rw [h2]
      obtain ⟨_, e2, e3⟩ := h1
      refine ⟨fun l hl => e3 _ (Or.inl rfl) l hl, fun a ha l hl => e3 _ (Or.inr (Or.inl ⟨a, ha, rfl⟩)) l hl,
        fun a ha c hc' l hl => e3 _ (Or.inr (Or.inr ⟨a, ha, c, hc', rfl⟩)) l hl, ?_⟩
      show w.log ++ r.2.2 = s.log ++ r'.2.2
      rw [h.log, e2]

/-- C100: and so after every history of such transactions. -/
theorem C100_erc20 {K : Hash} {n : Nat} (hn : n < 2 ^ 256) {t : Ty} (ht : Ty.ok t = true) {b : Option Bytes} {d : Nat}
    (hr : cell K t root = some ⟨b, d, 0, erc20⟩) {S : List Address} (hS : Separate K n t (Accounts root S)) :
    ∀ (ops : List (Address × Erc20.Call)) {w : Erc20Words.State} {s : Erc20.State} (_ : Shows K t root S w s)
      (_ : ∀ op ∈ ops, ∀ a ∈ named op, a ∈ S), Shows K t root S (Erc20Words.run root K t w ops) (Erc20.run s ops)
  | [], _, _, h, _ => h
  | op :: ops, w, s, h, ho => by
    have h1 := C100_erc20_step hn ht hr hS h (ho op List.mem_cons_self)
    unfold Erc20Words.run Erc20.run runOf
    rw [List.foldl_cons, List.foldl_cons]
    refine C100_erc20 hn ht hr hS ops ?_ fun o h => ho o (List.mem_cons_of_mem _ h)
    unfold stepOf
    revert h1
    cases Erc20Words.exec root K t w op with
    | error e =>
      cases Erc20.exec s op with
      | error e' => exact fun _ => h
      | ok s' => exact fun h => h.elim
    | ok w' =>
      cases Erc20.exec s op with
      | error e' => exact fun h => h.elim
      | ok s' => exact fun h => h

/-- C100: fresh storage shows a new token. -/
theorem C100_erc20_fresh (K : Hash) (t : Ty) (S : List Address) : Shows K t root S ⟨Constructors.fresh, []⟩ Erc20.init := by
  have z : ∀ l, Storage.read K Constructors.fresh l = 0#256 := by
    intro l
    unfold Storage.read Constructors.fresh
    rw [BitVec.zero_ushiftRight, BitVec.zero_and]
  exact ⟨fun l _ => z l, fun _ _ l _ => z l, fun _ _ _ _ l _ => z l, rfl⟩

theorem update_other {s s' : Erc20.State} {src dst a : Address} {v : U256} (h : Erc20.update s src dst v = .ok s')
    (h1 : src = ZERO ∨ a ≠ src) (h2 : dst = ZERO ∨ a ≠ dst) : s'.balances a = s.balances a := by
  obtain ⟨s1, hd, rfl⟩ := Erc20.update_eq_ok.mp h
  have e1 : s1.balances a = s.balances a := by
    rcases Erc20.debit_ok hd with ⟨_, _, rfl⟩ | ⟨hsrc, _, rfl⟩
    · rfl
    · exact upd_ne _ _ (h1.resolve_left hsrc)
  rw [← e1]
  show (Erc20.credit s1 dst v).balances a = _
  unfold Erc20.credit
  split
  · rfl
  · next hd => exact upd_ne _ _ (h2.resolve_left hd)

theorem exec_other {s s' : Erc20.State} {op : Address × Erc20.Call} (h : Erc20.exec s op = .ok s') {a : Address}
    (ha : a ∉ named op) : s'.balances a = s.balances a := by
  obtain ⟨c, call⟩ := op
  cases call with
  | transfer dst v =>
    simp only [named, List.mem_cons, List.not_mem_nil, or_false, not_or] at ha
    exact update_other (Erc20.transferInternal_eq_ok.mp h).2.2 (Or.inr ha.1) (Or.inr ha.2)
  | transferFrom src dst v =>
    simp only [named, List.mem_cons, List.not_mem_nil, or_false, not_or] at ha
    obtain ⟨s1, h1, h2⟩ := Erc20.transferFrom_eq_ok.mp h
    rw [update_other (Erc20.transferInternal_eq_ok.mp h2).2.2 (Or.inr ha.2.1) (Or.inr ha.2.2), (Erc20.spend_frame h1).1]
  | approve sp v =>
    obtain ⟨_, _, rfl⟩ := Erc20.approve_eq_ok.mp h
    rfl
  | mint b v =>
    simp only [named, List.mem_cons, List.not_mem_nil, or_false] at ha
    exact update_other (Erc20.mint_eq_ok.mp h).2 (Or.inl rfl) (Or.inr ha)
  | burn v =>
    simp only [named, List.mem_cons, List.not_mem_nil, or_false] at ha
    exact update_other (Erc20.burnInternal_eq_ok.mp h).2 (Or.inr ha) (Or.inl rfl)
  | burnFrom b v =>
    simp only [named, List.mem_cons, List.not_mem_nil, or_false, not_or] at ha
    obtain ⟨s1, h1, h2⟩ := Erc20.burnFrom_eq_ok.mp h
    rw [update_other (Erc20.burnInternal_eq_ok.mp h2).2 (Or.inr ha.2) (Or.inl rfl), (Erc20.spend_frame h1).1]

theorem run_other {S : List Address} {a : Address} (ha : a ∉ S) : ∀ (ops : List (Address × Erc20.Call)) (s : Erc20.State)
    (_ : ∀ op ∈ ops, ∀ a ∈ named op, a ∈ S), (Erc20.run s ops).balances a = s.balances a
  | [], _, _ => rfl
  | op :: ops, s, ho => by
    unfold Erc20.run runOf
    rw [List.foldl_cons]
    refine (run_other ha ops _ fun o h => ho o (List.mem_cons_of_mem _ h)).trans ?_
    unfold stepOf
    cases he : Erc20.exec s op with
    | error e => rfl
    | ok s' => exact exec_other he fun h => ha (ho op List.mem_cons_self a h)

/-- C100: C01 on raw storage: after every history on fresh storage, the words that hold the balances of the accounts add up to
the word that holds the supply. -/
theorem C100_erc20_sum {K : Hash} {n : Nat} (hn : n < 2 ^ 256) {t : Ty} (ht : Ty.ok t = true) {b : Option Bytes} {d : Nat}
    (hr : cell K t root = some ⟨b, d, 0, erc20⟩) {S : List Address} (hd : S.Nodup) (hS : Separate K n t (Accounts root S))
    (ops : List (Address × Erc20.Call)) (ho : ∀ op ∈ ops, ∀ a ∈ named op, a ∈ S) :
    ∃ supply, Constructors.get K t (Erc20Words.run root K t ⟨Constructors.fresh, []⟩ ops).words (Erc20Words.supply root) = some supply ∧
    ∃ balances : Address → U256,
      (∀ a ∈ S, Constructors.get K t (Erc20Words.run root K t ⟨Constructors.fresh, []⟩ ops).words (Erc20Words.balance root a) =
        some (balances a)) ∧
      (S.map fun a => (balances a).toNat).sum = supply.toNat := by
  have h := C100_erc20 hn ht hr hS ops (C100_erc20_fresh K t S) ho
  obtain ⟨l, hl, _⟩ := hS.cells _ (Or.inl rfl)
  refine ⟨_, by unfold Constructors.get; rw [hl]; rfl, (Erc20.run Erc20.init ops).balances, fun a ha => ?_, ?_⟩
  · obtain ⟨m, hm, _⟩ := hS.cells _ (Or.inr (Or.inl ⟨a, ha, rfl⟩))
    unfold Constructors.get
    rw [hm, Option.map_some, h.balances a ha m hm]
  · dsimp only
    rw [h.supply l hl]
    refine Eq.trans ?_ (C01_balances_sum_to_supply ops)
    rw [← List.sum_toFinset _ hd]
    refine Finset.sum_subset (Finset.subset_univ _) fun a _ ha => ?_
    have ha' : a ∉ S := fun h => ha (List.mem_toFinset.mpr h)
    show ((Erc20.run Erc20.init ops).balances a).toNat = 0
    rw [run_other ha' ops Erc20.init ho]
    rfl

end

/-! ## A concrete case -/

/-- The 7 cells of two accounts in `examples/erc20`. -/
def twoCells : List (List Step) :=
  [[.field "erc20", .field "total_supply"], [.field "erc20", .field "balances", .key 1#256],
   [.field "erc20", .field "balances", .key 2#256], [.field "erc20", .field "allowances", .key 1#256, .key 1#256],
   [.field "erc20", .field "allowances", .key 1#256, .key 2#256], [.field "erc20", .field "allowances", .key 2#256, .key 1#256],
   [.field "erc20", .field "allowances", .key 2#256, .key 2#256]]

/-- The byte strings that are hashed for two accounts in `examples/erc20`. -/
def twoHashed : List Bytes :=
  let K := Spec.Keccak.keccak256
  [be32 1#256 ++ be32 0#256, be32 2#256 ++ be32 0#256, be32 1#256 ++ be32 1#256, be32 2#256 ++ be32 1#256,
   be32 1#256 ++ be32 (K (be32 1#256 ++ be32 1#256)), be32 2#256 ++ be32 (K (be32 1#256 ++ be32 1#256)),
   be32 1#256 ++ be32 (K (be32 2#256 ++ be32 1#256)), be32 2#256 ++ be32 (K (be32 2#256 ++ be32 1#256))]

theorem two_cells {p : List Step} (h : Accounts [.field "erc20"] [1#160, 2#160] p) : p ∈ twoCells := by
  rcases h with rfl | ⟨a, ha, rfl⟩ | ⟨a, ha, b, hb, rfl⟩
  · exact List.mem_of_getElem? (i := 0) rfl
  · simp only [List.mem_cons, List.not_mem_nil, or_false] at ha
    rcases ha with rfl | rfl
    · exact List.mem_of_getElem? (i := 1) rfl
    · exact List.mem_of_getElem? (i := 2) rfl
  · simp only [List.mem_cons, List.not_mem_nil, or_false] at ha hb
    rcases ha with rfl | rfl <;> rcases hb with rfl | rfl
    · exact List.mem_of_getElem? (i := 3) rfl
    · exact List.mem_of_getElem? (i := 4) rfl
    · exact List.mem_of_getElem? (i := 5) rfl
    · exact List.mem_of_getElem? (i := 6) rfl

set_option maxRecDepth 100000 in
theorem two_hashed : ∀ p ∈ twoCells, ∀ x ∈ hashed Spec.Keccak.keccak256 erc20Example p, x ∈ twoHashed := by
  intro p hp
  simp only [twoCells, List.mem_cons, List.not_mem_nil, or_false] at hp
  rcases hp with rfl | rfl | rfl | rfl | rfl | rfl | rfl
  · exact fun x hx => absurd hx (List.not_mem_nil)
  · exact fun x hx => by
      have : x = be32 1#256 ++ be32 0#256 := List.mem_singleton.mp hx
      rw [this]; exact List.mem_of_getElem? (i := 0) rfl
  · exact fun x hx => by
      have : x = be32 2#256 ++ be32 0#256 := List.mem_singleton.mp hx
      rw [this]; exact List.mem_of_getElem? (i := 1) rfl
  · exact fun x hx => by
      have : x = be32 1#256 ++ be32 1#256 ∨ x = be32 1#256 ++ be32 (Spec.Keccak.keccak256 (be32 1#256 ++ be32 1#256) + 0#256) := by
        rcases List.mem_cons.mp hx with h | h
        · exact Or.inl h
        · exact Or.inr (List.mem_singleton.mp h)
      rw [BitVec.add_zero] at this
      rcases this with h | h
      · rw [h]; exact List.mem_of_getElem? (i := 2) rfl
      · rw [h]; exact List.mem_of_getElem? (i := 4) rfl
  · exact fun x hx => by
      have : x = be32 1#256 ++ be32 1#256 ∨ x = be32 2#256 ++ be32 (Spec.Keccak.keccak256 (be32 1#256 ++ be32 1#256) + 0#256) := by
        rcases List.mem_cons.mp hx with h | h
        · exact Or.inl h
        · exact Or.inr (List.mem_singleton.mp h)
      rw [BitVec.add_zero] at this
      rcases this with h | h
      · rw [h]; exact List.mem_of_getElem? (i := 2) rfl
      · rw [h]; exact List.mem_of_getElem? (i := 5) rfl
  · exact fun x hx => by
      have : x = be32 2#256 ++ be32 1#256 ∨ x = be32 1#256 ++ be32 (Spec.Keccak.keccak256 (be32 2#256 ++ be32 1#256) + 0#256) := by
        rcases List.mem_cons.mp hx with h | h
        · exact Or.inl h
        · exact Or.inr (List.mem_singleton.mp h)
      rw [BitVec.add_zero] at this
      rcases this with h | h
      · rw [h]; exact List.mem_of_getElem? (i := 3) rfl
      · rw [h]; exact List.mem_of_getElem? (i := 6) rfl
  · exact fun x hx => by
      have : x = be32 2#256 ++ be32 1#256 ∨ x = be32 2#256 ++ be32 (Spec.Keccak.keccak256 (be32 2#256 ++ be32 1#256) + 0#256) := by
        rcases List.mem_cons.mp hx with h | h
        · exact Or.inl h
        · exact Or.inr (List.mem_singleton.mp h)
      rw [BitVec.add_zero] at this
      rcases this with h | h
      · rw [h]; exact List.mem_of_getElem? (i := 3) rfl
      · rw [h]; exact List.mem_of_getElem? (i := 7) rfl

/-- Their hash values. -/
def twoValues : List U256 :=
  [0xada5013122d395ba3c54772283fb069b10426056ef8ca54750cb9bb552a59e7d#256,
   0xabbb5caa7dda850e60932de0934eb1f9d0f59695050f761dc64e443e5030a569#256,
   0xcc69885fda6bcc1a4ace058b4a62bf5e179ea78fd58a1ccd71c22cc9b688792f#256,
   0xd9d16d34ffb15ba3a3d852f0d403e2ce1d691fb54de27ac87cd2f993f3ec330f#256,
   0xedb38a93e6e2e82dbb40826a878df1d817a37ef13fcaa25248649a90fa47497b#256,
   0x58e76cff22dd72278c8f84685a17f449f02ff85d2e9a03f82022b6f395640860#256,
   0xe28818af7bb947aef01108c00a0155d810d5eea20893e766795b298bc4db7819#256,
   0x42f44160cc2e77bbab1a45023ad285dcfafdd00b6fed6e77933c71a0ddb5df3f#256]

set_option maxRecDepth 100000 in
theorem two_values : twoHashed.map Spec.Keccak.keccak256 = twoValues := by
  unfold twoHashed
  dsimp only
  rw [Proofs.KeccakFast.keccak256_eq]
  decide +kernel

/-- More than 10 words apart. -/
def apart (u v : U256) : Bool := Nat.blt 10 (u - v).toNat && Nat.blt 10 (v - u).toNat

theorem two_far : ((List.range 8).all fun i => (List.range 8).all fun j =>
    i == j || apart (twoValues.getD i 0#256) (twoValues.getD j 0#256)) = true := by decide +kernel

theorem two_big : ((List.range 8).all fun i => apart (twoValues.getD i 0#256) 0#256) = true := by decide +kernel

theorem not_near {u v : U256} (h : apart u v = true) : ¬ Near 10 u v := by
  unfold apart at h
  rw [Bool.and_eq_true, Nat.blt_eq, Nat.blt_eq] at h
  rw [near_iff]
  omega

/-- No two of the byte strings hash to close values. -/
theorem two_clear {p q : List Step} (hp' : ∀ x ∈ hashed Spec.Keccak.keccak256 erc20Example p, x ∈ twoHashed)
    (hq' : ∀ x ∈ hashed Spec.Keccak.keccak256 erc20Example q, x ∈ twoHashed) :
    ¬ Coincidence Spec.Keccak.keccak256 10 erc20Example p q := by
  intro hc
  have value : ∀ x ∈ twoHashed, ∃ i, i < 8 ∧ twoHashed[i]? = some x ∧ twoValues.getD i 0#256 = Spec.Keccak.keccak256 x := by
    intro x hx
    obtain ⟨i, hi, e⟩ := List.mem_iff_getElem.mp hx
    refine ⟨i, hi, ?_, ?_⟩
    · rw [List.getElem?_eq_getElem hi, e]
    · rw [← two_values, List.getD_eq_getElem?_getD, List.getElem?_map, List.getElem?_eq_getElem hi, e]
      rfl
  have far : ∀ i j, i < 8 → j < 8 → i ≠ j → apart (twoValues.getD i 0#256) (twoValues.getD j 0#256) = true := by
    intro i j hi hj hne
    have h := List.all_eq_true.mp (List.all_eq_true.mp two_far i (List.mem_range.mpr hi)) j (List.mem_range.mpr hj)
    rw [Bool.or_eq_true, beq_iff_eq] at h
    exact h.resolve_left hne
  have big : ∀ i, i < 8 → apart (twoValues.getD i 0#256) 0#256 = true :=
    fun i hi => List.all_eq_true.mp two_big i (List.mem_range.mpr hi)
  rcases hc with ⟨x, hx, y, hy, hne, h⟩ | ⟨x, hx, h⟩ | ⟨y, hy, h⟩
  · obtain ⟨i, hi, ei, vi⟩ := value x (hp' x hx)
    obtain ⟨j, hj, ej, vj⟩ := value y (hq' y hy)
    rw [← vi, ← vj] at h
    refine not_near (far i j hi hj fun e => hne ?_) h
    subst e
    exact Option.some.inj (ei.symm.trans ej)
  · obtain ⟨i, hi, _, vi⟩ := value x (hp' x hx)
    rw [← vi] at h
    exact not_near (big i hi) h
  · obtain ⟨i, hi, _, vi⟩ := value y (hq' y hy)
    rw [← vi] at h
    exact not_near (big i hi) h

theorem two_separate : Separate Spec.Keccak.keccak256 10 erc20Example (Accounts [.field "erc20"] [1#160, 2#160]) := by
  constructor
  · intro p hp
    have h := two_cells hp
    simp only [twoCells, List.mem_cons, List.not_mem_nil, or_false] at h
    rcases h with rfl | rfl | rfl | rfl | rfl | rfl | rfl
    · exact ⟨_, rfl, trivial, Constructors.within_disps (ds := [0, 2]) rfl (by simp)⟩
    · exact ⟨_, rfl, trivial, Constructors.within_disps (ds := [0, 0, 0]) rfl (by simp)⟩
    · exact ⟨_, rfl, trivial, Constructors.within_disps (ds := [0, 0, 0]) rfl (by simp)⟩
    · exact ⟨_, rfl, trivial, Constructors.within_disps (ds := [0, 1, 0, 0]) rfl (by simp)⟩
    · exact ⟨_, rfl, trivial, Constructors.within_disps (ds := [0, 1, 0, 0]) rfl (by simp)⟩
    · exact ⟨_, rfl, trivial, Constructors.within_disps (ds := [0, 1, 0, 0]) rfl (by simp)⟩
    · exact ⟨_, rfl, trivial, Constructors.within_disps (ds := [0, 1, 0, 0]) rfl (by simp)⟩
  · intro p hp q hq _
    exact two_clear (two_hashed p (two_cells hp)) (two_hashed q (two_cells hq))

/-- With Keccak, `examples/erc20` and two accounts: the theorems apply to every history of calls between these, for
instance mint, approve, transfer. -/
example (ops : List (Address × Erc20.Call)) (ho : ∀ op ∈ ops, ∀ a ∈ named op, a ∈ [1#160, 2#160]) :
    Shows Spec.Keccak.keccak256 erc20Example [.field "erc20"] [1#160, 2#160]
      (Erc20Words.run [.field "erc20"] Spec.Keccak.keccak256 erc20Example ⟨Constructors.fresh, []⟩ ops) (Erc20.run Erc20.init ops) :=
  C100_erc20 (by decide) (by decide) (b := none) (d := 0) rfl two_separate ops (C100_erc20_fresh _ _ _) ho

example : ∀ op ∈ [((1#160 : Address), Erc20.Call.mint 1#160 50#256), (1#160, .approve 2#160 7#256), (2#160, .transferFrom 1#160 2#160 5#256)],
    ∀ a ∈ named op, a ∈ [1#160, 2#160] := by
  simp [named]

/-- What those calls do on the table: the state at the end. -/
example : (Erc20.run Erc20.init [((1#160 : Address), Erc20.Call.mint 1#160 50#256), (1#160, .approve 2#160 7#256),
    (2#160, .transferFrom 1#160 2#160 5#256)]).balances 2#160 = 5#256 := by decide +kernel

/-- Without the condition it fails: with a constant hash all balances and allowances are the same word, and minting to one
account gives the other account a balance. -/
example :
    let K : Hash := fun _ => 100#256
    Constructors.get K erc20Example (Erc20Words.run [.field "erc20"] K erc20Example ⟨Constructors.fresh, []⟩
      [(1#160, .mint 1#160 50#256)]).words [.field "erc20", .field "balances", .key 2#256] = some 50#256 ∧
    (Erc20.run Erc20.init [(1#160, .mint 1#160 50#256)]).balances 2#160 = 0#256 := by
  decide +kernel

end Verif.Props.StoragePrograms
