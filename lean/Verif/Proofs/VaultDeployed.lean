import Verif.Proofs.Backed
import Verif.Proofs.Texts
import Verif.Spec.VaultDeployed
/-! # Lemmas: the vault on storage words -/

namespace Verif.Proofs.VaultDeployed
open Verif Verif.Storage Verif.Outside Verif.VaultDeployed Verif.Spec.VaultDeployed Verif.Spec.Storage
open Verif.Spec.StoragePrograms Verif.Spec.OnWords
open Verif.OnWords (Chained Act conclude token within settle Backed select)
open Verif.Props.StoragePrograms (uses_bind uses_ite Wide wide)
open Verif.Proofs.Chained (Fits Inv fits_conclude fits_fail used_frame)
open Verif.Proofs.Deployed (Table UsedBy used_of_uses uses_mono uses_lift)
open Verif.Proofs.OnWords (fresh_agree lefts rights lefts_append rights_append lefts_inl rights_inl tokenView Under under_token)
open Verif.Proofs.Erc721Words (mask20)
open Verif.Proofs.Backed
open Verif.Math (Rounding mulDiv)
open Verif.Abi (Val Decoder Outcome Handler)
open Verif.Spec.Deployed (answer)
open Verif.Spec.Contracts (Raw)

variable {τ : Type}

/-- The state of the vault. -/
def view (self : Address) (c : Table) (log : List Ev) (t : τ) : Vault.State τ :=
  { self_ := self, asset := (c assetCell).setWidth 160, underlyingDecimals := (c decimalsCell).setWidth 8,
    offset := (c offsetCell).setWidth 8, shares := tokenView c (lefts log), log := rights log, world := t }

/-- What is reverted with. -/
def sent {α : Type} (a : Address) : Except Vault.Err α → Except Revert.Reply α
  | .error e => .error (Vault.errReply a e)
  | .ok s => .ok s

theorem sent_bind {α β : Type} (a : Address) (x : Except Vault.Err α) (y : α → Except Vault.Err β) :
    sent a (x >>= y) = sent a x >>= fun z => sent a (y z) := by cases x <;> rfl

section
variable {w : List Step → Nat} {S : List Address} {self : Address} {c : Table} {log : List Ev} {t : τ}

theorem part : Part (view self) c log t fun u => { view self c log t with shares := u } := by
  intro c' ev h
  have e1 : c' assetCell = c assetCell := h _ (by simp [Under, token, assetCell])
  have e2 : c' decimalsCell = c decimalsCell := h _ (by simp [Under, token, decimalsCell])
  have e3 : c' offsetCell = c offsetCell := h _ (by simp [Under, token, offsetCell])
  unfold view
  rw [e1, e2, e3, lefts_append, lefts_inl, rights_append, rights_inl, List.append_nil]

/-! ## Questions -/

theorem reads_get {α : Type} {p : List Step} {k : U256 → Code α} {x : Except Revert.Reply α} (h : Reads w (k (c p)) c x) :
    Reads w (.get p k) c x := h

theorem reads_asset : Reads w asset c (.ok (view self c log t).asset) := rfl
theorem reads_offset : Reads w offset c (.ok (view self c log t).offset) := rfl

theorem reads_expect {α : Type} (a : Address) (x : Option α) :
    Reads w (expect x) c (sent a (orPanic (.vault .panic) x)) := by cases x <;> rfl

theorem reads_divided (a : Address) (x : Except Math.Panic U256) :
    Reads w (divided x) c (sent a (Vault.lift (Erc4626.liftPanic x))) := by cases x <;> rfl

theorem reads_decimals (a : Address) : Reads w decimals c (sent a (Vault.decimals (view self c log t))) :=
  reads_get (reads_bind (reads_offset (self := self) (log := log) (t := t)) (y := fun o => sent a (orPanic (.vault .panic) (checkedAdd _ o)))
    fun _ => reads_expect a _)

theorem reads_pow (a : Address) : Reads w (offset.bind fun o => expect (Erc4626.pow10 o)) c
    (sent a (orPanic (.vault .panic) (Erc4626.pow10 (view self c log t).offset))) :=
  reads_bind (reads_offset (self := self) (log := log) (t := t)) (y := fun o => sent a (orPanic (.vault .panic) (Erc4626.pow10 o)))
    fun _ => reads_expect a _

variable (W : World τ) (K : Hash) (D : Decoder)

theorem reads_totalAssets (n : Nat) (a : Address) :
    Reads w (totalAssets W K D self t n) c (sent a (Vault.totalAssets W K D n (view self c log t))) := by
  refine reads_bind (reads_asset (self := self) (log := log) (t := t)) (y := fun b => sent a (match Calls.uintReply D (W.ask t n self b
    ((Calls.Message.balanceOf self).bytes K)) with | some x => .ok x | none => .error (.invalidAsset (view self c log t).asset))) fun b => ?_
  cases Calls.uintReply D (W.ask t n self b ((Calls.Message.balanceOf self).bytes K)) <;> rfl

theorem reads_shares (n : Nat) (x : U256) (r : Rounding) (a : Address) :
    Reads w (convertToShares W K D self t n x r) c (sent a (Vault.convertToSharesInternal W K D n (view self c log t) x r)) := by
  unfold Vault.convertToSharesInternal convertToShares
  refine reads_get ?_
  rw [sent_bind]
  refine reads_bind (reads_pow a) fun v => ?_
  rw [sent_bind]
  refine reads_bind (reads_expect a _) fun m => ?_
  rw [sent_bind]
  refine reads_bind (reads_totalAssets W K D n a) fun total => ?_
  rw [sent_bind]
  exact reads_bind (reads_expect a _) fun d => reads_divided a _

theorem reads_assets (n : Nat) (x : U256) (r : Rounding) (a : Address) :
    Reads w (convertToAssets W K D self t n x r) c (sent a (Vault.convertToAssetsInternal W K D n (view self c log t) x r)) := by
  unfold Vault.convertToAssetsInternal convertToAssets
  rw [sent_bind]
  refine reads_bind (reads_totalAssets W K D n a) fun total => ?_
  rw [sent_bind]
  refine reads_bind (reads_expect a _) fun m => ?_
  refine reads_get ?_
  rw [sent_bind]
  refine reads_bind (reads_pow a) fun v => ?_
  rw [sent_bind]
  exact reads_bind (reads_expect a _) fun d => reads_divided a _

theorem reads_maxWithdraw (o : Address) (a : Address) :
    Reads w (maxWithdraw W K D self t o) c (sent a (Vault.maxWithdraw W K D 0 (view self c log t) o)) :=
  reads_get (reads_assets W K D 0 _ .floor a)

/-! ## Functions that change the state -/

/-- The outcome of a program that changes the rest of the chain. -/
def Does (w : List Step → Nat) (self a : Address) (log : List Ev) (m : Code τ) (c : Table) (x : Except Vault.Err (Vault.State τ)) : Prop :=
  sent a x = (onCells w m c).map fun r => view self r.2.1 (log ++ r.2.2) r.1

/-- The same for one that returns a number. -/
def Gives (w : List Step → Nat) (self a : Address) (log : List Ev) (m : Code (U256 × τ)) (c : Table)
    (x : Except Vault.Err (U256 × Vault.State τ)) : Prop :=
  sent a x = (onCells w m c).map fun r => (r.1.1, view self r.2.1 (log ++ r.2.2) r.1.2)

theorem gives_fail {a : Address} {e : Vault.Err} : Gives (τ := τ) w self a log (.fail (Vault.errReply a e)) c (.error e) := rfl

theorem gives_read {α : Type} {a : Address} {m : Code α} {x : Except Vault.Err α} (h : Reads w m c (sent a x)) {g : α → Code (U256 × τ)}
    {y : α → Except Vault.Err (U256 × Vault.State τ)} (hg : ∀ z, Gives w self a log (g z) c (y z)) :
    Gives w self a log (m.bind g) c (x >>= y) := by
  unfold Gives
  rw [run_read h, sent_bind]
  cases x with
  | error e => rfl
  | ok z => exact hg z

theorem gives_does {a : Address} {m : Code τ} {x : Except Vault.Err (Vault.State τ)} (h : Does w self a log m c x) (n : U256) :
    Gives w self a log (m.bind fun t' => .ret (n, t')) c (x >>= fun s => .ok (n, s)) := by
  unfold Gives
  rw [sent_bind, show sent a x = _ from h, Props.StoragePrograms.onCells_bind]
  cases onCells w m c with
  | error e => rfl
  | ok r =>
    show Except.ok (n, view self r.2.1 (log ++ r.2.2) r.1) = Except.ok (n, view self r.2.1 (log ++ (r.2.2 ++ [])) r.1)
    rw [List.append_nil]

theorem event (t' : τ) (ev : List Erc20.Event) (v : Erc4626.Event) {c' : Table} (h : ∀ p, ¬ Under token p → c' p = c p) :
    view self c' (log ++ (ev.map .inl ++ [.inr v])) t' =
      { view self c log t with world := t', shares := tokenView c' (lefts log ++ ev), log := rights log ++ [v] } := by
  have := part (self := self) (c := c) (log := log) (t := t') c' ev h
  rw [← List.append_assoc]
  unfold view at *
  rw [lefts_append, rights_append]
  show Vault.State.mk _ _ _ _ (tokenView c' (lefts (log ++ ev.map .inl) ++ [])) (rights (log ++ ev.map .inl) ++ [v]) _ = _
  rw [List.append_nil, rights_append, rights_inl, List.append_nil, lefts_append, lefts_inl]
  injection this with e1 e2 e3 e4 e5 e6 e7
  rw [e2, e3, e4]

theorem does_deposit (hw : Wide w token) (caller r : Address) (x y : U256) :
    Does w self (view self c log t).asset log (depositInternal W K self t caller r x y) c
      (Vault.depositInternal W K (view self c log t) caller r x y) := by
  unfold Does depositInternal Vault.depositInternal
  rw [run_read (reads_asset (self := self) (log := log) (t := t))]
  generalize hu : (view self c log t).asset = u
  show _ = (onCells w (Prog.bind (settle _) _) c).map _
  rw [run_read (reads_settle _)]
  simp only [show (view self c log t).world = t from rfl, show (view self c log t).self_ = self from rfl]
  rcases SafeErc20.safeTransferFrom (W.token K t self u) t caller self x with ⟨t', e | _⟩
  · rfl
  show _ = (onCells w (Prog.bind (within (Erc20Words.mint token r y)) _) c).map _
  rcases token_run (G := Erc4626.Event) (sim_mint hw r y) (under_mint r y) c (lefts log) with
    ⟨e, k1, k2⟩ | ⟨c', ev, k1, k2, k3⟩
  · rw [run_error k1]
    have k2 : Erc20.mint (view self c log t).shares r y = .error e := k2
    show sent u (Vault.lift (Erc4626.liftErc20 (Erc20.mint (view self c log t).shares r y)) >>= _) = _
    rw [k2]; rfl
  · rw [run_token k1]
    have k2 : Erc20.mint (view self c log t).shares r y = .ok (tokenView c' (lefts log ++ ev)) := k2
    show sent u (Vault.lift (Erc4626.liftErc20 (Erc20.mint (view self c log t).shares r y)) >>= _) = _
    rw [k2]
    show Except.ok _ = Except.ok (view self c' (log ++ (ev.map .inl ++ [.inr _])) t')
    rw [event (t := t) t' ev _ k3, ← hu]
    rfl

theorem sim_spend (hw : Wide w token) (o p : Address) (v : U256) :
    Props.StoragePrograms.Sim w token (Erc20Words.spendAllowance token o p v) (fun s => Erc20.spendAllowance s o p v) :=
  Props.StoragePrograms.sim_spend hw o p v

/-- The allowance that is used up, if it is not the owner's own call. -/
theorem spend_run (hw : Wide w token) (caller o : Address) (v : U256) :
    (∃ e, onCells w (if caller ≠ o then within (Erc20Words.spendAllowance token o caller v) else .ret () : Code Unit) c = .error (Vault.errReply (view self c log t).asset e) ∧
      Vault.spendFor (view self c log t) caller o v = .error e) ∨
    ∃ c' ev, onCells w (if caller ≠ o then within (Erc20Words.spendAllowance token o caller v) else .ret () : Code Unit) c = .ok ((), c', ev.map .inl) ∧
      Vault.spendFor (view self c log t) caller o v = .ok (tokenView c' (lefts log ++ ev)) ∧ ∀ p, ¬ Under token p → c' p = c p := by
  unfold Vault.spendFor
  by_cases h : caller ≠ o
  · rw [if_pos h, if_pos h]
    rcases token_run (G := Erc4626.Event) (sim_spend hw o caller v) (uses_mono (fun _ => OnWords.accounts_under) _
      (Props.StoragePrograms.uses_spend (S := [o, caller]) (by simp) (by simp) v)) c (lefts log) with ⟨e, k1, k2⟩ | ⟨c', ev, k1, k2, k3⟩
    · refine .inl ⟨.vault (.erc20 e), k1, ?_⟩
      rw [show Erc20.spendAllowance (view self c log t).shares o caller v = .error e from k2]; rfl
    · refine .inr ⟨c', ev, k1, ?_, k3⟩
      rw [show Erc20.spendAllowance (view self c log t).shares o caller v = .ok _ from k2]; rfl
  · rw [if_neg h, if_neg h]
    refine .inr ⟨c, [], rfl, ?_, fun _ _ => rfl⟩
    rw [List.append_nil]; rfl

theorem does_withdraw (hw : Wide w token) (caller r o : Address) (x y : U256) :
    Does w self (view self c log t).asset log (withdrawInternal W K self t caller r o x y) c
      (Vault.withdrawInternal W K (view self c log t) caller r o x y) := by
  unfold Does withdrawInternal Vault.withdrawInternal
  rcases spend_run (c := c) (log := log) (t := t) (self := self) hw caller o y with ⟨e, k1, k2⟩ | ⟨c1, ev1, k1, k2, k3⟩
  · rw [run_error k1, k2]; rfl
  rw [run_token k1, k2]
  show sent _ (Vault.lift (Erc4626.liftErc20 (Erc20.burnInternal (tokenView c1 (lefts log ++ ev1)) o y)) >>= _) = _
  rcases token_run (G := Erc4626.Event) (sim_burn hw o y) (under_burn o y) c1 (lefts log ++ ev1) with
    ⟨e, j1, j2⟩ | ⟨c2, ev2, j1, j2, j3⟩
  · rw [run_error j1, j2]; rfl
  rw [run_token j1, j2]
  have f : ∀ p, ¬ Under token p → c2 p = c p := fun p hp => (j3 p hp).trans (k3 p hp)
  have e1 : (c2 assetCell).setWidth 160 = (view self c log t).asset :=
    congrArg (BitVec.setWidth 160) (f assetCell (by simp [Under, token, assetCell]))
  rw [run_read (show Reads w asset c2 (.ok ((c2 assetCell).setWidth 160)) from rfl), e1]
  generalize hu : (view self c log t).asset = u
  show sent u (settled _ (SafeErc20.safeTransfer (W.token K t self u) t r x) >>= _) =
    (((onCells w (Prog.bind (settle (settled (Revert.safeErc20 u) (SafeErc20.safeTransfer (W.token K t self u) t r x))) _) c2).map _).map _).map _
  rw [run_read (reads_settle _)]
  rcases SafeErc20.safeTransfer (W.token K t self u) t r x with ⟨t', e | _⟩
  · rfl
  · show Except.ok _ = Except.ok (view self c2 (log ++ (ev1.map .inl ++ (ev2.map .inl ++ [.inr _]))) t')
    rw [← List.append_assoc (ev1.map _), ← List.map_append, event (t := t) t' (ev1 ++ ev2) _ f, ← hu, ← List.append_assoc (lefts log)]
    rfl

theorem gives_ite {a : Address} {P : Prop} [Decidable P] {m m' : Code (U256 × τ)} {x x' : Except Vault.Err (U256 × Vault.State τ)}
    (h : Gives w self a log m c x) (h' : Gives w self a log m' c x') :
    Gives w self a log (if P then m else m') c (if P then x else x') := by
  split
  · exact h
  · exact h'

theorem gives_deposit (hw : Wide w token) (caller r : Address) (x : U256) :
    Gives w self (view self c log t).asset log (deposit W K D self t caller x r) c (Vault.deposit W K D (view self c log t) caller x r) :=
  gives_ite gives_fail (gives_read (reads_shares W K D 0 x .floor _) fun y => gives_does (does_deposit W K hw caller r x y) y)

theorem gives_mint (hw : Wide w token) (caller r : Address) (x : U256) :
    Gives w self (view self c log t).asset log (mint W K D self t caller x r) c (Vault.mint W K D (view self c log t) caller x r) :=
  gives_ite gives_fail (gives_read (reads_assets W K D 0 x .ceil _) fun y => gives_does (does_deposit W K hw caller r y x) y)

theorem gives_withdraw (hw : Wide w token) (caller r o : Address) (x : U256) :
    Gives w self (view self c log t).asset log (withdraw W K D self t caller x r o) c (Vault.withdraw W K D (view self c log t) caller x r o) :=
  gives_read (reads_maxWithdraw W K D o _) fun _ =>
    gives_ite gives_fail (gives_read (reads_shares W K D 1 x .ceil _) fun y => gives_does (does_withdraw W K hw caller r o x y) y)

theorem gives_redeem (hw : Wide w token) (caller r o : Address) (x : U256) :
    Gives w self (view self c log t).asset log (redeem W K D self t caller x r o) c (Vault.redeem W K D (view self c log t) caller x r o) :=
  gives_ite (P := c (Erc20Words.balance token o) < x) gives_fail
    (gives_read (reads_assets W K D 0 x .floor _) fun y => gives_does (does_withdraw W K hw caller r o y x) y)

/-! ## The cells that are used -/

theorem uses_settle {α : Type} (x : Except Revert.Reply α) : Uses (Core S) (settle (G := Erc4626.Event) x) := by cases x <;> trivial
theorem uses_expect {α : Type} (x : Option α) : Uses (Core S) (expect x) := by cases x <;> trivial
theorem uses_divided (x : Except Math.Panic U256) : Uses (Core S) (divided x) := by cases x <;> trivial
theorem uses_asset : Uses (Core S) asset := ⟨.inr (.inl rfl), fun _ => trivial⟩
theorem uses_offset : Uses (Core S) offset := ⟨.inr (.inr (.inr rfl)), fun _ => trivial⟩
theorem uses_decimals : Uses (Core S) decimals := ⟨.inr (.inr (.inl rfl)), fun _ => uses_bind uses_offset fun _ => uses_expect _⟩
theorem uses_totalAssets (n : Nat) : Uses (Core S) (totalAssets W K D self t n) :=
  uses_bind uses_asset fun a => by
    cases Calls.uintReply D (W.ask t n self a ((Calls.Message.balanceOf self).bytes K)) with
    | some x => trivial
    | none => exact uses_bind uses_asset fun _ => trivial
theorem uses_shares (n : Nat) (x : U256) (r : Rounding) : Uses (Core S) (convertToShares W K D self t n x r) :=
  ⟨.inl (.inl rfl), fun _ => uses_bind (uses_bind uses_offset fun _ => uses_expect _) fun _ => uses_bind (uses_expect _) fun _ =>
    uses_bind (uses_totalAssets W K D n) fun _ => uses_bind (uses_expect _) fun _ => uses_divided _⟩
theorem uses_assets (n : Nat) (x : U256) (r : Rounding) : Uses (Core S) (convertToAssets W K D self t n x r) :=
  uses_bind (uses_totalAssets W K D n) fun _ => uses_bind (uses_expect _) fun _ => ⟨.inl (.inl rfl), fun _ =>
    uses_bind (uses_bind uses_offset fun _ => uses_expect _) fun _ => uses_bind (uses_expect _) fun _ => uses_divided _⟩
theorem uses_maxWithdraw {o : Address} (ho : o ∈ S) : Uses (Core S) (maxWithdraw W K D self t o) :=
  ⟨.inl (.inr (.inl ⟨o, ho, rfl⟩)), fun _ => uses_assets W K D 0 _ _⟩
theorem uses_mintTo {a : Address} (ha : a ∈ S) (v : U256) : Uses (Core S) (within (G := Erc4626.Event) (Erc20Words.mint token a v)) :=
  uses_lift _ (uses_mono (fun _ => .inl) _ (Props.StoragePrograms.uses_code (op := (a, .mint a v)) (by simp [named, ha])))
theorem uses_burn {a : Address} (ha : a ∈ S) (v : U256) : Uses (Core S) (within (G := Erc4626.Event) (Erc20Words.burnInternal token a v)) :=
  uses_lift _ (uses_mono (fun _ => .inl) _ (Props.StoragePrograms.uses_code (op := (a, .burn v)) (by simp [named, ha])))
theorem uses_spend {o p : Address} (ho : o ∈ S) (hp : p ∈ S) (v : U256) :
    Uses (Core S) (within (G := Erc4626.Event) (Erc20Words.spendAllowance token o p v)) :=
  uses_lift _ (uses_mono (fun _ => .inl) _ (Props.StoragePrograms.uses_spend ho hp v))
theorem uses_depositInternal {caller r : Address} (hr : r ∈ S) (x y : U256) : Uses (Core S) (depositInternal W K self t caller r x y) :=
  uses_bind uses_asset fun _ => uses_bind (uses_settle _) fun _ => uses_bind (uses_mintTo hr y) fun _ => trivial
theorem uses_withdrawInternal {caller r o : Address} (hc : caller ∈ S) (ho : o ∈ S) (x y : U256) :
    Uses (Core S) (withdrawInternal W K self t caller r o x y) :=
  uses_bind (uses_ite (uses_spend ho hc y) trivial) fun _ => uses_bind (uses_burn ho y) fun _ => uses_bind uses_asset fun _ =>
    uses_bind (uses_settle _) fun _ => trivial
theorem uses_deposit {caller r : Address} (hr : r ∈ S) (x : U256) : Uses (Core S) (deposit W K D self t caller x r) :=
  uses_ite trivial (uses_bind (uses_shares W K D 0 _ _) fun _ => uses_bind (uses_depositInternal W K hr _ _) fun _ => trivial)
theorem uses_mint {caller r : Address} (hr : r ∈ S) (x : U256) : Uses (Core S) (mint W K D self t caller x r) :=
  uses_ite trivial (uses_bind (uses_assets W K D 0 _ _) fun _ => uses_bind (uses_depositInternal W K hr _ _) fun _ => trivial)
theorem uses_withdraw {caller r o : Address} (hc : caller ∈ S) (ho : o ∈ S) (x : U256) : Uses (Core S) (withdraw W K D self t caller x r o) :=
  uses_bind (uses_maxWithdraw W K D ho) fun _ => uses_ite trivial (uses_bind (uses_shares W K D 1 _ _) fun _ =>
    uses_bind (uses_withdrawInternal W K hc ho _ _) fun _ => trivial)
theorem uses_redeem {caller r o : Address} (hc : caller ∈ S) (ho : o ∈ S) (x : U256) : Uses (Core S) (redeem W K D self t caller x r o) :=
  ⟨.inl (.inr (.inl ⟨o, ho, rfl⟩)), fun _ => uses_ite trivial (uses_bind (uses_assets W K D 0 _ _) fun _ =>
    uses_bind (uses_withdrawInternal W K hc ho _ _) fun _ => trivial)⟩

/-! ## The contract -/

/-- A function that changes the state. -/
theorem fits_go {m : Code (U256 × τ)} {x : Except Vault.Err (U256 × Vault.State τ)} {a : Address} (h : Gives w self a log m c x)
    (hu : Uses (Core S) m) :
    Fits w (Core S) (view self) c log (conclude K id (fun x => ([.uint256 x.1], x.2)) m) (number K (Vault.errReply a) x) := by
  refine fits_conclude K _ _ (used_of_uses _ _ hu) ?_
  revert h
  unfold Gives
  cases onCells w m c with
  | error e =>
    cases x with
    | error e' => intro h; cases h; rfl
    | ok s => intro h; cases h
  | ok r =>
    cases x with
    | error e' => intro h; cases h
    | ok s => intro h; cases h; rfl

/-- A question. -/
theorem fits_question {α : Type} {m : Code α} {x : Except Vault.Err α} {a : Address} (h : Reads w m c (sent a x)) (hu : Uses (Core S) m)
    (f : α → Val) :
    Fits w (Core S) (view self) c log (conclude K id (fun x => ([f x], t)) m)
      (Contracts.view K (Vault.errReply a) (view self c log t) (Contracts.one f x)) := by
  have := fits_ask (t := t) (view := view self) (log := log) K h hu fun x => [f x]
  cases x <;> exact this

variable {name symbol : List Char}

/-- The cells of the texts. -/
def Meta (p : List Step) : Prop := p.head? = some (.field "metadata")

instance (p : List Step) : Decidable (Meta p) := inferInstanceAs (Decidable (_ = _))

/-- The program does what the function does, and leaves the texts alone. -/
def Good (w : List Step → Nat) (S : List Address) (name symbol : List Char) (self : Address) (c : Table) (log : List Ev) (m : Act Ev τ)
    (x : Except (Option Bytes) (Vault.State τ × List Val)) : Prop :=
  Fits w (Cells S name symbol) (view self) c log m x ∧ ∀ r, onCells w m c = .ok r → ∀ p, Meta p → r.2.1 p = c p

theorem core_meta {p : List Step} (h : Core S p) : ¬ Meta p := by
  rcases h with h | rfl | rfl | rfl
  · obtain ⟨q, rfl⟩ := OnWords.accounts_under h
    simp [Meta, token]
  all_goals simp [Meta]

theorem good_core {m : Act Ev τ} {x : Except (Option Bytes) (Vault.State τ × List Val)} (h : Fits w (Core S) (view self) c log m x) :
    Good w S name symbol self c log m x :=
  ⟨⟨OnWords.used_mono (fun _ => .inl) m h.1, h.2⟩, fun _ hr _ hp => used_frame m h.1 hr fun hc => core_meta hc hp⟩

theorem good_fail : Good (τ := τ) w S name symbol self c log (.fail none) (.error none) := good_core fits_fail

theorem good_text {p : List Step} {s : List Char} (h : Deployed.Holds c p (Logs.utf8 s)) (hb : (Logs.utf8 s).length < 2 ^ 255)
    (hS : ∀ q ∈ (Constructors.text p (Logs.utf8 s)).map Prod.fst, Cells S name symbol q) (U : Verif.Deployed.Utf8) :
    Good w S name symbol self c log ((stringBytes p).bind fun b => .ret ([.string (U.read b)], t)) (.ok (view self c log t, [.string s])) := by
  obtain ⟨h1, h2⟩ := Deployed.string_run (E := Option Bytes) (V := Ev) h hb w hS
  have e : onCells w ((stringBytes p).bind fun b => .ret ([.string (U.read b)], t) : Act Ev τ) c = .ok (([.string s], t), c, []) := by
    rw [Props.StoragePrograms.onCells_bind, h1]
    show Except.ok (([Val.string (U.read (Logs.utf8 s))], t), c, [] ++ []) = _
    rw [U.valid]; rfl
  refine ⟨⟨Deployed.used_bind h2 fun _ _ => trivial, ?_⟩, fun r hr p _ => ?_⟩
  · rw [e]
    show Except.ok _ = Except.ok (view self c (log ++ []) t, _)
    rw [List.append_nil]
  · rw [e] at hr
    cases hr
    rfl

theorem good_table {t f : String} {args : List Val} {l : List (String × String × (List Val → Act Ev τ))}
    {l' : List (String × String × (List Val → Except (Option Bytes) (Vault.State τ × List Val)))}
    (h : List.Forall₂ (fun r r' => r.1 = r'.1 ∧ r.2.1 = r'.2.1 ∧ Good w S name symbol self c log (r.2.2 args) (r'.2.2 args)) l l') :
    Good w S name symbol self c log (select t f args l) (Entry.dispatch t f args l') := by
  unfold select Entry.dispatch
  induction h with
  | nil => exact good_fail
  | cons h _ ih =>
    obtain ⟨h1, h2, h3⟩ := h
    rw [List.find?_cons, List.find?_cons, h1, h2]
    cases decide (_ = t) && decide (_ = f) with
    | true => exact h3
    | false => exact ih

theorem good_rows {l : List (String × String × (List Val → Act Ev τ))} {args : List Val}
    {l' : List (String × String × (List Val → Except (Option Bytes) (Vault.State τ × List Val)))}
    (h : List.Forall₂ (fun r r' => r.1 = r'.1 ∧ r.2.1 = r'.2.1 ∧ Fits w (Core S) (view self) c log (r.2.2 args) (r'.2.2 args)) l l') :
    List.Forall₂ (fun r r' => r.1 = r'.1 ∧ r.2.1 = r'.2.1 ∧ Good w S name symbol self c log (r.2.2 args) (r'.2.2 args)) l l' :=
  h.imp fun _ _ h => ⟨h.1, h.2.1, good_core h.2.2⟩

theorem good (hw : Wide w token) (U : Verif.Deployed.Utf8) {caller : Address} (hc : caller ∈ S)
    (h1 : Deployed.Holds c nameCell (Logs.utf8 name)) (h2 : (Logs.utf8 name).length < 2 ^ 255)
    (h3 : Deployed.Holds c symbolCell (Logs.utf8 symbol)) (h4 : (Logs.utf8 symbol).length < 2 ^ 255) (u f : String) {args : List Val}
    (ha : ∀ a, Val.address a ∈ args → a ∈ S) :
    Good w S name symbol self c log (program W K D U caller self t u f args)
      (Vault.handler W K D ⟨name, symbol⟩ caller u f args (view self c log t)) := by
  unfold program Vault.handler
  refine good_table (List.rel_append (List.rel_append (List.rel_append (good_rows
    (.cons ⟨rfl, rfl, ?_⟩ (.cons ⟨rfl, rfl, ?_⟩ (.cons ⟨rfl, rfl, ?_⟩ (.cons ⟨rfl, rfl, ?_⟩ (.cons ⟨rfl, rfl, ?_⟩ (.cons ⟨rfl, rfl, ?_⟩
    (.cons ⟨rfl, rfl, ?_⟩ (.cons ⟨rfl, rfl, ?_⟩ (.cons ⟨rfl, rfl, ?_⟩ (.cons ⟨rfl, rfl, ?_⟩ (.cons ⟨rfl, rfl, ?_⟩ (.cons ⟨rfl, rfl, ?_⟩
    (.cons ⟨rfl, rfl, ?_⟩ (.cons ⟨rfl, rfl, ?_⟩ (.cons ⟨rfl, rfl, ?_⟩ (.cons ⟨rfl, rfl, ?_⟩ (.cons ⟨rfl, rfl, ?_⟩ .nil))))))))))))))))))
    (.cons ⟨rfl, rfl, ?_⟩ (.cons ⟨rfl, rfl, ?_⟩ .nil)))
    (good_rows (rows_token hw K part hc (fun _ => .inl) ha))) (good_rows (rows_views (fun _ => .inl) ha)))
  · hears fits_question K (reads_decimals _) uses_decimals _
  · hears fits_ask K (x := .ok _) (reads_asset (self := self) (log := log) (t := t)) uses_asset _
  · hears fits_question K (reads_totalAssets W K D 0 _) (uses_totalAssets W K D 0) _
  · hears fits_question K (reads_shares W K D 0 _ .floor _) (uses_shares W K D 0 _ _) _
  · hears fits_question K (reads_assets W K D 0 _ .floor _) (uses_assets W K D 0 _ _) _
  · hears fits_ret _
  · hears fits_question K (reads_shares W K D 0 _ .floor _) (uses_shares W K D 0 _ _) _
  · hears fits_go K (gives_deposit W K D hw caller _ _) (uses_deposit W K D (ha _ (by simp)) _)
  · hears fits_ret _
  · hears fits_question K (reads_assets W K D 0 _ .ceil _) (uses_assets W K D 0 _ _) _
  · hears fits_go K (gives_mint W K D hw caller _ _) (uses_mint W K D (ha _ (by simp)) _)
  · hears fits_question K (reads_maxWithdraw W K D _ _) (uses_maxWithdraw W K D (ha _ (by simp))) _
  · hears fits_question K (reads_shares W K D 0 _ .ceil _) (uses_shares W K D 0 _ _) _
  · hears fits_go K (gives_withdraw W K D hw caller _ _ _) (uses_withdraw W K D hc (ha _ (by simp)) _)
  · hears fits_get (.inl (.inr (.inl ⟨_, ha _ (by simp), rfl⟩))) _
  · hears fits_question K (reads_assets W K D 0 _ .floor _) (uses_assets W K D 0 _ _) _
  · hears fits_go K (gives_redeem W K D hw caller _ _ _) (uses_redeem W K D hc (ha _ (by simp)) _)
  · dsimp only
    split
    · exact good_text h1 h2 (fun _ h => .inr (.inl h)) U
    · next h =>
      split
      · exact absurd rfl h
      · exact good_fail
  · dsimp only
    split
    · exact good_text h3 h4 (fun _ h => .inr (.inr h)) U
    · next h =>
      split
      · exact absurd rfl h
      · exact good_fail

end

/-! ## With the texts -/

/-- The texts of a table. -/
def texts (c : Table) : Table := fun p => if Meta p then c p else 0#256

theorem holds_texts {c c' : Table} (h : ∀ p, Meta p → c' p = c p) {p : List Step} (hp : Meta p) {bs : Bytes} (hc : Deployed.Holds c p bs) :
    Deployed.Holds c' p bs := by
  refine ⟨(h p hp).trans hc.head, fun hl i hi => (h _ ?_).trans (hc.chunks hl i hi)⟩
  unfold Meta at *
  cases p with
  | nil => cases hp
  | cons a l => exact hp

/-- The state, with the texts. -/
def both (self : Address) (c : Table) (log : List Ev) (t : τ) : Table × Vault.State τ := (texts c, view self c log t)

/-- A contract that leaves something alone. -/
def beside {σ ρ : Type} (H : Handler σ) : Handler (ρ × σ) := fun u f args s => (H u f args s.2).map fun r => ((s.1, r.1), r.2)

theorem beside_entry {σ ρ : Type} (K : Hash) (D : Decoder) (R : Router.Contract) (H : Handler σ) (s : ρ × σ) (value : U256) (input : Bytes) :
    answer (Abi.entry K D R (beside H) s value input) = answer (Abi.entry K D R H s.2 value input) ∧
    (Abi.entry K D R (beside H) s value input).after s = (s.1, (Abi.entry K D R H s.2 value input).after s.2) := by
  unfold Abi.entry
  split
  · exact ⟨rfl, rfl⟩
  split
  · exact ⟨rfl, rfl⟩
  cases R.route K (Abi.selectorOf input) with
  | none => exact ⟨rfl, rfl⟩
  | some r =>
    obtain ⟨u, f⟩ := r
    dsimp only
    cases D.read (Abi.flat f.args) (input.drop 4) with
    | none => exact ⟨rfl, rfl⟩
    | some args =>
      dsimp only
      unfold beside
      cases H u f.rustName args s.2 with
      | error e => cases e <;> exact ⟨rfl, rfl⟩
      | ok r => exact ⟨rfl, rfl⟩

theorem fits_both {w : List Step → Nat} {S : List Address} {name symbol : List Char} {self : Address} {c : Table} {log : List Ev} {m : Act Ev τ}
    {x : Except (Option Bytes) (Vault.State τ × List Val)} (h : Good w S name symbol self c log m x) :
    Fits w (Cells S name symbol) (both self) c log m (x.map fun r => ((texts c, r.1), r.2)) := by
  obtain ⟨⟨h1, h2⟩, h3⟩ := h
  refine ⟨h1, ?_⟩
  rw [h2]
  revert h3
  cases onCells w m c with
  | error e => exact fun _ => rfl
  | ok r =>
    intro h3
    have : texts r.2.1 = texts c := by
      funext p
      unfold texts
      split
      · next hp => exact h3 r rfl p hp
      · rfl
    show Except.ok ((texts c, _), _) = Except.ok ((texts r.2.1, _), _)
    rw [this]

theorem wide_token (K : Hash) : Wide (widthAt K erc4626Example) token := wide (b := none) (d := 0) rfl

section
variable {K : Hash} {n : Nat} {S : List Address} {name symbol : List Char}

/-- The words and the state agree. -/
def Agrees (K : Hash) (S : List Address) (name symbol : List Char) (w : Chained Ev τ) (s : Vault.State τ) : Prop :=
  ∃ T, Deployed.Holds T nameCell (Logs.utf8 name) ∧ Deployed.Holds T symbolCell (Logs.utf8 symbol) ∧
    Inv K erc4626Example (Cells S name symbol) both w (T, s)

theorem inv_run (h : Apart K n erc4626Example (Cells S name symbol)) (h2 : (Logs.utf8 name).length < 2 ^ 255)
    (h4 : (Logs.utf8 symbol).length < 2 ^ 255) (W : World τ) (D : Decoder) (U : Verif.Deployed.Utf8) {w : Chained Ev τ} {s : Vault.State τ}
    (hi : Agrees K S name symbol w s) {tx : Raw Address} (hx : Within K D Router.erc4626Example S tx) :
    answer (run W K D U tx.env w tx.value tx.input) = answer (Vault.run W K D ⟨name, symbol⟩ tx.env s tx.value tx.input) ∧
    Agrees K S name symbol ((run W K D U tx.env w tx.value tx.input).after w)
      ((Vault.run W K D ⟨name, symbol⟩ tx.env s tx.value tx.input).after s) := by
  obtain ⟨T, hn, hy, hi⟩ := hi
  obtain ⟨e1, e2⟩ := beside_entry K D Router.erc4626Example (Vault.handler W K D ⟨name, symbol⟩ tx.env) (T, s) tx.value tx.input
  have := Chained.step (by decide) h D Router.erc4626Example (P := program W K D U tx.env)
    (H := beside (Vault.handler W K D ⟨name, symbol⟩ tx.env)) hi tx.value tx.input fun u f args hr hd c log hv => by
      have hT : ∀ p, Meta p → c p = T p := fun p hp => by
        have e : (if Meta p then c p else 0#256) = T p := congrFun (congrArg Prod.fst hv) p
        rwa [if_pos hp] at e
      exact fits_both (good W K D (wide_token K) U hx.sender (holds_texts hT (by decide) hn) h2 (holds_texts hT (by decide) hy) h4 u f.rustName
        (hx.addresses args ⟨u, f, hr, hd⟩))
  refine ⟨this.1.trans e1, T, hn, hy, ?_⟩
  have := this.2.1
  rw [e2] at this
  exact this

theorem inv_play (h : Apart K n erc4626Example (Cells S name symbol)) (h2 : (Logs.utf8 name).length < 2 ^ 255)
    (h4 : (Logs.utf8 symbol).length < 2 ^ 255) (W : World τ) (D : Decoder) (U : Verif.Deployed.Utf8) : ∀ (l : List (Spec.Outside.Step τ))
    {w : Chained Ev τ} {s : Vault.State τ} (_ : Agrees K S name symbol w s) (_ : ∀ x ∈ l, About K D S x),
    Agrees K S name symbol (play W K D U w l) (Spec.Outside.play (Vault.run W K D ⟨name, symbol⟩) (fun f s => { s with world := f s.world }) s l)
  | [], _, _, hi, _ => hi
  | x :: l, w, s, hi, hx => by
    refine inv_play h h2 h4 W D U l ?_ fun y hy => hx y (List.mem_cons_of_mem _ hy)
    cases x with
    | outside f =>
      obtain ⟨T, hn, hy, c, h1, hv, hz⟩ := hi
      cases hv
      exact ⟨_, hn, hy, c, h1, rfl, hz⟩
    | call caller value input => exact (inv_run h h2 h4 W D U hi (tx := ⟨caller, value, input⟩) (hx _ List.mem_cons_self)).2

open Verif.Proofs.Constructors (final final_none text_mem mask32) in
/-- What a list of assignments of whole words leaves. -/
theorem fold_final {w : List Step → Nat} : ∀ (l : List (List Step × U256)) (c : Table) (_ : ∀ e ∈ l, w e.1 = 32) (q : List Step),
    some (l.foldl (fun c e => upd c e.1 (e.2 &&& mask (w e.1))) c q) = final q l (some (c q))
  | [], _, _, _ => rfl
  | (p, v) :: l, c, h, q => by
    rw [List.foldl_cons, fold_final l _ (fun e he => h e (List.mem_cons_of_mem _ he)), h (p, v) List.mem_cons_self, mask32]
    unfold final
    rw [List.foldl_cons]
    congr 1
    by_cases e : p = q
    · subst e; rw [upd_same, if_pos rfl]
    · rw [upd_ne _ _ (Ne.symm e), if_neg e]

theorem deploys (h : Apart K n erc4626Example (Cells S name symbol)) (self asset : Address) (offset : U8) (t : τ) :
    ∃ w, deploy K self name symbol asset offset t = some w ∧
      Agrees K S name symbol w (Spec.Outside.newVault self asset 18#8 offset t) := by
  generalize hA : Constructors.text nameCell (Logs.utf8 name) ++ Constructors.text symbolCell (Logs.utf8 symbol) = A
  have mA : ∀ e ∈ A, Meta e.1 ∧ Cells S name symbol e.1 ∧ widthAt K erc4626Example e.1 = 32 := by
    intro e he
    rw [← hA] at he
    rcases List.mem_append.mp he with he | he
    · have hc : Cells S name symbol e.1 := .inr (.inl (List.mem_map_of_mem he))
      rcases Constructors.text_mem he with e1 | ⟨i, hi, e1⟩ <;> rw [e1] at hc ⊢ <;> exact ⟨rfl, hc, rfl⟩
    · have hc : Cells S name symbol e.1 := .inr (.inr (List.mem_map_of_mem he))
      rcases Constructors.text_mem he with e1 | ⟨i, hi, e1⟩ <;> rw [e1] at hc ⊢ <;> exact ⟨rfl, hc, rfl⟩
  obtain ⟨st, h1, h5, h6⟩ := Chained.assigned (t := erc4626Example) (by decide) h
    (A ++ [(assetCell, asset.setWidth 256), (offsetCell, offset.setWidth 256), (decimalsCell, 18#256)])
    (fresh_agree K _ (Cells S name symbol)) (fun _ _ => rfl) (by
      intro e he
      rcases List.mem_append.mp he with he | he
      · exact (mA e he).2.1
      simp only [List.mem_cons, List.not_mem_nil, or_false] at he
      rcases he with rfl | rfl | rfl
      · exact .inl (.inr (.inl rfl))
      · exact .inl (.inr (.inr (.inr rfl)))
      · exact .inl (.inr (.inr (.inl rfl))))
  have hz := Props.Constructors.C99_erc4626 K (Logs.utf8 name) (Logs.utf8 symbol) asset offset
  have e : deploy K self name symbol asset offset t = some { self_ := self, words := st, log := [], world := t } := by
    rw [← hA] at h1
    have hz := hz.trans h1
    unfold Constructors.erc4626Init at hz
    rw [Option.bind_some] at hz
    unfold deploy Constructors.erc4626Init
    rw [Option.bind_some, hz]
    rfl
  have hf := fold_final (w := widthAt K erc4626Example) A (fun _ => 0#256) fun e he => (mA e he).2.2
  rw [List.foldl_append] at h5 h6
  simp only [List.foldl_cons, List.foldl_nil] at h5 h6
  generalize A.foldl (fun c e => upd c e.1 (e.2 &&& mask (widthAt K erc4626Example e.1))) (fun _ => 0#256) = cA at hf h5 h6
  have away : ∀ {p q : List Step} {bs : Bytes} (_ : ∀ r, ¬ p <+: q ++ r), ∀ e ∈ Constructors.text p bs, e.1 ≠ q ∧ ∀ i, e.1 ≠ q ++ [.index i] :=
    fun hd e he => ⟨Texts.text_under (by have := hd []; rwa [List.append_nil] at this) e he, fun i => Texts.text_under (hd _) e he⟩
  have t1 : Deployed.Holds cA nameCell (Logs.utf8 name) := by
    refine Texts.holds_final (c := fun _ => 0#256) (a := []) (b := Constructors.text symbolCell (Logs.utf8 symbol)) (fun q => ?_)
      (away (by simp [symbolCell, nameCell]))
    rw [List.nil_append, hA]; exact hf q
  have t2 : Deployed.Holds cA symbolCell (Logs.utf8 symbol) := by
    refine Texts.holds_final (c := fun _ => 0#256) (a := Constructors.text nameCell (Logs.utf8 name)) (b := []) (fun q => ?_) (by simp)
    rw [List.append_nil, hA]; exact hf q
  have rest : ∀ q, ¬ Meta q → cA q = 0#256 := fun q hq =>
    Option.some.inj ((hf q).trans (Constructors.final_none fun e he e1 => hq (e1 ▸ (mA e he).1)))
  have e1 : widthAt K erc4626Example assetCell = 20 := rfl
  have e2 : widthAt K erc4626Example offsetCell = 1 := rfl
  have e3 : widthAt K erc4626Example decimalsCell = 1 := rfl
  have n1 : assetCell ≠ decimalsCell := by decide
  have n2 : assetCell ≠ offsetCell := by decide
  have n3 : offsetCell ≠ decimalsCell := by decide
  have hm : ∀ p, Meta p → texts (upd (upd (upd cA assetCell (asset.setWidth 256 &&& mask (widthAt K erc4626Example assetCell))) offsetCell
      (offset.setWidth 256 &&& mask (widthAt K erc4626Example offsetCell))) decimalsCell
      (18#256 &&& mask (widthAt K erc4626Example decimalsCell))) p = cA p := by
    intro p hp
    unfold texts
    rw [if_pos hp, upd_ne _ _ (by rintro rfl; exact absurd hp (by decide)), upd_ne _ _ (by rintro rfl; exact absurd hp (by decide)), upd_ne _ _ (by rintro rfl; exact absurd hp (by decide))]
  refine ⟨_, e, _, holds_texts hm (p := nameCell) (by decide) t1, holds_texts hm (p := symbolCell) (by decide) t2, _, h5, ?_, h6⟩
  refine Prod.ext rfl ?_
  unfold both view Spec.Outside.newVault
  dsimp only
  rw [upd_same, upd_ne _ _ n1, upd_ne _ _ n2, upd_same, upd_ne _ _ n3, upd_same, e1, e2, e3, mask20, mask1]
  have hs : tokenView (upd (upd (upd cA assetCell (asset.setWidth 256 &&& mask 20)) offsetCell (offset.setWidth 256 &&& mask 1)) decimalsCell
      (18#256 &&& mask 1)) (lefts (VB := Erc4626.Event) []) = Erc20.init := by
    have z : ∀ p, Under token p → upd (upd (upd cA assetCell (asset.setWidth 256 &&& mask 20)) offsetCell (offset.setWidth 256 &&& mask 1))
        decimalsCell (18#256 &&& mask 1) p = 0#256 := by
      rintro p ⟨q, rfl⟩
      rw [upd_ne _ _ (by simp [token, decimalsCell]), upd_ne _ _ (by simp [token, offsetCell]), upd_ne _ _ (by simp [token, assetCell])]
      exact rest _ (by simp [Meta, token])
    unfold tokenView Props.StoragePrograms.view Erc20.init
    congr 1
    · funext a; exact z _ ⟨_, rfl⟩
    · funext a b; exact z _ ⟨_, rfl⟩
    · exact z _ ⟨_, rfl⟩
  rw [hs]
  have h18 : ((18#256 &&& mask 1).setWidth 8 : U8) = 18#8 := by decide +kernel
  rw [h18]
  rfl

end
end Verif.Proofs.VaultDeployed
