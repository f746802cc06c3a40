import Verif.Proofs.Chained
import Verif.Proofs.Erc721Words
import Verif.Proofs.Contracts
import Verif.Spec.NftWrapperDeployed
/-! # Lemmas: the ERC-721 wrapper on storage words -/

namespace Verif.Proofs.NftWrapperDeployed
open Verif Verif.Storage Verif.Outside Verif.NftWrapperDeployed Verif.Spec.NftWrapperDeployed Verif.Spec.Storage
open Verif.Spec.StoragePrograms
open Verif.Spec.OnWords (Apart)
open Verif.Spec.MultiDeployed (Names tokensOf)
open Verif.OnWords (Chained conclude)
open Verif.Props.StoragePrograms (onCells_bind)
open Verif.Proofs.Chained (Fits Inv fits_conclude fits_table)
open Verif.Proofs.Deployed (Table UsedBy used_bind used_of_uses onCells_lift)
open Verif.Proofs.OnWords (fresh_agree used_lift used_mono unit_ok look_ok)
open Verif.Proofs.Erc721Words (Sim unit look mask20 Sizes)
open Verif.Abi (Val Decoder Outcome)
open Verif.Spec.Deployed (answer)
open Verif.Spec.Contracts (Raw)

variable {τ : Type}

/-- The state of the wrapper. -/
def view (self : Address) (c : Table) (log : List Erc721.Event) (t : τ) : Nfts.State τ :=
  { self_ := self, underlying := (c underlyingCell).setWidth 160, token := Erc721Words.view token c log, world := t }

/-- All owners are among the accounts. -/
def Owned (S : List Address) (u : Erc721.State) : Prop := ∀ id, u.owners id ∈ S

section
variable {w : List Step → Nat} {S : List Address} {N : List U256} {self : Address} {c : Table} {log : List Erc721.Event} {t : τ}

theorem owned_exec {u u' : Erc721.State} {tx : Erc721.Tx} (h0 : ZERO ∈ S) (hu : Owned S u) (hn : Spec.Erc721Words.Names S N tx)
    (h : Erc721.exec u tx = .ok u') : Owned S u' := by
  intro id
  rcases Proofs.Erc721Words.exec_owners h id with e | ⟨e, _⟩
  · rw [e]; exact hu id
  · rcases List.mem_cons.mp e with e | e
    · rw [e]; exact h0
    · exact hn.1 _ e

/-- A program that only uses cells of the token. -/
theorem inner_run {α : Type} {m : Erc721Words.Code α} {f : Erc721.State → Except Erc721.Err (α × Erc721.State)}
    (hs : Sim w (Erc721Words.view token) m f) (hu : UsedBy w (Spec.Erc721Words.Cells token S N) m c) (log : List Erc721.Event) :
    UsedBy w (Cells S N) (inner m) c ∧
    ((∃ e, onCells w (inner m) c = .error (Revert.erc721 e) ∧ f (Erc721Words.view token c log) = .error e) ∨
     ∃ a c' ev, onCells w (inner m) c = .ok (a, c', ev) ∧
      f (Erc721Words.view token c log) = .ok (a, Erc721Words.view token c' (log ++ ev)) ∧ c' underlyingCell = c underlyingCell) := by
  refine ⟨used_lift _ (used_mono (C' := Cells S N) (fun _ => .inl) _ hu), ?_⟩
  unfold inner
  rw [onCells_lift, hs c log]
  cases h : onCells w m c with
  | error e => exact .inl ⟨e, rfl, rfl⟩
  | ok r =>
    refine .inr ⟨r.1, r.2.1, r.2.2, by simp, rfl, Proofs.Chained.used_frame _ hu h ?_⟩
    rintro (⟨_, _, e⟩ | ⟨_, _, e⟩ | ⟨_, _, e⟩ | ⟨_, _, _, _, e⟩) <;>
      simp [underlyingCell, token, Erc721Words.owner, Erc721Words.balance, Erc721Words.approved, Erc721Words.operator] at e

theorem bind_assoc {E V α β γ : Type} : ∀ (m : Prog E V α) (f : α → Prog E V β) (g : β → Prog E V γ),
    (m.bind f).bind g = m.bind fun a => (f a).bind g
  | .ret _, _, _ => rfl
  | .fail _, _, _ => rfl
  | .get p k, f, g => congrArg (Prog.get p) (funext fun v => bind_assoc (k v) f g)
  | .set p v k, f, g => congrArg (Prog.set p v) (bind_assoc k f g)
  | .emit e k, f, g => congrArg (Prog.emit e) (bind_assoc k f g)

/-- What is reverted with. -/
def sent {σ : Type} : Except Nfts.Err σ → Except Revert.Reply σ
  | .error e => .error (Nfts.errReply e)
  | .ok s => .ok s

/-- What a program that changes the rest of the chain does, and that it uses the cells only. -/
def Does (w : List Step → Nat) (S : List Address) (N : List U256) (self : Address) (log : List Erc721.Event) (m : Code τ) (c : Table)
    (x : Except Nfts.Err (Nfts.State τ)) : Prop :=
  UsedBy w (Cells S N) m c ∧ sent x = (onCells w m c).map fun r => view self r.2.1 (log ++ r.2.2) r.1

theorem does_ret : Does w S N self log (.ret t) c (.ok (view self c log t)) := by
  refine ⟨trivial, ?_⟩
  show Except.ok _ = Except.ok (view self c (log ++ []) t)
  rw [List.append_nil]

/-- First the token, then something else. -/
theorem does_inner {α : Type} {m : Erc721Words.Code α} {f : Erc721.State → Except Erc721.Err (α × Erc721.State)} {k : α → Code τ}
    {g : α × Erc721.State → Except Nfts.Err (Nfts.State τ)} (hs : Sim w (Erc721Words.view token) m f)
    (hu : UsedBy w (Spec.Erc721Words.Cells token S N) m c)
    (hk : ∀ a c' log', f (Erc721Words.view token c log) = .ok (a, Erc721Words.view token c' log') →
      c' underlyingCell = c underlyingCell → Does w S N self log' (k a) c' (g (a, Erc721Words.view token c' log'))) :
    Does w S N self log ((inner m).bind k) c (Nfts.lift (f (Erc721Words.view token c log)) >>= g) := by
  obtain ⟨h1, h2⟩ := inner_run hs hu log
  rcases h2 with ⟨e, h2, h3⟩ | ⟨a, c', ev, h2, h3, h4⟩
  · refine ⟨used_bind h1 fun r hr => (by rw [h2] at hr; cases hr), ?_⟩
    rw [onCells_bind, h2, h3]
    rfl
  · have hk := hk a c' _ h3 h4
    refine ⟨used_bind h1 fun r hr => (by rw [h2] at hr; cases hr; exact hk.1), ?_⟩
    rw [onCells_bind, h2, h3]
    refine hk.2.trans ?_
    show _ = Except.map _ (Except.map _ _)
    cases onCells w (k a) c' with
    | error e => rfl
    | ok r =>
      show Except.ok (view self _ (log ++ ev ++ r.2.2) _) = Except.ok (view self _ (log ++ (ev ++ r.2.2)) _)
      rw [List.append_assoc]

/-- First the chain, then something else. -/
theorem does_settle {x : Except Nfts.Err τ} {k : τ → Code τ} {g : τ → Except Nfts.Err (Nfts.State τ)}
    (hk : ∀ t', x = .ok t' → Does w S N self log (k t') c (g t')) : Does w S N self log ((settle x).bind k) c (x >>= g) := by
  cases x with
  | error e => exact ⟨trivial, rfl⟩
  | ok t' => exact hk t' rfl

/-- First the address of the underlying token, then something else. -/
theorem does_underlying {k : Address → Code τ} {x : Except Nfts.Err (Nfts.State τ)}
    (h : Does w S N self log (k (view self c log t).underlying) c x) : Does w S N self log (underlying.bind k) c x :=
  ⟨⟨.inr rfl, h.1⟩, h.2⟩

variable (hw : Sizes w token) (h0 : ZERO ∈ S) (W : World τ) (K : Hash) (D : Decoder) {caller : Address} (hc : caller ∈ S)
  (hz : caller ≠ ZERO)

theorem exec_lift (R : Erc721.Receivers) (call : Erc721.UserCall ⊕ Erc721.AdminCall) (u : Erc721.State)
    (g : Erc721.State → Except Nfts.Err (Nfts.State τ)) {x : Except Erc721.Err Erc721.State}
    (hx : Erc721.exec u ⟨caller, R, call⟩ = x) :
    Nfts.lift x >>= g = Nfts.lift (unit (fun s => Erc721.exec s ⟨caller, R, call⟩) u) >>= fun p => g p.2 := by
  unfold unit
  dsimp only
  rw [hx]
  cases x <;> rfl

theorem exec_user (hz : caller ≠ ZERO) (R : Erc721.Receivers) (call : Erc721.UserCall) (u : Erc721.State) :
    Erc721.exec u ⟨caller, R, .inl call⟩ = Erc721.execUser R u caller call := by
  unfold Erc721.exec
  rw [if_neg hz]

theorem exec_admin (hz : caller ≠ ZERO) (R : Erc721.Receivers) (call : Erc721.AdminCall) (u : Erc721.State) :
    Erc721.exec u ⟨caller, R, .inr call⟩ = Erc721.execAdmin R u caller call := by
  unfold Erc721.exec
  rw [if_neg hz]

include hw h0 hz in
/-- A call of the token, then something else. -/
theorem does_exec {R : Erc721.Receivers} {call : Erc721.UserCall ⊕ Erc721.AdminCall} (ho : Owned S (Erc721Words.view token c log))
    (hn : Spec.Erc721Words.Names S N ⟨caller, R, call⟩) {k : Unit → Code τ} {g : Erc721.State → Except Nfts.Err (Nfts.State τ)}
    {x : Except Erc721.Err Erc721.State} (hx : Erc721.exec (Erc721Words.view token c log) ⟨caller, R, call⟩ = x)
    (hk : ∀ c' log', c' underlyingCell = c underlyingCell → Owned S (Erc721Words.view token c' log') →
      Does w S N self log' (k ()) c' (g (Erc721Words.view token c' log'))) :
    Does w S N self log ((inner (Erc721Words.code token R caller call)).bind k) c (Nfts.lift x >>= g) := by
  rw [exec_lift R call _ g hx]
  refine does_inner (Proofs.Erc721Words.sim_code hw ⟨caller, R, call⟩ hz)
    (Proofs.Erc721Words.used_code (tx := ⟨caller, R, call⟩) h0 hn fun id _ => ho id) ?_
  intro a c' log' he hu
  exact hk c' log' hu (owned_exec h0 ho hn (unit_ok he))

include hw h0 hc hz in
theorem does_safeMint {dst : Address} {id : U256} (hd : dst ∈ S) (hi : id ∈ N) (ho : Owned S (Erc721Words.view token c log))
    {k : τ → Code τ} {g : Nfts.State τ → Except Nfts.Err (Nfts.State τ)}
    (hk : ∀ c' log' t', c' underlyingCell = c underlyingCell → Owned S (Erc721Words.view token c' log') →
      Does w S N self log' (k t') c' (g (view self c' log' t'))) :
    Does w S N self log ((safeMint W K D self t caller dst id).bind k) c
      (Nfts.safeMint W K D (view self c log t) caller dst id >>= g) := by
  have := does_exec (call := .inr (.safeMint dst id [])) (R := Nfts.receivers W K D self t) hw h0 hz ho (N := N) (self := self)
    ⟨by simp [Spec.Erc721Words.accounts, hc, hd], by simp [Spec.Erc721Words.tokens, hi]⟩
    (k := fun _ => k (Nfts.told W K self t caller ZERO dst id []))
    (g := fun u => g { view self c log t with token := u, world := Nfts.told W K self t caller ZERO dst id [] })
    (exec_admin hz _ _ _) (fun c' log' hu ho' => by
      have := hk c' log' (Nfts.told W K self t caller ZERO dst id []) hu ho'
      unfold view at this ⊢
      rw [hu] at this
      exact this)
  have e1 : (safeMint W K D self t caller dst id).bind k =
      (inner (Erc721Words.code token (Nfts.receivers W K D self t) caller (.inr (.safeMint dst id [])))).bind
        fun _ => k (Nfts.told W K self t caller ZERO dst id []) := by
    unfold safeMint
    rw [bind_assoc]
    rfl
  rw [e1]
  refine Eq.mp (congrArg (Does w S N self log _ c) ?_) this
  unfold Nfts.safeMint
  show _ = (Nfts.lift (Erc721.safeMint (Nfts.receivers W K D self t) (Erc721Words.view token c log) caller dst id []) >>= _) >>= g
  show Nfts.lift (Erc721.safeMint (Nfts.receivers W K D self t) (Erc721Words.view token c log) caller dst id []) >>= _ = _
  cases Erc721.safeMint (Nfts.receivers W K D self t) (Erc721Words.view token c log) caller dst id [] <;> rfl

include hw h0 hc hz in
theorem does_wrapAll {a : Address} (ha : a ∈ S) : ∀ (ids : List U256) {c : Table} {log : List Erc721.Event} {t : τ}
    (_ : ∀ id ∈ ids, id ∈ N) (_ : Owned S (Erc721Words.view token c log)),
    Does w S N self log (wrapAll W K D self (view self c log t).underlying caller a t ids) c
      (Nfts.depositFor W K D caller a (view self c log t) ids)
  | [], _, _, _, _, _ => does_ret
  | id :: ids, c, log, t, hi, ho => by
    unfold wrapAll Nfts.depositFor
    refine does_settle fun t1 _ => ?_
    refine does_safeMint (t := t1) hw h0 W K D hc hz ha (hi _ List.mem_cons_self) ho fun c' log' t' hu ho' => ?_
    have := does_wrapAll ha ids (t := t') (fun i h => hi i (List.mem_cons_of_mem _ h)) ho'
    rwa [show (view self c log t).underlying = (view self c' log' t').underlying from (congrArg (BitVec.setWidth 160) hu).symm]

include hw h0 hc hz in
theorem does_unwrapAll {a : Address} : ∀ (ids : List U256) {c : Table} {log : List Erc721.Event} {t : τ}
    (_ : ∀ id ∈ ids, id ∈ N) (_ : Owned S (Erc721Words.view token c log)),
    Does w S N self log (unwrapAll W K D self (view self c log t).underlying caller a t ids) c
      (Nfts.withdrawTo W K D caller a (view self c log t) ids)
  | [], _, _, _, _, _ => does_ret
  | id :: ids, c, log, t, hi, ho => by
    unfold unwrapAll Nfts.withdrawTo
    refine does_inner (f := fun s => Erc721.update s ZERO id caller) (Proofs.Erc721Words.sim_update hw ZERO id caller)
      (Proofs.Erc721Words.used_update h0 hc (hi _ List.mem_cons_self) (ho id)) fun p c' log' he hu => ?_
    have ho' : Owned S (Erc721Words.view token c' log') := by
      refine owned_exec (N := N) (tx := ⟨caller, fun _ => none, .inl (.burn id)⟩) h0 ho
        ⟨by simp [Spec.Erc721Words.accounts, hc], by simp [Spec.Erc721Words.tokens, hi]⟩ ?_
      rw [exec_user hz]
      show Erc721.burn _ caller id = _
      unfold Erc721.burn
      rw [he]
      rfl
    refine does_settle fun t1 _ => ?_
    have := does_unwrapAll (a := a) ids (t := t1) (fun i h => hi i (List.mem_cons_of_mem _ h)) ho'
    unfold view at this ⊢
    rw [hu] at this
    exact this

include hw h0 hc hz in
theorem does_depositFor {a : Address} (ha : a ∈ S) {ids : List U256} (hi : ∀ id ∈ ids, id ∈ N)
    (ho : Owned S (Erc721Words.view token c log)) :
    Does w S N self log (depositFor W K D self t caller a ids) c (Nfts.depositFor W K D caller a (view self c log t) ids) :=
  does_underlying (t := t) (does_wrapAll hw h0 W K D hc hz ha ids hi ho)

include hw h0 hc hz in
theorem does_withdrawTo {a : Address} {ids : List U256} (hi : ∀ id ∈ ids, id ∈ N) (ho : Owned S (Erc721Words.view token c log)) :
    Does w S N self log (withdrawTo W K D self t caller a ids) c (Nfts.withdrawTo W K D caller a (view self c log t) ids) :=
  does_underlying (t := t) (does_unwrapAll hw h0 W K D hc hz ids hi ho)

theorem bind_ret {E V α : Type} : ∀ m : Prog E V α, m.bind .ret = m
  | .ret _ => rfl
  | .fail _ => rfl
  | .get p k => congrArg (Prog.get p) (funext fun v => bind_ret (k v))
  | .set p v k => congrArg (Prog.set p v) (bind_ret k)
  | .emit e k => congrArg (Prog.emit e) (bind_ret k)

include hw h0 hc hz in
theorem does_onReceived {a : Address} (ha : a ∈ S) {id : U256} (hi : id ∈ N) (ho : Owned S (Erc721Words.view token c log)) :
    Does w S N self log (onReceived W K D self t caller a id) c (Nfts.onReceived W K D (view self c log t) caller a id) := by
  refine does_underlying (t := t) ?_
  unfold Nfts.onReceived
  by_cases h : (view self c log t).underlying ≠ caller
  · rw [if_pos h, if_pos h]; exact ⟨trivial, rfl⟩
  · rw [if_neg h, if_neg h]
    have := does_safeMint (t := t) (self := self) hw h0 W K D hc hz ha hi ho (k := .ret) (g := .ok) fun c' log' t' _ _ => does_ret
    rw [bind_ret] at this
    revert this
    cases Nfts.safeMint W K D (view self c log t) caller a id <;> exact fun h => h

include hw h0 hz in
theorem does_tokenCall {k : Wrapper721.TokenCall}
    (hn : Spec.Erc721Words.Names S N ⟨caller, Nfts.receivers W K D self t, .inl k.toCall⟩)
    (ho : Owned S (Erc721Words.view token c log)) :
    Does w S N self log (tokenCall W K D self t caller k) c (Nfts.tokenCall W K D (view self c log t) caller k) := by
  refine does_exec hw h0 hz ho hn (exec_user hz _ _ _) fun c' log' hu _ => ?_
  have := does_ret (w := w) (S := S) (N := N) (self := self) (c := c') (log := log') (t := heard W K self t caller k)
  unfold view at this ⊢
  rw [hu] at this
  cases k <;> exact this

/-! ## The contract -/

/-- A function that changes the state. -/
theorem fits_go {m : Code τ} {x : Except Nfts.Err (Nfts.State τ)} (h : Does w S N self log m c x) (r : List Val) :
    Fits w (Cells S N) (view self) c log (conclude K id (fun t' => (r, t')) m) (Entry.finish K Nfts.errReply r x) := by
  refine fits_conclude K _ _ h.1 ?_
  have h := h.2
  revert h
  cases onCells w m c with
  | error e =>
    cases x with
    | error e' => intro h; cases h; rfl
    | ok s => intro h; cases h
  | ok r =>
    cases x with
    | error e' => intro h; cases h
    | ok s => intro h; cases h; rfl

/-- A question to the token. -/
theorem fits_look {α : Type} {m : Erc721Words.Code α} {f : Erc721.State → Except Erc721.Err α}
    (hs : Sim w (Erc721Words.view token) m (look f)) (hu : UsedBy w (Spec.Erc721Words.Cells token S N) m c) (g : α → Val) :
    Fits w (Cells S N) (view self) c log (conclude K id (fun a => ([g a], t)) (inner m))
      (Contracts.view K Revert.erc721 (view self c log t) (Contracts.one g (f (Erc721Words.view token c log)))) := by
  obtain ⟨h1, h2⟩ := inner_run hs hu log
  refine fits_conclude K _ _ h1 ?_
  rcases h2 with ⟨e, h2, h3⟩ | ⟨a, c', ev, h2, h3, h4⟩
  · rw [h2]
    unfold look at h3
    cases hf : f (Erc721Words.view token c log) with
    | error e' => rw [hf] at h3; cases h3; rfl
    | ok a => rw [hf] at h3; cases h3
  · rw [h2]
    obtain ⟨h5, h6⟩ := look_ok h3
    rw [h5]
    show Except.ok (view self c log t, [g a]) = Except.ok (view self c' (log ++ ev) t, [g a])
    unfold view
    rw [h4, h6]

include hw h0 hc hz in
theorem fits (ho : Owned S (Erc721Words.view token c log)) (u f : String) {args : List Val} (ha : ∀ a, Names args a → a ∈ S)
    (hn : ∀ id ∈ tokensOf args, id ∈ N) :
    Fits w (Cells S N) (view self) c log (program W K D caller self t u f args)
      (Nfts.handler W K D caller u f args (view self c log t)) := by
  have a1 : ∀ {a : Address}, Val.address a ∈ args → a ∈ S := fun h => ha _ (.inl h)
  unfold program Nfts.handler
  refine fits_table (.cons ⟨rfl, rfl, ?_⟩ (.cons ⟨rfl, rfl, ?_⟩ (.cons ⟨rfl, rfl, ?_⟩ (.cons ⟨rfl, rfl, ?_⟩ (.cons ⟨rfl, rfl, ?_⟩
    (.cons ⟨rfl, rfl, ?_⟩ (.cons ⟨rfl, rfl, ?_⟩ (.cons ⟨rfl, rfl, ?_⟩ (.cons ⟨rfl, rfl, ?_⟩ (.cons ⟨rfl, rfl, ?_⟩ (.cons ⟨rfl, rfl, ?_⟩
    (.cons ⟨rfl, rfl, ?_⟩ (.cons ⟨rfl, rfl, ?_⟩ .nil)))))))))))))
  · hears fits_conclude (m := underlying) K id _ ⟨.inr rfl, trivial⟩ (by show Except.ok _ = Except.ok (view self c (log ++ []) t, _); rw [List.append_nil]; rfl)
  · hears fits_go K (does_depositFor hw h0 W K D hc hz (a1 (by simp)) (fun i hi => hn i (by simpa [tokensOf] using hi)) ho) _
  · hears fits_go K (does_withdrawTo hw h0 W K D hc hz (fun i hi => hn i (by simpa [tokensOf] using hi)) ho) _
  · hears fits_go K (does_onReceived hw h0 W K D hc hz (a1 (by simp)) (hn _ (by simp [tokensOf])) ho) _
  · hears fits_go K (does_tokenCall (k := .transferFrom _ _ _) hw h0 W K D hz ⟨by simp [Wrapper721.TokenCall.toCall, Spec.Erc721Words.accounts, hc, a1], by simpa [Wrapper721.TokenCall.toCall, Spec.Erc721Words.tokens, tokensOf] using hn⟩ ho) _
  · hears fits_go K (does_tokenCall (k := .safeTransferFrom _ _ _) hw h0 W K D hz ⟨by simp [Wrapper721.TokenCall.toCall, Spec.Erc721Words.accounts, hc, a1], by simpa [Wrapper721.TokenCall.toCall, Spec.Erc721Words.tokens, tokensOf] using hn⟩ ho) _
  · hears fits_go K (does_tokenCall (k := .safeTransferFromWithData _ _ _ _) hw h0 W K D hz ⟨by simp [Wrapper721.TokenCall.toCall, Spec.Erc721Words.accounts, hc, a1], by simpa [Wrapper721.TokenCall.toCall, Spec.Erc721Words.tokens, tokensOf] using hn⟩ ho) _
  · hears fits_go K (does_tokenCall (k := .approve _ _) hw h0 W K D hz ⟨by simp [Wrapper721.TokenCall.toCall, Spec.Erc721Words.accounts, hc, a1], by simpa [Wrapper721.TokenCall.toCall, Spec.Erc721Words.tokens, tokensOf] using hn⟩ ho) _
  · hears fits_go K (does_tokenCall (k := .setApprovalForAll _ _) hw h0 W K D hz ⟨by simp [Wrapper721.TokenCall.toCall, Spec.Erc721Words.accounts, hc, a1], by simp [Wrapper721.TokenCall.toCall, Spec.Erc721Words.tokens]⟩ ho) _
  · hears fits_look K (Proofs.Erc721Words.sim_balance _) (used_of_uses _ _ (Props.StoragePrograms.uses_ite trivial ⟨.inr (.inl ⟨_, a1 (by simp), rfl⟩), fun _ => trivial⟩)) .uint256
  · hears fits_look K (Proofs.Erc721Words.sim_owned _) (Proofs.Erc721Words.used_owned (hn _ (by simp [tokensOf]))) .address
  · hears fits_look K (Proofs.Erc721Words.sim_getApproved _) (used_bind (Proofs.Erc721Words.used_owned (hn _ (by simp [tokensOf]))) fun _ _ => ⟨.inr (.inr (.inl ⟨_, hn _ (by simp [tokensOf]), rfl⟩)), trivial⟩) .address
  · hears fits_look (f := fun s => .ok (Erc721.isApprovedForAll s _ _)) K (Proofs.Erc721Words.sim_operator _ _) ⟨.inr (.inr (.inr ⟨_, a1 (by simp), _, a1 (by simp), rfl⟩)), trivial⟩ .bool

/-! ### The owners are among the accounts -/

theorem lift_ok {α : Type} {x : Except Erc721.Err α} {a : α} (h : Nfts.lift x = .ok a) : x = .ok a := by
  cases x with
  | error e => cases h
  | ok b => injection h with h; rw [h]

include h0 hc hz in
theorem owned_safeMint {s s' : Nfts.State τ} {dst : Address} {id : U256} (hd : dst ∈ S) (ho : Owned S s.token)
    (h : Nfts.safeMint W K D s caller dst id = .ok s') : Owned S s'.token := by
  obtain ⟨u, h1, h2⟩ := bind_eq_ok.mp h
  cases h2
  refine owned_exec (N := [id]) (tx := ⟨caller, Nfts.receivers W K D s.self_ s.world, .inr (.safeMint dst id [])⟩) h0 ho
    ⟨by simp [Spec.Erc721Words.accounts, hc, hd], by simp [Spec.Erc721Words.tokens]⟩ ?_
  rw [exec_admin hz]
  exact lift_ok h1

include h0 hc hz in
theorem owned_depositFor {a : Address} (ha : a ∈ S) : ∀ (ids : List U256) {s s' : Nfts.State τ} (_ : Owned S s.token)
    (_ : Nfts.depositFor W K D caller a s ids = .ok s'), Owned S s'.token
  | [], _, _, ho, h => by cases h; exact ho
  | id :: ids, s, s', ho, h => by
    unfold Nfts.depositFor at h
    obtain ⟨t, _, h⟩ := bind_eq_ok.mp h
    obtain ⟨s1, h1, h⟩ := bind_eq_ok.mp h
    exact owned_depositFor ha ids (owned_safeMint h0 W K D hc hz ha (s := { s with world := t }) ho h1) h

include h0 hc hz in
theorem owned_withdrawTo {a : Address} : ∀ (ids : List U256) {s s' : Nfts.State τ} (_ : Owned S s.token)
    (_ : Nfts.withdrawTo W K D caller a s ids = .ok s'), Owned S s'.token
  | [], _, _, ho, h => by cases h; exact ho
  | id :: ids, s, s', ho, h => by
    unfold Nfts.withdrawTo at h
    obtain ⟨r, h1, h⟩ := bind_eq_ok.mp h
    obtain ⟨t, _, h⟩ := bind_eq_ok.mp h
    refine owned_withdrawTo ids (s := { s with token := r.2, world := t }) ?_ h
    refine owned_exec (N := [id]) (tx := ⟨caller, fun _ => none, .inl (.burn id)⟩) h0 ho
      ⟨by simp [Spec.Erc721Words.accounts, hc], by simp [Spec.Erc721Words.tokens]⟩ ?_
    rw [exec_user hz]
    show Erc721.burn _ caller id = _
    unfold Erc721.burn
    rw [lift_ok h1]
    rfl

include h0 hc hz in
theorem owned_onReceived {s s' : Nfts.State τ} {a : Address} {id : U256} (ha : a ∈ S) (ho : Owned S s.token)
    (h : Nfts.onReceived W K D s caller a id = .ok s') : Owned S s'.token := by
  unfold Nfts.onReceived at h
  split at h
  · cases h
  · exact owned_safeMint h0 W K D hc hz ha ho h

include h0 hz in
theorem owned_tokenCall {s s' : Nfts.State τ} {k : Wrapper721.TokenCall}
    (hn : ∀ a ∈ Spec.Erc721Words.accounts ⟨caller, Nfts.receivers W K D s.self_ s.world, .inl k.toCall⟩, a ∈ S)
    (ho : Owned S s.token) (h : Nfts.tokenCall W K D s caller k = .ok s') : Owned S s'.token := by
  obtain ⟨u, h1, h2⟩ := bind_eq_ok.mp h
  cases h2
  refine owned_exec (N := Spec.Erc721Words.tokens ⟨caller, Nfts.receivers W K D s.self_ s.world, .inl k.toCall⟩) h0 ho
    ⟨hn, fun _ h => h⟩ ?_
  rw [exec_user hz]
  exact lift_ok h1

include h0 hc hz in
theorem owned_handler {s s' : Nfts.State τ} {u f : String} {args r : List Val} (ha : ∀ a, Names args a → a ∈ S) (ho : Owned S s.token)
    (h : Nfts.handler W K D caller u f args s = .ok (s', r)) : Owned S s'.token := by
  have a1 : ∀ {a : Address}, Val.address a ∈ args → a ∈ S := fun h => ha _ (.inl h)
  have fin : ∀ {e : List Val} {x : Except Nfts.Err (Nfts.State τ)}, Entry.finish K Nfts.errReply e x = .ok (s', r) → x = .ok s' := by
    intro e x h
    cases x with
    | error e => cases h
    | ok y => cases h; rfl
  obtain ⟨x, hm, rfl, rfl, h2⟩ := Proofs.Contracts.dispatch_ok h
  clear h
  rename _ => h
  simp only [Contracts.erc721Views, List.cons_append, List.nil_append, List.mem_cons, List.not_mem_nil, or_false] at hm
  rcases hm with rfl | rfl | rfl | rfl | rfl | rfl | rfl | rfl | rfl | rfl | rfl | rfl | rfl
  all_goals dsimp only at h
  all_goals split at h
  all_goals try (first | (cases h; done) | (rw [Proofs.Contracts.view_ok h]; exact ho) | (cases h; exact ho))
  · exact owned_depositFor h0 W K D hc hz (a1 (by simp)) _ ho (fin h)
  · exact owned_withdrawTo h0 W K D hc hz _ ho (fin h)
  · exact owned_onReceived h0 W K D hc hz (a1 (by simp)) ho (fin h)
  all_goals exact owned_tokenCall h0 W K D hz (by simp [Wrapper721.TokenCall.toCall, Spec.Erc721Words.accounts, hc, a1]) ho (fin h)

end

theorem sizes (K : Hash) : Sizes (widthAt K erc721WrapperExample) token := ⟨fun _ => rfl, fun _ => rfl, fun _ => rfl, fun _ _ => rfl⟩

section
variable {K : Hash} {n : Nat} {S : List Address} {N : List U256}

/-- The words and the state agree. -/
def Agrees (K : Hash) (S : List Address) (N : List U256) (w : Chained Erc721.Event τ) (s : Nfts.State τ) : Prop :=
  Inv K erc721WrapperExample (Cells S N) view w s ∧ Owned S s.token

theorem owned_run {D : Decoder} {W : World τ} (h0 : ZERO ∈ S) {s : Nfts.State τ} (ho : Owned S s.token) {tx : Raw Address}
    (hx : Within K D S N tx) : Owned S ((Nfts.run W K D tx.env s tx.value tx.input).after s).token := by
  unfold Nfts.run Abi.entry
  split
  · exact ho
  split
  · exact ho
  cases hr : Router.erc721WrapperExample.route K (Abi.selectorOf tx.input) with
  | none => exact ho
  | some r =>
    obtain ⟨u, f⟩ := r
    dsimp only
    cases hd : D.read (Abi.flat f.args) (tx.input.drop 4) with
    | none => exact ho
    | some args =>
      dsimp only
      cases hh : Nfts.handler W K D tx.env u f.rustName args s with
      | error e => cases e <;> exact ho
      | ok r => exact owned_handler h0 W K D hx.sender hx.signed (hx.accounts args ⟨u, f, hr, hd⟩) ho hh

theorem inv_run (h : Apart K n erc721WrapperExample (Cells S N)) (h0 : ZERO ∈ S) (W : World τ) (D : Decoder)
    {w : Chained Erc721.Event τ} {s : Nfts.State τ} (hi : Agrees K S N w s) {tx : Raw Address} (hx : Within K D S N tx) :
    answer (run W K D tx.env w tx.value tx.input) = answer (Nfts.run W K D tx.env s tx.value tx.input) ∧
    Agrees K S N ((run W K D tx.env w tx.value tx.input).after w) ((Nfts.run W K D tx.env s tx.value tx.input).after s) := by
  have := Chained.step (by decide) h D Router.erc721WrapperExample (P := program W K D tx.env) (H := Nfts.handler W K D tx.env) hi.1
    tx.value tx.input fun u f args hr hd c log hv => by
      have ho : Owned S (Erc721Words.view token c log) := by have := hi.2; rw [← hv] at this; exact this
      exact fits (sizes K) h0 W K D hx.sender hx.signed ho u f.rustName (hx.accounts args ⟨u, f, hr, hd⟩)
        (hx.tokens args ⟨u, f, hr, hd⟩)
  exact ⟨this.1, this.2.1, owned_run h0 hi.2 hx⟩

theorem inv_play (h : Apart K n erc721WrapperExample (Cells S N)) (h0 : ZERO ∈ S) (W : World τ) (D : Decoder) :
    ∀ (l : List (Spec.Outside.Step τ)) {w : Chained Erc721.Event τ} {s : Nfts.State τ} (_ : Agrees K S N w s)
    (_ : ∀ x ∈ l, About K D S N x),
    Agrees K S N (play W K D w l) (Spec.Outside.play (Nfts.run W K D) (fun f s => { s with world := f s.world }) s l)
  | [], _, _, hi, _ => hi
  | x :: l, w, s, hi, hx => by
    refine inv_play h h0 W D l ?_ fun y hy => hx y (List.mem_cons_of_mem _ hy)
    cases x with
    | outside f =>
      obtain ⟨⟨c, h1, rfl, hz⟩, ho⟩ := hi
      exact ⟨⟨c, h1, rfl, hz⟩, ho⟩
    | call caller value input => exact (inv_run h h0 W D hi (tx := ⟨caller, value, input⟩) (hx _ List.mem_cons_self)).2

theorem inv_deploy (h : Apart K n erc721WrapperExample (Cells S N)) (h0 : ZERO ∈ S) (self under : Address) (t : τ) :
    ∃ w, deploy K self under t = some w ∧ Agrees K S N w (Spec.NftBytes.newNfts self under t) := by
  obtain ⟨st, h4, h5, h6⟩ := Chained.assigned (t := erc721WrapperExample) (by decide) h
    [(underlyingCell, under.setWidth 256)] (fresh_agree K _ (Cells S N)) (fun _ _ => rfl) (by
      intro e he
      simp only [List.mem_cons, List.not_mem_nil, or_false] at he
      subst he
      exact .inr rfl)
  have hz := (Props.Constructors.C99_erc721_wrapper K under).trans h4
  have e : deploy K self under t = some { self_ := self, words := st, log := [], world := t } := by
    unfold Constructors.erc721WrapperInit at hz
    rw [Option.bind_some] at hz
    unfold deploy Constructors.erc721WrapperInit
    rw [Option.bind_some, hz]
    rfl
  refine ⟨_, e, ⟨_, h5, ?_, h6⟩, fun _ => h0⟩
  have e1 : widthAt K erc721WrapperExample underlyingCell = 20 := rfl
  show view self (upd (fun _ => 0#256) _ _) [] t = _
  unfold view Spec.NftBytes.newNfts
  rw [upd_same, e1, mask20]
  have hv : Erc721Words.view token (upd (fun _ => 0#256) underlyingCell (under.setWidth 256 &&& mask 20)) [] =
      Erc721Words.view token (fun _ => 0#256) [] := by
    unfold Erc721Words.view
    have q : ∀ q, upd (fun _ => 0#256) underlyingCell (under.setWidth 256 &&& mask 20) (token ++ q) = 0#256 :=
      fun q => upd_ne _ _ (by simp [token, underlyingCell])
    simp only [Erc721Words.owner, Erc721Words.balance, Erc721Words.approved, Erc721Words.operator, q]
  rw [hv]
  rfl

end
end Verif.Proofs.NftWrapperDeployed
