import Verif.Proofs.Backed
import Verif.Spec.WrapperDeployed
/-! # Lemmas: the ERC-20 wrapper on storage words -/

namespace Verif.Proofs.WrapperDeployed
open Verif Verif.Storage Verif.Outside Verif.WrapperDeployed Verif.Spec.WrapperDeployed Verif.Spec.Storage
open Verif.Spec.StoragePrograms Verif.Spec.OnWords
open Verif.OnWords (Chained conclude token within settle Backed)
open Verif.Props.StoragePrograms (uses_bind uses_ite Wide wide)
open Verif.Proofs.Chained (Fits Inv fits_conclude fits_table)
open Verif.Proofs.Deployed (Table UsedBy used_of_uses uses_mono uses_lift)
open Verif.Proofs.OnWords (fresh_agree lefts lefts_append lefts_inl tokenView Under under_token)
open Verif.Proofs.Erc721Words (mask20)
open Verif.Proofs.Backed
open Verif.Abi (Val Decoder Outcome)
open Verif.Spec.Deployed (answer)
open Verif.Spec.Contracts (Raw)

variable {τ : Type}

/-- The state of the wrapper. -/
def view (self : Address) (c : Table) (log : List Ev) (t : τ) : Outside.Wrapper.State τ :=
  { self_ := self, underlying := (c underlyingCell).setWidth 160, decimals := (c decimalsCell).setWidth 8,
    token := tokenView c (lefts log), world := t }

section
variable {w : List Step → Nat} {S : List Address} {self : Address} {c : Table} {log : List Ev} {t : τ}

theorem part : Part (view self) c log t fun u => { view self c log t with token := u } := by
  intro c' ev h
  have e1 : c' underlyingCell = c underlyingCell := h _ (by simp [Under, token, underlyingCell])
  have e2 : c' decimalsCell = c decimalsCell := h _ (by simp [Under, token, decimalsCell])
  unfold view
  rw [e1, e2, lefts_append, lefts_inl]

theorem reads_underlying : Reads w underlying c (.ok (view self c log t).underlying) := rfl

/-- What is reverted with. -/
def sent {σ : Type} (under : Address) : Except Outside.Wrapper.Err σ → Except Revert.Reply σ
  | .error e => .error (Outside.Wrapper.errReply under e)
  | .ok s => .ok s

/-- The outcome of a program that changes the rest of the chain. -/
def Does (w : List Step → Nat) (self under : Address) (log : List Ev) (m : Backed Empty τ) (c : Table) (x : Except Outside.Wrapper.Err (Outside.Wrapper.State τ)) : Prop :=
  sent under x = (onCells w m c).map fun r => view self r.2.1 (log ++ r.2.2) r.1

theorem does_depositFor (hw : Wide w token) (W : World τ) (K : Hash) (caller a : Address) (v : U256) :
    Does w self (view self c log t).underlying log (depositFor W K self t caller a v) c
      (Outside.Wrapper.depositFor W K (view self c log t) caller a v) := by
  unfold Does WrapperDeployed.depositFor Outside.Wrapper.depositFor
  by_cases h1 : caller = self
  · rw [if_pos h1, if_pos (show caller = (view self c log t).self_ from h1)]; rfl
  rw [if_neg h1, if_neg (show ¬ caller = (view self c log t).self_ from h1)]
  by_cases h2 : a = self
  · rw [if_pos h2]
    dsimp only
    rw [if_pos (show a = (view self c log t).self_ from h2)]; rfl
  rw [if_neg h2]
  dsimp only
  rw [if_neg (show ¬ a = (view self c log t).self_ from h2), run_read (reads_underlying (self := self) (log := log) (t := t))]
  generalize hu : (view self c log t).underlying = u
  show _ = (onCells w (Prog.bind (settle _) _) c).map _
  rw [run_read (reads_settle _)]
  simp only [show (view self c log t).world = t from rfl, show (view self c log t).self_ = self from rfl]
  rcases SafeErc20.safeTransferFrom (W.token K t self u) t caller self v with ⟨t', e | _⟩
  · rfl
  show _ = (onCells w (Prog.bind (within (Erc20Words.mint token a v)) _) c).map _
  rcases token_run (G := Empty) (sim_mint hw a v) (under_mint a v) c (lefts log) with
    ⟨e, k1, k2⟩ | ⟨c', ev, k1, k2, k3⟩
  · rw [run_error k1]
    have k2 : Erc20.mint (view self c log t).token a v = .error e := k2
    show sent u (Outside.Wrapper.lift (Verif.Wrapper.liftErc20 (Erc20.mint (view self c log t).token a v)) >>= _) = _
    rw [k2]; rfl
  · rw [run_token k1]
    have k2 : Erc20.mint (view self c log t).token a v = .ok (tokenView c' (lefts log ++ ev)) := k2
    show sent u (Outside.Wrapper.lift (Verif.Wrapper.liftErc20 (Erc20.mint (view self c log t).token a v)) >>= _) = _
    rw [k2]
    show Except.ok _ = Except.ok (view self c' (log ++ (ev.map .inl ++ [])) t')
    have := part (self := self) (c := c) (log := log) (t := t') c' ev k3
    rw [List.append_nil, this, ← hu]
    rfl

theorem does_withdrawTo (hw : Wide w token) (W : World τ) (K : Hash) (caller a : Address) (v : U256) :
    Does w self (view self c log t).underlying log (withdrawTo W K self t caller a v) c
      (Outside.Wrapper.withdrawTo W K (view self c log t) caller a v) := by
  unfold Does WrapperDeployed.withdrawTo Outside.Wrapper.withdrawTo
  by_cases h2 : a = self
  · rw [if_pos h2, if_pos (show a = (view self c log t).self_ from h2)]; rfl
  rw [if_neg h2, if_neg (show ¬ a = (view self c log t).self_ from h2)]
  dsimp only
  rcases token_run (G := Empty) (sim_burn hw caller v) (under_burn caller v) c (lefts log) with
    ⟨e, k1, k2⟩ | ⟨c', ev, k1, k2, k3⟩
  · rw [run_error k1]
    have k2 : Erc20.burnInternal (view self c log t).token caller v = .error e := k2
    rw [k2]; rfl
  · rw [run_token k1]
    have k2 : Erc20.burnInternal (view self c log t).token caller v = .ok (tokenView c' (lefts log ++ ev)) := k2
    have e1 : (c' underlyingCell).setWidth 160 = (view self c log t).underlying :=
      congrArg (BitVec.setWidth 160) (k3 underlyingCell (by simp [Under, token, underlyingCell]))
    rw [k2, run_read (show Reads w underlying c' (.ok ((c' underlyingCell).setWidth 160)) from rfl), e1]
    generalize hu : (view self c log t).underlying = u
    show sent u (settled _ (SafeErc20.safeTransfer (W.token K t self u) t a v) >>= _) =
      ((onCells w (settle (settled (Revert.safeErc20 u) (SafeErc20.safeTransfer (W.token K t self u) t a v))) c').map _).map _
    rcases SafeErc20.safeTransfer (W.token K t self u) t a v with ⟨t', e | _⟩
    · rfl
    · show Except.ok _ = Except.ok (view self c' (log ++ (ev.map .inl ++ [])) t')
      have := part (self := self) (c := c) (log := log) (t := t') c' ev k3
      rw [List.append_nil, this, ← hu]
      rfl

/-! ## The cells that are used -/

theorem uses_settle (x : Except Revert.Reply τ) : Uses (Cells S) (settle (G := Empty) x) := by cases x <;> trivial
theorem uses_underlying : Uses (Cells S) underlying := ⟨.inr (.inl rfl), fun _ => trivial⟩
theorem uses_decimals : Uses (Cells S) decimals := ⟨.inr (.inr rfl), fun _ => trivial⟩
theorem uses_mint {a : Address} (ha : a ∈ S) (v : U256) : Uses (Cells S) (within (G := Empty) (Erc20Words.mint token a v)) :=
  uses_lift _ (uses_mono (fun _ => .inl) _ (Props.StoragePrograms.uses_code (op := (a, .mint a v)) (by simp [named, ha])))
theorem uses_burn {a : Address} (ha : a ∈ S) (v : U256) : Uses (Cells S) (within (G := Empty) (Erc20Words.burnInternal token a v)) :=
  uses_lift _ (uses_mono (fun _ => .inl) _ (Props.StoragePrograms.uses_code (op := (a, .burn v)) (by simp [named, ha])))
theorem uses_depositFor (W : World τ) (K : Hash) {caller a : Address} (ha : a ∈ S) (v : U256) :
    Uses (Cells S) (depositFor W K self t caller a v) :=
  uses_ite trivial (uses_ite trivial (uses_bind uses_underlying fun _ => uses_bind (uses_settle _) fun _ =>
    uses_bind (uses_mint ha v) fun _ => trivial))
theorem uses_withdrawTo (W : World τ) (K : Hash) {caller a : Address} (hc : caller ∈ S) (v : U256) :
    Uses (Cells S) (withdrawTo W K self t caller a v) :=
  uses_ite trivial (uses_bind (uses_burn hc v) fun _ => uses_bind uses_underlying fun _ => uses_settle _)

/-! ## The contract -/

/-- A function that changes the state. -/
theorem fits_go (K : Hash) {m : Backed Empty τ} {x : Except Outside.Wrapper.Err (Outside.Wrapper.State τ)} {u : Address} (h : Does w self u log m c x)
    (hu : Uses (Cells S) m) :
    Fits w (Cells S) (view self) c log (conclude K id (fun t' => ([.bool true], t')) m)
      (Entry.finish K (Outside.Wrapper.errReply u) [.bool true] x) := by
  refine fits_conclude K _ _ (used_of_uses _ _ hu) ?_
  revert h
  unfold Does
  cases onCells w m c with
  | error e =>
    cases x with
    | error e' => intro h; cases h; rfl
    | ok s => intro h; cases h
  | ok r =>
    cases x with
    | error e' => intro h; cases h
    | ok s => intro h; cases h; rfl

theorem fits (hw : Wide w token) (W : World τ) (K : Hash) {caller : Address} (hc : caller ∈ S) (u f : String) {args : List Val}
    (ha : ∀ a, Val.address a ∈ args → a ∈ S) :
    Fits w (Cells S) (view self) c log (program W K caller self t u f args) (Outside.Wrapper.handler W K caller u f args (view self c log t)) := by
  unfold program Outside.Wrapper.handler
  refine fits_table (List.rel_append (List.rel_append (.cons ⟨rfl, rfl, ?_⟩ (.cons ⟨rfl, rfl, ?_⟩ (.cons ⟨rfl, rfl, ?_⟩
    (.cons ⟨rfl, rfl, ?_⟩ .nil)))) (rows_token hw K part hc (fun _ => .inl) ha)) (rows_views (fun _ => .inl) ha))
  · hears fits_ask K (x := .ok _) (reads_underlying (self := self) (log := log) (t := t)) uses_underlying _
  · hears fits_ask K (x := .ok _) (show Reads w decimals c (.ok (view self c log t).decimals) from rfl) uses_decimals _
  · hears fits_go K (does_depositFor hw W K caller _ _) (uses_depositFor W K (ha _ (by simp)) _)
  · hears fits_go K (does_withdrawTo hw W K caller _ _) (uses_withdrawTo W K hc _)

end

theorem wide_token (K : Hash) : Wide (widthAt K erc20WrapperExample) token := wide (b := none) (d := 0) rfl

section
variable {K : Hash} {n : Nat} {S : List Address}

/-- The words and the state agree. -/
abbrev Agrees (K : Hash) (S : List Address) : Chained Ev τ → Outside.Wrapper.State τ → Prop := Inv K erc20WrapperExample (Cells S) view

theorem inv_run (h : Apart K n erc20WrapperExample (Cells S)) (W : World τ) (D : Decoder) {w : Chained Ev τ} {s : Outside.Wrapper.State τ}
    (hi : Agrees K S w s) {tx : Raw Address} (hx : Within K D Router.erc20WrapperExample S tx) :
    answer (run W K D tx.env w tx.value tx.input) = answer (Outside.Wrapper.run W K D tx.env s tx.value tx.input) ∧
    Agrees K S ((run W K D tx.env w tx.value tx.input).after w) ((Outside.Wrapper.run W K D tx.env s tx.value tx.input).after s) := by
  have := Chained.step (by decide) h D Router.erc20WrapperExample (P := program W K tx.env) (H := Outside.Wrapper.handler W K tx.env) hi
    tx.value tx.input fun u f args hr hd _ _ _ => fits (wide_token K) W K hx.sender u f.rustName (hx.addresses args ⟨u, f, hr, hd⟩)
  exact ⟨this.1, this.2.1⟩

theorem inv_play (h : Apart K n erc20WrapperExample (Cells S)) (W : World τ) (D : Decoder) : ∀ (l : List (Spec.Outside.Step τ))
    {w : Chained Ev τ} {s : Outside.Wrapper.State τ} (_ : Agrees K S w s) (_ : ∀ x ∈ l, About K D S x),
    Agrees K S (play W K D w l) (Spec.Outside.play (Outside.Wrapper.run W K D) (fun f s => { s with world := f s.world }) s l)
  | [], _, _, hi, _ => hi
  | x :: l, w, s, hi, hx => by
    refine inv_play h W D l ?_ fun y hy => hx y (List.mem_cons_of_mem _ hy)
    cases x with
    | outside f =>
      obtain ⟨c, h1, rfl, hz⟩ := hi
      exact ⟨c, h1, rfl, hz⟩
    | call caller value input => exact (inv_run h W D hi (tx := ⟨caller, value, input⟩) (hx _ List.mem_cons_self)).2

theorem inv_deploy (h : Apart K n erc20WrapperExample (Cells S)) {self under : Address} {decimals : U8} {t : τ}
    {w : Chained Ev τ} (hd : deploy K self under decimals t = some w) :
    Agrees K S w (Spec.Outside.newWrapper self under decimals t) := by
  have hz := Props.Constructors.C99_erc20_wrapper K self under decimals
  unfold deploy at hd
  obtain ⟨ws, h1, h2⟩ := Option.bind_eq_some_iff.mp hd
  obtain ⟨st, h3, rfl⟩ := Option.map_eq_some_iff.mp h2
  rw [h1, Option.bind_some, h3] at hz
  by_cases h0 : under = self
  · rw [if_pos h0] at hz; cases hz
  rw [if_neg h0] at hz
  obtain ⟨st', h4, h5, h6⟩ := Chained.assigned (t := erc20WrapperExample) (by decide) h
    [(underlyingCell, under.setWidth 256), (decimalsCell, decimals.setWidth 256)] (fresh_agree K _ (Cells S)) (fun _ _ => rfl) (by
      intro e he
      simp only [List.mem_cons, List.not_mem_nil, or_false] at he
      rcases he with rfl | rfl
      · exact .inr (.inl rfl)
      · exact .inr (.inr rfl))
  have hz : some st = some st' := hz.trans h4
  have hz := Option.some.inj hz
  subst hz
  refine ⟨_, h5, ?_, h6⟩
  have e1 : widthAt K erc20WrapperExample underlyingCell = 20 := rfl
  have e2 : widthAt K erc20WrapperExample decimalsCell = 1 := rfl
  have n1 : underlyingCell ≠ decimalsCell := by decide
  show view self (upd (upd (fun _ => 0#256) _ _) _ _) [] t = _
  unfold view Spec.Outside.newWrapper
  rw [upd_same, upd_ne _ _ n1, upd_same, e1, e2, mask20, mask1]
  congr 1

theorem deploys (self under : Address) (decimals : U8) (t : τ) : deploy K self under decimals t = none ↔ under = self := by
  unfold deploy Constructors.erc20WrapperInit
  by_cases e : under = self
  · rw [if_pos e]; exact ⟨fun _ => e, fun _ => rfl⟩
  · rw [if_neg e]; exact ⟨fun h => (nomatch (h : some _ = none)), fun h => absurd h e⟩

end
end Verif.Proofs.WrapperDeployed
