import Verif.Proofs.Backed
import Verif.Spec.FlashDeployed
/-! # Lemmas: the flash-minting token on storage words -/

namespace Verif.Proofs.FlashDeployed
open Verif Verif.Storage Verif.Reenter Verif.FlashDeployed Verif.Spec.FlashDeployed Verif.Spec.Storage
open Verif.Spec.StoragePrograms Verif.Spec.OnWords
open Verif.OnWords (Chained conclude token within Backed onChain)
open Verif.Props.StoragePrograms (uses_bind uses_ite Wide wide)
open Verif.Proofs.Chained (Fits Inv fits_table fits_fail used_frame)
open Verif.Proofs.Deployed (Table UsedBy used_of_uses used_bind uses_mono uses_lift programs_run)
open Verif.Proofs.OnWords (fresh_agree lefts lefts_append lefts_inl tokenView Under under_token)
open Verif.Proofs.Erc721Words (mask20)
open Verif.Proofs.Backed
open Verif.Abi (Val Handler Decoder Outcome)
open Verif.Spec.FlashBytes (Tx Sends)
open Verif.Outside (Flash.State)

variable {τ : Type}

/-- The state of the token. -/
def view (self : Address) (c : Table) (log : List Ev) : Flash.State :=
  { self_ := self, fee := c feeCell, feeReceiver := (c receiverCell).setWidth 160, token := tokenView c (lefts log) }

section
variable {w : List Step → Nat} {S : List Address} {self : Address} {c : Table} {log : List Ev}

theorem frame {c' : Table} (ev : List Erc20.Event) (h : ∀ p, ¬ Under token p → c' p = c p) :
    view self c' (log ++ ev.map .inl) = { view self c log with token := tokenView c' (lefts log ++ ev) } := by
  have e1 : c' feeCell = c feeCell := h _ (by simp [Under, token, feeCell])
  have e2 : c' receiverCell = c receiverCell := h _ (by simp [Under, token, receiverCell])
  unfold view
  rw [e1, e2, lefts_append, lefts_inl]

/-- What a program does to the token inside the contract. -/
def Acts {α : Type} (w : List Step → Nat) (m : Backed Empty α) (c : Table) (l : List Erc20.Event)
    (x : Except FlashMint.Err (α × Erc20.State)) : Prop :=
  (∃ e, onCells w m c = .error (Revert.flashMint e) ∧ x = .error e) ∨
  ∃ a c' ev, onCells w m c = .ok (a, c', ev.map .inl) ∧ x = .ok (a, tokenView c' (l ++ ev)) ∧ ∀ p, ¬ Under token p → c' p = c p

theorem reads_max (W : Others τ) (K : Hash) (t : τ) (a : Address) :
    Reads w (maxFlashLoan self a) c (.ok (FlashMint.maxFlashLoan (Outside.Flash.env W K (view self c log) t) (view self c log).token a)) := by
  unfold maxFlashLoan FlashMint.maxFlashLoan
  by_cases h : a = self
  · rw [if_pos h, if_pos (show a = (Outside.Flash.env W K (view self c log) t).self_ from h)]; rfl
  · rw [if_neg h, if_neg (show ¬ a = (Outside.Flash.env W K (view self c log) t).self_ from h)]; rfl

/-- What is reverted with. -/
def sent {α : Type} : Except FlashMint.Err α → Except Revert.Reply α
  | .error e => .error (Revert.flashMint e)
  | .ok a => .ok a

theorem reads_fee (W : Others τ) (K : Hash) (t : τ) (a : Address) (v : U256) :
    Reads w (flashFee self a) c (sent (FlashMint.flashFee (Outside.Flash.env W K (view self c log) t) a v)) := by
  unfold flashFee FlashMint.flashFee
  by_cases h : a = self
  · rw [if_pos h, if_pos (show a = (Outside.Flash.env W K (view self c log) t).self_ from h)]; rfl
  · rw [if_neg h, if_neg (show ¬ a = (Outside.Flash.env W K (view self c log) t).self_ from h)]; rfl

theorem acts_lend (hw : Wide w token) (W : Others τ) (K : Hash) (t : τ) (r a : Address) (v : U256) :
    Acts w (lend (W.hasCode t) self r a v) c (lefts log)
      (FlashMint.begin_ (Outside.Flash.env W K (view self c log) t) (view self c log).token r a v) := by
  unfold Acts lend FlashMint.begin_
  rw [run_read (reads_max W K t a (log := log))]
  generalize FlashMint.maxFlashLoan (Outside.Flash.env W K (view self c log) t) (view self c log).token a = m
  show (∃ e, onCells w (if m < v then _ else _) c = _ ∧ _) ∨ ∃ a c' ev, onCells w (if m < v then _ else _) c = _ ∧ _
  by_cases h1 : m < v
  · rw [if_pos h1]
    exact .inl ⟨.exceededMaxLoan m, rfl, by simp only [if_pos h1]; rfl⟩
  rw [if_neg h1, run_read (reads_fee W K t a v (log := log))]
  simp only [if_neg h1]
  cases hf : FlashMint.flashFee (Outside.Flash.env W K (view self c log) t) a v with
  | error e => exact .inl ⟨e, rfl, rfl⟩
  | ok fee =>
    show (∃ e, onCells w (if W.hasCode t r = false then _ else _) c = _ ∧ (if W.hasCode t r = false then _ else _) = _) ∨
      ∃ a c' ev, onCells w (if W.hasCode t r = false then _ else _) c = _ ∧ (if W.hasCode t r = false then _ else _) = _ ∧ _
    by_cases h2 : W.hasCode t r = false
    · rw [if_pos h2, if_pos h2]
      exact .inl ⟨.invalidReceiver r, rfl, rfl⟩
    rw [if_neg h2, if_neg h2]
    show (∃ e, _ ∧ (FlashMint.lift (Erc20.mint (view self c log).token r v) >>= _) = _) ∨
      ∃ a c' ev, _ ∧ (FlashMint.lift (Erc20.mint (view self c log).token r v) >>= _) = _ ∧ _
    rcases token_run (G := Empty) (sim_mint hw r v) (under_mint r v) c (lefts log) with ⟨e, k1, k2⟩ | ⟨c', ev, k1, k2, k3⟩
    · refine .inl ⟨.erc20 e, run_error k1 _, ?_⟩
      rw [show Erc20.mint (view self c log).token r v = .error e from k2]; rfl
    · refine .inr ⟨fee, c', ev, ?_, ?_, k3⟩
      · rw [run_token k1]
        show Except.ok (fee, c', ev.map Sum.inl ++ []) = _
        rw [List.append_nil]
      · rw [show Erc20.mint (view self c log).token r v = .ok _ from k2]; rfl

theorem under_spend (o p : Address) (v : U256) : Uses (Under token) (Erc20Words.spendAllowance token o p v) :=
  uses_mono (fun _ => OnWords.accounts_under) _ (Props.StoragePrograms.uses_spend (S := [o, p]) (by simp) (by simp) v)

theorem acts_settle (hw : Wide w token) (W : Others τ) (K : Hash) (t : τ) (r : Address) (v fee : U256) (said : Option B256) :
    Acts w (settleLoan K self r v fee said) c (lefts log)
      ((FlashMint.finish (Outside.Flash.env W K (view self c log) t) (view self c log).token r v fee said).map fun u => ((), u)) := by
  unfold Acts settleLoan FlashMint.finish
  cases said with
  | none => exact .inl ⟨.invalidReceiver r, rfl, rfl⟩
  | some x =>
    dsimp only
    by_cases h1 : x ≠ Outside.Flash.magic K
    · rw [if_pos h1, if_pos (show x ≠ (Outside.Flash.env W K (view self c log) t).magic from h1)]
      exact .inl ⟨.invalidReceiver r, rfl, rfl⟩
    rw [if_neg h1, if_neg (show ¬ x ≠ (Outside.Flash.env W K (view self c log) t).magic from h1)]
    cases h2 : checkedAdd v fee with
    | none => exact .inl ⟨.panic, rfl, rfl⟩
    | some al =>
      dsimp only
      show (∃ e, _ ∧ Except.map _ (FlashMint.lift (Erc20.spendAllowance (view self c log).token r self al) >>= _) = _) ∨
        ∃ a c' ev, _ ∧ Except.map _ (FlashMint.lift (Erc20.spendAllowance (view self c log).token r self al) >>= _) = _ ∧ _
      rcases token_run (G := Empty) (Props.StoragePrograms.sim_spend hw r self al) (under_spend r self al) c (lefts log) with
        ⟨e, k1, k2⟩ | ⟨c1, ev1, k1, k2, k3⟩
      · refine .inl ⟨.erc20 e, run_error k1 _, ?_⟩
        rw [show Erc20.spendAllowance (view self c log).token r self al = .error e from k2]; rfl
      rw [run_token k1, show Erc20.spendAllowance (view self c log).token r self al = .ok _ from k2]
      have e1 : (c1 receiverCell).setWidth 160 = (view self c log).feeReceiver :=
        congrArg (BitVec.setWidth 160) (k3 receiverCell (by simp [Under, token, receiverCell]))
      rw [onCells, e1]
      generalize hfr : (view self c log).feeReceiver = fr
      have e2 : (Outside.Flash.env W K (view self c log) t).feeReceiver = fr := hfr
      simp only [e2]
      show (∃ e, _ ∧ Except.map _ (if fee = 0#256 ∨ fr = ZERO then _ else _) = _) ∨
        ∃ a c' ev, _ ∧ Except.map _ (if fee = 0#256 ∨ fr = ZERO then _ else _) = _ ∧ _
      by_cases h3 : fee = 0#256 ∨ fr = ZERO
      · rw [if_pos h3, if_pos h3]
        rcases token_run (G := Empty) (sim_burn hw r al) (under_burn r al) c1 (lefts log ++ ev1) with
          ⟨e, q1, q2⟩ | ⟨c2, ev2, q1, q2, q3⟩
        · refine .inl ⟨.erc20 e, by rw [q1]; rfl, ?_⟩
          rw [q2]; rfl
        · refine .inr ⟨(), c2, ev1 ++ ev2, ?_, ?_, fun p hp => (q3 p hp).trans (k3 p hp)⟩
          · rw [q1, List.map_append]; rfl
          · rw [q2, List.append_assoc]; rfl
      · rw [if_neg h3, if_neg h3]
        show (∃ e, _ ∧ Except.map _ (FlashMint.lift (Erc20.burnInternal _ r v) >>= _) = _) ∨
          ∃ a c' ev, _ ∧ Except.map _ (FlashMint.lift (Erc20.burnInternal _ r v) >>= _) = _ ∧ _
        rcases token_run (G := Empty) (sim_burn hw r v) (under_burn r v) c1 (lefts log ++ ev1) with
          ⟨e, q1, q2⟩ | ⟨c2, ev2, q1, q2, q3⟩
        · refine .inl ⟨.erc20 e, by rw [run_error q1]; rfl, ?_⟩
          rw [q2]; rfl
        rw [run_token q1]
        rw [q2]
        show (∃ e, _ ∧ Except.map _ (FlashMint.lift (Erc20.transferInternal _ r fr fee)) = _) ∨
          ∃ a c' ev, _ ∧ Except.map _ (FlashMint.lift (Erc20.transferInternal _ r fr fee)) = _ ∧ _
        rcases token_run (G := Empty) (Props.StoragePrograms.sim_code hw (r, .transfer fr fee)) (under_token r (.transfer fr fee)) c2
          (lefts log ++ ev1 ++ ev2) with ⟨e, p1, p2⟩ | ⟨c3, ev3, p1, p2, p3⟩
        · have p2 : Erc20.transferInternal (tokenView c2 (lefts log ++ ev1 ++ ev2)) r fr fee = .error e := p2
          have p1 : onCells w (within (G := Empty) (Erc20Words.transferInternal token r fr fee)) c2 = _ := p1
          refine .inl ⟨.erc20 e, by rw [p1]; rfl, ?_⟩
          rw [p2]; rfl
        · have p2 : Erc20.transferInternal (tokenView c2 (lefts log ++ ev1 ++ ev2)) r fr fee = .ok _ := p2
          have p1 : onCells w (within (G := Empty) (Erc20Words.transferInternal token r fr fee)) c2 = _ := p1
          refine .inr ⟨(), c3, ev1 ++ ev2 ++ ev3, ?_, ?_, fun p hp => ((p3 p hp).trans (q3 p hp)).trans (k3 p hp)⟩
          · rw [p1, List.map_append, List.map_append]
            show Except.ok ((), c3, ev1.map Sum.inl ++ (ev2.map Sum.inl ++ ev3.map Sum.inl)) = _
            rw [List.append_assoc]
          · rw [p2]
            show Except.ok ((), tokenView c3 _) = Except.ok ((), tokenView c3 _)
            simp only [List.append_assoc]

/-! ## The cells that are used -/

theorem uses_max (a : Address) : Uses (Cells S) (maxFlashLoan self a) := uses_ite ⟨.inl (.inl rfl), fun _ => trivial⟩ trivial
theorem uses_fee (a : Address) : Uses (Cells S) (flashFee self a) := uses_ite ⟨.inr (.inl rfl), fun _ => trivial⟩ trivial
theorem uses_mint {a : Address} (ha : a ∈ S) (v : U256) : Uses (Cells S) (within (G := Empty) (Erc20Words.mint token a v)) :=
  uses_lift _ (uses_mono (fun _ => .inl) _ (Props.StoragePrograms.uses_code (op := (a, .mint a v)) (by simp [named, ha])))
theorem uses_burn {a : Address} (ha : a ∈ S) (v : U256) : Uses (Cells S) (within (G := Empty) (Erc20Words.burnInternal token a v)) :=
  uses_lift _ (uses_mono (fun _ => .inl) _ (Props.StoragePrograms.uses_code (op := (a, .burn v)) (by simp [named, ha])))
theorem uses_transfer {a b : Address} (ha : a ∈ S) (hb : b ∈ S) (v : U256) :
    Uses (Cells S) (within (G := Empty) (Erc20Words.transferInternal token a b v)) :=
  uses_lift _ (uses_mono (fun _ => .inl) _ (Props.StoragePrograms.uses_code (op := (a, .transfer b v)) (by simp [named, ha, hb])))
theorem uses_spend {o p : Address} (ho : o ∈ S) (hp : p ∈ S) (v : U256) :
    Uses (Cells S) (within (G := Empty) (Erc20Words.spendAllowance token o p v)) :=
  uses_lift _ (uses_mono (fun _ => .inl) _ (Props.StoragePrograms.uses_spend ho hp v))
theorem uses_lend (hasCode : Address → Bool) {r : Address} (hr : r ∈ S) (a : Address) (v : U256) :
    Uses (Cells S) (lend hasCode self r a v) :=
  uses_bind (uses_max a) fun _ => uses_ite trivial (uses_bind (uses_fee a) fun _ => uses_ite trivial
    (uses_bind (uses_mint hr v) fun _ => trivial))

theorem used_settle (hw : Wide w token) (K : Hash) {r : Address} (hr : r ∈ S) (hs : self ∈ S)
    (hf : (c receiverCell).setWidth 160 ∈ S) (v fee : U256) (said : Option B256) :
    UsedBy w (Cells S) (settleLoan K self r v fee said) c := by
  unfold settleLoan
  cases said with
  | none => trivial
  | some x =>
    dsimp only
    split
    · trivial
    cases checkedAdd v fee with
    | none => trivial
    | some al =>
      dsimp only
      refine used_bind (used_of_uses _ _ (uses_spend hr hs al)) fun q hq => ⟨.inr (.inr rfl), ?_⟩
      rcases token_run (G := Empty) (Props.StoragePrograms.sim_spend hw r self al) (under_spend r self al) c [] with
        ⟨e, k1, _⟩ | ⟨c1, ev1, k1, _, k3⟩
      · rw [k1] at hq; cases hq
      · rw [k1] at hq
        cases hq
        refine used_of_uses _ _ (uses_ite (uses_burn hr al) (uses_bind (uses_burn hr v) fun _ => uses_transfer hr ?_ fee))
        show BitVec.setWidth 160 (c1 receiverCell) ∈ S
        rw [k3 receiverCell (by simp [Under, token, receiverCell])]
        exact hf

/-! ## The contract -/

/-- The cells that the functions use that call nobody. -/
def Core (S : List Address) (p : List Step) : Prop := Accounts token S p ∨ p = feeCell

theorem core {p : List Step} (h : Core S p) : Cells S p := h.imp_right .inl

theorem used_mono {E V α : Type} {C C' : List Step → Prop} (h : ∀ p, C p → C' p) : ∀ (m : Prog E V α) {c : Table} (_ : UsedBy w C m c),
    UsedBy w C' m c
  | .ret _, _, _ => trivial
  | .fail _, _, _ => trivial
  | .get p k, c, hu => ⟨h _ hu.1, used_mono h (k (c p)) hu.2⟩
  | .set _ _ k, _, hu => ⟨h _ hu.1, used_mono h k hu.2⟩
  | .emit _ k, _, hu => used_mono h k hu

theorem part (t : τ) : Part (fun c log (_ : Unit) => (view self c log, t)) c log () (Outside.Flash.put (view self c log, t)) :=
  fun _ ev h => congrArg (fun s => (s, t)) (frame ev h)

theorem dispatch_skip {σ : Type} {u f : String} {args : List Val} (l : List (String × String × (List Val → Except (Option Bytes) (σ × List Val))))
    (r : String × String × (List Val → Except (Option Bytes) (σ × List Val)))
    (l' : List (String × String × (List Val → Except (Option Bytes) (σ × List Val)))) (h : ¬ (r.1 = u ∧ r.2.1 = f)) :
    Entry.dispatch u f args (l ++ r :: l') = Entry.dispatch u f args (l ++ l') := by
  unfold Entry.dispatch
  have : (decide (r.1 = u) && decide (r.2.1 = f)) = false := by
    rw [← Bool.decide_and, decide_eq_false h]
  rw [List.find?_append, List.find?_append, List.find?_cons, this]

theorem fits_fee (W : Others τ) (K : Hash) (t : τ) (a : Address) (v : U256) :
    Fits w (Core S) (fun c log (_ : Unit) => (view self c log, t)) c log (conclude K id (fun v => ([.uint256 v], ())) (flashFee self a))
      (Contracts.view K Revert.flashMint (view self c log, t) (Contracts.one .uint256
        (FlashMint.flashFee (Outside.Flash.env W K (view self c log) t) a v))) := by
  have hr := reads_fee (w := w) (c := c) (log := log) (self := self) W K t a v
  revert hr
  cases FlashMint.flashFee (Outside.Flash.env W K (view self c log) t) a v with
  | error e => exact fun hr => fits_ask (t := ()) K hr (uses_ite ⟨.inr rfl, fun _ => trivial⟩ trivial) (fun v => [Val.uint256 v])
  | ok v => exact fun hr => fits_ask (t := ()) K hr (uses_ite ⟨.inr rfl, fun _ => trivial⟩ trivial) (fun v => [Val.uint256 v])

theorem fits (hw : Wide w token) (W : Others τ) (K : Hash) (D : Decoder) (inner : Flash.State → Program τ → Outcome (Flash.State × τ)) (t : τ)
    {caller : Address} (hc : caller ∈ S) {u f : String} (hne : ¬ (u = "Erc20FlashMintExample" ∧ f = "flash_loan")) {args : List Val}
    (ha : ∀ a, Val.address a ∈ args → a ∈ S) :
    Fits w (Core S) (fun c log (_ : Unit) => (view self c log, t)) c log (program K caller self () u f args)
      (Outside.Flash.handler W K D inner caller u f args (view self c log, t)) := by
  unfold program Outside.Flash.handler
  dsimp only
  have skip : ∀ (a b x d : String × String × (List Val → Except (Option Bytes) ((Flash.State × τ) × List Val))) l l',
      ¬ (x.1 = u ∧ x.2.1 = f) → Entry.dispatch u f args ([a, b, x, d] ++ l ++ l') = Entry.dispatch u f args ([a, b, d] ++ l ++ l') :=
    fun a b x d l l' h => dispatch_skip [a, b] x (d :: l ++ l') h
  rw [skip _ _ _ _ _ _ (fun h => hne ⟨h.1.symm, h.2.symm⟩)]
  refine fits_table (List.rel_append (List.rel_append (.cons ⟨rfl, rfl, ?_⟩ (.cons ⟨rfl, rfl, ?_⟩ (.cons ⟨rfl, rfl, ?_⟩
    .nil))) (rows_token hw K (part t) hc (fun _ => .inl) ha)) (rows_views (fun _ => .inl) ha))
  · hears fits_ask K (x := .ok _) (reads_max W K t _) (uses_ite ⟨.inl (.inl rfl), fun _ => trivial⟩ trivial) _
  · hears fits_fee W K t _ _
  · hears fits_token hw K (part t) caller (.mint _ _) (uses_mono (fun _ => .inl) _ (Props.StoragePrograms.uses_code (op := (caller, .mint _ _)) (by simp_all [named]))) _

end

theorem wide_token (K : Hash) : Wide (widthAt K erc20FlashMintExample) token := wide (b := none) (d := 0) rfl

/-- The words and the state agree. -/
abbrev Agrees (K : Hash) (S : List Address) : Lender → Flash.State → Prop :=
  Inv K erc20FlashMintExample (Cells S) fun self c log (_ : Unit) => view self c log

/-- The same with the rest of the chain; the contract and the receiver of fees take part. -/
structure Both (K : Hash) (S : List Address) (w : Lender × τ) (s : Flash.State × τ) : Prop where
  agrees : Agrees K S w.1 s.1
  world : w.2 = s.2
  self_ : s.1.self_ ∈ S
  receiver : s.1.feeReceiver ∈ S

/-- The same outcome. -/
def Same (K : Hash) (S : List Address) : Outcome (Lender × τ) → Outcome (Flash.State × τ) → Prop
  | .returned w d, .returned s d' => d = d' ∧ Both K S w s
  | .reverted d, .reverted d' => d = d'
  | _, _ => False

/-- The same result of a function. -/
def Equal (K : Hash) (S : List Address) : Except (Option Bytes) ((Lender × τ) × List Val) →
    Except (Option Bytes) ((Flash.State × τ) × List Val) → Prop
  | .ok x, .ok y => x.2 = y.2 ∧ Both K S x.1 y.1
  | .error e, .error e' => e = e'
  | _, _ => False

section
variable {K : Hash} {n : Nat} {S : List Address}

theorem same_entry (D : Decoder) (router : Router.Contract) {P : Handler (Lender × τ)} {H : Handler (Flash.State × τ)} {w : Lender × τ}
    {s : Flash.State × τ} (value : U256) (input : Bytes)
    (hrow : ∀ u f args, router.route K (Abi.selectorOf input) = some (u, f) → D.read (Abi.flat f.args) (input.drop 4) = some args →
      Equal K S (P u f.rustName args w) (H u f.rustName args s)) :
    Same K S (Abi.entry K D router P w value input) (Abi.entry K D router H s value input) := by
  unfold Abi.entry
  split
  · exact rfl
  split
  · exact rfl
  cases hr : router.route K (Abi.selectorOf input) with
  | none => exact rfl
  | some r =>
    obtain ⟨u, f⟩ := r
    dsimp only
    cases hd : D.read (Abi.flat f.args) (input.drop 4) with
    | none => exact rfl
    | some args =>
      dsimp only
      have := hrow u f args hr hd
      revert this
      cases P u f.rustName args w with
      | error e =>
        cases H u f.rustName args s with
        | error e' => intro h; cases h; exact rfl
        | ok y => exact fun h => h.elim
      | ok x =>
        cases H u f.rustName args s with
        | error e' => exact fun h => h.elim
        | ok y => exact fun h => ⟨congrArg Abi.encode h.1, h.2⟩

theorem same_play {run : Address → Lender × τ → U256 → Bytes → Outcome (Lender × τ)}
    {run' : Address → Flash.State × τ → U256 → Bytes → Outcome (Flash.State × τ)} {p : Address → U256 → Bytes → Prop}
    (hrun : ∀ caller w s value input, Both K S w s → p caller value input → Same K S (run caller w value input) (run' caller s value input)) :
    ∀ (prog : Program τ) {k : Lender} {s : Flash.State} (_ : Agrees K S k s) (_ : s.self_ ∈ S) (_ : s.feeReceiver ∈ S) (_ : Sends p prog),
      Same K S (play run k prog) (play run' s prog)
  | .stop t d, k, s, hi, h1, h2, _ => ⟨rfl, hi, rfl, h1, h2⟩
  | .fail d, _, _, _, _, _, _ => rfl
  | .call t c v i next, k, s, hi, h1, h2, hs => by
    have := hrun c (k, t) (s, t) v i ⟨hi, rfl, h1, h2⟩ hs.1
    unfold play
    revert this
    cases run c (k, t) v i with
    | reverted d =>
      cases run' c (s, t) v i with
      | reverted d' => intro h; cases h; exact same_play hrun (next false d t) hi h1 h2 (hs.2 _ _ _)
      | returned y d' => exact fun h => h.elim
    | returned x d =>
      cases run' c (s, t) v i with
      | reverted d' => exact fun h => h.elim
      | returned y d' =>
        rintro ⟨rfl, hb⟩
        obtain ⟨k', t'⟩ := x
        obtain ⟨s', t2⟩ := y
        have e : t' = t2 := hb.world
        subst e
        exact same_play hrun (next true d t') hb.agrees hb.self_ hb.receiver (hs.2 _ _ _)
  | .attempt t body next, k, s, hi, h1, h2, hs => by
    have := same_play hrun body hi h1 h2 hs.1
    unfold play
    revert this
    cases play run k body with
    | reverted d =>
      cases play run' s body with
      | reverted d' => intro h; cases h; exact same_play hrun (next false d t) hi h1 h2 (hs.2 _ _ _)
      | returned y d' => exact fun h => h.elim
    | returned x d =>
      cases play run' s body with
      | reverted d' => exact fun h => h.elim
      | returned y d' =>
        rintro ⟨rfl, hb⟩
        obtain ⟨k', t'⟩ := x
        obtain ⟨s', t2⟩ := y
        have e : t' = t2 := hb.world
        subst e
        exact same_play hrun (next true d t') hb.agrees hb.self_ hb.receiver (hs.2 _ _ _)

/-- A program on the words. -/
theorem on_run {α : Type} (h : Apart K n erc20FlashMintExample (Cells S)) {m : Backed Empty α} {k : Lender} {c : Table}
    (hag : Agree K erc20FlashMintExample (Cells S) k.words c) (hz : ∀ p, ¬ Cells S p → c p = 0#256)
    (hu : UsedBy (widthAt K erc20FlashMintExample) (Cells S) m c) :
    (∀ e, onCells (widthAt K erc20FlashMintExample) m c = .error e → on K m k = .error e) ∧
    ∀ a c' ev, onCells (widthAt K erc20FlashMintExample) m c = .ok (a, c', ev) →
      ∃ k', on K m k = .ok (a, k') ∧ Agrees K S k' (view k.self_ c' (k.log ++ ev)) := by
  have hrun := programs_run h.bound (by decide) h.separate _ hu hag
  unfold on
  revert hrun
  cases m.onWords K erc20FlashMintExample k.words with
  | error e =>
    cases onCells (widthAt K erc20FlashMintExample) m c with
    | error e' => intro h; cases h; exact ⟨fun _ h => by cases h; rfl, fun _ _ _ h => by cases h⟩
    | ok r => exact fun h => h.elim
  | ok r =>
    cases hc : onCells (widthAt K erc20FlashMintExample) m c with
    | error e' => exact fun h => h.elim
    | ok r' =>
      rintro ⟨e1, e2, e3⟩
      refine ⟨fun _ h => (by cases h), fun a c' ev h => ?_⟩
      cases h
      refine ⟨_, by rw [Except.map, e1], c', e3, ?_, fun p hp => (used_frame _ hu hc hp).trans (hz p hp)⟩
      show view k.self_ c' (k.log ++ r.2.2) = _
      rw [e2]

/-- After the call of the borrower. -/
theorem same_rest (h : Apart K n erc20FlashMintExample (Cells S)) (W : Others τ) (D : Decoder) {r : Address} (hr : r ∈ S) (v fee : U256)
    (o : Outcome (Lender × τ)) (o' : Outcome (Flash.State × τ)) :
    Same K S o o' → Equal K S (Entry.finish K id [.bool true] (match o with
      | .reverted _ => .error (.error ⟨"ERC3156InvalidReceiver", [.address r]⟩)
      | .returned (k, t) d =>
        (on K (settleLoan K k.self_ r v fee (Calls.flashReply D (.returned () d))) k).map fun r => (r.2, t)))
      (Entry.finish K Revert.flashMint [.bool true] (match o' with
      | .returned (k, t) d => do
        let u ← FlashMint.finish (Outside.Flash.env W K k t) k.token r v fee (Calls.flashReply D (.returned () d))
        return ({ k with token := u }, t)
      | .reverted _ => .error (.invalidReceiver r))) := by
  cases o with
  | reverted d =>
    cases o' with
    | reverted d' => exact fun _ => rfl
    | returned y d' => exact fun h => h.elim
  | returned x d =>
    cases o' with
    | reverted d' => exact fun h => h.elim
    | returned y d' =>
      rintro ⟨rfl, hb⟩
      obtain ⟨k2, t2⟩ := x
      obtain ⟨s2, t3⟩ := y
      obtain ⟨⟨c2, hag, hv, hz⟩, ht, hself, hfr⟩ := hb
      dsimp only at hag hv ht hself hfr
      subst ht
      subst hv
      dsimp only
      obtain ⟨o1, o2⟩ := on_run h hag hz (used_settle (self := k2.self_) (wide_token K) K hr hself hfr v fee (Calls.flashReply D (.returned () d)))
      rcases acts_settle (c := c2) (log := k2.log) (self := k2.self_) (wide_token K) W K t2 r v fee (Calls.flashReply D (.returned () d)) with
        ⟨e, b1, b2⟩ | ⟨_, c3, ev, b1, b2, b3⟩
      · rw [o1 _ b1]
        revert b2
        cases FlashMint.finish (Outside.Flash.env W K (view k2.self_ c2 k2.log) t2) (view k2.self_ c2 k2.log).token r v fee
          (Calls.flashReply D (.returned () d)) with
        | ok u => intro b2; cases b2
        | error e' => intro b2; cases b2; exact rfl
      · obtain ⟨k3, b4, b5⟩ := o2 _ _ _ b1
        rw [b4]
        rw [frame ev b3] at b5
        revert b2
        cases FlashMint.finish (Outside.Flash.env W K (view k2.self_ c2 k2.log) t2) (view k2.self_ c2 k2.log).token r v fee
          (Calls.flashReply D (.returned () d)) with
        | error e' => intro b2; cases b2
        | ok u =>
          intro b2
          injection b2 with b2
          injection b2 with _ b2
          subst b2
          exact ⟨rfl, b5, rfl, hself, hfr⟩

theorem same_loan (h : Apart K n erc20FlashMintExample (Cells S)) (W : Others τ) (D : Decoder) (hW : Among W K D S)
    {inner : Lender → Program τ → Outcome (Lender × τ)} {inner' : Flash.State → Program τ → Outcome (Flash.State × τ)}
    (hinner : ∀ (prog : Program τ) {k : Lender} {s : Flash.State} (_ : Agrees K S k s) (_ : s.self_ ∈ S) (_ : s.feeReceiver ∈ S)
      (_ : Sends (About K D S) prog), Same K S (inner k prog) (inner' s prog)) {w : Lender × τ} {s : Flash.State × τ} (hb : Both K S w s)
    (caller : Address) {r : Address} (hr : r ∈ S) (a : Address) (v : U256) (data : Bytes) :
    Equal K S (Entry.finish K id [.bool true] (flashLoan W K D inner w caller r a v data))
      (Entry.finish K Revert.flashMint [.bool true] (Outside.Flash.flashLoan W K D inner' s caller r a v data)) := by
  obtain ⟨k, t⟩ := w
  obtain ⟨s, t2⟩ := s
  obtain ⟨⟨c, hag, hv, hz⟩, ht, hself, hfr⟩ := hb
  dsimp only at hag hv ht hself hfr
  subst ht
  subst hv
  unfold flashLoan Outside.Flash.flashLoan
  dsimp only
  obtain ⟨o1, o2⟩ := on_run h hag hz (used_of_uses _ _ (uses_lend (self := k.self_) (W.hasCode t) hr a v))
  rcases acts_lend (c := c) (log := k.log) (self := k.self_) (wide_token K) W K t r a v with ⟨e, b1, b2⟩ | ⟨fee, c1, ev, b1, b2, b3⟩
  · rw [o1 _ b1, b2]; exact rfl
  obtain ⟨k1, b4, b5⟩ := o2 _ _ _ b1
  rw [b4, b2]
  rw [frame ev b3] at b5
  exact same_rest h W D hr v fee _ _ (hinner (W.react t k.self_ r ((Calls.Message.onFlashLoan caller a v fee data).bytes K)) b5 hself hfr
    (hW _ _ _ _))

theorem same_handler (h : Apart K n erc20FlashMintExample (Cells S)) (W : Others τ) (D : Decoder) (hW : Among W K D S)
    {inner : Lender → Program τ → Outcome (Lender × τ)} {inner' : Flash.State → Program τ → Outcome (Flash.State × τ)}
    (hinner : ∀ (prog : Program τ) {k : Lender} {s : Flash.State} (_ : Agrees K S k s) (_ : s.self_ ∈ S) (_ : s.feeReceiver ∈ S)
      (_ : Sends (About K D S) prog), Same K S (inner k prog) (inner' s prog)) {w : Lender × τ} {s : Flash.State × τ} (hb : Both K S w s)
    {caller : Address} (hc : caller ∈ S) (u f : String) {args : List Val} (ha : ∀ a, Val.address a ∈ args → a ∈ S) :
    Equal K S (handler W K D inner caller u f args w) (Outside.Flash.handler W K D inner' caller u f args s) := by
  unfold handler
  by_cases hne : u = "Erc20FlashMintExample" ∧ f = "flash_loan"
  · rw [if_pos hne]
    obtain ⟨rfl, rfl⟩ := hne
    show Equal K S _ ((fun args => match args with
      | [.address r, .address a, .uint256 v, .bytes data] =>
        Entry.finish K Revert.flashMint [.bool true] (Outside.Flash.flashLoan W K D inner' s caller r a v data)
      | _ => .error none : List Val → Except (Option Bytes) ((Flash.State × τ) × List Val)) args)
    dsimp only
    split
    · exact same_loan h W D hW hinner hb caller (ha _ (by simp)) _ _ _
    · next hno =>
      split
      · exact absurd rfl (hno _ _ _ _)
      · exact rfl
  · rw [if_neg hne]
    obtain ⟨k, t⟩ := w
    obtain ⟨s, t2⟩ := s
    obtain ⟨⟨c, hag, hv, hz⟩, ht, hself, hfr⟩ := hb
    dsimp only at hag hv ht hself hfr
    subst ht
    subst hv
    obtain ⟨hu, hrow⟩ := fits (c := c) (log := k.log) (self := k.self_) (wide_token K) W K D inner' t hc hne ha
    rw [hrow]
    have hrun := programs_run h.bound (by decide) h.separate _ (used_mono (fun _ => core) _ hu) hag
    unfold onChain
    revert hrun
    cases k.world
    cases (program K caller k.self_ () u f args).onWords K erc20FlashMintExample k.words with
    | error e =>
      cases onCells (widthAt K erc20FlashMintExample) (program K caller k.self_ () u f args) c with
      | ok r => exact fun h => h.elim
      | error e' => exact fun h => h
    | ok r =>
      cases hc : onCells (widthAt K erc20FlashMintExample) (program K caller k.self_ () u f args) c with
      | error e => exact fun h => h.elim
      | ok r' =>
        rintro ⟨e4, e5, e6⟩
        have hf : ∀ p, ¬ Core S p → r'.2.1 p = c p := fun p hp => used_frame _ hu hc hp
        refine ⟨congrArg Prod.fst e4, ⟨r'.2.1, e6, ?_, fun p hp => (hf p fun hq => hp (core hq)).trans (hz p hp)⟩, rfl, hself, ?_⟩
        · show view k.self_ r'.2.1 (k.log ++ r.2.2) = view k.self_ r'.2.1 (k.log ++ r'.2.2)
          rw [e5]
        · show (r'.2.1 receiverCell).setWidth 160 ∈ S
          rw [hf receiverCell (by
            rintro ((h | ⟨b, hb, h⟩ | ⟨b, _, d, _, h⟩) | h)
            · simp [receiverCell, Erc20Words.supply, token] at h
            · simp [receiverCell, Erc20Words.balance, token] at h
            · simp [receiverCell, Erc20Words.allowance, token] at h
            · revert h; decide)]
          exact hfr

/-- The contract, at any depth. -/
theorem same_run (h : Apart K n erc20FlashMintExample (Cells S)) (W : Others τ) (D : Decoder) (hW : Among W K D S) :
    ∀ (m : Nat) (caller : Address) (w : Lender × τ) (s : Flash.State × τ) (value : U256) (input : Bytes),
      Both K S w s → About K D S caller value input → Same K S (run W K D m caller w value input) (Outside.Flash.run W K D m caller s value input)
  | 0, _, _, _, _, _ => fun _ _ => rfl
  | m + 1, _, _, _, value, input => fun hb hx =>
    same_entry D Router.erc20FlashMintExample value input fun u f args hr hd =>
      same_handler h W D hW (fun prog {_ _} hi h1 h2 hs => same_play (fun c w s v i hb hp => same_run h W D hW m c w s v i hb hp) prog hi h1 h2 hs)
        hb hx.sender u f.rustName (hx.addresses args ⟨u, f, hr, hd⟩)

theorem both_after {o : Outcome (Lender × τ)} {o' : Outcome (Flash.State × τ)} (h : Same K S o o') {w : Lender × τ} {s : Flash.State × τ}
    (hb : Both K S w s) : Both K S (o.after w) (o'.after s) := by
  cases o <;> cases o'
  · exact h.2
  · exact h.elim
  · exact h.elim
  · exact hb

theorem same_after (h : Apart Spec.Keccak.keccak256 n erc20FlashMintExample (Cells S)) (W : Others τ) (D : Decoder)
    (hW : Among W Spec.Keccak.keccak256 D S) : ∀ (l : List (Tx τ)) {w : Lender × τ} {s : Flash.State × τ}
    (_ : Both Spec.Keccak.keccak256 S w s) (_ : ∀ x ∈ l, About Spec.Keccak.keccak256 D S x.sender x.value x.input),
    Both Spec.Keccak.keccak256 S (after W Spec.Keccak.keccak256 D w l) (Spec.FlashBytes.after W D s l)
  | [], _, _, hb, _ => hb
  | x :: l, w, s, hb, hx => by
    refine same_after h W D hW l ?_ fun y hy => hx y (List.mem_cons_of_mem _ hy)
    have hb' : Both Spec.Keccak.keccak256 S (w.1, x.meanwhile w.2) (s.1, x.meanwhile s.2) := ⟨hb.agrees, congrArg _ hb.world, hb.self_, hb.receiver⟩
    exact both_after (same_run h W D hW x.depth x.sender _ _ x.value x.input hb' (hx x List.mem_cons_self)) hb'

theorem both_deploy (h : Apart K n erc20FlashMintExample (Cells S)) {self receiver : Address} (hs : self ∈ S) (hr : receiver ∈ S)
    {fee : U256} {w : Lender} (hd : deploy K self receiver fee = some w) (t : τ) :
    Both K S (w, t) (Spec.FlashBytes.newToken self fee receiver, t) := by
  have hz := Props.Constructors.C99_flash_mint K receiver fee
  unfold deploy at hd
  obtain ⟨ws, h1, h2⟩ := Option.bind_eq_some_iff.mp hd
  obtain ⟨st, h3, rfl⟩ := Option.map_eq_some_iff.mp h2
  rw [h1, Option.bind_some, h3] at hz
  obtain ⟨st', h4, h5, h6⟩ := Chained.assigned (t := erc20FlashMintExample) (by decide) h
    [(receiverCell, receiver.setWidth 256), (feeCell, fee)] (fresh_agree K _ (Cells S)) (fun _ _ => rfl) (by
      intro e he
      simp only [List.mem_cons, List.not_mem_nil, or_false] at he
      rcases he with rfl | rfl
      · exact .inr (.inr rfl)
      · exact .inr (.inl rfl))
  have hz : some st = some st' := hz.trans h4
  have hz := Option.some.inj hz
  subst hz
  refine ⟨⟨_, h5, ?_, h6⟩, rfl, hs, hr⟩
  have e1 : widthAt K erc20FlashMintExample receiverCell = 20 := rfl
  have e2 : widthAt K erc20FlashMintExample feeCell = 32 := rfl
  have n1 : receiverCell ≠ feeCell := by decide
  show view self (upd (upd (fun _ => 0#256) _ _) _ _) [] = _
  unfold view Spec.FlashBytes.newToken
  rw [upd_same, upd_ne _ _ n1, upd_same, e1, e2, mask20, Verif.Proofs.Erc721Words.mask32]
  congr 1

theorem deploys (self receiver : Address) (fee : U256) : ∃ w, deploy K self receiver fee = some w := ⟨_, rfl⟩

end
end Verif.Proofs.FlashDeployed
