import Verif.Spec.BasicDeployed
import Verif.Proofs.VaultDeployed
/-! # Lemmas: the deployed `examples/basic/token` -/

namespace Verif.Proofs.BasicDeployed
open Verif Verif.Storage Verif.BasicDeployed Verif.Spec.BasicDeployed Verif.Spec.Storage
open Verif.Spec.StoragePrograms Verif.Spec.OnWords
open Verif.OnWords (token)
open Verif.Props.StoragePrograms (Wide wide)
open Verif.Proofs.OnWords
open Verif.Proofs.Deployed (Table UsedBy used_of_uses uses_mono used_bind)
open Verif.Proofs.Erc721Words (Sim unit)
open Verif.Proofs.VaultDeployed (Meta texts holds_texts beside beside_entry fold_final)
open Verif.Abi (Val Decoder Outcome)
open Verif.Spec.Deployed (answer)
open Verif.Spec.Contracts (Raw after)

/-- The texts and the token a table stands for. -/
def view (c : Table) (log : List Ev) : Table × Erc20.State := (texts c, tokenView c log)

/-- The texts are those of the constructor, and only the given accounts have anything. -/
structure Kept (S : List Address) (name symbol : List Char) (s : Table × Erc20.State) : Prop where
  name : Deployed.Holds s.1 nameCell (Logs.utf8 name)
  symbol : Deployed.Holds s.1 symbolCell (Logs.utf8 symbol)
  others : ∀ a, a ∉ S → s.2.balances a = 0#256

section
variable {w : List Step → Nat} {S : List Address} {name symbol : List Char} {c : Table} {log : List Ev}

theorem sim_call (hw : Wide w token) (caller : Address) (call : Erc20.Call) :
    Sim w view (Erc20Words.code token caller call) (unit fun s => (Erc20.exec s.2 (caller, call)).map fun t => (s.1, t)) := by
  intro c log
  have h : (Erc20.exec (tokenView c log) (caller, call)).map (fun s' => ((), s')) = _ := sim_token hw caller call c log
  show ((Erc20.exec (tokenView c log) (caller, call)).map fun t => (texts c, t)).map (fun s' => ((), s')) = _
  cases hm : onCells w (Erc20Words.code token caller call) c with
  | error e =>
    rw [hm] at h
    cases hx : Erc20.exec (tokenView c log) (caller, call) with
    | error e' => rw [hx] at h; injection h with h; rw [h]; rfl
    | ok s => rw [hx] at h; cases h
  | ok r =>
    rw [hm] at h
    have ht : texts r.2.1 = texts c := by
      funext p
      unfold texts
      split
      · next hp =>
        refine Deployed.onCells_frame _ (under_token caller call) hm fun hu => ?_
        obtain ⟨q, rfl⟩ := hu
        simp [Meta, token] at hp
      · rfl
    cases hx : Erc20.exec (tokenView c log) (caller, call) with
    | error e' => rw [hx] at h; cases h
    | ok s =>
      rw [hx] at h
      have hs : s = tokenView r.2.1 (log ++ r.2.2) := congrArg Prod.snd (Except.ok.inj h)
      show Except.ok ((), (texts c, s)) = Except.ok ((), (texts r.2.1, tokenView r.2.1 (log ++ r.2.2)))
      rw [ht, ← hs]

/-- The balances of others stay. -/
theorem others_stay (hw : Wide w token) {caller : Address} {call : Erc20.Call} {t : Erc20.State}
    (h : Erc20.exec (tokenView c log) (caller, call) = .ok t) {a : Address} (ha : a ∉ named (caller, call)) :
    t.balances a = (tokenView c log).balances a := by
  have hs : (Erc20.exec (tokenView c log) (caller, call)).map (fun s' => ((), s')) = _ := sim_token hw caller call c log
  cases hm : onCells w (Erc20Words.code token caller call) c with
  | error e => rw [hm, h] at hs; cases hs
  | ok r =>
    rw [hm, h] at hs
    rw [show t = tokenView r.2.1 (log ++ r.2.2) from congrArg Prod.snd (Except.ok.inj hs)]
    refine Deployed.onCells_frame _ (Props.StoragePrograms.uses_code (op := (caller, call)) fun _ h => h) hm ?_
    rintro (h | ⟨b, hb, h⟩ | ⟨b, _, d, _, h⟩)
    · exact Props.StoragePrograms.balance_ne_supply h
    · exact ha (Props.StoragePrograms.balance_inj h ▸ hb)
    · exact Props.StoragePrograms.balance_ne_allowance h

theorem fits_op (hw : Wide w token) (K : Hash) {caller : Address} {call : Erc20.Call} (hn : ∀ a ∈ named (caller, call), a ∈ S) (r : List Val)
    (hk : Kept S name symbol (view c log)) :
    Fits w (Cells S name symbol) view (Kept S name symbol) c log
      (OnWords.finish K Revert.erc20 (fun _ => r) (Erc20Words.code token caller call))
      ((Entry.finish K Revert.erc20 r (Erc20.exec (tokenView c log) (caller, call))).map fun x => ((texts c, x.1), x.2)) := by
  have h := fits_call (C := Cells S name symbol) (Good := Kept S name symbol) (log := log) K Revert.erc20 (sim_call hw caller call)
    (used_of_uses _ c (uses_mono (fun _ => .inl) _ (Props.StoragePrograms.uses_code (op := (caller, call)) hn)))
    (fun s' e => by
      cases hx : Erc20.exec (view c log).2 (caller, call) with
      | error e' => rw [hx] at e; cases e
      | ok t => rw [hx] at e; cases e; exact ⟨hk.name, hk.symbol, fun a ha => (others_stay hw hx fun h => ha (hn a h)).trans (hk.others a ha)⟩) r
  revert h
  show Fits _ _ _ _ _ _ _ (Entry.finish K Revert.erc20 r ((Erc20.exec (tokenView c log) (caller, call)).map _)) → _
  cases Erc20.exec (tokenView c log) (caller, call) <;> exact fun h => h

theorem fits_text {p : List Step} {s : List Char} (hk : Kept S name symbol (view c log)) (h : Deployed.Holds c p (Logs.utf8 s))
    (hb : (Logs.utf8 s).length < 2 ^ 255)
    (hS : ∀ q ∈ (Constructors.text p (Logs.utf8 s)).map Prod.fst, Cells S name symbol q) (U : Verif.Deployed.Utf8) :
    Fits w (Cells S name symbol) view (Kept S name symbol) c log ((stringBytes p).bind fun b => .ret [.string (U.read b)])
      (.ok (view c log, [.string s])) := by
  obtain ⟨h1, h2⟩ := Deployed.string_run (E := Option Bytes) (V := Ev) h hb w hS
  refine ⟨used_bind h2 fun _ _ => trivial, ?_⟩
  rw [Props.StoragePrograms.onCells_bind, h1]
  refine ⟨?_, (congrArg (view c) (List.append_nil log)).symm, hk⟩
  show [Val.string s] = [Val.string (U.read (Logs.utf8 s))]
  rw [U.valid]

theorem fits_beside {t f : String} {args : List Val} {T : Table} {l : List (OnWords.Row Ev)}
    {l' : List (String × String × (List Val → Except (Option Bytes) (Erc20.State × List Val)))}
    (h : List.Forall₂ (fun r r' => r.1 = r'.1 ∧ r.2.1 = r'.2.1 ∧ Fits w (Cells S name symbol) view (Kept S name symbol) c log (r.2.2 args)
      ((r'.2.2 args).map fun x => ((T, x.1), x.2))) l l') :
    Fits w (Cells S name symbol) view (Kept S name symbol) c log (OnWords.dispatch t f args l)
      ((Entry.dispatch t f args l').map fun x => ((T, x.1), x.2)) := by
  unfold OnWords.dispatch Entry.dispatch
  induction h with
  | nil => exact fits_fail
  | cons h _ ih =>
    obtain ⟨h1, h2, h3⟩ := h
    rw [List.find?_cons, List.find?_cons, h1, h2]
    cases decide (_ = t) && decide (_ = f) with
    | true => exact h3
    | false => exact ih

theorem fits (hw : Wide w token) (K : Hash) (U : Verif.Deployed.Utf8) (h2 : (Logs.utf8 name).length < 2 ^ 255)
    (h4 : (Logs.utf8 symbol).length < 2 ^ 255) (hk : Kept S name symbol (view c log)) {caller : Address} (hc : caller ∈ S) (t f : String)
    {args : List Val} (ha : ∀ a, Val.address a ∈ args → a ∈ S) :
    Fits w (Cells S name symbol) view (Kept S name symbol) c log (program K U caller t f args)
      (beside (Entry.basicToken K ⟨name, symbol⟩ caller) t f args (view c log)) := by
  have r : ∀ {call : Erc20.Call} (_ : ∀ a ∈ named (caller, call), a ∈ S) (r : List Val), Fits w (Cells S name symbol) view (Kept S name symbol) c log
      (OnWords.finish K Revert.erc20 (fun _ => r) (Erc20Words.code token caller call))
      ((Entry.finish K Revert.erc20 r (Erc20.exec (tokenView c log) (caller, call))).map fun x => ((texts c, x.1), x.2)) :=
    fun hn r => fits_op hw K hn r hk
  have q : ∀ {p : List Step} (_ : Cells S name symbol p), Fits w (Cells S name symbol) view (Kept S name symbol) c log
      (.get p fun v => .ret [.uint256 v]) (.ok (view c log, [.uint256 (c p)])) := fun hp => fits_get hk hp fun v => [.uint256 v]
  have hT : ∀ p, Meta p → c p = texts c p := fun p hp => by unfold texts; rw [if_pos hp]
  unfold program beside Entry.basicToken
  refine fits_beside (.cons ⟨rfl, rfl, ?_⟩ (.cons ⟨rfl, rfl, ?_⟩ (.cons ⟨rfl, rfl, ?_⟩ (.cons ⟨rfl, rfl, ?_⟩ (.cons ⟨rfl, rfl, ?_⟩
    (.cons ⟨rfl, rfl, ?_⟩ (.cons ⟨rfl, rfl, ?_⟩ (.cons ⟨rfl, rfl, ?_⟩ (.cons ⟨rfl, rfl, ?_⟩ (.cons ⟨rfl, rfl, ?_⟩ .nil))))))))))
  · takes r (by simp_all [named]) _
  · takes q (.inl (.inl rfl))
  · takes q (.inl (.inr (.inl ⟨_, ha _ (by simp), rfl⟩)))
  · takes r (by simp_all [named]) _
  · takes q (.inl (.inr (.inr ⟨_, ha _ (by simp), _, ha _ (by simp), rfl⟩)))
  · takes r (by simp_all [named]) _
  · takes r (by simp_all [named]) _
  · takes fits_text hk (holds_texts hT (by decide) hk.name) h2 (fun _ h => .inr (.inl h)) U
  · takes fits_text hk (holds_texts hT (by decide) hk.symbol) h4 (fun _ h => .inr (.inr h)) U
  · takes (⟨trivial, rfl, (congrArg (view c) (List.append_nil log)).symm, hk⟩ : Fits w (Cells S name symbol) view (Kept S name symbol) c log
      (.ret [.uint8 18#8]) (.ok (view c log, [.uint8 18#8])))

end

theorem wide_token (K : Hash) : Wide (widthAt K basicToken) token := wide (b := none) (d := 0) rfl

section
variable {K : Hash} {n : Nat} {S : List Address} {name symbol : List Char}

/-- The words and the state agree. -/
def Agrees (K : Hash) (S : List Address) (name symbol : List Char) (w : OnWords.State Ev) (s : Erc20.State) : Prop :=
  ∃ T, Inv K basicToken (Cells S name symbol) view (Kept S name symbol) w (T, s)

theorem agrees_log {w : OnWords.State Ev} {s : Erc20.State} (h : Agrees K S name symbol w s) : w.log = s.log := by
  obtain ⟨T, _, c, _, hv⟩ := h
  cases hv
  rfl

theorem agrees_others {w : OnWords.State Ev} {s : Erc20.State} (h : Agrees K S name symbol w s) {a : Address} (ha : a ∉ S) :
    s.balances a = 0#256 := by
  obtain ⟨T, hk, _⟩ := h
  exact hk.others a ha

theorem inv_step (h : Setting K n S name symbol) (D : Decoder) (U : Verif.Deployed.Utf8) {w : OnWords.State Ev} {s : Erc20.State}
    (hi : Agrees K S name symbol w s) {tx : Raw Address} (hx : Within K D Router.basicToken S tx) :
    answer (entry K D U tx.env w tx.value tx.input) = answer (Entry.basicTokenEntry K D ⟨name, symbol⟩ tx.env s tx.value tx.input) ∧
    Agrees K S name symbol ((entry K D U tx.env w tx.value tx.input).after w)
      ((Entry.basicTokenEntry K D ⟨name, symbol⟩ tx.env s tx.value tx.input).after s) := by
  obtain ⟨T, hi⟩ := hi
  obtain ⟨e1, e2⟩ := beside_entry K D Router.basicToken (Entry.basicToken K ⟨name, symbol⟩ tx.env) (T, s) tx.value tx.input
  have := step (P := program K U tx.env) (H := beside (Entry.basicToken K ⟨name, symbol⟩ tx.env)) (by decide) h.apart D Router.basicToken hi
    tx.value tx.input fun u f args hr hd c log hk =>
      fits (wide_token K) K U h.shortName h.shortSymbol hk hx.sender u f.rustName (hx.addresses args ⟨u, f, hr, hd⟩)
  refine ⟨this.1.trans e1, T, ?_⟩
  have := this.2
  rw [e2] at this
  exact this

theorem inv_run (h : Setting K n S name symbol) (D : Decoder) (U : Verif.Deployed.Utf8) (txs : List (Raw Address)) {w : OnWords.State Ev}
    {s : Erc20.State} (hi : Agrees K S name symbol w s) (hx : ∀ tx ∈ txs, Within K D Router.basicToken S tx) :
    Agrees K S name symbol (after (entry K D U) w txs) (after (Entry.basicTokenEntry K D ⟨name, symbol⟩) s txs) :=
  steps (run := entry K D U) (run' := Entry.basicTokenEntry K D ⟨name, symbol⟩) (I := Agrees K S name symbol)
    (ok := Within K D Router.basicToken S) (fun _ _ _ hi hx => (inv_step h D U hi hx).2) txs hi hx

theorem deploys (h : Apart K n basicToken (Cells S name symbol)) :
    ∃ w, deploy K name symbol = some w ∧ Agrees K S name symbol w Erc20.init := by
  generalize hA : Constructors.text nameCell (Logs.utf8 name) ++ Constructors.text symbolCell (Logs.utf8 symbol) = A
  have mA : ∀ e ∈ A, Meta e.1 ∧ Cells S name symbol e.1 ∧ widthAt K basicToken e.1 = 32 := by
    intro e he
    rw [← hA] at he
    rcases List.mem_append.mp he with he | he
    · have hc : Cells S name symbol e.1 := .inr (.inl (List.mem_map_of_mem he))
      rcases Constructors.text_mem he with e1 | ⟨i, hi, e1⟩ <;> rw [e1] at hc ⊢ <;> exact ⟨rfl, hc, rfl⟩
    · have hc : Cells S name symbol e.1 := .inr (.inr (List.mem_map_of_mem he))
      rcases Constructors.text_mem he with e1 | ⟨i, hi, e1⟩ <;> rw [e1] at hc ⊢ <;> exact ⟨rfl, hc, rfl⟩
  obtain ⟨st, h1, h5, _⟩ := Chained.assigned (t := basicToken) (by decide) h A
    (fresh_agree K _ (Cells S name symbol)) (fun _ _ => rfl) (fun e he => (mA e he).2.1)
  have hz := Props.Constructors.C99_basic_token K (Logs.utf8 name) (Logs.utf8 symbol)
  have e : deploy K name symbol = some { words := st, log := [] } := by
    rw [← hA] at h1
    have hz := hz.trans h1
    unfold Constructors.basicTokenInit at hz
    rw [Option.bind_some] at hz
    unfold deploy Constructors.basicTokenInit
    rw [Option.bind_some, hz]
    rfl
  have hf := fold_final (w := widthAt K basicToken) A (fun _ => 0#256) fun e he => (mA e he).2.2
  generalize A.foldl (fun c e => upd c e.1 (e.2 &&& mask (widthAt K basicToken e.1))) (fun _ => 0#256) = cA at hf h5
  have away : ∀ {p q : List Step} {bs : Bytes} (_ : ∀ r, ¬ p <+: q ++ r), ∀ e ∈ Constructors.text p bs, e.1 ≠ q ∧ ∀ i, e.1 ≠ q ++ [.index i] :=
    fun hd e he => ⟨Texts.text_under (by have := hd []; rwa [List.append_nil] at this) e he, fun i => Texts.text_under (hd _) e he⟩
  have t1 : Deployed.Holds cA nameCell (Logs.utf8 name) := by
    refine Texts.holds_final (c := fun _ => 0#256) (a := []) (b := Constructors.text symbolCell (Logs.utf8 symbol)) (fun q => ?_)
      (away (by simp [symbolCell, nameCell]))
    rw [List.nil_append, hA]; exact hf q
  have t2 : Deployed.Holds cA symbolCell (Logs.utf8 symbol) := by
    refine Texts.holds_final (c := fun _ => 0#256) (a := Constructors.text nameCell (Logs.utf8 name)) (b := []) (fun q => ?_) (by simp)
    rw [List.append_nil, hA]; exact hf q
  have z : ∀ p, Under token p → cA p = 0#256 := by
    rintro p ⟨q, rfl⟩
    exact Option.some.inj ((hf _).trans (Constructors.final_none fun e he e1 => by
      have := (mA e he).1
      rw [e1] at this
      simp [Meta, token] at this))
  have hs : tokenView cA [] = Erc20.init := by
    unfold tokenView Props.StoragePrograms.view Erc20.init
    congr 1
    · funext a; exact z _ ⟨_, rfl⟩
    · funext a b; exact z _ ⟨_, rfl⟩
    · exact z _ ⟨_, rfl⟩
  have hT : ∀ p, Meta p → texts cA p = cA p := fun p hp => by unfold texts; rw [if_pos hp]
  exact ⟨_, e, texts cA, ⟨holds_texts hT (by decide) t1, holds_texts hT (by decide) t2, fun _ _ => rfl⟩, cA, h5, by rw [← hs]; rfl⟩

end
end Verif.Proofs.BasicDeployed
