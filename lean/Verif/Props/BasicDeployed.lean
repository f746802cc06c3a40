import Verif.Proofs.BasicDeployed
import Verif.Props.GatesDeployed
import Verif.Props.ContractsErc20
import Verif.Props.Erc20History
import Verif.Proofs.Separate
import Verif.Proofs.Outside
/-!
# C125: `examples/basic/token` as deployed: constructor, calldata, storage words

Nothing of the other models is left in the statements but the contract on words (`Verif.Model.BasicDeployed`), except that
`C125_answers` compares it with the contract of C103.  `S` are the accounts that take part.  Of them it is asked that the hash values of
their storage cells do not coincide (`Setting`), as in C98, C104 and C115.
-/
namespace Verif.Props.BasicDeployed
open Verif Verif.Storage Verif.BasicDeployed Verif.Spec.BasicDeployed Verif.Spec.OnWords
open Verif.Proofs.BasicDeployed Verif.Props.OnWords
open Verif.OnWords (State)
open Verif.Deployed (Utf8)
open Verif.Abi (Val Decoder Outcome)
open Verif.Spec.Keccak (keccak256)
open Verif.Spec.Contracts (Raw after message values Says)
open Verif.Props.Contracts.BasicTokenContract (abi Op mem results)

/-- What an account gets to know that asks a question: the bytes of the answer, `none` if it is refused. -/
abbrev ask (D : Decoder) (U : Utf8) := Spec.Contracts.answer (entry keccak256 D U)

/-- A number that is answered. -/
abbrev Tells (D : Decoder) (U : Utf8) (asker : Address) (w : State Ev) (sg : String) (args : List Val) (x : U256) : Prop :=
  ask D U asker w sg args = some (values [.uint256 x])

/-- The transaction is about accounts of `S`. -/
abbrev About (D : Decoder) (S : List Address) (tx : Raw Address) : Prop := Within keccak256 D Router.basicToken S tx

/-- **C125** Deployment succeeds, whatever the two strings. -/
theorem C125_deploy (K : Hash) (name symbol : List Char) : ∃ w, deploy K name symbol = some w := by
  have all : ∀ (ws : List (Constructors.Path × U256)) (st : Words), (∀ w ∈ ws, ∃ l, cell K basicToken w.1 = some l) →
      ∃ st', Constructors.assign K basicToken ws st = some st' := by
    intro ws
    induction ws with
    | nil => exact fun st _ => ⟨st, rfl⟩
    | cons w ws ih =>
      intro st hw
      obtain ⟨l, hl⟩ := hw w List.mem_cons_self
      rw [Constructors.assign, hl]
      exact ih _ fun w h => hw w (List.mem_cons_of_mem _ h)
  have str : ∀ (q : List Step) (d : Nat), cell K basicToken q = some ⟨none, d, 0, .string⟩ →
      ∀ bs, ∀ w ∈ Constructors.text q bs, ∃ l, cell K basicToken w.1 = some l := by
    intro q d hq bs w hw
    rcases Proofs.Constructors.text_mem hw with e | ⟨i, _, e⟩
    · rw [e]; exact ⟨_, hq⟩
    · rw [e]; exact ⟨_, Proofs.Constructors.cell_index hq rfl i⟩
  obtain ⟨st, hst⟩ := all (Constructors.text nameCell (Logs.utf8 name) ++ Constructors.text symbolCell (Logs.utf8 symbol))
    Constructors.fresh (by
      intro w hw
      rcases List.mem_append.mp hw with hw | hw
      · exact str nameCell 3 rfl _ w hw
      · exact str symbolCell 4 rfl _ w hw)
  obtain ⟨ws, h1, h2⟩ := Option.bind_eq_some_iff.mp
    ((Props.Constructors.C99_basic_token K (Logs.utf8 name) (Logs.utf8 symbol)).trans hst)
  exact ⟨_, by unfold deploy; rw [h1, Option.bind_some, h2]; rfl⟩

theorem start {K : Hash} {n : Nat} {S : List Address} {name symbol : List Char} (h : Setting K n S name symbol) {w : State Ev}
    (hd : deploy K name symbol = some w) : Agrees K S name symbol w Erc20.init := by
  obtain ⟨w', h1, h2⟩ := deploys h.apart
  rw [hd] at h1
  cases h1
  exact h2

/-- **C125** Bytes in, bytes out, with nothing between but words of storage: after any list of transactions, a transaction is
answered with the same bytes as by the contract with independent balances and allowances that C103 is about, and the events are the
same. -/
theorem C125_answers {K : Hash} {n : Nat} {S : List Address} {name symbol : List Char} (h : Setting K n S name symbol) {w : State Ev}
    (hd : deploy K name symbol = some w) (D : Decoder) (U : Utf8) (txs : List (Raw Address)) (tx : Raw Address)
    (hx : ∀ tx' ∈ txs ++ [tx], Within K D Router.basicToken S tx') :
    let run := Entry.basicTokenEntry K D ⟨name, symbol⟩
    let s := after run Erc20.init txs
    let w' := after (entry K D U) w txs
    Spec.Deployed.answer (entry K D U tx.env w' tx.value tx.input) = Spec.Deployed.answer (run tx.env s tx.value tx.input) ∧
    w'.log = s.log := by
  intro run s w'
  have hi := inv_run h D U txs (start h hd) fun tx' h => hx tx' (List.mem_append_left _ h)
  exact ⟨(inv_step h D U hi (hx tx (List.mem_append_right _ (by simp)))).1, agrees_log hi⟩

section
variable {n : Nat} {S : List Address} {name symbol : List Char} {w : State Ev} {D : Decoder} {U : Utf8}

set_option maxRecDepth 100000 in
/-- **C125** A call of a function that changes the state is about its sender and the addresses among its arguments. -/
theorem C125_call_within {caller : Address} (hc : caller ∈ S) (op : Op) (value : U256) (ha : ∀ a, Val.address a ∈ (abi op).2 → a ∈ S) :
    About D S ⟨caller, value, message (abi op).1 (abi op).2⟩ := by
  cases op <;> exact within mem (by simp [abi, Spec.Router.basicToken]) rfl rfl
    (Proofs.Contracts.words_lt _ _ (by simp [abi, Spec.Contracts.arg]) (by simp [abi])) hc ha

set_option maxRecDepth 100000 in
theorem question_within {asker a b : Address} (hc : asker ∈ S) (ha : a ∈ S) (hb : b ∈ S) :
    About D S ⟨asker, 0#256, message "totalSupply()" []⟩ ∧
    About D S ⟨asker, 0#256, message "balanceOf(address)" [.address a]⟩ ∧
    About D S ⟨asker, 0#256, message "allowance(address,address)" [.address a, .address b]⟩ ∧
    About D S ⟨asker, 0#256, message "name()" []⟩ ∧
    About D S ⟨asker, 0#256, message "symbol()" []⟩ ∧
    About D S ⟨asker, 0#256, message "decimals()" []⟩ := by
  refine ⟨?_, ?_, ?_, ?_, ?_, ?_⟩ <;> exact within mem (by simp [Spec.Router.basicToken]) rfl rfl
    (Proofs.Contracts.words_lt _ _ (by simp [Spec.Contracts.arg]) (by simp)) hc (by simp_all)

/-- What the questions answer. -/
theorem asks (h : Setting keccak256 n S name symbol) {s : Erc20.State} (hi : Agrees keccak256 S name symbol w s) {asker a b : Address}
    (hc : asker ∈ S) (ha : a ∈ S) (hb : b ∈ S) :
    Tells D U asker w "totalSupply()" [] s.totalSupply ∧
    Tells D U asker w "balanceOf(address)" [.address a] (s.balances a) ∧
    Tells D U asker w "allowance(address,address)" [.address a, .address b] (s.allowances a b) ∧
    ask D U asker w "name()" [] = some (values [.string name]) ∧
    ask D U asker w "symbol()" [] = some (values [.string symbol]) ∧
    ask D U asker w "decimals()" [] = some (values [.uint8 18#8]) := by
  obtain ⟨q1, q2, q3, q4, q5, q6⟩ := question_within (D := D) hc ha hb
  obtain ⟨v1, v2, v3, v4, v5, v6⟩ := Contracts.BasicTokenContract.C103_basic_token_views D ⟨name, symbol⟩ asker s a b
  have go : ∀ {sg : String} {args r : List Val}, About D S ⟨asker, 0#256, message sg args⟩ →
      Contracts.BasicTokenContract.run D ⟨name, symbol⟩ asker s 0#256 (message sg args) = .returned s (values r) →
      ask D U asker w sg args = some (values r) :=
    fun q v => (reply_of_answer (inv_step h D U hi q).1).trans (congrArg Outcome.reply v)
  exact ⟨go q1 v1, go q2 v2, go q3 v3, go q4 v4, go q5 v5, go q6 v6⟩

theorem told {asker : Address} {sg : String} {args : List Val} {x y : U256} (h : Tells D U asker w sg args x)
    (h' : Tells D U asker w sg args y) : x = y := Proofs.Contracts.uint256_inj (Option.some.inj (h.symm.trans h'))

theorem same {asker : Address} {sg : String} {args : List Val} {x y : U256} (h : Tells D U asker w sg args x) (e : x = y) :
    Tells D U asker w sg args y := e ▸ h

/-- What a call of a function that changes the state does. -/
theorem calls (h : Setting keccak256 n S name symbol) {s : Erc20.State} (hi : Agrees keccak256 S name symbol w s) {caller : Address}
    (hc : caller ∈ S) (op : Op) (ha : ∀ a, Val.address a ∈ (abi op).2 → a ∈ S) :
    let out := entry keccak256 D U caller w 0#256 (message (abi op).1 (abi op).2)
    ((∃ w2 d, out = .returned w2 d) ↔ ∃ s', Erc20.exec s (caller, op.call) = .ok s') ∧
    ∀ w2 d, out = .returned w2 d → ∃ s', Erc20.exec s (caller, op.call) = .ok s' ∧ d = values (results op) ∧
      Agrees keccak256 S name symbol w2 s' := by
  intro out
  have hl : (message (abi op).1 (abi op).2).length < 2 ^ 256 := by
    cases op <;> exact Proofs.Contracts.words_lt _ _ (by simp [abi, Spec.Contracts.arg]) (by simp [abi])
  obtain ⟨h1, h2⟩ := inv_step h D U hi (C125_call_within hc op 0#256 ha)
  have e := Contracts.BasicTokenContract.C103_basic_token_call D ⟨name, symbol⟩ caller s op hl
  have e : Entry.basicTokenEntry keccak256 D ⟨name, symbol⟩ caller s 0#256 (message (abi op).1 (abi op).2) = _ := e
  dsimp only at h1 h2
  rw [e] at h1 h2
  unfold Contracts.BasicTokenContract.exec at h1 h2
  change Spec.Deployed.answer out = _ at h1
  change Agrees _ _ _ _ (out.after w) _ at h2
  cases hx : Erc20.exec s (caller, op.call) with
  | error er =>
    rw [hx] at h1
    have no : ∀ w2 d, out ≠ .returned w2 d := fun w2 d ho => by rw [ho] at h1; cases h1
    exact ⟨⟨fun ⟨w2, d, ho⟩ => absurd ho (no w2 d), fun ⟨_, h⟩ => by cases h⟩, fun w2 d ho => absurd ho (no w2 d)⟩
  | ok s' =>
    rw [hx] at h1 h2
    cases ho : out with
    | reverted d => rw [ho] at h1; cases h1
    | returned w2 d =>
      rw [ho] at h1 h2
      refine ⟨⟨fun _ => ⟨s', rfl⟩, fun _ => ⟨w2, d, rfl⟩⟩, fun w3 d' e => ?_⟩
      cases e
      exact ⟨s', rfl, Except.ok.inj h1, h2⟩

theorem reachable (name symbol : List Char) (txs : List (Raw Address)) :
    Spec.Erc20.Reachable (after (Entry.basicTokenEntry keccak256 D ⟨name, symbol⟩) Erc20.init txs) := by
  obtain ⟨l, hl, _⟩ := Contracts.BasicTokenContract.C103_basic_token_history D ⟨name, symbol⟩ Erc20.init txs
  exact ⟨_, hl⟩

/-- **C125** With bytes only: right after the deployment there are no tokens and no allowances; and after any list of transactions
`name` and `symbol` answer the strings given to the constructor, however long they are, and `decimals` answers 18. -/
theorem C125_start (h : Setting keccak256 n S name symbol) (hd : deploy keccak256 name symbol = some w) {asker a b : Address}
    (hc : asker ∈ S) (ha : a ∈ S) (hb : b ∈ S) :
    Tells D U asker w "totalSupply()" [] 0#256 ∧ Tells D U asker w "balanceOf(address)" [.address a] 0#256 ∧
    Tells D U asker w "allowance(address,address)" [.address a, .address b] 0#256 ∧
    ∀ txs, (∀ tx ∈ txs, About D S tx) →
      let w' := after (entry keccak256 D U) w txs
      ask D U asker w' "name()" [] = some (values [.string name]) ∧
      ask D U asker w' "symbol()" [] = some (values [.string symbol]) ∧
      ask D U asker w' "decimals()" [] = some (values [.uint8 18#8]) := by
  obtain ⟨h1, h2, h3, _⟩ := asks (D := D) (U := U) h (start h hd) hc ha hb
  exact ⟨h1, h2, h3, fun txs hx => (asks (D := D) (U := U) h (inv_run h D U txs (start h hd) hx) hc ha hb).2.2.2⟩

/-- **C125** With bytes only: after any list of transactions between the accounts, what `balanceOf` answers for them adds up to what
`totalSupply` answers. -/
theorem C125_supply (h : Setting keccak256 n S name symbol) (hS : S.Nodup) (hd : deploy keccak256 name symbol = some w)
    {txs : List (Raw Address)} (hx : ∀ tx ∈ txs, About D S tx) {asker : Address} (hc : asker ∈ S) :
    let w' := after (entry keccak256 D U) w txs
    ∃ (total : U256) (balance : Address → U256), Tells D U asker w' "totalSupply()" [] total ∧
      (∀ a ∈ S, Tells D U asker w' "balanceOf(address)" [.address a] (balance a)) ∧
      (S.map fun a => (balance a).toNat).sum = total.toNat := by
  intro w'
  have hi := inv_run h D U txs (start h hd) hx
  refine ⟨_, _, (asks h hi hc hc hc).1, fun a ha => (asks h hi hc ha hc).2.1, ?_⟩
  have hs := Props.reachable_sumOk (reachable (D := D) name symbol txs)
  rw [← List.sum_toFinset _ hS]
  refine (Finset.sum_subset (Finset.subset_univ _) fun a _ hna => ?_).trans hs
  rw [agrees_others hi fun h => hna (List.mem_toFinset.mpr h)]
  rfl

/-- **C125** With bytes only: after any list of transactions, `transfer(dst, v)` goes through exactly if neither the sender nor `dst` is
the zero address and the sender has `v`, as answered.  Then it answers true, `v` fewer are answered for the sender and `v` more for
`dst`, the other answers stay, and there is one event about it. -/
theorem C125_transfer (h : Setting keccak256 n S name symbol) (hd : deploy keccak256 name symbol = some w) {txs : List (Raw Address)}
    (hx : ∀ tx ∈ txs, About D S tx) {asker caller dst : Address} (hc : asker ∈ S) (hcal : caller ∈ S) (hdst : dst ∈ S) (v : U256) {has : U256} :
    let w' := after (entry keccak256 D U) w txs
    let out := entry keccak256 D U caller w' 0#256 (message "transfer(address,uint256)" [.address dst, .uint256 v])
    Tells D U asker w' "balanceOf(address)" [.address caller] has →
    ((∃ w2 d, out = .returned w2 d) ↔ caller ≠ ZERO ∧ dst ≠ ZERO ∧ v.toNat ≤ has.toNat) ∧
    ∀ w2 d, out = .returned w2 d →
      d = values [.bool true] ∧ w2.log = w'.log ++ [.transfer caller dst v] ∧
      (∀ x, Tells D U asker w' "totalSupply()" [] x → Tells D U asker w2 "totalSupply()" [] x) ∧
      (∀ a ∈ S, ∀ x, Tells D U asker w' "balanceOf(address)" [.address a] x → ∃ x' : U256,
        Tells D U asker w2 "balanceOf(address)" [.address a] x' ∧
        x'.toNat + (if a = caller then v.toNat else 0) = x.toNat + (if a = dst then v.toNat else 0)) ∧
      ∀ a ∈ S, ∀ b ∈ S, ∀ x, Tells D U asker w' "allowance(address,address)" [.address a, .address b] x →
        Tells D U asker w2 "allowance(address,address)" [.address a, .address b] x := by
  intro w' out ht
  have hi := inv_run h D U txs (start h hd) hx
  obtain ⟨h1, h2⟩ := calls (D := D) (U := U) h hi hcal (.transfer dst v) (by simp [abi, hdst])
  have e := told ht (asks h hi hc hcal hc).2.1
  refine ⟨h1.trans ?_, fun w2 d ho => ?_⟩
  · rw [e]; exact Props.C02_transfer_succeeds_iff _ caller dst v
  · obtain ⟨s', c1, c2, hi2⟩ := h2 w2 d ho
    obtain ⟨e1, e2, e3, e4⟩ := Props.C02_transfer_effect (reachable (D := D) name symbol txs) c1
    refine ⟨c2, by rw [agrees_log hi2, e4, agrees_log hi], fun x hxx => ?_, fun a ha x hxx => ?_, fun a ha b hb x hxx => ?_⟩
    · rw [told hxx (asks h hi hc hc hc).1]; exact same (asks h hi2 hc hc hc).1 (e3)
    · rw [told hxx (asks h hi hc ha hc).2.1]; exact ⟨_, (asks h hi2 hc ha hc).2.1, e1 a⟩
    · rw [told hxx (asks h hi hc ha hb).2.2.1]; exact same (asks h hi2 hc ha hb).2.2.1 (e2 a b)

/-- **C125** With bytes only: after any list of transactions, `transferFrom(src, dst, v)` by an account other than zero goes through
exactly if neither `src` nor `dst` is the zero address, `src` has `v`, and the sender may spend `v` of it, as answered.  Then it answers
true, the balances answered move by `v`, the allowance answered falls by `v` unless it is unlimited, the other answers stay, and there is
one event about it. -/
theorem C125_transferFrom (h : Setting keccak256 n S name symbol) (hd : deploy keccak256 name symbol = some w) {txs : List (Raw Address)}
    (hx : ∀ tx ∈ txs, About D S tx) {asker caller src dst : Address} (hc : asker ∈ S) (hcal : caller ∈ S) (h0 : caller ≠ ZERO) (hsrc : src ∈ S)
    (hdst : dst ∈ S) (v : U256) {has may : U256} :
    let w' := after (entry keccak256 D U) w txs
    let out := entry keccak256 D U caller w' 0#256
      (message "transferFrom(address,address,uint256)" [.address src, .address dst, .uint256 v])
    Tells D U asker w' "balanceOf(address)" [.address src] has →
    Tells D U asker w' "allowance(address,address)" [.address src, .address caller] may →
    ((∃ w2 d, out = .returned w2 d) ↔ src ≠ ZERO ∧ dst ≠ ZERO ∧ v.toNat ≤ may.toNat ∧ v.toNat ≤ has.toNat) ∧
    ∀ w2 d, out = .returned w2 d →
      d = values [.bool true] ∧ w2.log = w'.log ++ [.transfer src dst v] ∧
      (∀ x, Tells D U asker w' "totalSupply()" [] x → Tells D U asker w2 "totalSupply()" [] x) ∧
      (∀ a ∈ S, ∀ x, Tells D U asker w' "balanceOf(address)" [.address a] x → ∃ x' : U256,
        Tells D U asker w2 "balanceOf(address)" [.address a] x' ∧
        x'.toNat + (if a = src then v.toNat else 0) = x.toNat + (if a = dst then v.toNat else 0)) ∧
      ∀ a ∈ S, ∀ b ∈ S, ∀ x, Tells D U asker w' "allowance(address,address)" [.address a, .address b] x → ∃ x' : U256,
        Tells D U asker w2 "allowance(address,address)" [.address a, .address b] x' ∧
        x'.toNat = if a = src ∧ b = caller ∧ x ≠ maxU256 then x.toNat - v.toNat else x.toNat := by
  intro w' out ht hm
  have hi := inv_run h D U txs (start h hd) hx
  obtain ⟨h1, h2⟩ := calls (D := D) (U := U) h hi hcal (.transferFrom src dst v) (by simp [abi, hsrc, hdst])
  have e := told ht (asks h hi hc hsrc hc).2.1
  have e' := told hm (asks h hi hc hsrc hcal).2.2.1
  refine ⟨h1.trans ?_, fun w2 d ho => ?_⟩
  · rw [e, e']; exact Props.C03_transferFrom_succeeds_iff _ h0 src dst v
  · obtain ⟨s', c1, c2, hi2⟩ := h2 w2 d ho
    obtain ⟨e1, e2, e3, e4⟩ := Props.C03_transferFrom_effect (reachable (D := D) name symbol txs) c1
    refine ⟨c2, by rw [agrees_log hi2, e4, agrees_log hi], fun x hxx => ?_, fun a ha x hxx => ?_, fun a ha b hb x hxx => ?_⟩
    · rw [told hxx (asks h hi hc hc hc).1]; exact same (asks h hi2 hc hc hc).1 (e3)
    · rw [told hxx (asks h hi hc ha hc).2.1]; exact ⟨_, (asks h hi2 hc ha hc).2.1, e1 a⟩
    · rw [told hxx (asks h hi hc ha hb).2.2.1]; exact ⟨_, (asks h hi2 hc ha hb).2.2.1, e2 a b⟩

/-- **C125** With bytes only: after any list of transactions, `approve(p, v)` goes through exactly if neither the sender nor `p` is the
zero address.  Then it answers true, `v` is answered for the allowance of `p`, the other answers stay, and there is one event about it. -/
theorem C125_approve (h : Setting keccak256 n S name symbol) (hd : deploy keccak256 name symbol = some w) {txs : List (Raw Address)}
    (hx : ∀ tx ∈ txs, About D S tx) {asker caller p : Address} (hc : asker ∈ S) (hcal : caller ∈ S) (hp : p ∈ S) (v : U256) :
    let w' := after (entry keccak256 D U) w txs
    let out := entry keccak256 D U caller w' 0#256 (message "approve(address,uint256)" [.address p, .uint256 v])
    ((∃ w2 d, out = .returned w2 d) ↔ caller ≠ ZERO ∧ p ≠ ZERO) ∧
    ∀ w2 d, out = .returned w2 d →
      d = values [.bool true] ∧ w2.log = w'.log ++ [.approval caller p v] ∧
      (∀ x, Tells D U asker w' "totalSupply()" [] x → Tells D U asker w2 "totalSupply()" [] x) ∧
      (∀ a ∈ S, ∀ x, Tells D U asker w' "balanceOf(address)" [.address a] x → Tells D U asker w2 "balanceOf(address)" [.address a] x) ∧
      ∀ a ∈ S, ∀ b ∈ S, ∀ x, Tells D U asker w' "allowance(address,address)" [.address a, .address b] x →
        Tells D U asker w2 "allowance(address,address)" [.address a, .address b] (if a = caller ∧ b = p then v else x) := by
  intro w' out
  have hi := inv_run h D U txs (start h hd) hx
  obtain ⟨h1, h2⟩ := calls (D := D) (U := U) h hi hcal (.approve p v) (by simp [abi, hp])
  refine ⟨h1.trans (Props.C09_approve_exact _ caller p v).1, fun w2 d ho => ?_⟩
  obtain ⟨s', c1, c2, hi2⟩ := h2 w2 d ho
  obtain ⟨e1, e2, e3, e4⟩ := (Props.C09_approve_exact _ caller p v).2 s' c1
  refine ⟨c2, by rw [agrees_log hi2, e4, agrees_log hi], fun x hxx => ?_, fun a ha x hxx => ?_, fun a ha b hb x hxx => ?_⟩
  · rw [told hxx (asks h hi hc hc hc).1]; exact same (asks h hi2 hc hc hc).1 (e3)
  · rw [told hxx (asks h hi hc ha hc).2.1]; exact same (asks h hi2 hc ha hc).2.1 (e2 a)
  · rw [told hxx (asks h hi hc ha hb).2.2.1]; exact same (asks h hi2 hc ha hb).2.2.1 (e1 a b)

/-- **C125** With bytes only: after any list of transactions, `mint(r, v)`, which anybody can call, goes through exactly if `r` is not the
zero address and the supply answered has room for `v`.  Then `v` more are answered for `r` and in all, the other answers stay, and there
is one event about it. -/
theorem C125_mint (h : Setting keccak256 n S name symbol) (hd : deploy keccak256 name symbol = some w) {txs : List (Raw Address)}
    (hx : ∀ tx ∈ txs, About D S tx) {asker caller r : Address} (hc : asker ∈ S) (hcal : caller ∈ S) (hr : r ∈ S) (v : U256) {total : U256} :
    let w' := after (entry keccak256 D U) w txs
    let out := entry keccak256 D U caller w' 0#256 (message "mint(address,uint256)" [.address r, .uint256 v])
    Tells D U asker w' "totalSupply()" [] total →
    ((∃ w2 d, out = .returned w2 d) ↔ r ≠ ZERO ∧ total.toNat + v.toNat < 2 ^ 256) ∧
    ∀ w2 d, out = .returned w2 d →
      d = [] ∧ w2.log = w'.log ++ [.transfer ZERO r v] ∧
      (∃ total' : U256, Tells D U asker w2 "totalSupply()" [] total' ∧ total'.toNat = total.toNat + v.toNat) ∧
      (∀ a ∈ S, ∀ x, Tells D U asker w' "balanceOf(address)" [.address a] x → ∃ x' : U256,
        Tells D U asker w2 "balanceOf(address)" [.address a] x' ∧ x'.toNat = x.toNat + (if a = r then v.toNat else 0)) ∧
      ∀ a ∈ S, ∀ b ∈ S, ∀ x, Tells D U asker w' "allowance(address,address)" [.address a, .address b] x →
        Tells D U asker w2 "allowance(address,address)" [.address a, .address b] x := by
  intro w' out ht
  have hi := inv_run h D U txs (start h hd) hx
  obtain ⟨h1, h2⟩ := calls (D := D) (U := U) h hi hcal (.mint r v) (by simp [abi, hr])
  have e := told ht (asks h hi hc hc hc).1
  refine ⟨h1.trans ?_, fun w2 d ho => ?_⟩
  · rw [e]; exact Proofs.Outside.mint_iff
  · obtain ⟨s', c1, c2, hi2⟩ := h2 w2 d ho
    obtain ⟨e3, e1, e2, e4⟩ := Proofs.Outside.created_of_mint (Props.reachable_sumOk (reachable (D := D) name symbol txs)) c1
    refine ⟨c2, by rw [agrees_log hi2, e4, agrees_log hi], ?_, fun a ha x hxx => ?_, fun a ha b hb x hxx => ?_⟩
    · rw [e]; exact ⟨_, (asks h hi2 hc hc hc).1, e3⟩
    · rw [told hxx (asks h hi hc ha hc).2.1]; exact ⟨_, (asks h hi2 hc ha hc).2.1, e1 a⟩
    · rw [told hxx (asks h hi hc ha hb).2.2.1]; exact same (asks h hi2 hc ha hb).2.2.1 (congrFun (congrFun e2 a) b)

/-- **C125** With bytes only: if a transaction lowers what `balanceOf(a)` answers, then `a` sent it, or `allowance(a, sender)` had
answered at least the difference. -/
theorem C125_no_theft (h : Setting keccak256 n S name symbol) (hd : deploy keccak256 name symbol = some w) {txs : List (Raw Address)}
    {tx : Raw Address} (hx : ∀ tx' ∈ txs ++ [tx], About D S tx') {asker a : Address} (hc : asker ∈ S) (ha : a ∈ S) {x x' : U256} :
    let w1 := after (entry keccak256 D U) w txs
    let w2 := after (entry keccak256 D U) w (txs ++ [tx])
    Tells D U asker w1 "balanceOf(address)" [.address a] x → Tells D U asker w2 "balanceOf(address)" [.address a] x' →
    x'.toNat < x.toNat →
    tx.env = a ∨ ∃ may : U256, x.toNat - x'.toNat ≤ may.toNat ∧
      Tells D U asker w1 "allowance(address,address)" [.address a, .address tx.env] may := by
  intro w1 w2 h1 h2 hlt
  have hi := inv_run h D U txs (start h hd) fun tx' h' => hx tx' (List.mem_append_left _ h')
  have hi2 := inv_run h D U (txs ++ [tx]) (start h hd) hx
  have e1 := told h1 (asks h hi hc ha hc).2.1
  have e2 := told h2 (asks h hi2 hc ha hc).2.1
  have v := fun s b => Contracts.BasicTokenContract.C103_basic_token_views D ⟨name, symbol⟩ asker s a b
  rcases Contracts.BasicTokenContract.C103_basic_token_no_theft D ⟨name, symbol⟩ txs tx asker a x x'
    (by rw [e1]; exact congrArg Outcome.reply (v _ a).2.1) (by rw [e2]; exact congrArg Outcome.reply (v _ a).2.1) hlt with h3 | ⟨may, h3, h4⟩
  · exact .inl h3
  · refine .inr ⟨may, h3, ?_⟩
    have e3 := (congrArg Outcome.reply (v (after (Contracts.BasicTokenContract.run D ⟨name, symbol⟩) Erc20.init txs) tx.env).2.2.1)
    rw [← Proofs.Contracts.uint256_inj (Option.some.inj (e3.symm.trans h4))]
    exact (asks h hi hc ha (hx tx (List.mem_append_right _ (by simp))).sender).2.2.1

end

/-! ### The hypotheses are met -/

/-- A name. -/
def sampleName : List Char := ['T', 'o', 'k', 'e', 'n']
/-- A symbol. -/
def sampleSymbol : List Char := ['T', 'K', 'N']

/-- The cells of three accounts. -/
def sampleCells : List (List Step) := tokenCells ++ [nameCell, symbolCell]

theorem sample_cells {p : List Step} (h : Cells [0#160, 1#160, 2#160] sampleName sampleSymbol p) : p ∈ sampleCells := by
  rcases h with h | h | h
  · exact List.mem_append_left _ (token_cells h)
  · rw [show (Constructors.text [.field "metadata", .field "metadata", .field "name"] (Logs.utf8 sampleName)).map Prod.fst = [nameCell] by decide +kernel] at h
    rw [List.mem_singleton.mp h]; exact List.mem_append_right _ (by simp)
  · rw [show (Constructors.text [.field "metadata", .field "metadata", .field "symbol"] (Logs.utf8 sampleSymbol)).map Prod.fst = [symbolCell] by decide +kernel] at h
    rw [List.mem_singleton.mp h]; exact List.mem_append_right _ (by simp)

/-- With Keccak the hypotheses of the theorems hold. -/
theorem sample_setting : Setting keccak256 10 [0#160, 1#160, 2#160] sampleName sampleSymbol :=
  ⟨⟨by decide, Proofs.Separate.separate sampleCells tokenTable (fun _ => sample_cells)
    (fun e he => table_ok e (List.mem_append_left _ he)) (by decide +kernel) (by decide +kernel) (by decide +kernel)⟩,
   by decide +kernel, by decide +kernel⟩

set_option maxRecDepth 100000 in
-- account 1 mints 50 for itself and sends 20 to account 2: 30 and 20 are answered
example (D : Decoder) (U : Utf8) : ∃ w, deploy keccak256 sampleName sampleSymbol = some w ∧
    let mint : Raw Address := ⟨1#160, 0#256, message "mint(address,uint256)" [.address 1#160, .uint256 50#256]⟩
    About D [0#160, 1#160, 2#160] mint ∧ ∃ w2 d, entry keccak256 D U 1#160 (after (entry keccak256 D U) w [mint]) 0#256
      (message "transfer(address,uint256)" [.address 2#160, .uint256 20#256]) = .returned w2 d ∧
    ∃ x y : U256, Tells D U 0#160 w2 "balanceOf(address)" [.address 1#160] x ∧ x.toNat = 30 ∧
      Tells D U 0#160 w2 "balanceOf(address)" [.address 2#160] y ∧ y.toNat = 20 := by
  obtain ⟨w, hd⟩ := C125_deploy keccak256 sampleName sampleSymbol
  refine ⟨w, hd, ?_⟩
  intro mint
  have hw : About D [0#160, 1#160, 2#160] mint := C125_call_within (by simp) (.mint 1#160 50#256) 0#256 (by simp [abi])
  obtain ⟨s1, s2, _⟩ := C125_start (D := D) (U := U) sample_setting hd (asker := 0#160) (a := 1#160) (b := 1#160) (by simp) (by simp) (by simp)
  obtain ⟨_, s3, _⟩ := C125_start (D := D) (U := U) sample_setting hd (asker := 0#160) (a := 2#160) (b := 1#160) (by simp) (by simp) (by simp)
  obtain ⟨m1, m2⟩ := C125_mint (D := D) (U := U) sample_setting hd (txs := []) (by simp) (asker := 0#160) (caller := 1#160) (r := 1#160)
    (by simp) (by simp) (by simp) 50#256 s1
  obtain ⟨w1, d1, o1⟩ := m1.mpr ⟨by decide, by decide⟩
  have p1 : after (entry keccak256 D U) w [mint] = w1 := congrArg (Outcome.after w) o1
  obtain ⟨_, _, _, b, _⟩ := m2 w1 d1 o1
  obtain ⟨x1, t1, v1⟩ := b 1#160 (by simp) _ s2
  obtain ⟨x2, t2, v2⟩ := b 2#160 (by simp) _ s3
  rw [← p1] at t1 t2
  obtain ⟨r1, r2⟩ := C125_transfer (D := D) (U := U) sample_setting hd (txs := [mint]) (by simpa using hw) (asker := 0#160) (caller := 1#160)
    (dst := 2#160) (by simp) (by simp) (by simp) 20#256 t1
  obtain ⟨w2, d2, o2⟩ := r1.mpr ⟨by decide, by decide, by rw [v1]; decide⟩
  obtain ⟨_, _, _, b, _⟩ := r2 w2 d2 o2
  obtain ⟨y1, u1, z1⟩ := b 1#160 (by simp) _ t1
  obtain ⟨y2, u2, z2⟩ := b 2#160 (by simp) _ t2
  refine ⟨hw, w2, d2, o2, y1, y2, u1, ?_, u2, ?_⟩
  · rw [v1] at z1
    exact Nat.add_right_cancel (z1.trans (by decide) : y1.toNat + 20 = 30 + 20)
  · rw [v2] at z2
    exact z2.trans (by decide)

end Verif.Props.BasicDeployed
