import Verif.Proofs.Deployed
/-!
# C104: the capped, pausable token as deployed: constructor, calldata, storage words

Nothing of the other models is left in the statements but the contract on words (`Verif.Model.Deployed`).  `S` are the accounts
that take part.  Of them it is asked that the hash values of their storage cells do not coincide (`Separate`), as in C98 and C100.
-/
namespace Verif.Props.Deployed
open Verif Verif.Storage Verif.Deployed Verif.Spec.Deployed Verif.Spec.StoragePrograms Verif.Proofs.Deployed
open Verif.Abi (Val Decoder Outcome)
open Verif.Entry (Tx)
open Verif.Spec.Keccak (keccak256)
open Verif.Spec.Revert (word addr)
open Verif.Spec.Calls (call sel flag tail)
open Verif.Props.Entry (bytesOf)

/-- **C104** Deployment succeeds exactly if the cap is not 0. -/
theorem C104_deploy (K : Hash) (name symbol : List Char) (cap : U256) :
    (∃ w, deploy K name symbol cap = some w) ↔ cap ≠ 0#256 := by
  constructor
  · rintro ⟨w, h⟩ rfl
    cases h
  · intro h
    have e := Props.Constructors.C99_erc20 K (Logs.utf8 name) (Logs.utf8 symbol) cap
    have all : ∀ (ws : List (Constructors.Path × U256)) (st : Words), (∀ w ∈ ws, ∃ l, cell K erc20Example w.1 = some l) →
        ∃ st', Constructors.assign K erc20Example ws st = some st' := by
      intro ws
      induction ws with
      | nil => exact fun st _ => ⟨st, rfl⟩
      | cons w ws ih =>
        intro st hw
        obtain ⟨l, hl⟩ := hw w List.mem_cons_self
        rw [Constructors.assign, hl]
        exact ih _ fun w h => hw w (List.mem_cons_of_mem _ h)
    have str : ∀ (q : List Step) (d : Nat), cell K erc20Example q = some ⟨none, d, 0, .string⟩ →
        ∀ bs, ∀ w ∈ Constructors.text q bs, ∃ l, cell K erc20Example w.1 = some l := by
      intro q d hq bs w hw
      rcases Proofs.Constructors.text_mem hw with e | ⟨i, _, e⟩
      · rw [e]; exact ⟨_, hq⟩
      · rw [e]; exact ⟨_, Proofs.Constructors.cell_index hq rfl i⟩
    obtain ⟨st, hst⟩ := all (Constructors.text nameCell (Logs.utf8 name) ++ Constructors.text symbolCell (Logs.utf8 symbol) ++
      [(capCell, cap), (pausedCell, 0#256)]) Constructors.fresh (by
        intro w hw
        rcases List.mem_append.mp hw with hw | hw
        · rcases List.mem_append.mp hw with hw | hw
          · exact str nameCell 3 rfl _ w hw
          · exact str symbolCell 4 rfl _ w hw
        · simp only [List.mem_cons, List.not_mem_nil, or_false] at hw
          rcases hw with rfl | rfl
          · exact ⟨_, rfl⟩
          · exact ⟨_, rfl⟩)
    rw [if_neg h] at e
    unfold deploy
    obtain ⟨ws, h1, h2⟩ := Option.bind_eq_some_iff.mp (e.trans hst)
    exact ⟨_, by rw [h1, Option.bind_some, h2]; rfl⟩

section
variable {K : Hash} {n : Nat} {S : List Address} {name symbol : List Char} {cap : U256} {w : State}

/-- **C104** Bytes in, bytes out, with nothing between but words of storage: after any list of transactions, a transaction is
answered with the same bytes as by the contract with independent balances and allowances that C102 is about, and the events
are the same. -/
theorem C104_answers (hn : n < 2 ^ 256) (hS : Separate K n erc20Example (Cells S name symbol))
    (h1 : (Logs.utf8 name).length < 2 ^ 255) (h2 : (Logs.utf8 symbol).length < 2 ^ 255)
    (hd : deploy K name symbol cap = some w) (D : Decoder) (U : Utf8) (txs : List Tx) (tx : Tx)
    (hx : ∀ tx' ∈ txs ++ [tx], ∀ a, Names K D tx' a → a ∈ S) :
    let s := Entry.erc20ExampleRun K D ⟨name, symbol⟩ (Erc20Example.init cap) txs
    answer (entry K D U (run K D U w txs) tx) = answer (Entry.erc20ExampleEntry K D ⟨name, symbol⟩ tx.caller s tx.value tx.input) ∧
    ((run K D U w txs).log.filterMap fun | .token e => some e | _ => none) = s.erc20.log ∧
    ((run K D U w txs).log.filterMap fun | .pausable e => some e | _ => none) = s.pausable.log := by
  intro s
  have hi := inv_run hn hS h1 h2 D U txs (inv_deploy hn hS hd) fun tx' h => hx tx' (List.mem_append_left _ h)
  refine ⟨(inv_step hn hS h1 h2 D U hi (hx tx (List.mem_append_right _ (by simp)))).1, ?_⟩
  obtain ⟨c, _, _, _, hv, _⟩ := hi
  rw [show s = _ from hv.symm]
  exact ⟨rfl, rfl⟩

end

/-! ## Seen from outside -/

/-- The accounts of a well-formed call. -/
theorem names_call {D : Decoder} {caller : Address} {sg t : String} {f : Router.Fn}
    (hs : (sg, t, f.rustName) ∈ Spec.Router.erc20Example) (hr : Props.Router.routeSig Router.erc20Example sg = some (t, f))
    {args : List Val} {ws : List U256} (hw : args.map Val.code = ws.map .inl) (ht : args.map Val.type = Abi.flat f.args)
    (hl : ws.length < 8) (a : Address) (value : U256) :
    Names keccak256 D ⟨caller, value, call sg ws⟩ a ↔ a = caller ∨ Val.address a ∈ args := by
  have he : call sg ws = sel sg ++ Abi.encode args := by
    rw [Proofs.Entry.encode_static hw]; rfl
  have hlen : (Abi.encode args).length < 2 ^ 256 := by
    rw [Proofs.Entry.encode_static hw, Proofs.Entry.flatMap_word_length]; omega
  have route := Props.Router.route_selector Props.Entry.mem_contracts (Props.Entry.abi_in_table _ hs)
  unfold Names
  dsimp only
  rw [he, ← Proofs.Entry.be4_selector, Proofs.Entry.selectorOf_be4, route, hr, List.drop_left' (Proofs.Entry.be4_length _)]
  constructor
  · rintro (h | ⟨t', f', args', h1, h2, h3⟩)
    · exact .inl h
    · cases h1
      rw [← ht, D.complete args hlen] at h2
      cases h2
      exact .inr h3
  · rintro (h | h)
    · exact .inl h
    · exact .inr ⟨t, f, args, rfl, by rw [← ht, D.complete args hlen], h⟩

/-- **C104** The accounts of a call of each function: the sender and the accounts among the arguments. -/
theorem C104_names (D : Decoder) (caller : Address) (value : U256) (op : Erc20Example.Call) (a : Address) :
    Names keccak256 D ⟨caller, value, bytesOf op⟩ a ↔ a = caller ∨ (match op with
      | .token (.transfer dst _) => a = dst
      | .token (.transferFrom src dst _) => a = src ∨ a = dst
      | .token (.approve sp _) => a = sp
      | .token (.mint b _) => a = b
      | .token (.burnFrom b _) => a = b
      | _ => False) := by
  cases op with
  | token c =>
    cases c with
    | transfer dst v =>
      refine (names_call (f := ⟨"transfer", none, [.address, .uint256]⟩) (t := "Erc20Example") (by decide) rfl
        (args := [.address dst, .uint256 v]) (by simp [Proofs.Entry.address_code]; rfl) rfl (by simp) a value).trans (by simp)
    | transferFrom src dst v =>
      refine (names_call (f := ⟨"transfer_from", none, [.address, .address, .uint256]⟩) (t := "Erc20Example") (by decide) rfl
        (args := [.address src, .address dst, .uint256 v]) (by simp [Proofs.Entry.address_code]; rfl) rfl (by simp) a value).trans
          (by simp)
    | approve sp v =>
      refine (names_call (f := ⟨"approve", none, [.address, .uint256]⟩) (t := "Erc20") (by decide) rfl
        (args := [.address sp, .uint256 v]) (by simp [Proofs.Entry.address_code]; rfl) rfl (by simp) a value).trans (by simp)
    | mint b v =>
      refine (names_call (f := ⟨"mint", none, [.address, .uint256]⟩) (t := "Erc20Example") (by decide) rfl
        (args := [.address b, .uint256 v]) (by simp [Proofs.Entry.address_code]; rfl) rfl (by simp) a value).trans (by simp)
    | burn v =>
      refine (names_call (f := ⟨"burn", none, [.uint256]⟩) (t := "Erc20Example") (by decide) rfl
        (args := [.uint256 v]) rfl rfl (by simp) a value).trans (by simp)
    | burnFrom b v =>
      refine (names_call (f := ⟨"burn_from", none, [.address, .uint256]⟩) (t := "Erc20Example") (by decide) rfl
        (args := [.address b, .uint256 v]) (by simp [Proofs.Entry.address_code]; rfl) rfl (by simp) a value).trans (by simp)
  | pause =>
    refine (names_call (f := ⟨"pause", none, []⟩) (t := "Erc20Example") (by decide) rfl
      (args := []) rfl rfl (by simp) a value).trans (by simp)
  | unpause =>
    refine (names_call (f := ⟨"unpause", none, []⟩) (t := "Erc20Example") (by decide) rfl
      (args := []) rfl rfl (by simp) a value).trans (by simp)

/-- The accounts of a question. -/
theorem names_view (D : Decoder) (caller a b x : Address) :
    (Names keccak256 D ⟨caller, 0#256, call "totalSupply()" []⟩ x → x = caller) ∧
    (Names keccak256 D ⟨caller, 0#256, call "balanceOf(address)" [addr a]⟩ x → x = caller ∨ x = a) ∧
    (Names keccak256 D ⟨caller, 0#256, call "allowance(address,address)" [addr a, addr b]⟩ x → x = caller ∨ x = a ∨ x = b) ∧
    (Names keccak256 D ⟨caller, 0#256, call "cap()" []⟩ x → x = caller) ∧
    (Names keccak256 D ⟨caller, 0#256, call "paused()" []⟩ x → x = caller) ∧
    (Names keccak256 D ⟨caller, 0#256, call "name()" []⟩ x → x = caller) ∧
    (Names keccak256 D ⟨caller, 0#256, call "symbol()" []⟩ x → x = caller) := by
  refine ⟨fun h => ?_, fun h => ?_, fun h => ?_, fun h => ?_, fun h => ?_, fun h => ?_, fun h => ?_⟩
  · simpa using (names_call (f := ⟨"total_supply", none, []⟩) (t := "Erc20") (by decide) rfl (args := []) rfl rfl (by simp) x 0#256).mp h
  · simpa using (names_call (f := ⟨"balance_of", none, [.address]⟩) (t := "Erc20") (by decide) rfl (args := [.address a])
      (by simp [Proofs.Entry.address_code]) rfl (by simp) x 0#256).mp h
  · simpa using (names_call (f := ⟨"allowance", none, [.address, .address]⟩) (t := "Erc20") (by decide) rfl
      (args := [.address a, .address b]) (by simp [Proofs.Entry.address_code]) rfl (by simp) x 0#256).mp h
  · simpa using (names_call (f := ⟨"cap", none, []⟩) (t := "Capped") (by decide) rfl (args := []) rfl rfl (by simp) x 0#256).mp h
  · simpa using (names_call (f := ⟨"paused", none, []⟩) (t := "Pausable") (by decide) rfl (args := []) rfl rfl (by simp) x 0#256).mp h
  · simpa using (names_call (f := ⟨"name", none, []⟩) (t := "Erc20Metadata") (by decide) rfl (args := []) rfl rfl (by simp) x 0#256).mp h
  · simpa using (names_call (f := ⟨"symbol", none, []⟩) (t := "Erc20Metadata") (by decide) rfl (args := []) rfl rfl (by simp) x 0#256).mp h

/-- The number in the reply to a question; `asker` sends it. -/
def ask (D : Decoder) (U : Utf8) (asker : Address) (w : State) (sig : String) (args : List U256) : Option Nat :=
  (entry keccak256 D U w ⟨asker, 0#256, call sig args⟩).reply.map Spec.Logs.number

theorem reply_of_answer {σ τ : Type} {o : Outcome σ} {o' : Outcome τ} (h : answer o = answer o') : o.reply = o'.reply := by
  cases o <;> cases o' <;> simp_all [answer, Outcome.reply]

section
variable {n : Nat} {S : List Address} {name symbol : List Char} {cap : U256} {w : State}

/-- What is asked of the accounts, the strings and the transactions. -/
structure Setting (n : Nat) (S : List Address) (name symbol : List Char) (cap : U256) (w : State) (D : Decoder) (txs : List Tx) :
    Prop where
  bound : n < 2 ^ 256
  separate : Separate keccak256 n erc20Example (Cells S name symbol)
  shortName : (Logs.utf8 name).length < 2 ^ 255
  shortSymbol : (Logs.utf8 symbol).length < 2 ^ 255
  deployed : deploy keccak256 name symbol cap = some w
  names : ∀ tx ∈ txs, ∀ a, Names keccak256 D tx a → a ∈ S

theorem ask_words {D : Decoder} {txs : List Tx} (h : Setting n S name symbol cap w D txs) (U : Utf8) {asker : Address}
    {sig : String} {args : List U256} (hx : ∀ a, Names keccak256 D ⟨asker, 0#256, call sig args⟩ a → a ∈ S) :
    ask D U asker (run keccak256 D U w txs) sig args = Props.Entry.ask D ⟨name, symbol⟩ asker
      (Entry.erc20ExampleRun keccak256 D ⟨name, symbol⟩ (Erc20Example.init cap) txs) sig args := by
  have := (C104_answers h.bound h.separate h.shortName h.shortSymbol h.deployed D U txs ⟨asker, 0#256, call sig args⟩ (by
    intro tx' h'
    rcases List.mem_append.mp h' with h' | h'
    · exact h.names tx' h'
    · rw [List.mem_singleton.mp h']; exact hx)).1
  unfold ask Props.Entry.ask
  rw [reply_of_answer this]

theorem view_mem {D : Decoder} {asker a b : Address} (h1 : asker ∈ S) (h2 : a ∈ S) (h3 : b ∈ S) :
    (∀ x, Names keccak256 D ⟨asker, 0#256, call "totalSupply()" []⟩ x → x ∈ S) ∧
    (∀ x, Names keccak256 D ⟨asker, 0#256, call "balanceOf(address)" [addr a]⟩ x → x ∈ S) ∧
    (∀ x, Names keccak256 D ⟨asker, 0#256, call "allowance(address,address)" [addr a, addr b]⟩ x → x ∈ S) ∧
    (∀ x, Names keccak256 D ⟨asker, 0#256, call "cap()" []⟩ x → x ∈ S) ∧
    (∀ x, Names keccak256 D ⟨asker, 0#256, call "paused()" []⟩ x → x ∈ S) ∧
    (∀ x, Names keccak256 D ⟨asker, 0#256, call "name()" []⟩ x → x ∈ S) ∧
    (∀ x, Names keccak256 D ⟨asker, 0#256, call "symbol()" []⟩ x → x ∈ S) := by
  refine ⟨fun x h => ?_, fun x h => ?_, fun x h => ?_, fun x h => ?_, fun x h => ?_, fun x h => ?_, fun x h => ?_⟩
  · rw [(names_view D asker a b x).1 h]; exact h1
  · rcases (names_view D asker a b x).2.1 h with rfl | rfl <;> assumption
  · rcases (names_view D asker a b x).2.2.1 h with rfl | rfl | rfl <;> assumption
  · rw [(names_view D asker a b x).2.2.2.1 h]; exact h1
  · rw [(names_view D asker a b x).2.2.2.2.1 h]; exact h1
  · rw [(names_view D asker a b x).2.2.2.2.2.1 h]; exact h1
  · rw [(names_view D asker a b x).2.2.2.2.2.2 h]; exact h1

/-- **C104** After deployment and any list of raw transactions between the accounts: `totalSupply` and every account's
`balanceOf` are answered from the storage words, the balances add up to the supply, and the supply is at most the cap
given to the constructor, which `cap` still answers. -/
theorem C104_supply {D : Decoder} {txs : List Tx} (h : Setting n S name symbol cap w D txs) (hS : S.Nodup) (U : Utf8)
    {asker : Address} (ha : asker ∈ S) :
    let w' := run keccak256 D U w txs
    ∃ (total : Nat) (balance : Address → Nat),
      ask D U asker w' "totalSupply()" [] = some total ∧
      (∀ a ∈ S, ask D U asker w' "balanceOf(address)" [addr a] = some (balance a)) ∧
      total = (S.map balance).sum ∧ total ≤ cap.toNat ∧ ask D U asker w' "cap()" [] = some cap.toNat := by
  intro w'
  obtain ⟨total, balance, h1, h2, h3, h4, h5⟩ := Props.Entry.C102_supply D ⟨name, symbol⟩ cap txs asker
  refine ⟨total, balance, ?_, fun a ha' => ?_, ?_, h4, ?_⟩
  · rw [ask_words h U (view_mem ha ha ha).1, h1]
  · rw [ask_words h U (view_mem ha ha' ha).2.1, h2 a]
  · rw [h3, ← List.sum_toFinset _ hS]
    refine (Finset.sum_subset (Finset.subset_univ _) fun a _ hna => ?_).symm
    have hna : a ∉ S := fun h => hna (List.mem_toFinset.mpr h)
    obtain ⟨c, _, _, _, hv, hz⟩ := inv_run h.bound h.separate h.shortName h.shortSymbol D U txs
      (inv_deploy h.bound h.separate h.deployed) h.names
    have e := h2 a
    rw [(Props.Entry.ask_eq D ⟨name, symbol⟩ asker a 0#160 _).2.1] at e
    rw [← Option.some.inj e, ← hv]
    show (c (Erc20Words.balance token a)).toNat = 0
    rw [hz _ ?_ (.inr (.inl ⟨a, by simp, rfl⟩))]
    · rfl
    · rintro ((h | ⟨b, hb, h⟩ | ⟨b, _, d, _, h⟩) | h | h)
      · exact Props.StoragePrograms.balance_ne_supply h
      · exact hna (Props.StoragePrograms.balance_inj h ▸ hb)
      · exact Props.StoragePrograms.balance_ne_allowance h
      · simp [Erc20Words.balance, token, capCell] at h
      · simp [Erc20Words.balance, token, pausedCell] at h
  · rw [ask_words h U (view_mem ha ha ha).2.2.2.1, h5]

/-- **C104** If a raw transaction lowers what `balanceOf(a)` answers, then `a` sent it, or `allowance(a, sender)` had answered at
least the difference. -/
theorem C104_only_authorised {D : Decoder} {txs : List Tx} {tx : Tx} (h : Setting n S name symbol cap w D (txs ++ [tx])) (U : Utf8)
    {asker a : Address} (hk : asker ∈ S) (ha : a ∈ S) (before after : Nat)
    (hb : ask D U asker (run keccak256 D U w txs) "balanceOf(address)" [addr a] = some before)
    (haf : ask D U asker (run keccak256 D U w (txs ++ [tx])) "balanceOf(address)" [addr a] = some after) (hlt : after < before) :
    tx.caller = a ∨ ∃ allowed, before - after ≤ allowed ∧
      ask D U asker (run keccak256 D U w txs) "allowance(address,address)" [addr a, addr tx.caller] = some allowed := by
  have h' : Setting n S name symbol cap w D txs :=
    { h with names := fun tx' hm => h.names tx' (List.mem_append_left _ hm) }
  have hc : tx.caller ∈ S := h.names tx (List.mem_append_right _ (by simp)) _ (.inl rfl)
  rw [ask_words h' U (view_mem hk ha ha).2.1] at hb
  rw [ask_words h U (view_mem hk ha ha).2.1] at haf
  rw [ask_words h' U (view_mem hk ha hc).2.2.1]
  exact Props.Entry.C102_only_authorised D ⟨name, symbol⟩ cap txs tx asker a before after hb haf hlt

/-- **C104** `name` and `symbol` answer the strings given to the constructor, however long they are, after any list of raw
transactions. -/
theorem C104_strings {D : Decoder} {txs : List Tx} (h : Setting n S name symbol cap w D txs) (U : Utf8) {asker : Address}
    (ha : asker ∈ S) :
    let w' := run keccak256 D U w txs
    (entry keccak256 D U w' ⟨asker, 0#256, call "name()" []⟩).reply = some (word 32#256 ++ tail (Logs.utf8 name)) ∧
    (entry keccak256 D U w' ⟨asker, 0#256, call "symbol()" []⟩).reply = some (word 32#256 ++ tail (Logs.utf8 symbol)) := by
  intro w'
  have key : ∀ sig, (∀ x, Names keccak256 D ⟨asker, 0#256, call sig []⟩ x → x ∈ S) →
      (entry keccak256 D U w' ⟨asker, 0#256, call sig []⟩).reply = (Entry.erc20ExampleEntry keccak256 D ⟨name, symbol⟩ asker
        (Entry.erc20ExampleRun keccak256 D ⟨name, symbol⟩ (Erc20Example.init cap) txs) 0#256 (call sig [])).reply := by
    intro sig hx
    refine reply_of_answer (C104_answers h.bound h.separate h.shortName h.shortSymbol h.deployed D U txs ⟨asker, 0#256, call sig []⟩ ?_).1
    intro tx' h'
    rcases List.mem_append.mp h' with h' | h'
    · exact h.names tx' h'
    · rw [List.mem_singleton.mp h']; exact hx
  have hv := Props.Entry.C102_views D ⟨name, symbol⟩ asker 0#160 0#160 0#32
    (Entry.erc20ExampleRun keccak256 D ⟨name, symbol⟩ (Erc20Example.init cap) txs)
  constructor
  · rw [key _ (view_mem ha ha ha).2.2.2.2.2.1, hv.2.2.2.2.2.2.1]
    rfl
  · rw [key _ (view_mem ha ha ha).2.2.2.2.2.2, hv.2.2.2.2.2.2.2.1]
    rfl

/-- **C104** When `paused` answers 1, every transfer, mint and burn is refused with `EnforcedPause()`. -/
theorem C104_paused {D : Decoder} {txs : List Tx} (h : Setting n S name symbol cap w D txs) (U : Utf8) {asker : Address}
    (ha : asker ∈ S) (hp : ask D U asker (run keccak256 D U w txs) "paused()" [] = some 1) (caller : Address) (c : Erc20.Call)
    (hc : ∀ sp v, c ≠ .approve sp v) (hx : ∀ a, Names keccak256 D ⟨caller, 0#256, bytesOf (.token c)⟩ a → a ∈ S) :
    answer (entry keccak256 D U (run keccak256 D U w txs) ⟨caller, 0#256, bytesOf (.token c)⟩) =
      .error (call "EnforcedPause()" []) := by
  rw [ask_words h U (view_mem ha ha ha).2.2.2.2.1] at hp
  rw [(C104_answers h.bound h.separate h.shortName h.shortSymbol h.deployed D U txs ⟨caller, 0#256, bytesOf (.token c)⟩ (by
    intro tx' h'
    rcases List.mem_append.mp h' with h' | h'
    · exact h.names tx' h'
    · rw [List.mem_singleton.mp h']; exact hx)).1]
  rw [Props.Entry.C102_paused D ⟨name, symbol⟩ caller asker _ hp c hc]
  rfl

end

/-! ## The hypotheses are met -/

/-- A name and a symbol. -/
def sampleName : List Char := ['T', 'o', 'k', 'e', 'n']
/-- A symbol. -/
def sampleSymbol : List Char := ['T', 'K', 'N']

theorem sample_cells {p : List Step} (h : Cells [1#160, 2#160] sampleName sampleSymbol p) :
    Accounts token [1#160, 2#160] p ∨ p ∈ [capCell, pausedCell, nameCell, symbolCell] := by
  rcases h with h | rfl | rfl | h | h
  · exact .inl h
  · right; simp
  · right; simp
  · right
    rw [show (Constructors.text nameCell (Logs.utf8 sampleName)).map Prod.fst = [nameCell] by decide +kernel] at h
    rw [List.mem_singleton.mp h]; simp
  · right
    rw [show (Constructors.text symbolCell (Logs.utf8 sampleSymbol)).map Prod.fst = [symbolCell] by decide +kernel] at h
    rw [List.mem_singleton.mp h]; simp

theorem sample_hashed {p : List Step} (h : Cells [1#160, 2#160] sampleName sampleSymbol p) :
    ∀ x ∈ Spec.Storage.hashed keccak256 erc20Example p, x ∈ Props.StoragePrograms.twoHashed := by
  rcases sample_cells h with h | h
  · exact Props.StoragePrograms.two_hashed p (Props.StoragePrograms.two_cells h)
  · simp only [List.mem_cons, List.not_mem_nil, or_false] at h
    rcases h with rfl | rfl | rfl | rfl <;> exact fun x hx => absurd hx List.not_mem_nil

theorem sample_separate : Separate keccak256 10 erc20Example (Cells [1#160, 2#160] sampleName sampleSymbol) := by
  refine ⟨fun p hp => ?_, fun p hp q hq _ => Props.StoragePrograms.two_clear (sample_hashed hp) (sample_hashed hq)⟩
  rcases sample_cells hp with h | h
  · exact Props.StoragePrograms.two_separate.cells p h
  · simp only [List.mem_cons, List.not_mem_nil, or_false] at h
    rcases h with rfl | rfl | rfl | rfl
    · exact ⟨_, rfl, trivial, Props.Constructors.within_disps (ds := [5, 5]) rfl (by simp)⟩
    · exact ⟨_, rfl, trivial, Props.Constructors.within_disps (ds := [6, 6]) rfl (by simp)⟩
    · exact ⟨_, rfl, trivial, Props.Constructors.within_disps (ds := [3, 3, 3]) rfl (by simp)⟩
    · exact ⟨_, rfl, trivial, Props.Constructors.within_disps (ds := [3, 3, 4]) rfl (by simp)⟩

/-- With Keccak: a mint, an approval, a transfer by the approved account and a transfer of too much, between two accounts. -/
def sampleTxs : List Tx :=
  [⟨1#160, 0#256, bytesOf (.token (.mint 1#160 50#256))⟩, ⟨1#160, 0#256, bytesOf (.token (.approve 2#160 20#256))⟩,
   ⟨2#160, 0#256, bytesOf (.token (.transferFrom 1#160 2#160 15#256))⟩,
   ⟨2#160, 0#256, bytesOf (.token (.transfer 1#160 16#256))⟩]

theorem sample_setting (D : Decoder) : ∃ w, Setting 10 [1#160, 2#160] sampleName sampleSymbol 100#256 w D sampleTxs := by
  obtain ⟨w, hw⟩ := (C104_deploy keccak256 sampleName sampleSymbol 100#256).mpr (by decide)
  refine ⟨w, by decide, sample_separate, by decide +kernel, by decide +kernel, hw, ?_⟩
  intro tx htx a ha
  simp only [sampleTxs, List.mem_cons, List.not_mem_nil, or_false] at htx
  rcases htx with rfl | rfl | rfl | rfl <;>
    (have := (C104_names D _ _ _ a).mp ha
     simp only [List.mem_cons, List.not_mem_nil, or_false]
     tauto)

-- 50 in total, 35 and 15, read from the words
example (D : Decoder) (U : Utf8) : ∃ w, Setting 10 [1#160, 2#160] sampleName sampleSymbol 100#256 w D sampleTxs ∧
    ask D U 1#160 (run keccak256 D U w sampleTxs) "totalSupply()" [] = some 50 ∧
    ask D U 1#160 (run keccak256 D U w sampleTxs) "balanceOf(address)" [addr 1#160] = some 35 ∧
    ask D U 2#160 (run keccak256 D U w sampleTxs) "balanceOf(address)" [addr 2#160] = some 15 := by
  obtain ⟨w, h⟩ := sample_setting D
  have step : ∀ (s : Erc20Example.State) (c : Address) (op : Erc20Example.Call),
      (Entry.erc20ExampleEntry keccak256 D ⟨sampleName, sampleSymbol⟩ c s 0#256 (bytesOf op)).after s =
        stepOf Erc20Example.exec s (c, op) := by
    intro s c op
    rw [Props.Entry.C102_call]
    unfold stepOf
    cases Erc20Example.exec s (c, op) <;> rfl
  have e : Entry.erc20ExampleRun keccak256 D ⟨sampleName, sampleSymbol⟩ (Erc20Example.init 100#256) sampleTxs =
      Erc20Example.run (Erc20Example.init 100#256) [(1#160, .token (.mint 1#160 50#256)), (1#160, .token (.approve 2#160 20#256)),
        (2#160, .token (.transferFrom 1#160 2#160 15#256)), (2#160, .token (.transfer 1#160 16#256))] := by
    simp only [Entry.erc20ExampleRun, sampleTxs, List.foldl_cons, List.foldl_nil, step]
    rfl
  refine ⟨w, h, ?_, ?_, ?_⟩
  · rw [ask_words h U (view_mem (a := 1#160) (b := 1#160) (by simp) (by simp) (by simp)).1, e,
      (Props.Entry.ask_eq D _ 1#160 1#160 1#160 _).1]
    decide +kernel
  · rw [ask_words h U (view_mem (b := 1#160) (by simp) (by simp) (by simp)).2.1, e, (Props.Entry.ask_eq D _ 1#160 1#160 1#160 _).2.1]
    decide +kernel
  · rw [ask_words h U (view_mem (b := 1#160) (by simp) (by simp) (by simp)).2.1, e, (Props.Entry.ask_eq D _ 2#160 2#160 1#160 _).2.1]
    decide +kernel

-- there is a `Utf8`
example : Nonempty Utf8 := by
  classical
  refine ⟨⟨fun b => if h : ∃ s, Logs.utf8 s = b then h.choose else [], fun s => ?_⟩⟩
  have h : ∃ s', Logs.utf8 s' = Logs.utf8 s := ⟨s, rfl⟩
  rw [dif_pos h]
  exact Props.Logs.utf8_inj h.choose_spec

end Verif.Props.Deployed
