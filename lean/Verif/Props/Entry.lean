import Verif.Proofs.Entry
import Verif.Props.Erc20Example
import Verif.Props.Erc20History
/-!
# C102: the capped, pausable token as a contract on bytes

`D` is any decoder that reads encodings back (`Abi.Decoder`), `m` the name and symbol given to the constructor.
-/
namespace Verif.Props.Entry
open Verif Verif.Abi Verif.Entry Verif.Proofs.Entry
open Verif.Spec.Keccak (keccak256)
open Verif.Spec.Revert (word addr)
open Verif.Spec.Calls (call sel flag tail)
open Verif.Erc20Example (State Call exec)

/-- The calldata of each operation. -/
def bytesOf : Call → Bytes
  | .token (.transfer dst v) => call "transfer(address,uint256)" [addr dst, v]
  | .token (.transferFrom src dst v) => call "transferFrom(address,address,uint256)" [addr src, addr dst, v]
  | .token (.approve sp v) => call "approve(address,uint256)" [addr sp, v]
  | .token (.mint a v) => call "mint(address,uint256)" [addr a, v]
  | .token (.burn v) => call "burn(uint256)" [v]
  | .token (.burnFrom a v) => call "burnFrom(address,uint256)" [addr a, v]
  | .pause => call "pause()" []
  | .unpause => call "unpause()" []

/-- What a successful operation returns: `true` from the functions of the standard, nothing from the others. -/
def resultOf : Call → Bytes
  | .token (.transfer _ _) => word 1#256
  | .token (.transferFrom _ _ _) => word 1#256
  | .token (.approve _ _) => word 1#256
  | _ => []

theorem mem_contracts : (⟨Router.erc20Example, Spec.Router.erc20Example,
    [Spec.Router.erc20, Spec.Router.erc20Metadata, Spec.Router.erc165]⟩ : Spec.Router.Entry) ∈ Spec.Router.contracts := by
  simp [Spec.Router.contracts]

set_option maxRecDepth 100000 in
theorem abi_in_table : ∀ r ∈ Spec.Router.erc20Example, r.1 ∈ Props.Router.table.map Prod.fst := by decide +kernel

/-- `entry_call` for this contract, with the arguments as words. -/
theorem run_fn (D : Decoder) (m : Strings) (caller : Address) (s : State) {sg t : String} {f : Router.Fn}
    (hs : (sg, t, f.rustName) ∈ Spec.Router.erc20Example) (hr : Props.Router.routeSig Router.erc20Example sg = some (t, f))
    {args : List Val} {ws : List U256} (hw : args.map Val.code = ws.map .inl) (ht : args.map Val.type = flat f.args)
    (hl : ws.length < 8) :
    erc20ExampleEntry keccak256 D m caller s 0#256 (call sg ws) =
      outcome (Entry.erc20Example keccak256 m caller t f.rustName args s) := by
  have he := encode_static hw
  have := entry_call mem_contracts D (Entry.erc20Example keccak256 m caller) s (abi_in_table _ hs) hr ht
    (by rw [he, flatMap_word_length]; omega)
  rw [he] at this
  exact this

/-- The revert data of an error; a panic has none. -/
def revertBytes (e : Erc20Example.Err) : Bytes := ((Revert.erc20Example e).data keccak256).getD []

set_option maxRecDepth 100000 in
/-- **C102** The calldata of an operation, sent without value, do exactly what the operation does for the sender: the same
new state and the result of the standard, or the same error as bytes. -/
theorem C102_call (D : Decoder) (m : Strings) (caller : Address) (s : State) (op : Call) :
    erc20ExampleEntry keccak256 D m caller s 0#256 (bytesOf op) =
      match exec s (caller, op) with
      | .ok s' => .returned s' (resultOf op)
      | .error e => .reverted (revertBytes e) := by
  have fin : ∀ (r : List Val) (w : Bytes) (x : Except Erc20Example.Err State), encode r = w →
      outcome (finish keccak256 Revert.erc20Example r x) =
      match x with
        | .ok s' => .returned s' w
        | .error e => .reverted (revertBytes e) := by
    intro r w x hr
    subst hr
    cases x <;> rfl
  have true_ : encode [.bool true] = word 1#256 := by
    rw [encode_static (ws := [1#256]) rfl]; simp
  have none_ : encode [] = [] := rfl
  cases op with
  | token c =>
    cases c with
    | transfer dst v =>
      exact (run_fn D m caller s (f := ⟨"transfer", none, [.address, .uint256]⟩) (t := "Erc20Example") (by decide) rfl
        (args := [.address dst, .uint256 v]) (by simp [address_code]; rfl) rfl (by simp)).trans (fin _ _ _ true_)
    | transferFrom src dst v =>
      exact (run_fn D m caller s (f := ⟨"transfer_from", none, [.address, .address, .uint256]⟩) (t := "Erc20Example") (by decide) rfl
        (args := [.address src, .address dst, .uint256 v]) (by simp [address_code]; rfl) rfl (by simp)).trans (fin _ _ _ true_)
    | approve sp v =>
      exact (run_fn D m caller s (f := ⟨"approve", none, [.address, .uint256]⟩) (t := "Erc20") (by decide) rfl
        (args := [.address sp, .uint256 v]) (by simp [address_code]; rfl) rfl (by simp)).trans (fin _ _ _ true_)
    | mint a v =>
      exact (run_fn D m caller s (f := ⟨"mint", none, [.address, .uint256]⟩) (t := "Erc20Example") (by decide) rfl
        (args := [.address a, .uint256 v]) (by simp [address_code]; rfl) rfl (by simp)).trans (fin _ _ _ none_)
    | burn v =>
      exact (run_fn D m caller s (f := ⟨"burn", none, [.uint256]⟩) (t := "Erc20Example") (by decide) rfl
        (args := [.uint256 v]) rfl rfl (by simp)).trans (fin _ _ _ none_)
    | burnFrom a v =>
      exact (run_fn D m caller s (f := ⟨"burn_from", none, [.address, .uint256]⟩) (t := "Erc20Example") (by decide) rfl
        (args := [.address a, .uint256 v]) (by simp [address_code]; rfl) rfl (by simp)).trans (fin _ _ _ none_)
  | pause =>
    exact (run_fn D m caller s (f := ⟨"pause", none, []⟩) (t := "Erc20Example") (by decide) rfl
      (args := []) rfl rfl (by simp)).trans (fin _ _ _ none_)
  | unpause =>
    exact (run_fn D m caller s (f := ⟨"unpause", none, []⟩) (t := "Erc20Example") (by decide) rfl
      (args := []) rfl rfl (by simp)).trans (fin _ _ _ none_)

set_option maxRecDepth 100000 in
/-- **C102** The questions: each is answered with the value of the state, encoded, and changes nothing. -/
theorem C102_views (D : Decoder) (m : Strings) (caller a b : Address) (id : BitVec 32) (s : State) :
    let ask := erc20ExampleEntry keccak256 D m caller s 0#256
    ask (call "totalSupply()" []) = .returned s (word (Erc20.totalSupplyOf s.erc20)) ∧
    ask (call "balanceOf(address)" [addr a]) = .returned s (word (Erc20.balanceOf s.erc20 a)) ∧
    ask (call "allowance(address,address)" [addr a, addr b]) = .returned s (word (Erc20.allowance s.erc20 a b)) ∧
    ask (call "cap()" []) = .returned s (word s.cap) ∧
    ask (call "paused()" []) = .returned s (word (flag s.pausable.paused)) ∧
    ask (call "decimals()" []) = .returned s (word 10#256) ∧
    ask (call "name()" []) = .returned s (word 32#256 ++ tail (Logs.utf8 m.name)) ∧
    ask (call "symbol()" []) = .returned s (word 32#256 ++ tail (Logs.utf8 m.symbol)) ∧
    ask (call "supportsInterface(bytes4)" [id ++ 0#224]) = .returned s (word (flag (Interfaces.erc20Example keccak256 id))) := by
  intro ask
  have one : ∀ (v : Val) (w : U256), v.code = .inl w → encode [v] = word w := by
    intro v w h
    rw [encode_static (ws := [w]) (by simp [h])]; simp
  have str : ∀ t : List Char, encode [.string t] = word 32#256 ++ tail (Logs.utf8 t) := by
    intro t
    simp [encode, headsTails, Val.code, sized, tail, Props.Revert.be32_word]
  refine ⟨?_, ?_, ?_, ?_, ?_, ?_, ?_, ?_, ?_⟩
  · exact (run_fn D m caller s (f := ⟨"total_supply", none, []⟩) (t := "Erc20") (by decide) rfl
      (args := []) rfl rfl (by simp)).trans (congrArg (Outcome.returned s) (one _ _ rfl))
  · exact (run_fn D m caller s (f := ⟨"balance_of", none, [.address]⟩) (t := "Erc20") (by decide) rfl
      (args := [.address a]) (by simp [address_code]) rfl (by simp)).trans (congrArg (Outcome.returned s) (one _ _ rfl))
  · exact (run_fn D m caller s (f := ⟨"allowance", none, [.address, .address]⟩) (t := "Erc20") (by decide) rfl
      (args := [.address a, .address b]) (by simp [address_code]) rfl (by simp)).trans
        (congrArg (Outcome.returned s) (one _ _ rfl))
  · exact (run_fn D m caller s (f := ⟨"cap", none, []⟩) (t := "Capped") (by decide) rfl
      (args := []) rfl rfl (by simp)).trans (congrArg (Outcome.returned s) (one _ _ rfl))
  · exact (run_fn D m caller s (f := ⟨"paused", none, []⟩) (t := "Pausable") (by decide) rfl
      (args := []) rfl rfl (by simp)).trans (congrArg (Outcome.returned s) (one _ _ rfl))
  · exact (run_fn D m caller s (f := ⟨"decimals", none, []⟩) (t := "Erc20Example") (by decide) rfl
      (args := []) rfl rfl (by simp)).trans (congrArg (Outcome.returned s) (one _ _ rfl))
  · exact (run_fn D m caller s (f := ⟨"name", none, []⟩) (t := "Erc20Metadata") (by decide) rfl
      (args := []) rfl rfl (by simp)).trans (congrArg (Outcome.returned s) (str _))
  · exact (run_fn D m caller s (f := ⟨"symbol", none, []⟩) (t := "Erc20Metadata") (by decide) rfl
      (args := []) rfl rfl (by simp)).trans (congrArg (Outcome.returned s) (str _))
  · exact (run_fn D m caller s (f := ⟨"supports_interface", none, [.bytes4]⟩) (t := "Erc20Example") (by decide) rfl
      (args := [.bytes4 id]) rfl rfl (by simp)).trans (congrArg (Outcome.returned s) (one _ _ rfl))

set_option maxRecDepth 100000 in
/-- **C102** Nothing else has an effect: whatever bytes are sent with whatever value, the call reverts, or leaves the state
as it is, or is one of the operations, executed for the sender; then no value was sent and the input starts with the
calldata of that operation. -/
theorem C102_no_other_effect (D : Decoder) (m : Strings) (caller : Address) (s : State) (value : U256) (input : Bytes) :
    (∃ data, erc20ExampleEntry keccak256 D m caller s value input = .reverted data) ∨
    (∃ data, erc20ExampleEntry keccak256 D m caller s value input = .returned s data) ∨
    ∃ op s', exec s (caller, op) = .ok s' ∧
      erc20ExampleEntry keccak256 D m caller s value input = .returned s' (resultOf op) ∧
      value = 0#256 ∧ bytesOf op <+: input := by
  cases hx : erc20ExampleEntry keccak256 D m caller s value input with
  | reverted data => exact .inl ⟨data, rfl⟩
  | returned s' data =>
    right
    obtain ⟨hv, sg, t, n, args, r, hsg, hh, rfl, hpre⟩ := entry_returned mem_contracts hx
    have true_ : encode [.bool true] = word 1#256 := by
      rw [encode_static (ws := [1#256]) rfl]; simp
    have fin : ∀ {r' : List Val} {x : Except Erc20Example.Err State},
        finish keccak256 Revert.erc20Example r' x = .ok (s', r) → x = .ok s' ∧ r = r' := by
      intro r' x h
      cases x with
      | ok y => simp only [finish, Except.ok.injEq, Prod.mk.injEq] at h; exact ⟨by rw [h.1], h.2.symm⟩
      | error e => cases h
    have st : ∀ {vs : List Val} {ws : List U256}, vs.map Val.code = ws.map .inl → ∀ v ∈ vs, v.isStatic := by
      intro vs ws h v hv
      have : v.code ∈ vs.map Val.code := List.mem_map_of_mem hv
      rw [h] at this
      obtain ⟨w, _, hw⟩ := List.mem_map.mp this
      exact ⟨w, hw.symm⟩
    have pre : ∀ {ws : List U256} {g : String}, args.map Val.code = ws.map .inl → sg = g → call g ws <+: input := by
      intro ws g h hg
      have := hpre (st h)
      rw [encode_static h, hg] at this
      exact this
    have op : ∀ {o : Call} {r' : List Val}, finish keccak256 Revert.erc20Example r' (exec s (caller, o)) = .ok (s', r) →
        encode r' = resultOf o → bytesOf o <+: input →
        ∃ op s'', exec s (caller, op) = .ok s'' ∧ Outcome.returned s' (encode r) = .returned s'' (resultOf op) ∧
          value = 0#256 ∧ bytesOf op <+: input := by
      intro o r' h1 h2 h3
      obtain ⟨h4, h5⟩ := fin h1
      exact ⟨o, s', h4, by rw [h5, h2], hv, h3⟩
    unfold Entry.erc20Example dispatch at hh
    split at hh
    · rename_i x hx
      have hmem := List.mem_of_find?_eq_some hx
      have hk := List.find?_some hx
      simp only [Bool.and_eq_true, decide_eq_true_eq] at hk
      obtain ⟨rfl, rfl⟩ := hk
      simp only [List.mem_cons, List.not_mem_nil, or_false] at hmem
      rcases hmem with rfl | rfl | rfl | rfl | rfl | rfl | rfl | rfl | rfl | rfl | rfl | rfl | rfl | rfl | rfl | rfl | rfl <;>
        dsimp only at hh hsg <;> split at hh <;> first | cases hh; done | skip
      · cases hh; exact .inl ⟨_, rfl⟩
      · exact .inr (op (o := .token (.burn _)) hh rfl (pre rfl (by simpa [Spec.Router.erc20Example] using hsg)))
      · exact .inr (op (o := .token (.burnFrom _ _)) hh rfl (pre (by simp [address_code]; rfl) (by simpa [Spec.Router.erc20Example] using hsg)))
      · exact .inr (op (o := .token (.mint _ _)) hh rfl (pre (by simp [address_code]; rfl) (by simpa [Spec.Router.erc20Example] using hsg)))
      · exact .inr (op (o := .token (.transfer _ _)) hh true_ (pre (by simp [address_code]; rfl) (by simpa [Spec.Router.erc20Example] using hsg)))
      · exact .inr (op (o := .token (.transferFrom _ _ _)) hh true_ (pre (by simp [address_code]; rfl) (by simpa [Spec.Router.erc20Example] using hsg)))
      · cases hh; exact .inl ⟨_, rfl⟩
      · exact .inr (op (o := .pause) hh rfl (pre rfl (by simpa [Spec.Router.erc20Example] using hsg)))
      · exact .inr (op (o := .unpause) hh rfl (pre rfl (by simpa [Spec.Router.erc20Example] using hsg)))
      · cases hh; exact .inl ⟨_, rfl⟩
      · cases hh; exact .inl ⟨_, rfl⟩
      · cases hh; exact .inl ⟨_, rfl⟩
      · exact .inr (op (o := .token (.approve _ _)) hh true_ (pre (by simp [address_code]; rfl) (by simpa [Spec.Router.erc20Example] using hsg)))
      · cases hh; exact .inl ⟨_, rfl⟩
      · cases hh; exact .inl ⟨_, rfl⟩
      · cases hh; exact .inl ⟨_, rfl⟩
      · cases hh; exact .inl ⟨_, rfl⟩
    · cases hh

/-- **C102** A call with value, or whose first four bytes are not the selector of one of the seventeen functions, reverts
without data. -/
theorem C102_refused (D : Decoder) (m : Strings) (caller : Address) (s : State) (value : U256) (input : Bytes)
    (h : value ≠ 0#256 ∨ ∀ sig ∈ ["decimals()", "burn(uint256)", "burnFrom(address,uint256)", "mint(address,uint256)",
      "transfer(address,uint256)", "transferFrom(address,address,uint256)", "supportsInterface(bytes4)", "pause()",
      "unpause()", "totalSupply()", "balanceOf(address)", "allowance(address,address)", "approve(address,uint256)",
      "name()", "symbol()", "cap()", "paused()"], ¬ sel sig <+: input) :
    erc20ExampleEntry keccak256 D m caller s value input = .reverted [] := by
  refine entry_refused mem_contracts D _ s value input (h.imp id fun h r hr => ?_)
  have : Spec.Router.erc20Example.map Prod.fst = ["decimals()", "burn(uint256)", "burnFrom(address,uint256)",
      "mint(address,uint256)",
      "transfer(address,uint256)", "transferFrom(address,address,uint256)", "supportsInterface(bytes4)", "pause()",
      "unpause()", "totalSupply()", "balanceOf(address)", "allowance(address,address)", "approve(address,uint256)",
      "name()", "symbol()", "cap()", "paused()"] := rfl
  rw [← this] at h
  exact h _ (List.mem_map_of_mem hr)

/-! ## Histories of raw transactions -/

/-- **C102** What any list of raw transactions does is what some history of operations does, made by the senders of the
transactions in their order. -/
theorem C102_history (D : Decoder) (m : Strings) (s : State) (txs : List Tx) :
    ∃ ops : List (Address × Call), erc20ExampleRun keccak256 D m s txs = Erc20Example.run s ops ∧
      (ops.map Prod.fst).Sublist (txs.map Tx.caller) := by
  induction txs generalizing s with
  | nil => exact ⟨[], rfl, List.Sublist.slnil⟩
  | cons tx txs ih =>
    have hcons : erc20ExampleRun keccak256 D m s (tx :: txs) = erc20ExampleRun keccak256 D m
        ((erc20ExampleEntry keccak256 D m tx.caller s tx.value tx.input).after s) txs := rfl
    rw [hcons]
    rcases C102_no_other_effect D m tx.caller s tx.value tx.input with ⟨d, h⟩ | ⟨d, h⟩ | ⟨op, s', he, h, _, _⟩
    · rw [h]
      obtain ⟨ops, h1, h2⟩ := ih s
      exact ⟨ops, h1, h2.cons _⟩
    · rw [h]
      obtain ⟨ops, h1, h2⟩ := ih s
      exact ⟨ops, h1, h2.cons _⟩
    · rw [h]
      obtain ⟨ops, h1, h2⟩ := ih s'
      refine ⟨(tx.caller, op) :: ops, ?_, h2.cons_cons _⟩
      rw [show Outcome.after s (Outcome.returned s' (resultOf op)) = s' from rfl, h1]
      show _ = Erc20Example.run (stepOf exec s (tx.caller, op)) ops
      rw [stepOf, he]

/-- The number in the reply to a question; `asker` sends it. -/
def ask (D : Decoder) (m : Strings) (asker : Address) (s : State) (sig : String) (args : List U256) : Option Nat :=
  (erc20ExampleEntry keccak256 D m asker s 0#256 (call sig args)).reply.map Spec.Logs.number

theorem ask_eq (D : Decoder) (m : Strings) (asker a b : Address) (s : State) :
    ask D m asker s "totalSupply()" [] = some (Erc20.totalSupplyOf s.erc20).toNat ∧
    ask D m asker s "balanceOf(address)" [addr a] = some (Erc20.balanceOf s.erc20 a).toNat ∧
    ask D m asker s "allowance(address,address)" [addr a, addr b] = some (Erc20.allowance s.erc20 a b).toNat ∧
    ask D m asker s "cap()" [] = some s.cap.toNat ∧
    ask D m asker s "paused()" [] = some (if s.pausable.paused then 1 else 0) := by
  obtain ⟨h1, h2, h3, h4, h5, _⟩ := C102_views D m asker a b 0#32 s
  unfold ask
  rw [h1, h2, h3, h4, h5]
  refine ⟨?_, ?_, ?_, ?_, ?_⟩ <;> simp only [Outcome.reply, Option.map_some, Props.Logs.number_word]
  unfold flag
  split <;> rfl

/-- **C102** Seen from outside, with bytes only: after any list of raw transactions to a freshly deployed contract, every
account's `balanceOf`, and `totalSupply`, are answered, the balances add up to the supply, and the supply is at most the
cap chosen at deployment, which `cap` still answers. -/
theorem C102_supply (D : Decoder) (m : Strings) (cap : U256) (txs : List Tx) (asker : Address) :
    let s := erc20ExampleRun keccak256 D m (Erc20Example.init cap) txs
    ∃ (total : Nat) (balance : Address → Nat),
      ask D m asker s "totalSupply()" [] = some total ∧
      (∀ a, ask D m asker s "balanceOf(address)" [addr a] = some (balance a)) ∧
      total = ∑ a, balance a ∧ total ≤ cap.toNat ∧ ask D m asker s "cap()" [] = some cap.toNat := by
  intro s
  obtain ⟨ops, h1, _⟩ := C102_history D m (Erc20Example.init cap) txs
  obtain ⟨hs, hc, hle⟩ := Props.Erc20Example.cap_inv cap ops
  rw [← h1] at hs hc hle
  refine ⟨(Erc20.totalSupplyOf s.erc20).toNat, fun a => (Erc20.balanceOf s.erc20 a).toNat,
    (ask_eq D m asker 0#160 0#160 s).1, fun a => (ask_eq D m asker a 0#160 s).2.1, ?_, hle, ?_⟩
  · exact hs.symm
  · rw [(ask_eq D m asker 0#160 0#160 s).2.2.2.1, hc]

theorem token_reachable (cap : U256) (ops : List (Address × Call)) :
    Spec.Erc20.Reachable (Erc20Example.run (Erc20Example.init cap) ops).erc20 := by
  refine run_invariant (exec := exec) (Inv := fun s => Spec.Erc20.Reachable s.erc20) ?_ ops _ ⟨[], rfl⟩
  rintro s ⟨c, k⟩ s' ⟨tops, ht⟩ h
  obtain ⟨_, ⟨tc, _, htc, _⟩ | ⟨_, he, _⟩⟩ := Props.Erc20Example.exec_ok h
  · refine ⟨tops ++ [(c, tc)], ?_⟩
    unfold Erc20.run runOf at *
    rw [List.foldl_append, ← ht, List.foldl_cons, List.foldl_nil, stepOf, htc]
  · exact ⟨tops, by rw [he, ht]⟩

/-- **C102** Seen from outside: if a raw transaction lowers what `balanceOf(a)` answers, then `a` sent it, or
`allowance(a, sender)` had answered at least the difference. -/
theorem C102_only_authorised (D : Decoder) (m : Strings) (cap : U256) (txs : List Tx) (tx : Tx) (asker a : Address)
    (before after : Nat)
    (hb : ask D m asker (erc20ExampleRun keccak256 D m (Erc20Example.init cap) txs) "balanceOf(address)" [addr a] = some before)
    (ha : ask D m asker (erc20ExampleRun keccak256 D m (Erc20Example.init cap) (txs ++ [tx])) "balanceOf(address)" [addr a] =
      some after)
    (hlt : after < before) :
    tx.caller = a ∨ ∃ allowed, before - after ≤ allowed ∧
      ask D m asker (erc20ExampleRun keccak256 D m (Erc20Example.init cap) txs) "allowance(address,address)"
        [addr a, addr tx.caller] = some allowed := by
  have hsnoc : erc20ExampleRun keccak256 D m (Erc20Example.init cap) (txs ++ [tx]) =
      (erc20ExampleEntry keccak256 D m tx.caller (erc20ExampleRun keccak256 D m (Erc20Example.init cap) txs) tx.value
        tx.input).after (erc20ExampleRun keccak256 D m (Erc20Example.init cap) txs) := by
    unfold erc20ExampleRun
    rw [List.foldl_append]; rfl
  rw [hsnoc] at ha
  obtain ⟨ops, hops, _⟩ := C102_history D m (Erc20Example.init cap) txs
  have hreach := token_reachable cap ops
  rw [← hops] at hreach
  generalize erc20ExampleRun keccak256 D m (Erc20Example.init cap) txs = s at *
  rw [(ask_eq D m asker a 0#160 s).2.1, Option.some.injEq] at hb
  rw [(ask_eq D m asker a 0#160 _).2.1, Option.some.injEq] at ha
  rw [(ask_eq D m asker a tx.caller s).2.2.1]
  rcases C102_no_other_effect D m tx.caller s tx.value tx.input with ⟨d, h⟩ | ⟨d, h⟩ | ⟨op, s', he, h, _, _⟩
  · rw [h] at ha; simp only [Outcome.after] at ha; omega
  · rw [h] at ha; simp only [Outcome.after] at ha; omega
  · rw [h] at ha
    simp only [Outcome.after] at ha
    obtain ⟨_, ⟨tc, _, htc, _⟩ | ⟨_, heq, _⟩⟩ := Props.Erc20Example.exec_ok he
    · rcases Props.C05_only_authorised_debit hreach htc (a := a) (by omega) with h1 | h1
      · exact .inl h1
      · exact .inr ⟨_, by simp only at h1; omega, rfl⟩
    · rw [heq] at ha; omega

/-- **C102** Seen from outside: while `paused` answers 1, the calldata of every transfer, mint and burn reverts with the
bytes of `EnforcedPause()`. -/
theorem C102_paused (D : Decoder) (m : Strings) (caller asker : Address) (s : State)
    (hp : ask D m asker s "paused()" [] = some 1) (c : Erc20.Call) (hc : ∀ sp v, c ≠ .approve sp v) :
    erc20ExampleEntry keccak256 D m caller s 0#256 (bytesOf (.token c)) = .reverted (call "EnforcedPause()" []) := by
  rw [(ask_eq D m asker 0#160 0#160 s).2.2.2.2] at hp
  have hp : s.pausable.paused = true := by
    by_contra h
    rw [if_neg h] at hp
    simp at hp
  rw [C102_call, Props.Erc20Example.C11_paused_rejects hp caller c hc]
  have := (Props.Revert.C95_access_and_utils keccak256 0#160 0#160 0#256 0#256).2.2.2.2.1
  simp only [revertBytes]
  rw [show Revert.erc20Example (.pausable .enforcedPause) = Revert.pausable .enforcedPause from rfl, this]
  rfl

/-! ## The hypotheses are met -/

/-- Accounts for the examples. -/
def alice : Address := 0xa11ce#160
/-- Another. -/
def bob : Address := 0xb0b#160

/-- A name and a symbol. -/
def strings : Strings := ⟨['T'], ['t']⟩

/-- Six transactions: a mint, an approval, a transfer with value (refused), a transfer from Alice by Bob, unknown bytes, and a
transfer of more than there is. -/
def sampleTxs : List Tx :=
  [⟨alice, 0#256, bytesOf (.token (.mint alice 50#256))⟩, ⟨alice, 0#256, bytesOf (.token (.approve bob 20#256))⟩,
   ⟨alice, 1#256, bytesOf (.token (.transfer bob 10#256))⟩,
   ⟨bob, 0#256, bytesOf (.token (.transferFrom alice bob 15#256))⟩, ⟨bob, 0#256, []⟩,
   ⟨bob, 0#256, bytesOf (.token (.transfer alice 16#256))⟩]

theorem sample_run (D : Decoder) : erc20ExampleRun keccak256 D strings (Erc20Example.init 100#256) sampleTxs =
    Erc20Example.run (Erc20Example.init 100#256) [(alice, .token (.mint alice 50#256)), (alice, .token (.approve bob 20#256)),
      (bob, .token (.transferFrom alice bob 15#256)), (bob, .token (.transfer alice 16#256))] := by
  have h1 : ∀ (s : State) (c : Address) (op : Call),
      (erc20ExampleEntry keccak256 D strings c s 0#256 (bytesOf op)).after s = stepOf exec s (c, op) := by
    intro s c op
    rw [C102_call]
    unfold stepOf
    cases exec s (c, op) <;> rfl
  have h2 : ∀ (s : State) (c : Address) (b : Bytes),
      (erc20ExampleEntry keccak256 D strings c s 1#256 b).after s = s := by
    intro s c b
    rw [C102_refused D strings c s 1#256 b (.inl (by decide))]; rfl
  have h3 : ∀ (s : State) (c : Address), (erc20ExampleEntry keccak256 D strings c s 0#256 []).after s = s :=
    fun _ _ => rfl
  simp only [erc20ExampleRun, sampleTxs, List.foldl_cons, List.foldl_nil, h1, h2, h3]
  rfl

-- C102_supply: 50 in total, 35 and 15
example (D : Decoder) (asker : Address) :
    let s := erc20ExampleRun keccak256 D strings (Erc20Example.init 100#256) sampleTxs
    ask D strings asker s "totalSupply()" [] = some 50 ∧ ask D strings asker s "balanceOf(address)" [addr alice] = some 35 ∧
    ask D strings asker s "balanceOf(address)" [addr bob] = some 15 := by
  intro s
  rw [(ask_eq D strings asker alice alice s).1, (ask_eq D strings asker alice alice s).2.1,
    (ask_eq D strings asker bob alice s).2.1]
  rw [show s = _ from sample_run D]
  decide +kernel

-- C102_only_authorised: Bob's transaction lowers Alice's balance by 15, with an allowance of 20
example (D : Decoder) (asker : Address) :
    let before := erc20ExampleRun keccak256 D strings (Erc20Example.init 100#256) (sampleTxs.take 3)
    let after := erc20ExampleRun keccak256 D strings (Erc20Example.init 100#256) (sampleTxs.take 3 ++ [sampleTxs[3]])
    ask D strings asker before "balanceOf(address)" [addr alice] = some 50 ∧
    ask D strings asker after "balanceOf(address)" [addr alice] = some 35 ∧
    ask D strings asker before "allowance(address,address)" [addr alice, addr bob] = some 20 := by
  intro before after
  have h1 : ∀ (s : State) (c : Address) (op : Call),
      (erc20ExampleEntry keccak256 D strings c s 0#256 (bytesOf op)).after s = stepOf exec s (c, op) := by
    intro s c op
    rw [C102_call]
    unfold stepOf
    cases exec s (c, op) <;> rfl
  have h2 : ∀ (s : State) (c : Address) (b : Bytes),
      (erc20ExampleEntry keccak256 D strings c s 1#256 b).after s = s := by
    intro s c b
    rw [C102_refused D strings c s 1#256 b (.inl (by decide))]; rfl
  have hb : before = Erc20Example.run (Erc20Example.init 100#256)
      [(alice, .token (.mint alice 50#256)), (alice, .token (.approve bob 20#256))] := by
    simp only [before, erc20ExampleRun, sampleTxs, List.take_succ_cons, List.take_zero, List.foldl_cons, List.foldl_nil, h1, h2]
    rfl
  have ha : after = Erc20Example.run (Erc20Example.init 100#256)
      [(alice, .token (.mint alice 50#256)), (alice, .token (.approve bob 20#256)),
       (bob, .token (.transferFrom alice bob 15#256))] := by
    simp only [after, erc20ExampleRun, sampleTxs, List.take_succ_cons, List.take_zero, List.cons_append, List.nil_append,
      List.getElem_cons_succ, List.getElem_cons_zero, List.foldl_cons, List.foldl_nil, h1, h2]
    rfl
  rw [(ask_eq D strings asker alice alice before).2.1, (ask_eq D strings asker alice alice after).2.1,
    (ask_eq D strings asker alice bob before).2.2.1, hb, ha]
  decide +kernel

-- C102_paused: after `pause()`, `paused` answers 1
example (D : Decoder) (asker : Address) : ask D strings asker
    (Erc20Example.run (Erc20Example.init 100#256) [(alice, .pause)]) "paused()" [] = some 1 := by
  rw [(ask_eq D strings asker alice alice _).2.2.2.2]
  decide +kernel

-- C102_refused: the receive selector of ERC-721 is not one of the seventeen
set_option maxRecDepth 100000 in
example : ∀ sig ∈ ["decimals()", "transfer(address,uint256)", "paused()"],
    ¬ sel sig <+: [0x15#8, 0x0b#8, 0x7a#8, 0x02#8] := by
  unfold sel
  rw [Proofs.KeccakFast.keccak256_eq]
  decide +kernel

-- decoders differ on what may follow the arguments, and both are covered
example : Proofs.Abi.lenient.read [.uint256] (word 5#256 ++ [7#8]) = some [.uint256 5#256] ∧
    Proofs.Abi.strict.read [.uint256] (word 5#256 ++ [7#8]) = none := by decide +kernel

end Verif.Props.Entry
