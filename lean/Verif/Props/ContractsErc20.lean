import Verif.Proofs.Contracts
import Verif.Props.Erc20
import Verif.Props.Erc20Permit
import Verif.Props.Compositions
import Verif.Props.Interfaces
/-! # C103: the ERC-20 example contracts, on bytes -/
namespace Verif.Props.Contracts
open Verif Verif.Abi Verif.Contracts Verif.Proofs.Contracts
open Verif.Spec.Keccak (keccak256)
open Verif.Spec.Contracts
open Verif.Spec.Calls (call)
open Verif.Spec.Revert (addr)

namespace BasicTokenContract
open Verif.Erc20 (State Err)
open Verif.Entry (Strings)

/-- The operations of the contract. -/
inductive Op where
  | transfer (dst : Address) (value : U256)
  | transferFrom (src dst : Address) (value : U256)
  | approve (spender : Address) (value : U256)
  | mint (account : Address) (value : U256)

/-- The same as calls of the model. -/
def Op.call : Op → Erc20.Call
  | .transfer dst v => .transfer dst v
  | .transferFrom src dst v => .transferFrom src dst v
  | .approve p v => .approve p v
  | .mint a v => .mint a v

/-- Signature and arguments of each operation. -/
def abi : Op → String × List Val
  | .transfer dst v => ("transfer(address,uint256)", [.address dst, .uint256 v])
  | .transferFrom src dst v => ("transferFrom(address,address,uint256)", [.address src, .address dst, .uint256 v])
  | .approve p v => ("approve(address,uint256)", [.address p, .uint256 v])
  | .mint a v => ("mint(address,uint256)", [.address a, .uint256 v])

/-- What each operation returns. -/
def results : Op → List Val
  | .transfer .. | .transferFrom .. | .approve .. => [.bool true]
  | .mint .. => []

/-- The operation of the model, for the sender and in the environment of the message. -/
def exec (env : Address) (s : State) (op : Op) : Except Err (State × List Val) :=
  giving (Erc20.exec s (env, op.call)) (results op)

/-- `examples/basic/token` on bytes. -/
def run (D : Decoder) (m : Strings) (env : Address) (s : State) (value : U256) (input : Bytes) : Outcome State :=
  entry keccak256 D Router.basicToken (Entry.basicToken keccak256 m env) s value input

/-- The revert data of an error. -/
def revert (e : Err) : Bytes := ((Revert.erc20 e).data keccak256).getD []

abbrev spec : Spec.Router.Entry := ⟨Router.basicToken, Spec.Router.basicToken, [Spec.Router.erc20, Spec.Router.erc20Metadata]⟩

theorem mem : spec ∈ Spec.Router.contracts := by simp [Spec.Router.contracts]

set_option maxRecDepth 100000 in
/-- **C103** For every operation, sender, environment and state: the message of the call, as the ABI defines it, has exactly the
effect and the reply of the operation, or reverts with exactly the bytes of its error. -/
theorem C103_basic_token_call (D : Decoder) (m : Strings) (env : Address) (s : State) (op : Op)
    (hl : (message (abi op).1 (abi op).2).length < 2 ^ 256) :
    run D m env s 0#256 (message (abi op).1 (abi op).2) = reply revert (exec env s op) := by
  cases op <;> exact run_message mem D _ s _ _ rfl rfl (by operation) (by simp [abi, Spec.Router.basicToken]) hl

set_option maxRecDepth 100000 in
theorem ops (m : Strings) : Ops spec (Entry.basicToken keccak256 m) abi exec where
  inv env s sg t n args s' r hm hh := by
    rows hh hm [abi, Spec.Router.basicToken] operations [.mint _ _, .transfer _ _, .approve _ _, .transferFrom _ _ _]

/-- **C103** Whatever is sent: the call is refused, or it is answered and changes nothing, or it is a call of one of the
operations (its selector, its arguments, no value) that succeeds, with exactly its effect and its reply. -/
theorem C103_basic_token_no_other_effect (D : Decoder) (m : Strings) (env : Address) (s : State) (value : U256) (input : Bytes) :
    (∃ data, run D m env s value input = .reverted data) ∨
    (∃ data, run D m env s value input = .returned s data) ∨
    ∃ op s' r, exec env s op = .ok (s', r) ∧ run D m env s value input = .returned s' (values r) ∧
      value = 0#256 ∧ Says D input (abi op).1 (abi op).2 :=
  no_other_effect mem (ops m) D env s value input

/-- **C103** Any list of raw transactions has the effect of a list of operations, made in the same order and in the environments
of transactions of the list. -/
theorem C103_basic_token_history (D : Decoder) (m : Strings) (s : State) (txs : List (Raw Address)) :
    ∃ l : List (Address × Op), after (run D m) s txs = Erc20.run s (l.map fun x => (x.1, x.2.call)) ∧
      (l.map Prod.fst).Sublist (txs.map Raw.env) := by
  obtain ⟨l, h1, h2⟩ := raw_history mem (ops m) D s txs
  refine ⟨l, ?_, h2⟩
  exact h1.trans (history_runOf (T := Address × Erc20.Call) (exec := exec) (exec' := Erc20.exec) (fun x => (x.1, x.2.call)) (r := results) (fun _ _ _ => rfl) s l)

/-- **C103** Conversely, any list of operations can be made by sending their messages. -/
theorem C103_basic_token_sends (D : Decoder) (m : Strings) (s : State) (l : List (Address × Op))
    (hl : ∀ x ∈ l, (message (abi x.2).1 (abi x.2).2).length < 2 ^ 256) :
    after (run D m) s (sent abi l) = Erc20.run s (l.map fun x => (x.1, x.2.call)) :=
  (sent_history (C103_basic_token_call D m) l s hl).trans
    (history_runOf (T := Address × Erc20.Call) (exec := exec) (exec' := Erc20.exec) (fun x => (x.1, x.2.call)) (r := results) (fun _ _ _ => rfl) s l)

set_option maxRecDepth 100000 in
/-- **C103** What the questions answer, for every sender and state: in particular `decimals` is 18, and name and symbol are those
of the deployment. -/
theorem C103_basic_token_views (D : Decoder) (m : Strings) (env : Address) (s : State) (a b : Address) :
    run D m env s 0#256 (message "totalSupply()" []) = .returned s (values [.uint256 s.totalSupply]) ∧
    run D m env s 0#256 (message "balanceOf(address)" [.address a]) = .returned s (values [.uint256 (s.balances a)]) ∧
    run D m env s 0#256 (message "allowance(address,address)" [.address a, .address b]) =
      .returned s (values [.uint256 (s.allowances a b)]) ∧
    run D m env s 0#256 (message "name()" []) = .returned s (values [.string m.name]) ∧
    run D m env s 0#256 (message "symbol()" []) = .returned s (values [.string m.symbol]) ∧
    run D m env s 0#256 (message "decimals()" []) = .returned s (values [.uint8 18#8]) := by
  refine ⟨?_, ?_, ?_, ?_, ?_, ?_⟩ <;>
    refine run_message mem D _ s _ _ rfl rfl ?_ (by simp [Spec.Router.basicToken]) (words_lt _ _ (by simp [arg]) (by simp))
  all_goals exact outcome_ok _ _

/-- **C103** Seen from outside, with bytes only: after any list of raw transactions to a freshly deployed token, the answers to
`balanceOf` add up to the answer to `totalSupply`. -/
theorem C103_basic_token_supply (D : Decoder) (m : Strings) (txs : List (Raw Address)) (asker : Address) :
    let s := after (run D m) Erc20.init txs
    ∃ (total : U256) (balance : Address → U256),
      answer (run D m) asker s "totalSupply()" [] = some (values [.uint256 total]) ∧
      (∀ a, answer (run D m) asker s "balanceOf(address)" [.address a] = some (values [.uint256 (balance a)])) ∧
      ∑ a, (balance a).toNat = total.toNat := by
  intro s
  obtain ⟨l, hl, _⟩ := C103_basic_token_history D m Erc20.init txs
  refine ⟨s.totalSupply, s.balances, ?_, fun a => ?_, ?_⟩
  · unfold answer
    rw [(C103_basic_token_views D m asker s 0#160 0#160).1]; rfl
  · unfold answer
    rw [(C103_basic_token_views D m asker s a 0#160).2.1]; rfl
  · have := Props.C01_balances_sum_to_supply (l.map fun x => (x.1, x.2.call))
    rw [← hl] at this
    exact this

/-- **C103** Seen from outside, with bytes only: if the answer to `balanceOf` falls over a raw transaction, the holder sent it, or
`allowance` had answered at least the difference for the sender. -/
theorem C103_basic_token_no_theft (D : Decoder) (m : Strings) (txs : List (Raw Address)) (tx : Raw Address) (asker a : Address)
    (n n' : U256)
    (hb : answer (run D m) asker (after (run D m) Erc20.init txs) "balanceOf(address)" [.address a] = some (values [.uint256 n]))
    (ha : answer (run D m) asker (after (run D m) Erc20.init (txs ++ [tx])) "balanceOf(address)" [.address a] =
      some (values [.uint256 n']))
    (hlt : n'.toNat < n.toNat) :
    tx.env = a ∨ ∃ allowed : U256, n.toNat - n'.toNat ≤ allowed.toNat ∧
      answer (run D m) asker (after (run D m) Erc20.init txs) "allowance(address,address)" [.address a, .address tx.env] =
        some (values [.uint256 allowed]) := by
  rw [after_snoc] at ha
  obtain ⟨l, hl, _⟩ := C103_basic_token_history D m Erc20.init txs
  have hr : Spec.Erc20.Reachable (after (run D m) Erc20.init txs) := ⟨_, hl⟩
  generalize after (run D m) Erc20.init txs = s at *
  unfold answer at *
  rw [(C103_basic_token_views D m asker s a 0#160).2.1] at hb
  rw [(C103_basic_token_views D m asker _ a 0#160).2.1] at ha
  rw [(C103_basic_token_views D m asker s a tx.env).2.2.1]
  injection hb with hb
  injection ha with ha
  rw [← uint256_inj hb, ← uint256_inj ha] at hlt ⊢
  rcases C103_basic_token_no_other_effect D m tx.env s tx.value tx.input with ⟨d, h⟩ | ⟨d, h⟩ | ⟨op, s', r, he, h, _, _⟩
  · rw [h] at hlt; exact absurd hlt (lt_irrefl _)
  · rw [h] at hlt; exact absurd hlt (lt_irrefl _)
  · rw [h] at hlt ⊢
    rcases Props.C05_only_authorised_debit hr (giving_ok he) (a := a) hlt with h1 | h1
    · exact .inl h1
    · exact .inr ⟨_, h1, rfl⟩

/-! ### The hypotheses are met -/

/-- Alice gets 50, lets Bob spend 20, and he takes 15. -/
def sample : List (Address × Op) :=
  [(alice, .mint alice 50#256), (alice, .approve bob 20#256), (bob, .transferFrom alice bob 15#256)]

theorem sample_short : ∀ x ∈ sample, (message (abi x.2).1 (abi x.2).2).length < 2 ^ 256 := by
  intro x hx
  simp only [sample, List.mem_cons, List.not_mem_nil, or_false] at hx
  rcases hx with rfl | rfl | rfl <;> exact words_lt _ _ (by simp [abi, arg]) (by simp [abi])

-- C103_basic_token_supply, C103_basic_token_no_theft
example (D : Decoder) (m : Strings) (asker : Address) :
    let s := fun n => after (run D m) Erc20.init (sent abi (sample.take n))
    answer (run D m) asker (s 2) "totalSupply()" [] = some (values [.uint256 50#256]) ∧
    answer (run D m) asker (s 2) "balanceOf(address)" [.address alice] = some (values [.uint256 50#256]) ∧
    answer (run D m) asker (s 2) "allowance(address,address)" [.address alice, .address bob] = some (values [.uint256 20#256]) ∧
    answer (run D m) asker (s 3) "balanceOf(address)" [.address alice] = some (values [.uint256 35#256]) := by
  intro s
  have h : ∀ n, s n = _ := fun n =>
    C103_basic_token_sends D m Erc20.init (sample.take n) fun x hx => sample_short x (List.mem_of_mem_take hx)
  have v := fun n => C103_basic_token_views D m asker (s n) alice bob
  have b1 : (s 2).totalSupply = 50#256 := by rw [h]; decide +kernel
  have b2 : (s 2).balances alice = 50#256 := by rw [h]; decide +kernel
  have b3 : (s 2).allowances alice bob = 20#256 := by rw [h]; decide +kernel
  have b4 : (s 3).balances alice = 35#256 := by rw [h]; decide +kernel
  unfold answer
  rw [(v 2).1, (v 2).2.1, (v 2).2.2.1, (v 3).2.1, b1, b2, b3, b4]
  exact ⟨rfl, rfl, rfl, rfl⟩

end BasicTokenContract

namespace OwnableContract
open Verif.OwnableExample

/-- Signature and arguments of each operation. -/
def abi : Call → String × List Val
  | .transfer dst v => ("transfer(address,uint256)", [.address dst, .uint256 v])
  | .transferFrom src dst v => ("transferFrom(address,address,uint256)", [.address src, .address dst, .uint256 v])
  | .approve p v => ("approve(address,uint256)", [.address p, .uint256 v])
  | .ownable (.transferOwnership a) => ("transferOwnership(address)", [.address a])
  | .ownable .renounceOwnership => ("renounceOwnership()", [])

/-- What each operation returns. -/
def results : Call → List Val
  | .transferFrom .. | .approve .. => [.bool true]
  | .transfer .. | .ownable _ => []

/-- The operation of the model, for the sender and in the environment of the message. -/
def exec (env : Address) (s : State) (op : Call) : Except Err (State × List Val) :=
  giving (OwnableExample.exec s (env, op)) (results op)

/-- `examples/ownable` on bytes. -/
def run (D : Decoder) (env : Address) (s : State) (value : U256) (input : Bytes) : Outcome State :=
  entry keccak256 D Router.ownableExample (Contracts.ownable keccak256 env) s value input

/-- The revert data of an error. -/
def revert (e : Err) : Bytes := ((ownableReply e).data keccak256).getD []

abbrev spec : Spec.Router.Entry := ⟨Router.ownableExample, Spec.Router.ownableExample, [Spec.Router.erc20, Spec.Router.erc173]⟩

theorem mem : spec ∈ Spec.Router.contracts := by simp [Spec.Router.contracts]

set_option maxRecDepth 100000 in
/-- **C103** For every operation, sender, environment and state: the message of the call, as the ABI defines it, has exactly the
effect and the reply of the operation, or reverts with exactly the bytes of its error. -/
theorem C103_ownable_call (D : Decoder) (env : Address) (s : State) (op : Call)
    (hl : (message (abi op).1 (abi op).2).length < 2 ^ 256) :
    run D env s 0#256 (message (abi op).1 (abi op).2) = reply revert (exec env s op) := by
  rcases op with _ | _ | _ | op
  rotate_right
  · cases op <;> exact run_message mem D _ s _ _ rfl rfl (by operation) (by simp [abi, Spec.Router.ownableExample]) hl
  all_goals exact run_message mem D _ s _ _ rfl rfl (by operation) (by simp [abi, Spec.Router.ownableExample]) hl

set_option maxRecDepth 100000 in
theorem ops : Ops spec (Contracts.ownable keccak256) abi exec where
  inv env s sg t n args s' r hm hh := by
    rows hh hm [abi, Spec.Router.ownableExample]

/-- **C103** Whatever is sent: the call is refused, or it is answered and changes nothing, or it is a call of one of the
operations (its selector, its arguments, no value) that succeeds, with exactly its effect and its reply. -/
theorem C103_ownable_no_other_effect (D : Decoder) (env : Address) (s : State) (value : U256) (input : Bytes) :
    (∃ data, run D env s value input = .reverted data) ∨
    (∃ data, run D env s value input = .returned s data) ∨
    ∃ op s' r, exec env s op = .ok (s', r) ∧ run D env s value input = .returned s' (values r) ∧
      value = 0#256 ∧ Says D input (abi op).1 (abi op).2 :=
  no_other_effect mem ops D env s value input

/-- **C103** Any list of raw transactions has the effect of a list of operations, made in the same order and in the environments
of transactions of the list. -/
theorem C103_ownable_history (D : Decoder) (s : State) (txs : List (Raw Address)) :
    ∃ l : List (Address × Call), after (run D) s txs = OwnableExample.run s (l.map fun x => (x.1, x.2)) ∧
      (l.map Prod.fst).Sublist (txs.map Raw.env) := by
  obtain ⟨l, h1, h2⟩ := raw_history mem ops D s txs
  refine ⟨l, ?_, h2⟩
  exact h1.trans (history_runOf (T := Address × Call) (exec := exec) (exec' := OwnableExample.exec) (fun x => (x.1, x.2)) (r := results) (fun _ _ _ => rfl) s l)

/-- **C103** Conversely, any list of operations can be made by sending their messages. -/
theorem C103_ownable_sends (D : Decoder) (s : State) (l : List (Address × Call))
    (hl : ∀ x ∈ l, (message (abi x.2).1 (abi x.2).2).length < 2 ^ 256) :
    after (run D) s (sent abi l) = OwnableExample.run s (l.map fun x => (x.1, x.2)) :=
  (sent_history (C103_ownable_call D) l s hl).trans
    (history_runOf (T := Address × Call) (exec := exec) (exec' := OwnableExample.exec) (fun x => (x.1, x.2)) (r := results) (fun _ _ _ => rfl) s l)

set_option maxRecDepth 100000 in
/-- **C103** What the questions answer, for every sender and state. -/
theorem C103_ownable_views (D : Decoder) (env : Address) (s : State) (a b : Address) :
    run D env s 0#256 (message "totalSupply()" []) = .returned s (values [.uint256 s.erc20.totalSupply]) ∧
    run D env s 0#256 (message "balanceOf(address)" [.address a]) = .returned s (values [.uint256 (s.erc20.balances a)]) ∧
    run D env s 0#256 (message "allowance(address,address)" [.address a, .address b]) =
      .returned s (values [.uint256 (s.erc20.allowances a b)]) ∧
    run D env s 0#256 (message "owner()" []) = .returned s (values [.address s.ownable.owner]) := by
  refine ⟨?_, ?_, ?_, ?_⟩ <;>
    refine run_message mem D _ s _ _ rfl rfl ?_ (by simp [Spec.Router.ownableExample]) (words_lt _ _ (by simp [arg]) (by simp))
  all_goals exact outcome_ok _ _

/-- **C103** Seen from outside, with bytes only: if the answer to `owner` changes over a raw transaction, it had been the sender;
the transaction was `transferOwnership` and the new owner its argument, or `renounceOwnership` and there is none. -/
theorem C103_ownable_owner_changes (D : Decoder) (s : State) (tx : Raw Address) (asker n : Address)
    (ha : answer (run D) asker (after (run D) s [tx]) "owner()" [] = some (values [.address n]))
    (hb : answer (run D) asker s "owner()" [] ≠ some (values [.address n])) :
    answer (run D) asker s "owner()" [] = some (values [.address tx.env]) ∧
    ((n ≠ ZERO ∧ Says D tx.input "transferOwnership(address)" [.address n]) ∨
     (n = ZERO ∧ Says D tx.input "renounceOwnership()" [])) := by
  unfold answer at *
  rw [(C103_ownable_views D asker _ 0#160 0#160).2.2.2] at ha hb ⊢
  injection ha with ha
  have ha := address_inj ha
  have e : after (run D) s [tx] = (run D tx.env s tx.value tx.input).after s := rfl
  rw [e] at ha
  have hne : n ≠ s.ownable.owner := by rintro rfl; exact hb rfl
  rcases C103_ownable_no_other_effect D tx.env s tx.value tx.input with ⟨d, h⟩ | ⟨d, h⟩ | ⟨op, s', r, he, h, _, hsay⟩
  · rw [h] at ha; exact absurd ha.symm hne
  · rw [h] at ha; exact absurd ha.symm hne
  · rw [h] at ha
    change s'.ownable.owner = n at ha
    have hx := giving_ok he
    have token : ∀ {x : Except Erc20.Err Erc20.State},
        (do return { s with erc20 := (← OwnableExample.lift x) } : Except Err State) = .ok s' → False := by
      intro x h
      obtain ⟨t, _, h⟩ := bind_eq_ok.mp h
      cases h
      exact hne ha.symm
    cases op with
    | transfer dst v =>
      obtain ⟨_, _, h⟩ := bind_eq_ok.mp hx
      exact (token h).elim
    | transferFrom src dst v => exact (token hx).elim
    | approve p v => exact (token hx).elim
    | ownable c =>
      obtain ⟨t, ht, h⟩ := bind_eq_ok.mp hx
      cases h
      have ht : Ownable.exec s.ownable (tx.env, c) = .ok t := by
        revert ht
        show OwnableExample.liftO (Ownable.exec s.ownable (tx.env, c)) = .ok t → _
        cases Ownable.exec s.ownable (tx.env, c) with
        | ok y => intro h; cases h; rfl
        | error e => intro h; cases h
      change t.owner = n at ha
      obtain ⟨h1, h2⟩ := Props.Access.C40_owner_changes_only_by_owner ht (by rw [ha]; exact hne)
      refine ⟨by rw [← h1]; rfl, ?_⟩
      rcases h2 with ⟨k, h2, rfl, h3⟩ | ⟨rfl, h3⟩
      · rw [ha] at h3; subst h3; exact .inl ⟨h2, hsay⟩
      · rw [ha] at h3; exact .inr ⟨h3, hsay⟩

/-- **C103** While `owner` does not answer the sender, the message `transfer` reverts with the bytes of
`OwnableUnauthorizedAccount(sender)`. -/
theorem C103_ownable_gate (D : Decoder) (s : State) (caller asker dst : Address) (v : U256)
    (hb : answer (run D) asker s "owner()" [] ≠ some (values [.address caller])) :
    run D caller s 0#256 (message "transfer(address,uint256)" [.address dst, .uint256 v]) =
      .reverted (call "OwnableUnauthorizedAccount(address)" [addr caller]) := by
  unfold answer at hb
  rw [(C103_ownable_views D asker s 0#160 0#160).2.2.2] at hb
  refine (C103_ownable_call D caller s (.transfer dst v) (words_lt _ _ (by simp [abi, arg]) (by simp [abi]))).trans ?_
  unfold exec
  rw [Props.OwnableExample.C86_owner_gate, if_pos (by rintro rfl; exact hb rfl)]
  exact congrArg Outcome.reverted (error_bytes "OwnableUnauthorizedAccount" [.address caller] _ rfl rfl)

/-- **C103** The errors of the parts keep their bytes (those of C95). -/
theorem C103_ownable_errors :
    (∀ e, revert (.erc20 e) = ((Revert.erc20 e).data keccak256).getD []) ∧
    (∀ e, revert (.ownable e) = ((Revert.ownable e).data keccak256).getD []) :=
  ⟨fun _ => rfl, fun _ => rfl⟩

/-! ### The hypotheses are met -/

-- C103_ownable_owner_changes, C103_ownable_gate: Alice, the owner, hands over to Bob; she cannot transfer any more
example (D : Decoder) (asker : Address) :
    let s : State := ⟨Erc20.init, ⟨alice, []⟩⟩
    let s' := after (run D) s (sent abi [(alice, .ownable (.transferOwnership bob))])
    answer (run D) asker s "owner()" [] = some (values [.address alice]) ∧
    answer (run D) asker s' "owner()" [] = some (values [.address bob]) ∧
    answer (run D) asker s' "owner()" [] ≠ some (values [.address alice]) := by
  intro s s'
  have h : s' = _ := C103_ownable_sends D s [(alice, .ownable (.transferOwnership bob))] (by
    intro x hx
    simp only [List.mem_cons, List.not_mem_nil, or_false] at hx
    rw [hx]; exact words_lt _ _ (by simp [abi, arg]) (by simp [abi]))
  have o : s'.ownable.owner = bob := by rw [h]; decide +kernel
  unfold answer
  rw [(C103_ownable_views D asker s asker asker).2.2.2, (C103_ownable_views D asker s' asker asker).2.2.2, o]
  exact ⟨rfl, rfl, fun e => absurd (address_inj (Option.some.inj e)) (by decide)⟩

end OwnableContract

namespace Ownable2StepContract
open Verif.Ownable2StepExample
open Verif.OwnableExample (Err)

/-- Signature and arguments of each operation. -/
def abi : Call → String × List Val
  | .transfer dst v => ("transfer(address,uint256)", [.address dst, .uint256 v])
  | .transferFrom src dst v => ("transferFrom(address,address,uint256)", [.address src, .address dst, .uint256 v])
  | .approve p v => ("approve(address,uint256)", [.address p, .uint256 v])
  | .ownable (.transferOwnership a) => ("transferOwnership(address)", [.address a])
  | .ownable .acceptOwnership => ("acceptOwnership()", [])
  | .ownable .renounceOwnership => ("renounceOwnership()", [])

/-- What each operation returns. -/
def results : Call → List Val
  | .transferFrom .. | .approve .. => [.bool true]
  | .transfer .. | .ownable _ => []

/-- The operation of the model, for the sender and in the environment of the message. -/
def exec (env : Address) (s : State) (op : Call) : Except Err (State × List Val) :=
  giving (Ownable2StepExample.exec s (env, op)) (results op)

/-- `examples/ownable-two-step` on bytes. -/
def run (D : Decoder) (env : Address) (s : State) (value : U256) (input : Bytes) : Outcome State :=
  entry keccak256 D Router.ownableTwoStepExample (Contracts.ownable2Step keccak256 env) s value input

/-- The revert data of an error. -/
def revert (e : Err) : Bytes := ((ownableReply e).data keccak256).getD []

abbrev spec : Spec.Router.Entry := ⟨Router.ownableTwoStepExample, Spec.Router.ownableTwoStepExample, [Spec.Router.erc20, Spec.Router.erc173]⟩

theorem mem : spec ∈ Spec.Router.contracts := by simp [Spec.Router.contracts]

set_option maxRecDepth 100000 in
/-- **C103** For every operation, sender, environment and state: the message of the call, as the ABI defines it, has exactly the
effect and the reply of the operation, or reverts with exactly the bytes of its error. -/
theorem C103_ownable_two_step_call (D : Decoder) (env : Address) (s : State) (op : Call)
    (hl : (message (abi op).1 (abi op).2).length < 2 ^ 256) :
    run D env s 0#256 (message (abi op).1 (abi op).2) = reply revert (exec env s op) := by
  rcases op with _ | _ | _ | op
  rotate_right
  · cases op <;> exact run_message mem D _ s _ _ rfl rfl (by operation) (by simp [abi, Spec.Router.ownableTwoStepExample]) hl
  all_goals exact run_message mem D _ s _ _ rfl rfl (by operation) (by simp [abi, Spec.Router.ownableTwoStepExample]) hl

set_option maxRecDepth 100000 in
theorem ops : Ops spec (Contracts.ownable2Step keccak256) abi exec where
  inv env s sg t n args s' r hm hh := by
    rows hh hm [abi, Spec.Router.ownableTwoStepExample]

/-- **C103** Whatever is sent: the call is refused, or it is answered and changes nothing, or it is a call of one of the
operations (its selector, its arguments, no value) that succeeds, with exactly its effect and its reply. -/
theorem C103_ownable_two_step_no_other_effect (D : Decoder) (env : Address) (s : State) (value : U256) (input : Bytes) :
    (∃ data, run D env s value input = .reverted data) ∨
    (∃ data, run D env s value input = .returned s data) ∨
    ∃ op s' r, exec env s op = .ok (s', r) ∧ run D env s value input = .returned s' (values r) ∧
      value = 0#256 ∧ Says D input (abi op).1 (abi op).2 :=
  no_other_effect mem ops D env s value input

/-- **C103** Any list of raw transactions has the effect of a list of operations, made in the same order and in the environments
of transactions of the list. -/
theorem C103_ownable_two_step_history (D : Decoder) (s : State) (txs : List (Raw Address)) :
    ∃ l : List (Address × Call), after (run D) s txs = Ownable2StepExample.run s (l.map fun x => (x.1, x.2)) ∧
      (l.map Prod.fst).Sublist (txs.map Raw.env) := by
  obtain ⟨l, h1, h2⟩ := raw_history mem ops D s txs
  refine ⟨l, ?_, h2⟩
  exact h1.trans (history_runOf (T := Address × Call) (exec := exec) (exec' := Ownable2StepExample.exec) (fun x => (x.1, x.2)) (r := results) (fun _ _ _ => rfl) s l)

/-- **C103** Conversely, any list of operations can be made by sending their messages. -/
theorem C103_ownable_two_step_sends (D : Decoder) (s : State) (l : List (Address × Call))
    (hl : ∀ x ∈ l, (message (abi x.2).1 (abi x.2).2).length < 2 ^ 256) :
    after (run D) s (sent abi l) = Ownable2StepExample.run s (l.map fun x => (x.1, x.2)) :=
  (sent_history (C103_ownable_two_step_call D) l s hl).trans
    (history_runOf (T := Address × Call) (exec := exec) (exec' := Ownable2StepExample.exec) (fun x => (x.1, x.2)) (r := results) (fun _ _ _ => rfl) s l)

set_option maxRecDepth 100000 in
/-- **C103** What the questions answer, for every sender and state. -/
theorem C103_ownable_two_step_views (D : Decoder) (env : Address) (s : State) (a b : Address) :
    run D env s 0#256 (message "totalSupply()" []) = .returned s (values [.uint256 s.erc20.totalSupply]) ∧
    run D env s 0#256 (message "balanceOf(address)" [.address a]) = .returned s (values [.uint256 (s.erc20.balances a)]) ∧
    run D env s 0#256 (message "allowance(address,address)" [.address a, .address b]) =
      .returned s (values [.uint256 (s.erc20.allowances a b)]) ∧
    run D env s 0#256 (message "owner()" []) = .returned s (values [.address s.ownable.ownable.owner]) ∧
    run D env s 0#256 (message "pendingOwner()" []) = .returned s (values [.address s.ownable.pendingOwner]) := by
  refine ⟨?_, ?_, ?_, ?_, ?_⟩ <;>
    refine run_message mem D _ s _ _ rfl rfl ?_ (by simp [Spec.Router.ownableTwoStepExample])
      (words_lt _ _ (by simp [arg]) (by simp))
  all_goals exact outcome_ok _ _

/-- **C103** Seen from outside, with bytes only: if the answer to `owner` changes over a raw transaction, then the sender had been
the pending owner, is the new one, and sent `acceptOwnership`; or they had been the owner, and sent `renounceOwnership`. -/
theorem C103_ownable_two_step_owner_changes (D : Decoder) (s : State) (tx : Raw Address) (asker n : Address)
    (ha : answer (run D) asker (after (run D) s [tx]) "owner()" [] = some (values [.address n]))
    (hb : answer (run D) asker s "owner()" [] ≠ some (values [.address n])) :
    (answer (run D) asker s "pendingOwner()" [] = some (values [.address tx.env]) ∧ n = tx.env ∧
      Says D tx.input "acceptOwnership()" []) ∨
    (answer (run D) asker s "owner()" [] = some (values [.address tx.env]) ∧ n = ZERO ∧
      Says D tx.input "renounceOwnership()" []) := by
  unfold answer at *
  rw [(C103_ownable_two_step_views D asker s 0#160 0#160).2.2.2.2]
  rw [(C103_ownable_two_step_views D asker _ 0#160 0#160).2.2.2.1] at ha hb ⊢
  injection ha with ha
  have ha := address_inj ha
  have e : after (run D) s [tx] = (run D tx.env s tx.value tx.input).after s := rfl
  rw [e] at ha
  have hne : n ≠ s.ownable.ownable.owner := by rintro rfl; exact hb rfl
  rcases C103_ownable_two_step_no_other_effect D tx.env s tx.value tx.input with
    ⟨d, h⟩ | ⟨d, h⟩ | ⟨op, s', r, he, h, _, hsay⟩
  · rw [h] at ha; exact absurd ha.symm hne
  · rw [h] at ha; exact absurd ha.symm hne
  · rw [h] at ha
    change s'.ownable.ownable.owner = n at ha
    have hx := giving_ok he
    have token : ∀ {x : Except Erc20.Err Erc20.State},
        (do return { s with erc20 := (← OwnableExample.lift x) } : Except Err State) = .ok s' → False := by
      intro x h
      obtain ⟨t, _, h⟩ := bind_eq_ok.mp h
      cases h
      exact hne ha.symm
    cases op with
    | transfer dst v =>
      obtain ⟨_, _, h⟩ := bind_eq_ok.mp hx
      exact (token h).elim
    | transferFrom src dst v => exact (token hx).elim
    | approve p v => exact (token hx).elim
    | ownable c =>
      obtain ⟨t, ht, h⟩ := bind_eq_ok.mp hx
      cases h
      have ht : Ownable2Step.exec s.ownable (tx.env, c) = .ok t := by
        revert ht
        show OwnableExample.liftO (Ownable2Step.exec s.ownable (tx.env, c)) = .ok t → _
        cases Ownable2Step.exec s.ownable (tx.env, c) with
        | ok y => intro h; cases h; rfl
        | error e => intro h; cases h
      change t.ownable.owner = n at ha
      obtain ⟨_, h1⟩ := Props.Access.C41_owner_change ht (by unfold Ownable2Step.owner; rw [ha]; exact hne)
      rcases h1 with ⟨rfl, h2, h3⟩ | ⟨rfl, h2, h3⟩
      · exact .inl ⟨by rw [h2]; rfl, ha.symm.trans h3, hsay⟩
      · exact .inr ⟨by rw [h2]; rfl, ha.symm.trans h3, hsay⟩

/-- **C103** While `owner` does not answer the sender, the message `transfer` reverts with the bytes of
`OwnableUnauthorizedAccount(sender)`. -/
theorem C103_ownable_two_step_gate (D : Decoder) (s : State) (caller asker dst : Address) (v : U256)
    (hb : answer (run D) asker s "owner()" [] ≠ some (values [.address caller])) :
    run D caller s 0#256 (message "transfer(address,uint256)" [.address dst, .uint256 v]) =
      .reverted (call "OwnableUnauthorizedAccount(address)" [addr caller]) := by
  unfold answer at hb
  rw [(C103_ownable_two_step_views D asker s 0#160 0#160).2.2.2.1] at hb
  refine (C103_ownable_two_step_call D caller s (.transfer dst v) (words_lt _ _ (by simp [abi, arg]) (by simp [abi]))).trans ?_
  unfold exec
  rw [Props.Ownable2StepExample.C86_owner_gate_two_step, if_pos (by rintro rfl; exact hb rfl)]
  exact congrArg Outcome.reverted (error_bytes "OwnableUnauthorizedAccount" [.address caller] _ rfl rfl)

/-- **C103** The errors of the parts keep their bytes (those of C95). -/
theorem C103_ownable_two_step_errors :
    (∀ e, revert (.erc20 e) = ((Revert.erc20 e).data keccak256).getD []) ∧
    (∀ e, revert (.ownable e) = ((Revert.ownable e).data keccak256).getD []) :=
  ⟨fun _ => rfl, fun _ => rfl⟩

/-! ### The hypotheses are met -/

/-- Alice, the owner, offers to hand over to Bob, and he accepts. -/
def sample : List (Address × Call) :=
  [(alice, .ownable (.transferOwnership bob)), (bob, .ownable .acceptOwnership)]

-- C103_ownable_two_step_owner_changes, C103_ownable_two_step_gate
example (D : Decoder) (asker : Address) :
    let s : Nat → State := fun n => after (run D) ⟨Erc20.init, Ownable2Step.init alice⟩ (sent abi (sample.take n))
    answer (run D) asker (s 1) "owner()" [] = some (values [.address alice]) ∧
    answer (run D) asker (s 1) "pendingOwner()" [] = some (values [.address bob]) ∧
    answer (run D) asker (s 2) "owner()" [] = some (values [.address bob]) ∧
    answer (run D) asker (s 1) "owner()" [] ≠ some (values [.address bob]) := by
  intro s
  have h : ∀ n, s n = _ := fun n => C103_ownable_two_step_sends D _ (sample.take n) (by
    intro x hx
    have hx := List.mem_of_mem_take hx
    simp only [sample, List.mem_cons, List.not_mem_nil, or_false] at hx
    rcases hx with rfl | rfl <;> exact words_lt _ _ (by simp [abi, arg]) (by simp [abi]))
  have v := fun n => C103_ownable_two_step_views D asker (s n) asker asker
  have b1 : (s 1).ownable.ownable.owner = alice := by rw [h]; decide +kernel
  have b2 : (s 1).ownable.pendingOwner = bob := by rw [h]; decide +kernel
  have b3 : (s 2).ownable.ownable.owner = bob := by rw [h]; decide +kernel
  unfold answer
  rw [(v 1).2.2.2.1, (v 1).2.2.2.2, (v 2).2.2.2.1, b1, b2, b3]
  exact ⟨rfl, rfl, rfl, fun e => absurd (address_inj (Option.some.inj e)) (by decide)⟩

end Ownable2StepContract

namespace AccessContract
open Verif.AccessExample

/-- Signature and arguments of each operation. -/
def abi : Call → String × List Val
  | .transfer dst v => ("transfer(address,uint256)", [.address dst, .uint256 v])
  | .transferFrom src dst v => ("transferFrom(address,address,uint256)", [.address src, .address dst, .uint256 v])
  | .approve p v => ("approve(address,uint256)", [.address p, .uint256 v])
  | .makeAdmin a => ("makeAdmin(address)", [.address a])
  | .setRoleAdmin r n => ("setRoleAdmin(bytes32,bytes32)", [.bytes32 r, .bytes32 n])
  | .access (.grantRole r a) => ("grantRole(bytes32,address)", [.bytes32 r, .address a])
  | .access (.revokeRole r a) => ("revokeRole(bytes32,address)", [.bytes32 r, .address a])
  | .access (.renounceRole r a) => ("renounceRole(bytes32,address)", [.bytes32 r, .address a])

/-- What each operation returns. -/
def results : Call → List Val
  | .transfer .. | .transferFrom .. | .approve .. => [.bool true]
  | .makeAdmin _ | .setRoleAdmin .. | .access _ => []

/-- The operation of the model, for the sender and in the environment of the message. -/
def exec (env : Address) (s : State) (op : Call) : Except Err (State × List Val) :=
  giving (AccessExample.exec s (env, op)) (results op)

/-- `examples/access-control` on bytes. -/
def run (D : Decoder) (env : Address) (s : State) (value : U256) (input : Bytes) : Outcome State :=
  entry keccak256 D Router.accessControlExample (Contracts.accessControl keccak256 env) s value input

/-- The revert data of an error. -/
def revert (e : Err) : Bytes := ((accessReply e).data keccak256).getD []

abbrev spec : Spec.Router.Entry := ⟨Router.accessControlExample, Spec.Router.accessControlExample, [Spec.Router.erc20]⟩

theorem mem : spec ∈ Spec.Router.contracts := by simp [Spec.Router.contracts]

set_option maxRecDepth 100000 in
/-- **C103** For every operation, sender, environment and state: the message of the call, as the ABI defines it, has exactly the
effect and the reply of the operation, or reverts with exactly the bytes of its error. -/
theorem C103_access_control_call (D : Decoder) (env : Address) (s : State) (op : Call)
    (hl : (message (abi op).1 (abi op).2).length < 2 ^ 256) :
    run D env s 0#256 (message (abi op).1 (abi op).2) = reply revert (exec env s op) := by
  rcases op with _ | _ | _ | _ | _ | op
  rotate_right
  · cases op <;> exact run_message mem D _ s _ _ rfl rfl (by operation) (by simp [abi, Spec.Router.accessControlExample]) hl
  all_goals exact run_message mem D _ s _ _ rfl rfl (by operation) (by simp [abi, Spec.Router.accessControlExample]) hl

set_option maxRecDepth 100000 in
theorem ops : Ops spec (Contracts.accessControl keccak256) abi exec where
  inv env s sg t n args s' r hm hh := by
    rows hh hm [abi, Spec.Router.accessControlExample] operations [.makeAdmin _, .transferFrom _ _ _,
      .setRoleAdmin _ _, .transfer _ _, .approve _ _, .access (.grantRole _ _), .access (.revokeRole _ _), .access (.renounceRole _ _)]

/-- **C103** Whatever is sent: the call is refused, or it is answered and changes nothing, or it is a call of one of the
operations (its selector, its arguments, no value) that succeeds, with exactly its effect and its reply. -/
theorem C103_access_control_no_other_effect (D : Decoder) (env : Address) (s : State) (value : U256) (input : Bytes) :
    (∃ data, run D env s value input = .reverted data) ∨
    (∃ data, run D env s value input = .returned s data) ∨
    ∃ op s' r, exec env s op = .ok (s', r) ∧ run D env s value input = .returned s' (values r) ∧
      value = 0#256 ∧ Says D input (abi op).1 (abi op).2 :=
  no_other_effect mem ops D env s value input

/-- **C103** Any list of raw transactions has the effect of a list of operations, made in the same order and in the environments
of transactions of the list. -/
theorem C103_access_control_history (D : Decoder) (s : State) (txs : List (Raw Address)) :
    ∃ l : List (Address × Call), after (run D) s txs = AccessExample.run s (l.map fun x => (x.1, x.2)) ∧
      (l.map Prod.fst).Sublist (txs.map Raw.env) := by
  obtain ⟨l, h1, h2⟩ := raw_history mem ops D s txs
  refine ⟨l, ?_, h2⟩
  exact h1.trans (history_runOf (T := Address × Call) (exec := exec) (exec' := AccessExample.exec) (fun x => (x.1, x.2)) (r := results) (fun _ _ _ => rfl) s l)

/-- **C103** Conversely, any list of operations can be made by sending their messages. -/
theorem C103_access_control_sends (D : Decoder) (s : State) (l : List (Address × Call))
    (hl : ∀ x ∈ l, (message (abi x.2).1 (abi x.2).2).length < 2 ^ 256) :
    after (run D) s (sent abi l) = AccessExample.run s (l.map fun x => (x.1, x.2)) :=
  (sent_history (C103_access_control_call D) l s hl).trans
    (history_runOf (T := Address × Call) (exec := exec) (exec' := AccessExample.exec) (fun x => (x.1, x.2)) (r := results) (fun _ _ _ => rfl) s l)

set_option maxRecDepth 100000 in
/-- **C103** What the questions answer, for every sender and state; `onlyRole` answers nothing, or reverts with the sender and the
role. -/
theorem C103_access_control_views (D : Decoder) (env : Address) (s : State) (a b : Address) (x : U256) :
    run D env s 0#256 (message "totalSupply()" []) = .returned s (values [.uint256 s.erc20.totalSupply]) ∧
    run D env s 0#256 (message "balanceOf(address)" [.address a]) = .returned s (values [.uint256 (s.erc20.balances a)]) ∧
    run D env s 0#256 (message "allowance(address,address)" [.address a, .address b]) =
      .returned s (values [.uint256 (s.erc20.allowances a b)]) ∧
    run D env s 0#256 (message "hasRole(bytes32,address)" [.bytes32 x, .address a]) =
      .returned s (values [.bool (AccessControl.hasRole s.access x a)]) ∧
    run D env s 0#256 (message "getRoleAdmin(bytes32)" [.bytes32 x]) =
      .returned s (values [.bytes32 (AccessControl.getRoleAdmin s.access x)]) ∧
    run D env s 0#256 (message "onlyRole(bytes32)" [.bytes32 x]) =
      if AccessControl.hasRole s.access x env then .returned s []
      else .reverted (call "AccessControlUnauthorizedAccount(address,bytes32)" [addr env, x]) := by
  refine ⟨?_, ?_, ?_, ?_, ?_, ?_⟩ <;>
    refine run_message mem D _ s _ _ rfl rfl ?_ (by simp [Spec.Router.accessControlExample])
      (words_lt _ _ (by simp [arg]) (by simp))
  case refine_6 =>
    show outcome (view _ _ s (none_ (AccessControl.onlyRole s.access env x))) = _
    rw [Props.Access.C38_only_role]
    cases AccessControl.hasRole s.access x env with
    | true => exact outcome_ok _ _
    | false => exact view_error s _ _ _ _ rfl rfl rfl
  all_goals exact outcome_ok _ _

/-- Role changes of the model. -/
theorem roles_change {s s' : State} {c : Address} {k : Call} (h : AccessExample.exec s (c, k) = .ok s') {r : U256} {a : Address}
    (hne : AccessControl.hasRole s'.access r a ≠ AccessControl.hasRole s.access r a) :
    (AccessControl.hasRole s.access (AccessControl.getRoleAdmin s.access r) c = true ∧
      (k = .access (.grantRole r a) ∨ k = .access (.revokeRole r a) ∨ (k = .makeAdmin a ∧ r = TRANSFER_ROLE))) ∨
    (c = a ∧ k = .access (.renounceRole r a)) := by
  have lift_ok : ∀ {α : Type} {x : Except AccessControl.Err α} {y : α}, AccessExample.liftA x = .ok y → x = .ok y := by
    intro α x y h
    cases x with
    | ok z => cases h; rfl
    | error e => cases h
  have both : ∀ (c' : AccessControl.Call) (t : AccessControl.State), AccessControl.exec s.access (c, c') = .ok t →
      AccessControl.hasRole t r a ≠ AccessControl.hasRole s.access r a →
      (AccessControl.hasRole s.access (AccessControl.getRoleAdmin s.access r) c = true ∧
        (c' = .grantRole r a ∨ c' = .revokeRole r a)) ∨ (c = a ∧ c' = .renounceRole r a) := by
    intro c' t ht hne
    cases h0 : AccessControl.hasRole s.access r a with
    | false =>
      have h1 : AccessControl.hasRole t r a = true := by
        rw [h0] at hne
        cases hx : AccessControl.hasRole t r a with
        | true => rfl
        | false => exact absurd hx hne
      obtain ⟨h2, h3⟩ := Props.Access.C38_gain_only_by_admin_grant ht h0 h1
      exact .inl ⟨h3, .inl h2⟩
    | true =>
      have h1 : AccessControl.hasRole t r a = false := by
        rw [h0] at hne
        cases hx : AccessControl.hasRole t r a with
        | false => rfl
        | true => exact absurd hx hne
      rcases Props.Access.C38_lose_only_by_admin_or_self ht h0 h1 with ⟨h2, h3⟩ | ⟨h2, h3⟩
      · exact .inl ⟨h3, .inr h2⟩
      · exact .inr ⟨h3, h2⟩
  have token : ∀ {x : Except Erc20.Err Erc20.State},
      (do return { s with erc20 := (← AccessExample.lift x) } : Except Err State) = .ok s' → False := by
    intro x h
    obtain ⟨t, _, h⟩ := bind_eq_ok.mp h
    cases h
    exact hne rfl
  cases k with
  | makeAdmin b =>
    obtain ⟨_, _, h⟩ := bind_eq_ok.mp h
    obtain ⟨t, ht, h⟩ := bind_eq_ok.mp h
    cases h
    rcases both (.grantRole TRANSFER_ROLE b) t (lift_ok ht) hne with ⟨h1, h2 | h2⟩ | ⟨h1, h2⟩
    · cases h2; exact .inl ⟨h1, .inr (.inr ⟨rfl, rfl⟩)⟩
    · cases h2
    · cases h2
  | transferFrom src dst v =>
    obtain ⟨_, _, h⟩ := bind_eq_ok.mp h
    exact (token h).elim
  | setRoleAdmin r' n => cases h; exact absurd rfl hne
  | transfer dst v => exact (token h).elim
  | approve p v => exact (token h).elim
  | access c' =>
    obtain ⟨t, ht, h⟩ := bind_eq_ok.mp h
    cases h
    rcases both c' t (lift_ok ht) hne with ⟨h1, h2 | h2⟩ | ⟨h1, h2⟩
    · exact .inl ⟨h1, .inl (by rw [h2])⟩
    · exact .inl ⟨h1, .inr (.inl (by rw [h2]))⟩
    · exact .inr ⟨h1, by rw [h2]⟩

/-- **C103** Seen from outside, with bytes only: if the answer to `hasRole` changes over a raw transaction, then the sender held the
role that `getRoleAdmin` had answered, or they gave up a role of their own with `renounceRole`. -/
theorem C103_access_control_roles_change (D : Decoder) (s : State) (tx : Raw Address) (asker a : Address) (r : U256) (b : Bool)
    (hb : answer (run D) asker s "hasRole(bytes32,address)" [.bytes32 r, .address a] = some (values [.bool b]))
    (ha : answer (run D) asker (after (run D) s [tx]) "hasRole(bytes32,address)" [.bytes32 r, .address a] ≠
      some (values [.bool b])) :
    (∃ admin, answer (run D) asker s "getRoleAdmin(bytes32)" [.bytes32 r] = some (values [.bytes32 admin]) ∧
      answer (run D) asker s "hasRole(bytes32,address)" [.bytes32 admin, .address tx.env] = some (values [.bool true])) ∨
    (tx.env = a ∧ Says D tx.input "renounceRole(bytes32,address)" [.bytes32 r, .address a]) := by
  unfold answer at *
  rw [(C103_access_control_views D asker _ a 0#160 r).2.2.2.1] at ha hb
  have e : after (run D) s [tx] = (run D tx.env s tx.value tx.input).after s := rfl
  rw [e] at ha
  rcases C103_access_control_no_other_effect D tx.env s tx.value tx.input with ⟨d, h⟩ | ⟨d, h⟩ | ⟨op, s', rs, he, h, _, hsay⟩
  · rw [h] at ha; exact absurd hb ha
  · rw [h] at ha; exact absurd hb ha
  · rw [h] at ha
    change some (values [.bool (AccessControl.hasRole s'.access r a)]) ≠ _ at ha
    change some (values [.bool (AccessControl.hasRole s.access r a)]) = _ at hb
    rcases roles_change (giving_ok he) (r := r) (a := a) (by intro h; rw [h] at ha; exact ha hb) with ⟨h1, _⟩ | ⟨h1, rfl⟩
    · left
      refine ⟨_, by rw [(C103_access_control_views D asker s 0#160 0#160 r).2.2.2.2.1]; rfl, ?_⟩
      rw [(C103_access_control_views D asker s tx.env 0#160 _).2.2.2.1, h1]; rfl
    · exact .inr ⟨h1, hsay⟩

/-- **C103** While `hasRole` answers that the sender does not hold the transfer role, the message `transferFrom` reverts with the
bytes of `AccessControlUnauthorizedAccount` for the sender and `keccak256("TRANSFER_ROLE")`. -/
theorem C103_access_control_gate (D : Decoder) (s : State) (caller asker src dst : Address) (v : U256)
    (hb : answer (run D) asker s "hasRole(bytes32,address)"
      [.bytes32 (keccak256 (ascii "TRANSFER_ROLE")), .address caller] ≠ some (values [.bool true])) :
    run D caller s 0#256 (message "transferFrom(address,address,uint256)" [.address src, .address dst, .uint256 v]) =
      .reverted (call "AccessControlUnauthorizedAccount(address,bytes32)"
        [addr caller, keccak256 (ascii "TRANSFER_ROLE")]) := by
  rw [← Props.Interfaces.C87_constants.2.2.2.1] at *
  unfold answer at hb
  rw [(C103_access_control_views D asker s caller 0#160 _).2.2.2.1] at hb
  refine (C103_access_control_call D caller s (.transferFrom src dst v)
    (words_lt _ _ (by simp [abi, arg]) (by simp [abi]))).trans ?_
  unfold exec
  rw [Props.AccessExample.C86_role_gate, if_pos (by
    cases hx : AccessControl.hasRole s.access TRANSFER_ROLE caller with
    | false => rfl
    | true => rw [hx] at hb; exact absurd rfl hb)]
  exact congrArg Outcome.reverted
    (error_bytes "AccessControlUnauthorizedAccount" [.address caller, .bytes32 TRANSFER_ROLE] _ rfl rfl)

/-- **C103** The errors of the parts keep their bytes (those of C95). -/
theorem C103_access_control_errors :
    (∀ e, revert (.erc20 e) = ((Revert.erc20 e).data keccak256).getD []) ∧
    (∀ e, revert (.access e) = ((Revert.accessControl e).data keccak256).getD []) :=
  ⟨fun _ => rfl, fun _ => rfl⟩

/-! ### The hypotheses are met -/

/-- Alice, the administrator, makes Bob a transferrer. -/
def sample : List (Address × Call) := [(alice, .makeAdmin bob)]

-- C103_access_control_roles_change, C103_access_control_gate
example (D : Decoder) (asker : Address) :
    let role : U256 := keccak256 (ascii "TRANSFER_ROLE")
    let s : State := ⟨Erc20.init, { AccessControl.init with members := fun r a => r = 0#256 ∧ a = alice }⟩
    let s' := after (run D) s (sent abi sample)
    answer (run D) asker s "hasRole(bytes32,address)" [.bytes32 role, .address bob] = some (values [.bool false]) ∧
    answer (run D) asker s "hasRole(bytes32,address)" [.bytes32 role, .address bob] ≠ some (values [.bool true]) ∧
    answer (run D) asker s' "hasRole(bytes32,address)" [.bytes32 role, .address bob] = some (values [.bool true]) := by
  intro role s s'
  have hr : role = TRANSFER_ROLE := Props.Interfaces.C87_constants.2.2.2.1.symm
  have h : s' = _ := C103_access_control_sends D s sample (by
    intro x hx
    simp only [sample, List.mem_cons, List.not_mem_nil, or_false] at hx
    rw [hx]; exact words_lt _ _ (by simp [abi, arg]) (by simp [abi]))
  rw [hr]
  have b1 : AccessControl.hasRole s.access TRANSFER_ROLE bob = false := by decide +kernel
  have b2 : AccessControl.hasRole s'.access TRANSFER_ROLE bob = true := by rw [h]; decide +kernel
  unfold answer
  rw [(C103_access_control_views D asker s bob bob TRANSFER_ROLE).2.2.2.1,
    (C103_access_control_views D asker s' bob bob TRANSFER_ROLE).2.2.2.1, b1, b2]
  exact ⟨rfl, fun e => absurd (Option.some.inj e) (by decide +kernel), rfl⟩

end AccessContract

namespace PermitContract
open Verif.Permit (Err)

/-- The operations of the contract. -/
inductive Op where
  | transfer (dst : Address) (value : U256)
  | transferFrom (src dst : Address) (value : U256)
  | approve (spender : Address) (value : U256)
  | mint (account : Address) (value : U256)
  | permit (owner spender : Address) (value deadline : U256) (v : U8) (r s : B256)

/-- The same as calls of the model. -/
def Op.call (caller : Address) : Op → Permit.Call
  | .transfer dst v => .token caller (.transfer dst v)
  | .transferFrom src dst v => .token caller (.transferFrom src dst v)
  | .approve p v => .token caller (.approve p v)
  | .mint a v => .token caller (.mint a v)
  | .permit o p v d y r x => .permit o p v d y r x

/-- Signature and arguments of each operation. -/
def abi : Op → String × List Val
  | .transfer dst v => ("transfer(address,uint256)", [.address dst, .uint256 v])
  | .transferFrom src dst v => ("transferFrom(address,address,uint256)", [.address src, .address dst, .uint256 v])
  | .approve p v => ("approve(address,uint256)", [.address p, .uint256 v])
  | .mint a v => ("mint(address,uint256)", [.address a, .uint256 v])
  | .permit o p v d y r x => ("permit(address,address,uint256,uint256,uint8,bytes32,bytes32)",
    [.address o, .address p, .uint256 v, .uint256 d, .uint8 y, .bytes32 r, .bytes32 x])

/-- What each operation returns. -/
def results : Op → List Val
  | .transfer .. | .transferFrom .. | .approve .. => [.bool true]
  | .mint .. | .permit .. => []

/-- The operation of the model, for the sender and in the environment of the message. -/
def exec (P : Ecdsa.Precompile) (dom : Eip712.Domain) (env : Timed) (s : PermitToken) (op : Op) : Except Err (PermitToken × List Val) :=
  giving (permitStep ⟨keccak256, P, dom⟩ env.now s (op.call env.caller)) (results op)

/-- `examples/erc20-permit` on bytes. -/
def run (D : Decoder) (P : Ecdsa.Precompile) (dom : Eip712.Domain) (env : Timed) (s : PermitToken) (value : U256) (input : Bytes) : Outcome PermitToken :=
  entry keccak256 D Router.erc20PermitExample (Contracts.erc20Permit ⟨keccak256, P, dom⟩ env) s value input

/-- The revert data of an error. -/
def revert (e : Err) : Bytes := ((Revert.permit e).data keccak256).getD []

abbrev spec : Spec.Router.Entry := ⟨Router.erc20PermitExample, Spec.Router.erc20PermitExample, [Spec.Router.erc20, Spec.Router.erc2612]⟩

theorem mem : spec ∈ Spec.Router.contracts := by simp [Spec.Router.contracts]

set_option maxRecDepth 100000 in
/-- **C103** For every operation, sender, environment and state: the message of the call, as the ABI defines it, has exactly the
effect and the reply of the operation, or reverts with exactly the bytes of its error. -/
theorem C103_permit_call (D : Decoder) (P : Ecdsa.Precompile) (dom : Eip712.Domain) (env : Timed) (s : PermitToken) (op : Op)
    (hl : (message (abi op).1 (abi op).2).length < 2 ^ 256) :
    run D P dom env s 0#256 (message (abi op).1 (abi op).2) = reply revert (exec P dom env s op) := by
  cases op <;> exact run_message mem D _ s _ _ rfl rfl (by operation) (by simp [abi, Spec.Router.erc20PermitExample]) hl

set_option maxRecDepth 100000 in
theorem ops (P : Ecdsa.Precompile) (dom : Eip712.Domain) : Ops spec (Contracts.erc20Permit ⟨keccak256, P, dom⟩) abi (exec P dom) where
  inv env s sg t n args s' r hm hh := by
    rows hh hm [abi, Spec.Router.erc20PermitExample] operations [.mint _ _, .permit _ _ _ _ _ _ _,
      .transfer _ _, .approve _ _, .transferFrom _ _ _]

/-- **C103** Whatever is sent: the call is refused, or it is answered and changes nothing, or it is a call of one of the
operations (its selector, its arguments, no value) that succeeds, with exactly its effect and its reply. -/
theorem C103_permit_no_other_effect (D : Decoder) (P : Ecdsa.Precompile) (dom : Eip712.Domain) (env : Timed) (s : PermitToken) (value : U256) (input : Bytes) :
    (∃ data, run D P dom env s value input = .reverted data) ∨
    (∃ data, run D P dom env s value input = .returned s data) ∨
    ∃ op s' r, exec P dom env s op = .ok (s', r) ∧ run D P dom env s value input = .returned s' (values r) ∧
      value = 0#256 ∧ Says D input (abi op).1 (abi op).2 :=
  no_other_effect mem (ops P dom) D env s value input

/-- **C103** Any list of raw transactions has the effect of a list of operations, made in the same order and in the environments
of transactions of the list. -/
theorem C103_permit_history (D : Decoder) (P : Ecdsa.Precompile) (dom : Eip712.Domain) (s : PermitToken) (txs : List (Raw Timed)) :
    ∃ l : List (Timed × Op), after (run D P dom) s txs = runOf (fun s (x : U64 × Permit.Call) => permitStep ⟨keccak256, P, dom⟩ x.1 s x.2) s (l.map fun x => (x.1.now, x.2.call x.1.caller)) ∧
      (l.map Prod.fst).Sublist (txs.map Raw.env) := by
  obtain ⟨l, h1, h2⟩ := raw_history mem (ops P dom) D s txs
  refine ⟨l, ?_, h2⟩
  exact h1.trans (history_runOf (T := U64 × Permit.Call) (exec := exec P dom) (exec' := (fun s (x : U64 × Permit.Call) => permitStep ⟨keccak256, P, dom⟩ x.1 s x.2)) (fun x => (x.1.now, x.2.call x.1.caller)) (r := results) (fun _ _ _ => rfl) s l)

/-- **C103** Conversely, any list of operations can be made by sending their messages. -/
theorem C103_permit_sends (D : Decoder) (P : Ecdsa.Precompile) (dom : Eip712.Domain) (s : PermitToken) (l : List (Timed × Op))
    (hl : ∀ x ∈ l, (message (abi x.2).1 (abi x.2).2).length < 2 ^ 256) :
    after (run D P dom) s (sent abi l) = runOf (fun s (x : U64 × Permit.Call) => permitStep ⟨keccak256, P, dom⟩ x.1 s x.2) s (l.map fun x => (x.1.now, x.2.call x.1.caller)) :=
  (sent_history (C103_permit_call D P dom) l s hl).trans
    (history_runOf (T := U64 × Permit.Call) (exec := exec P dom) (exec' := (fun s (x : U64 × Permit.Call) => permitStep ⟨keccak256, P, dom⟩ x.1 s x.2)) (fun x => (x.1.now, x.2.call x.1.caller)) (r := results) (fun _ _ _ => rfl) s l)

set_option maxRecDepth 100000 in
/-- **C103** What the questions answer, for every sender, time and state; `DOMAIN_SEPARATOR` is the EIP-712 separator of the
domain. -/
theorem C103_permit_views (D : Decoder) (P : Ecdsa.Precompile) (dom : Eip712.Domain) (env : Timed) (s : PermitToken)
    (a b : Address) :
    run D P dom env s 0#256 (message "totalSupply()" []) = .returned s (values [.uint256 s.erc20.totalSupply]) ∧
    run D P dom env s 0#256 (message "balanceOf(address)" [.address a]) =
      .returned s (values [.uint256 (s.erc20.balances a)]) ∧
    run D P dom env s 0#256 (message "allowance(address,address)" [.address a, .address b]) =
      .returned s (values [.uint256 (s.erc20.allowances a b)]) ∧
    run D P dom env s 0#256 (message "nonces(address)" [.address a]) =
      .returned s (values [.uint256 (s.nonces.nonces a)]) ∧
    run D P dom env s 0#256 (message "DOMAIN_SEPARATOR()" []) = .returned s (values [.bytes32 (keccak256
      (be32 (keccak256 (ascii "EIP712Domain(string name,string version,uint256 chainId,address verifyingContract)"))
        ++ be32 (keccak256 dom.name) ++ be32 (keccak256 dom.version) ++ be32 dom.chainId ++ abiAddress dom.contract))]) := by
  refine ⟨?_, ?_, ?_, ?_, ?_⟩ <;>
    refine run_message mem D _ s _ _ rfl rfl ?_ (by simp [Spec.Router.erc20PermitExample])
      (words_lt _ _ (by simp [arg]) (by simp))
  case refine_5 =>
    refine (outcome_ok _ _).trans ?_
    unfold Permit.domainSeparator Eip712.domainSeparator Eip712.encodeDomain Eip712.typeString
    simp only [List.append_assoc]
  all_goals exact outcome_ok _ _

/-- A call of the contract as a call of the model with a clock. -/
theorem permitStep_ok {E : Permit.Env} {now : U64} {s s' : PermitToken} {c : Permit.Call} (h : permitStep E now s c = .ok s') :
    ∃ t, Permit.exec E ⟨s.erc20, s.nonces, now⟩ c = .ok t ∧ s' = ⟨t.erc20, t.nonces⟩ := by
  unfold permitStep at h
  split at h
  · rename_i t ht; cases h; exact ⟨t, ht, rfl⟩
  · cases h

/-- **C103** The message `permit(owner, spender, value, deadline, v, r, s)`, sent by anybody: it is accepted exactly if the deadline
has not passed, the owner's nonce is not the last one, the spender is not zero, and the signature recovers the owner from the
EIP-712 digest with the nonce that `nonces` answers.  Then `allowance` answers the value, and `nonces` one more. -/
theorem C103_permit_permit (D : Decoder) (P : Ecdsa.Precompile) (dom : Eip712.Domain) (env asker : Timed) (s : PermitToken)
    (o p : Address) (val d : U256) (v : U8) (r x : B256) (n : U256)
    (hn : answer (run D P dom) asker s "nonces(address)" [.address o] = some (values [.uint256 n])) :
    let out := run D P dom env s 0#256 (message "permit(address,address,uint256,uint256,uint8,bytes32,bytes32)"
      [.address o, .address p, .uint256 val, .uint256 d, .uint8 v, .bytes32 r, .bytes32 x])
    let s' := out.after s
    (out.reply = some [] ↔ env.now.toNat ≤ d.toNat ∧ n.toNat + 1 < 2 ^ 256 ∧ p ≠ ZERO ∧
      Ecdsa.recover P (Spec.Permit.digest ⟨keccak256, P, dom⟩ o p val n d) v r x = .ok o) ∧
    (out.reply = some [] →
      answer (run D P dom) asker s' "allowance(address,address)" [.address o, .address p] = some (values [.uint256 val]) ∧
      answer (run D P dom) asker s' "nonces(address)" [.address o] = some (values [.uint256 (n + 1#256)])) := by
  intro out s'
  unfold answer at *
  rw [(C103_permit_views D P dom asker s o 0#160).2.2.2.1] at hn
  injection hn with hn
  obtain rfl := uint256_inj hn
  have ho : out = reply revert (exec P dom env s (.permit o p val d v r x)) :=
    C103_permit_call D P dom env s (.permit o p val d v r x) (words_lt _ _ (by simp [abi, arg]) (by simp [abi]))
  have hc := Props.Permit.C13_succeeds_iff ⟨keccak256, P, dom⟩ ⟨s.erc20, s.nonces, env.now⟩ o p val d v r x
  have hx : exec P dom env s (.permit o p val d v r x) =
      giving (permitStep ⟨keccak256, P, dom⟩ env.now s (.permit o p val d v r x)) [] := rfl
  unfold permitStep Permit.exec at hx
  dsimp only at hx
  cases hp : Permit.permit ⟨keccak256, P, dom⟩ ⟨s.erc20, s.nonces, env.now⟩ o p val d v r x with
  | error e =>
    rw [hp] at hx hc
    rw [hx] at ho
    rw [ho]
    have hno : ¬ (reply revert (giving (Except.error e : Except Err PermitToken) [])).reply = some [] := by
      intro h; cases h
    refine ⟨⟨fun h => absurd h hno, fun h => ?_⟩, fun h => absurd h hno⟩
    obtain ⟨st, h⟩ := hc.mpr h
    cases h
  | ok t =>
    rw [hp] at hx hc
    rw [hx] at ho
    have hs' : s' = ⟨t.erc20, t.nonces⟩ := by
      show out.after s = _
      rw [ho]; rfl
    refine ⟨⟨fun _ => hc.mp ⟨t, rfl⟩, fun _ => by rw [ho]; rfl⟩, fun _ => ?_⟩
    obtain ⟨h1, _, _, _, h5, _⟩ := Props.Permit.C13_effect _ _ _ _ _ _ _ _ _ _ hp
    rw [(C103_permit_views D P dom asker s' o p).2.2.1, (C103_permit_views D P dom asker s' o p).2.2.2.1, hs']
    have h1 := h1 o p
    rw [if_pos ⟨rfl, rfl⟩] at h1
    have h5 := h5 o
    rw [if_pos rfl] at h5
    have hlt := (hc.mp ⟨t, rfl⟩).2.1
    unfold Erc20.allowance at h1
    unfold Spec.Permit.nonce Nonces.nonceOf at h5 hlt
    have h6 : t.nonces.nonces o = s.nonces.nonces o + 1#256 := by
      apply BitVec.eq_of_toNat_eq
      rw [BitVec.toNat_add, h5]
      exact (Nat.mod_eq_of_lt hlt).symm
    refine ⟨?_, ?_⟩
    · change some (values [.uint256 (t.erc20.allowances o p)]) = _
      rw [h1]
    · change some (values [.uint256 (t.nonces.nonces o)]) = _
      rw [h6]

/-- **C103** Seen from outside, with bytes only: the answer to `nonces` never falls, whatever is sent. -/
theorem C103_permit_nonces (D : Decoder) (P : Ecdsa.Precompile) (dom : Eip712.Domain) (s : PermitToken) (txs : List (Raw Timed))
    (asker : Timed) (a : Address) :
    ∃ n n' : U256, answer (run D P dom) asker s "nonces(address)" [.address a] = some (values [.uint256 n]) ∧
      answer (run D P dom) asker (after (run D P dom) s txs) "nonces(address)" [.address a] = some (values [.uint256 n']) ∧
      n.toNat ≤ n'.toNat := by
  refine ⟨s.nonces.nonces a, (after (run D P dom) s txs).nonces.nonces a, ?_, ?_, ?_⟩
  · unfold answer; rw [(C103_permit_views D P dom asker _ a 0#160).2.2.2.1]; rfl
  · unfold answer; rw [(C103_permit_views D P dom asker _ a 0#160).2.2.2.1]; rfl
  · obtain ⟨l, hl, _⟩ := C103_permit_history D P dom s txs
    rw [hl]
    clear hl
    generalize (l.map fun x => (x.1.now, x.2.call x.1.caller)) = ops
    induction ops generalizing s with
    | nil => exact le_refl _
    | cons op ops ih =>
      refine le_trans ?_ (ih (stepOf _ s op))
      unfold stepOf
      split
      · rename_i s' h
        obtain ⟨t, ht, rfl⟩ := permitStep_ok h
        exact Props.Permit.nonce_exec ht a
      · exact le_refl _

/-- **C103** Seen from outside, with bytes only: if the answer to `allowance(o, p)` rises over a raw transaction, then `o` sent it, or
it was a `permit` for `o`, `p` and the new amount, in time, with a signature that recovers `o` from the digest with the nonce that
`nonces` had answered. -/
theorem C103_permit_allowance_rises (D : Decoder) (P : Ecdsa.Precompile) (dom : Eip712.Domain) (s : PermitToken) (tx : Raw Timed)
    (asker : Timed) (o p : Address) (w w' n : U256)
    (hb : answer (run D P dom) asker s "allowance(address,address)" [.address o, .address p] = some (values [.uint256 w]))
    (ha : answer (run D P dom) asker (after (run D P dom) s [tx]) "allowance(address,address)" [.address o, .address p] =
      some (values [.uint256 w']))
    (hn : answer (run D P dom) asker s "nonces(address)" [.address o] = some (values [.uint256 n]))
    (hlt : w.toNat < w'.toNat) :
    tx.env.caller = o ∨ ∃ d v r x, Says D tx.input "permit(address,address,uint256,uint256,uint8,bytes32,bytes32)"
        [.address o, .address p, .uint256 w', .uint256 d, .uint8 v, .bytes32 r, .bytes32 x] ∧ tx.env.now.toNat ≤ d.toNat ∧
      Ecdsa.recover P (Spec.Permit.digest ⟨keccak256, P, dom⟩ o p w' n d) v r x = .ok o := by
  unfold answer at *
  rw [(C103_permit_views D P dom asker _ o p).2.2.1] at hb ha
  rw [(C103_permit_views D P dom asker _ o p).2.2.2.1] at hn
  injection hn with hn
  injection ha with ha
  injection hb with hb
  obtain rfl := uint256_inj hn
  obtain rfl := uint256_inj hb
  obtain rfl := uint256_inj ha
  have e : after (run D P dom) s [tx] = (run D P dom tx.env s tx.value tx.input).after s := rfl
  rw [e] at hlt ⊢
  rcases C103_permit_no_other_effect D P dom tx.env s tx.value tx.input with ⟨d, h⟩ | ⟨d, h⟩ | ⟨op, s', r, he, h, _, hsay⟩
  · rw [h] at hlt; exact absurd hlt (lt_irrefl _)
  · rw [h] at hlt; exact absurd hlt (lt_irrefl _)
  · rw [h] at hlt ⊢
    change (s.erc20.allowances o p).toNat < (s'.erc20.allowances o p).toNat at hlt
    obtain ⟨t, ht, rfl⟩ := permitStep_ok (giving_ok he)
    have token : ∀ k, Permit.exec ⟨keccak256, P, dom⟩ ⟨s.erc20, s.nonces, tx.env.now⟩ (.token tx.env.caller k) = .ok t →
        tx.env.caller = o := by
      intro k h
      obtain ⟨u, hu, h⟩ := bind_eq_ok.mp h
      cases h
      have hu := Props.Permit.liftErc20_ok.mp hu
      by_contra hne
      have hlim : s.erc20.allowances o p ≠ maxU256 := by
        intro hm
        have h1 := (eq_maxU256_iff _).mp hm
        have h2 := (u.allowances o p).isLt
        change _ < (u.allowances o p).toNat at hlt
        omega
      have := Props.allowance_step (owner := o) (spender := p) hlim hne hu
      change _ < (u.allowances o p).toNat at hlt
      omega
    cases op with
    | transfer dst v => exact .inl (token _ ht)
    | transferFrom src dst v => exact .inl (token _ ht)
    | approve q v => exact .inl (token _ ht)
    | mint a v => exact .inl (token _ ht)
    | permit o' p' val d v r x =>
      right
      have h1 := (Props.Permit.C13_effect _ _ _ _ _ _ _ _ _ _ ht).1 o p
      have h2 := (Props.Permit.C13_succeeds_iff _ _ _ _ _ _ _ _ _).mp ⟨t, ht⟩
      unfold Erc20.allowance at h1
      by_cases hx : o = o' ∧ p = p'
      · obtain ⟨rfl, rfl⟩ := hx
        rw [if_pos ⟨rfl, rfl⟩] at h1
        refine ⟨d, v, r, x, ?_, h2.1, ?_⟩
        · change Says D tx.input _ [_, _, .uint256 (t.erc20.allowances o p), _, _, _, _]
          rw [h1]; exact hsay
        · change Ecdsa.recover P (Spec.Permit.digest _ o p (t.erc20.allowances o p) _ d) v r x = _
          rw [h1]; exact h2.2.2.2
      · rw [if_neg hx] at h1
        change _ < (t.erc20.allowances o p).toNat at hlt
        rw [h1] at hlt
        exact absurd hlt (lt_irrefl _)

/-! ### The hypotheses are met -/

/-- A precompile that takes every signature for one by Alice. -/
def trusting : Ecdsa.Precompile := fun _ => some (abiAddress alice)

-- C103_permit_permit, C103_permit_allowance_rises: Bob sends a permit by Alice, in time
example (D : Decoder) (dom : Eip712.Domain) (asker : Timed) :
    let s : PermitToken := ⟨Erc20.init, Nonces.init⟩
    let tx : Raw Timed := ⟨⟨bob, 9#64⟩, 0#256, message "permit(address,address,uint256,uint256,uint8,bytes32,bytes32)"
      [.address alice, .address bob, .uint256 7#256, .uint256 10#256, .uint8 27#8, .bytes32 1#256, .bytes32 1#256]⟩
    let s' := after (run D trusting dom) s [tx]
    answer (run D trusting dom) asker s "allowance(address,address)" [.address alice, .address bob] = some (values [.uint256 0#256]) ∧
    answer (run D trusting dom) asker s "nonces(address)" [.address alice] = some (values [.uint256 0#256]) ∧
    answer (run D trusting dom) asker s' "allowance(address,address)" [.address alice, .address bob] = some (values [.uint256 7#256]) := by
  intro s tx s'
  have hn : answer (run D trusting dom) asker s "nonces(address)" [.address alice] = some (values [.uint256 0#256]) := by
    unfold answer
    rw [(C103_permit_views D trusting dom asker s alice bob).2.2.2.1]; rfl
  obtain ⟨h1, h2⟩ := C103_permit_permit D trusting dom ⟨bob, 9#64⟩ asker s alice bob 7#256 10#256 27#8 1#256 1#256 0#256 hn
  have hr : ∀ g, Ecdsa.recover trusting g 27#8 1#256 1#256 = .ok alice := by
    intro g
    have h : Ecdsa.recoverInternal trusting g 27#8 1#256 1#256 = .ok alice := by
      unfold Ecdsa.recoverInternal trusting
      show (do let recovered ← Ecdsa.sliceAddress (abiAddress alice)
               if recovered = ZERO then throw .invalidSignature
               return recovered : Except Ecdsa.Err Address) = _
      decide +kernel
    exact h
  have h3 := (h2 (h1.mpr ⟨by decide +kernel, by decide +kernel, by decide +kernel, hr _⟩)).1
  have e : s' = (run D trusting dom tx.env s tx.value tx.input).after s := after_snoc (run D trusting dom) s [] tx
  refine ⟨?_, hn, by rw [e]; exact h3⟩
  unfold answer
  rw [(C103_permit_views D trusting dom asker s alice bob).2.2.1]; rfl

end PermitContract

end Verif.Props.Contracts
