import Verif.Proofs.Contracts
import Verif.Props.Erc1155
import Verif.Props.Compositions
import Verif.Props.Interfaces
/-! # C103: the ERC-1155 example contracts, on bytes -/
namespace Verif.Props.Contracts
open Verif Verif.Abi Verif.Contracts Verif.Proofs.Contracts
open Verif.Spec.Keccak (keccak256)
open Verif.Spec.Contracts
open Verif.Spec.Calls (call)
open Verif.Spec.Revert (addr)

namespace Erc1155Contract
open Verif.Erc1155Example

/-- Signature and arguments of each operation. -/
def abi : Call → String × List Val
  | .mint dst id v data => ("mint(address,uint256,uint256,bytes)", [.address dst, .uint256 id, .uint256 v, .bytes data])
  | .mintBatch dst ids vs data =>
    ("mintBatch(address,uint256[],uint256[],bytes)", [.address dst, .uints ids, .uints vs, .bytes data])
  | .burn a id v => ("burn(address,uint256,uint256)", [.address a, .uint256 id, .uint256 v])
  | .burnBatch a ids vs => ("burnBatch(address,uint256[],uint256[])", [.address a, .uints ids, .uints vs])
  | .safeTransferFrom src dst id v data =>
    ("safeTransferFrom(address,address,uint256,uint256,bytes)",
      [.address src, .address dst, .uint256 id, .uint256 v, .bytes data])
  | .safeBatchTransferFrom src dst ids vs data =>
    ("safeBatchTransferFrom(address,address,uint256[],uint256[],bytes)",
      [.address src, .address dst, .uints ids, .uints vs, .bytes data])
  | .setApprovalForAll op b => ("setApprovalForAll(address,bool)", [.address op, .bool b])
  | .pause => ("pause()", [])
  | .unpause => ("unpause()", [])

/-- The operation of the model, for the sender and in the environment of the message. -/
def exec (D : Decoder) (env : Env) (s : State) (op : Call) : Except Err (State × List Val) :=
  giving (Erc1155Example.exec s ⟨env.caller, Calls.receivers1155 keccak256 D env.world, op⟩) []

/-- `examples/erc1155` on bytes. -/
def run (D : Decoder) (env : Env) (s : State) (value : U256) (input : Bytes) : Outcome State :=
  entry keccak256 D Router.erc1155Example (Contracts.erc1155 keccak256 D env) s value input

/-- The revert data of an error. -/
def revert (e : Err) : Bytes := ((erc1155Reply e).data keccak256).getD []

abbrev spec : Spec.Router.Entry := ⟨Router.erc1155Example, Spec.Router.erc1155Example, [Spec.Router.erc1155, Spec.Router.erc165]⟩

theorem mem : spec ∈ Spec.Router.contracts := by simp [Spec.Router.contracts]

set_option maxRecDepth 100000 in
/-- **C103** For every operation, sender, environment and state: the message of the call, as the ABI defines it, has exactly the
effect and the reply of the operation, or reverts with exactly the bytes of its error. -/
theorem C103_erc1155_call (D : Decoder) (env : Env) (s : State) (op : Call)
    (hl : (message (abi op).1 (abi op).2).length < 2 ^ 256) :
    run D env s 0#256 (message (abi op).1 (abi op).2) = reply revert (exec D env s op) := by
  cases op <;> exact run_message mem D _ s _ _ rfl rfl (by operation) (by simp [abi, Spec.Router.erc1155Example]) hl

set_option maxRecDepth 100000 in
theorem ops (D : Decoder) : Ops spec (Contracts.erc1155 keccak256 D) abi (exec D) where
  inv env s sg t n args s' r hm hh := by
    rows hh hm [abi, Spec.Router.erc1155Example]

/-- **C103** Whatever is sent: the call is refused, or it is answered and changes nothing, or it is a call of one of the
operations (its selector, its arguments, no value) that succeeds, with exactly its effect and its reply. -/
theorem C103_erc1155_no_other_effect (D : Decoder) (env : Env) (s : State) (value : U256) (input : Bytes) :
    (∃ data, run D env s value input = .reverted data) ∨
    (∃ data, run D env s value input = .returned s data) ∨
    ∃ op s' r, exec D env s op = .ok (s', r) ∧ run D env s value input = .returned s' (values r) ∧
      value = 0#256 ∧ Says D input (abi op).1 (abi op).2 :=
  no_other_effect mem (ops D) D env s value input

/-- **C103** Any list of raw transactions has the effect of a list of operations, made in the same order and in the environments
of transactions of the list. -/
theorem C103_erc1155_history (D : Decoder) (s : State) (txs : List (Raw Env)) :
    ∃ l : List (Env × Call), after (run D) s txs = Erc1155Example.run s (l.map fun x => ⟨x.1.caller, Calls.receivers1155 keccak256 D x.1.world, x.2⟩) ∧
      (l.map Prod.fst).Sublist (txs.map Raw.env) := by
  obtain ⟨l, h1, h2⟩ := raw_history mem (ops D) D s txs
  refine ⟨l, ?_, h2⟩
  exact h1.trans (history_runOf (T := Tx) (exec := exec D) (exec' := Erc1155Example.exec) (fun x => ⟨x.1.caller, Calls.receivers1155 keccak256 D x.1.world, x.2⟩) (r := fun _ => []) (fun _ _ _ => rfl) s l)

/-- **C103** Conversely, any list of operations can be made by sending their messages. -/
theorem C103_erc1155_sends (D : Decoder) (s : State) (l : List (Env × Call))
    (hl : ∀ x ∈ l, (message (abi x.2).1 (abi x.2).2).length < 2 ^ 256) :
    after (run D) s (sent abi l) = Erc1155Example.run s (l.map fun x => ⟨x.1.caller, Calls.receivers1155 keccak256 D x.1.world, x.2⟩) :=
  (sent_history (C103_erc1155_call D) l s hl).trans
    (history_runOf (T := Tx) (exec := exec D) (exec' := Erc1155Example.exec) (fun x => ⟨x.1.caller, Calls.receivers1155 keccak256 D x.1.world, x.2⟩) (r := fun _ => []) (fun _ _ _ => rfl) s l)

set_option maxRecDepth 100000 in
/-- **C103** What the questions answer, for every sender, environment and state. -/
theorem C103_erc1155_views (D : Decoder) (env : Env) (s : State) (a b : Address) (i : U256) (x : BitVec 32) :
    run D env s 0#256 (message "balanceOf(address,uint256)" [.address a, .uint256 i]) =
      .returned s (values [.uint256 (s.erc1155.balances i a)]) ∧
    run D env s 0#256 (message "isApprovedForAll(address,address)" [.address a, .address b]) =
      .returned s (values [.bool (s.erc1155.operatorApprovals a b)]) ∧
    run D env s 0#256 (message "paused()" []) = .returned s (values [.bool s.pausable.paused]) ∧
    run D env s 0#256 (message "supportsInterface(bytes4)" [.bytes4 x]) =
      .returned s (values [.bool (decide (x ∈ [0xd9b67a26#32, 0x01ffc9a7#32]))]) := by
  refine ⟨?_, ?_, ?_, ?_⟩ <;>
    refine run_message mem D _ s _ _ rfl rfl ?_ (by simp [Spec.Router.erc1155Example]) (words_lt _ _ (by simp [arg]) (by simp))
  · exact outcome_ok _ _
  · exact outcome_ok _ _
  · exact outcome_ok _ _
  · rw [← interface_bool (Interfaces.erc1155Example keccak256 x) [0xd9b67a26#32, 0x01ffc9a7#32]
      (Props.Interfaces.C87_supports.2.2.2.2.2.2.2.2.2.2.2.2.2.2.2.2.2.2.2.2.2.2.1 x)]
    exact outcome_ok _ _

set_option maxRecDepth 100000 in
/-- **C103** A batch of balances: one for each pair, or the error with the two lengths. -/
theorem C103_erc1155_batch_view (D : Decoder) (env : Env) (s : State) (as : List Address) (ids : List U256)
    (hl : (message "balanceOfBatch(address[],uint256[])" [.addresses as, .uints ids]).length < 2 ^ 256) :
    run D env s 0#256 (message "balanceOfBatch(address[],uint256[])" [.addresses as, .uints ids]) =
      if ids.length = as.length then
        .returned s (values [.uints (List.zipWith (fun a i => s.erc1155.balances i a) as ids)])
      else .reverted (call "ERC1155InvalidArrayLength(uint256,uint256)"
        [BitVec.ofNat 256 ids.length, BitVec.ofNat 256 as.length]) := by
  refine run_message mem D _ s _ _ rfl rfl ?_ (by simp [Spec.Router.erc1155Example]) hl
  exact batch_view s s.erc1155 as ids

theorem answers (D : Decoder) (asker : Env) (s : State) (a b : Address) (i : U256) :
    answer (run D) asker s "balanceOf(address,uint256)" [.address a, .uint256 i] =
      some (values [.uint256 (s.erc1155.balances i a)]) ∧
    answer (run D) asker s "isApprovedForAll(address,address)" [.address a, .address b] =
      some (values [.bool (s.erc1155.operatorApprovals a b)]) ∧
    answer (run D) asker s "paused()" [] = some (values [.bool s.pausable.paused]) := by
  obtain ⟨h1, h2, h3, _⟩ := C103_erc1155_views D asker s a b i 0#32
  unfold answer
  rw [h1, h2, h3]
  exact ⟨rfl, rfl, rfl⟩

/-- Who can lower a balance. -/
theorem falls {s s' : State} {tx : Tx} (h : Erc1155Example.exec s tx = .ok s') {a : Address} {id : U256}
    (hf : (Erc1155.balanceOf s'.erc1155 a id).toNat < (Erc1155.balanceOf s.erc1155 a id).toNat) :
    Spec.Erc1155.MayMove s.erc1155 tx.caller a ∧ s.pausable.paused = false := by
  obtain ⟨c, R, k⟩ := tx
  have gate : ∀ {f}, gated s f = .ok s' → f = .ok s'.erc1155 ∧ s.pausable.paused = false := by
    intro f h
    unfold gated at h
    obtain ⟨_, hp, h⟩ := bind_eq_ok.mp h
    obtain ⟨t, ht, h⟩ := bind_eq_ok.mp h
    cases h
    cases f with
    | ok y =>
      cases ht
      refine ⟨rfl, ?_⟩
      cases hq : s.pausable.paused with
      | false => rfl
      | true => simp [Pausable.whenNotPaused, hq, liftP] at hp
    | error e => cases ht
  have user : ∀ u, gated s (Erc1155.execUser R s.erc1155 c u) = .ok s' →
      Spec.Erc1155.MayMove s.erc1155 c a ∧ s.pausable.paused = false := fun u h =>
    ⟨(Erc1155.Props.C56_balance_falls_only_by_authority (gate h).1 hf).1, (gate h).2⟩
  have mint : ∀ dst ids vs data, gated s (Erc1155.doMint R s.erc1155 c dst ids vs data) = .ok s' → False := by
    intro dst ids vs data h
    have := ((Erc1155.Props.C55_mint R s.erc1155 c dst ids vs data).2 _ (gate h).1).balances a id
    rw [if_neg (by rintro ⟨rfl, h⟩; exact h rfl)] at this
    unfold Spec.Erc1155.bal at this
    omega
  cases k with
  | mint dst id v data => exact (mint _ _ _ _ h).elim
  | mintBatch dst ids vs data => exact (mint _ _ _ _ h).elim
  | burn a id v => exact user _ h
  | burnBatch a ids vs => exact user _ h
  | safeTransferFrom src dst id v data => exact user _ h
  | safeBatchTransferFrom src dst ids vs data => exact user _ h
  | setApprovalForAll op b =>
    obtain ⟨t, ht, h⟩ := bind_eq_ok.mp h
    cases h
    cases hx : Erc1155.execUser R s.erc1155 c (.setApprovalForAll op b) with
    | error e => rw [hx] at ht; cases ht
    | ok y =>
      rw [hx] at ht; cases ht
      obtain ⟨_, h⟩ := Erc1155.Props.C56_balance_falls_only_by_authority hx hf
      rcases h with ⟨_, _, _, _, h⟩ | ⟨_, _, _, _, h⟩ | ⟨_, _, h⟩ | ⟨_, _, h⟩ <;> cases h
  | pause =>
    obtain ⟨t, ht, h⟩ := bind_eq_ok.mp h
    cases h
    exact absurd hf (lt_irrefl _)
  | unpause =>
    obtain ⟨t, ht, h⟩ := bind_eq_ok.mp h
    cases h
    exact absurd hf (lt_irrefl _)

/-- **C103** Seen from outside, with bytes only: if the answer to `balanceOf` falls over a raw transaction, then the sender was the
holder or `isApprovedForAll` had answered that they are the holder's operator, and `paused` had answered no. -/
theorem C103_erc1155_no_theft (D : Decoder) (s : State) (tx : Raw Env) (asker : Env) (a : Address) (id n n' : U256)
    (hb : answer (run D) asker s "balanceOf(address,uint256)" [.address a, .uint256 id] = some (values [.uint256 n]))
    (ha : answer (run D) asker (after (run D) s [tx]) "balanceOf(address,uint256)" [.address a, .uint256 id] =
      some (values [.uint256 n'])) (hlt : n'.toNat < n.toNat) :
    (tx.env.caller = a ∨
      answer (run D) asker s "isApprovedForAll(address,address)" [.address a, .address tx.env.caller] =
        some (values [.bool true])) ∧
    answer (run D) asker s "paused()" [] = some (values [.bool false]) := by
  rw [(answers D asker s a 0#160 id).1] at hb
  rw [(answers D asker _ a 0#160 id).1] at ha
  rw [(answers D asker s a tx.env.caller 0#256).2.1, (answers D asker s a tx.env.caller 0#256).2.2]
  injection hb with hb
  injection ha with ha
  rw [← uint256_inj hb, ← uint256_inj ha] at hlt
  have e : after (run D) s [tx] = (run D tx.env s tx.value tx.input).after s := rfl
  rw [e] at hlt
  rcases C103_erc1155_no_other_effect D tx.env s tx.value tx.input with ⟨d, h⟩ | ⟨d, h⟩ | ⟨op, s', r, he, h, _, _⟩
  · rw [h] at hlt; exact absurd hlt (lt_irrefl _)
  · rw [h] at hlt; exact absurd hlt (lt_irrefl _)
  · rw [h] at hlt
    obtain ⟨h1, h2⟩ := falls (giving_ok he) hlt
    refine ⟨h1.imp (fun h => h) fun h1 => ?_, by rw [h2]⟩
    rw [← h1]; rfl

/-- **C103** The errors of the parts keep their bytes (those of C95). -/
theorem C103_erc1155_errors :
    (∀ e, revert (.erc1155 e) = ((Revert.erc1155 e).data keccak256).getD []) ∧
    (∀ e, revert (.pausable e) = ((Revert.pausable e).data keccak256).getD []) :=
  ⟨fun _ => rfl, fun _ => rfl⟩

/-! ### The hypotheses are met -/

/-- Nobody has code. -/
def plain : Programs := fun _ => none

/-- Alice gets 5 of token 1, makes Bob her operator, and Bob burns 2. -/
def sample : List (Env × Call) :=
  [(⟨alice, plain⟩, .mint alice 1#256 5#256 []), (⟨alice, plain⟩, .setApprovalForAll bob true), (⟨bob, plain⟩, .burn alice 1#256 2#256)]

theorem sample_short : ∀ x ∈ sample, (message (abi x.2).1 (abi x.2).2).length < 2 ^ 256 := by
  intro x hx
  simp only [sample, List.mem_cons, List.not_mem_nil, or_false] at hx
  rcases hx with rfl | rfl | rfl
  · rw [message_length]; decide +kernel
  · exact words_lt _ _ (by simp [abi, arg]) (by simp [abi])
  · exact words_lt _ _ (by simp [abi, arg]) (by simp [abi])

-- C103_erc1155_no_theft
example (D : Decoder) (asker : Env) :
    let s := after (run D) init (sent abi (sample.take 2))
    answer (run D) asker s "balanceOf(address,uint256)" [.address alice, .uint256 1#256] = some (values [.uint256 5#256]) ∧
    answer (run D) asker s "isApprovedForAll(address,address)" [.address alice, .address bob] = some (values [.bool true]) ∧
    answer (run D) asker (after (run D) s (sent abi (sample.drop 2))) "balanceOf(address,uint256)" [.address alice, .uint256 1#256] =
      some (values [.uint256 3#256]) := by
  intro s
  have h1 : s = _ := C103_erc1155_sends D init (sample.take 2) fun x hx => sample_short x (List.mem_of_mem_take hx)
  have h2 : after (run D) s (sent abi (sample.drop 2)) = _ :=
    C103_erc1155_sends D s (sample.drop 2) fun x hx => sample_short x (List.mem_of_mem_drop hx)
  have b1 : s.erc1155.balances 1#256 alice = 5#256 := by rw [h1]; rfl
  have b2 : s.erc1155.operatorApprovals alice bob = true := by rw [h1]; rfl
  have b3 : (after (run D) s (sent abi (sample.drop 2))).erc1155.balances 1#256 alice = 3#256 := by
    have m : ∀ l : List (Env × Call), l = sample.take 2 ∨ l = sample.drop 2 →
        l.map (fun x => (⟨x.1.caller, Calls.receivers1155 keccak256 D x.1.world, x.2⟩ : Tx)) =
          l.map (fun x => ⟨x.1.caller, fun _ => none, x.2⟩) := by
      rintro l (rfl | rfl) <;> rfl
    rw [h2, h1, m _ (.inl rfl), m _ (.inr rfl)]
    decide +kernel
  unfold answer
  rw [(C103_erc1155_views D asker s alice bob 1#256 0#32).1, (C103_erc1155_views D asker s alice bob 1#256 0#32).2.1,
    (C103_erc1155_views D asker _ alice bob 1#256 0#32).1, b1, b2, b3]
  exact ⟨rfl, rfl, rfl⟩

end Erc1155Contract

namespace Erc1155SupplyContract
open Verif.Erc1155Supply

/-- Signature and arguments of each operation. -/
def abi : Call → String × List Val
  | .safeTransferFrom src dst id v data =>
    ("safeTransferFrom(address,address,uint256,uint256,bytes)",
      [.address src, .address dst, .uint256 id, .uint256 v, .bytes data])
  | .safeBatchTransferFrom src dst ids vs data =>
    ("safeBatchTransferFrom(address,address,uint256[],uint256[],bytes)",
      [.address src, .address dst, .uints ids, .uints vs, .bytes data])
  | .setApprovalForAll op b => ("setApprovalForAll(address,bool)", [.address op, .bool b])
  | .mint dst id v data => ("mint(address,uint256,uint256,bytes)", [.address dst, .uint256 id, .uint256 v, .bytes data])
  | .mintBatch dst ids vs data =>
    ("mintBatch(address,uint256[],uint256[],bytes)", [.address dst, .uints ids, .uints vs, .bytes data])
  | .burn a id v => ("burn(address,uint256,uint256)", [.address a, .uint256 id, .uint256 v])
  | .burnBatch a ids vs => ("burnBatch(address,uint256[],uint256[])", [.address a, .uints ids, .uints vs])

/-- The operation of the model, for the sender and in the environment of the message. -/
def exec (D : Decoder) (env : Env) (s : State) (op : Call) : Except Erc1155.Err (State × List Val) :=
  giving (Erc1155Supply.exec s ⟨env.caller, Calls.receivers1155 keccak256 D env.world, op⟩) []

/-- `examples/erc1155-supply` on bytes. -/
def run (D : Decoder) (env : Env) (s : State) (value : U256) (input : Bytes) : Outcome State :=
  entry keccak256 D Router.erc1155SupplyExample (Contracts.erc1155Supply keccak256 D env) s value input

/-- The revert data of an error. -/
def revert (e : Erc1155.Err) : Bytes := ((Revert.erc1155 e).data keccak256).getD []

abbrev spec : Spec.Router.Entry := ⟨Router.erc1155SupplyExample, Spec.Router.erc1155SupplyExample, [Spec.Router.erc1155, Spec.Router.erc165]⟩

theorem mem : spec ∈ Spec.Router.contracts := by simp [Spec.Router.contracts]

set_option maxRecDepth 100000 in
/-- **C103** For every operation, sender, environment and state: the message of the call, as the ABI defines it, has exactly the
effect and the reply of the operation, or reverts with exactly the bytes of its error. -/
theorem C103_erc1155_supply_call (D : Decoder) (env : Env) (s : State) (op : Call)
    (hl : (message (abi op).1 (abi op).2).length < 2 ^ 256) :
    run D env s 0#256 (message (abi op).1 (abi op).2) = reply revert (exec D env s op) := by
  cases op <;> exact run_message mem D _ s _ _ rfl rfl (by operation) (by simp [abi, Spec.Router.erc1155SupplyExample]) hl

set_option maxRecDepth 100000 in
theorem ops (D : Decoder) : Ops spec (Contracts.erc1155Supply keccak256 D) abi (exec D) where
  inv env s sg t n args s' r hm hh := by
    rows hh hm [abi, Spec.Router.erc1155SupplyExample]

/-- **C103** Whatever is sent: the call is refused, or it is answered and changes nothing, or it is a call of one of the
operations (its selector, its arguments, no value) that succeeds, with exactly its effect and its reply. -/
theorem C103_erc1155_supply_no_other_effect (D : Decoder) (env : Env) (s : State) (value : U256) (input : Bytes) :
    (∃ data, run D env s value input = .reverted data) ∨
    (∃ data, run D env s value input = .returned s data) ∨
    ∃ op s' r, exec D env s op = .ok (s', r) ∧ run D env s value input = .returned s' (values r) ∧
      value = 0#256 ∧ Says D input (abi op).1 (abi op).2 :=
  no_other_effect mem (ops D) D env s value input

/-- **C103** Any list of raw transactions has the effect of a list of operations, made in the same order and in the environments
of transactions of the list. -/
theorem C103_erc1155_supply_history (D : Decoder) (s : State) (txs : List (Raw Env)) :
    ∃ l : List (Env × Call), after (run D) s txs = Erc1155Supply.run s (l.map fun x => ⟨x.1.caller, Calls.receivers1155 keccak256 D x.1.world, x.2⟩) ∧
      (l.map Prod.fst).Sublist (txs.map Raw.env) := by
  obtain ⟨l, h1, h2⟩ := raw_history mem (ops D) D s txs
  refine ⟨l, ?_, h2⟩
  exact h1.trans (history_runOf (T := Tx) (exec := exec D) (exec' := Erc1155Supply.exec) (fun x => ⟨x.1.caller, Calls.receivers1155 keccak256 D x.1.world, x.2⟩) (r := fun _ => []) (fun _ _ _ => rfl) s l)

/-- **C103** Conversely, any list of operations can be made by sending their messages. -/
theorem C103_erc1155_supply_sends (D : Decoder) (s : State) (l : List (Env × Call))
    (hl : ∀ x ∈ l, (message (abi x.2).1 (abi x.2).2).length < 2 ^ 256) :
    after (run D) s (sent abi l) = Erc1155Supply.run s (l.map fun x => ⟨x.1.caller, Calls.receivers1155 keccak256 D x.1.world, x.2⟩) :=
  (sent_history (C103_erc1155_supply_call D) l s hl).trans
    (history_runOf (T := Tx) (exec := exec D) (exec' := Erc1155Supply.exec) (fun x => ⟨x.1.caller, Calls.receivers1155 keccak256 D x.1.world, x.2⟩) (r := fun _ => []) (fun _ _ _ => rfl) s l)

set_option maxRecDepth 100000 in
/-- **C103** What the questions answer, for every sender, environment and state. -/
theorem C103_erc1155_supply_views (D : Decoder) (env : Env) (s : State) (a b : Address) (i : U256) (x : BitVec 32) :
    run D env s 0#256 (message "balanceOf(address,uint256)" [.address a, .uint256 i]) =
      .returned s (values [.uint256 (s.erc1155.balances i a)]) ∧
    run D env s 0#256 (message "isApprovedForAll(address,address)" [.address a, .address b]) =
      .returned s (values [.bool (s.erc1155.operatorApprovals a b)]) ∧
    run D env s 0#256 (message "totalSupply(uint256)" [.uint256 i]) = .returned s (values [.uint256 (s.totalSupply i)]) ∧
    run D env s 0#256 (message "totalSupply()" []) = .returned s (values [.uint256 s.totalSupplyAll]) ∧
    run D env s 0#256 (message "exists(uint256)" [.uint256 i]) =
      .returned s (values [.bool (decide (s.totalSupply i ≠ 0#256))]) ∧
    run D env s 0#256 (message "supportsInterface(bytes4)" [.bytes4 x]) =
      .returned s (values [.bool (decide (x ∈ [0xd9b67a26#32, 0x01ffc9a7#32]))]) := by
  refine ⟨?_, ?_, ?_, ?_, ?_, ?_⟩ <;>
    refine run_message mem D _ s _ _ rfl rfl ?_ (by simp [Spec.Router.erc1155SupplyExample])
      (words_lt _ _ (by simp [arg]) (by simp))
  · exact outcome_ok _ _
  · exact outcome_ok _ _
  · exact outcome_ok _ _
  · exact outcome_ok _ _
  · rw [show decide (s.totalSupply i ≠ 0#256) = exists_ s i by
      unfold exists_ totalSupplyOf
      rw [decide_eq_decide]
      exact (pos_iff _).symm]
    exact outcome_ok _ _
  · rw [← interface_bool (Interfaces.erc1155SupplyExample keccak256 x) [0xd9b67a26#32, 0x01ffc9a7#32]
      (Props.Interfaces.C87_supports.2.2.2.2.2.2.2.2.2.2.2.2.2.2.2.2.2.2.2.2.2.2.2.1 x)]
    exact outcome_ok _ _

set_option maxRecDepth 100000 in
/-- **C103** A batch of balances: one for each pair, or the error with the two lengths. -/
theorem C103_erc1155_supply_batch_view (D : Decoder) (env : Env) (s : State) (as : List Address) (ids : List U256)
    (hl : (message "balanceOfBatch(address[],uint256[])" [.addresses as, .uints ids]).length < 2 ^ 256) :
    run D env s 0#256 (message "balanceOfBatch(address[],uint256[])" [.addresses as, .uints ids]) =
      if ids.length = as.length then
        .returned s (values [.uints (List.zipWith (fun a i => s.erc1155.balances i a) as ids)])
      else .reverted (call "ERC1155InvalidArrayLength(uint256,uint256)"
        [BitVec.ofNat 256 ids.length, BitVec.ofNat 256 as.length]) := by
  refine run_message mem D _ s _ _ rfl rfl ?_ (by simp [Spec.Router.erc1155SupplyExample]) hl
  exact batch_view s s.erc1155 as ids

/-- **C103** Seen from outside, with bytes only: after any list of raw transactions to a freshly deployed contract there are
balances that `balanceOf` answers, `totalSupply(id)` answers their sum, and `exists(id)` whether there are any. -/
theorem C103_erc1155_supply_outside (D : Decoder) (txs : List (Raw Env)) (asker : Env) (id : U256) :
    let s := after (run D) init txs
    ∃ (balance : Address → U256) (total : U256),
      (∀ a, answer (run D) asker s "balanceOf(address,uint256)" [.address a, .uint256 id] =
        some (values [.uint256 (balance a)])) ∧
      answer (run D) asker s "totalSupply(uint256)" [.uint256 id] = some (values [.uint256 total]) ∧
      total.toNat = ∑ a, (balance a).toNat ∧
      ∃ e : Bool, answer (run D) asker s "exists(uint256)" [.uint256 id] = some (values [.bool e]) ∧
        (e = true ↔ ∃ a, balance a ≠ 0#256) := by
  intro s
  obtain ⟨l, hl, _⟩ := C103_erc1155_supply_history D init txs
  have hr : Spec.Erc1155Supply.Reachable s := ⟨_, hl⟩
  have hv := fun a => C103_erc1155_supply_views D asker s a 0#160 id 0#32
  have ht := Erc1155Supply.Props.C58_total_is_sum hr id
  have he := Erc1155Supply.Props.C58_exists_iff_held hr id
  refine ⟨fun a => s.erc1155.balances id a, s.totalSupply id, fun a => ?_, ?_, ht, decide (s.totalSupply id ≠ 0#256), ?_, ?_⟩
  · unfold answer; rw [(hv a).1]; rfl
  · unfold answer; rw [(hv 0#160).2.2.1]; rfl
  · unfold answer; rw [(hv 0#160).2.2.2.2.1]; rfl
  · refine Iff.trans ?_ he
    unfold exists_ totalSupplyOf
    rw [decide_eq_true_eq, decide_eq_true_eq]
    exact (pos_iff _).symm

/-- **C103** Seen from outside, with bytes only: if the answer to `balanceOf` falls over a raw transaction, then the sender was the
holder, or `isApprovedForAll` had answered that they are the holder's operator, or the transaction was a call of `burn` or
`burnBatch` with the holder's address, which this example lets anybody make (see the next theorem). -/
theorem C103_erc1155_supply_who_lowers (D : Decoder) (s : State) (tx : Raw Env) (asker : Env) (a : Address) (id n n' : U256)
    (hb : answer (run D) asker s "balanceOf(address,uint256)" [.address a, .uint256 id] = some (values [.uint256 n]))
    (ha : answer (run D) asker (after (run D) s [tx]) "balanceOf(address,uint256)" [.address a, .uint256 id] =
      some (values [.uint256 n'])) (hlt : n'.toNat < n.toNat) :
    tx.env.caller = a ∨
    answer (run D) asker s "isApprovedForAll(address,address)" [.address a, .address tx.env.caller] =
      some (values [.bool true]) ∨
    (∃ i v, Says D tx.input "burn(address,uint256,uint256)" [.address a, .uint256 i, .uint256 v]) ∨
    (∃ ids vs, Says D tx.input "burnBatch(address,uint256[],uint256[])" [.address a, .uints ids, .uints vs]) := by
  unfold answer at *
  rw [(C103_erc1155_supply_views D asker s a 0#160 id 0#32).1] at hb
  rw [(C103_erc1155_supply_views D asker _ a 0#160 id 0#32).1] at ha
  rw [(C103_erc1155_supply_views D asker s a tx.env.caller 0#256 0#32).2.1]
  injection hb with hb
  injection ha with ha
  rw [← uint256_inj hb, ← uint256_inj ha] at hlt
  have e : after (run D) s [tx] = (run D tx.env s tx.value tx.input).after s := rfl
  rw [e] at hlt
  rcases C103_erc1155_supply_no_other_effect D tx.env s tx.value tx.input with ⟨d, h⟩ | ⟨d, h⟩ | ⟨op, s', r, he, h, _, hsay⟩
  · rw [h] at hlt; exact absurd hlt (lt_irrefl _)
  · rw [h] at hlt; exact absurd hlt (lt_irrefl _)
  · rw [h] at hlt
    change (Erc1155.balanceOf s'.erc1155 a id).toNat < (Erc1155.balanceOf s.erc1155 a id).toNat at hlt
    have hx := Erc1155Supply.Props.C58_same_token (giving_ok he)
    have user : ∀ u, Erc1155.execUser (Calls.receivers1155 keccak256 D tx.env.world) s.erc1155 tx.env.caller u =
        .ok s'.erc1155 → tx.env.caller = a ∨ (Outcome.returned s (values [.bool (s.erc1155.operatorApprovals a tx.env.caller)])).reply
          = some (values [.bool true]) := by
      intro u h
      refine (Erc1155.Props.C56_balance_falls_only_by_authority h hlt).1.imp (fun h => h) fun h => ?_
      rw [← h]; rfl
    have mint : ∀ dst ids vs data, Erc1155.doMint (Calls.receivers1155 keccak256 D tx.env.world) s.erc1155 tx.env.caller dst
        ids vs data = .ok s'.erc1155 → False := by
      intro dst ids vs data h
      have := ((Erc1155.Props.C55_mint _ s.erc1155 tx.env.caller dst ids vs data).2 _ h).balances a id
      rw [if_neg (by rintro ⟨rfl, h⟩; exact h rfl)] at this
      unfold Spec.Erc1155.bal at this
      omega
    have burn : ∀ src ids vs, Erc1155.doBurn (Calls.receivers1155 keccak256 D tx.env.world) s.erc1155 tx.env.caller src
        ids vs = .ok s'.erc1155 → src = a := by
      intro src ids vs h
      have := ((Erc1155.Props.C55_burn _ s.erc1155 tx.env.caller src ids vs).2 _ h).balances a id
      by_contra hne
      rw [if_neg (fun h => hne h.1.symm)] at this
      unfold Spec.Erc1155.bal at this
      omega
    cases op with
    | safeTransferFrom src dst id v data => exact (user (.safeTransferFrom src dst id v data) hx).imp (fun h => h) .inl
    | safeBatchTransferFrom src dst ids vs data =>
      exact (user (.safeBatchTransferFrom src dst ids vs data) hx).imp (fun h => h) .inl
    | setApprovalForAll op b => exact (user (.setApprovalForAll op b) hx).imp (fun h => h) .inl
    | mint dst id v data => exact (mint dst [id] [v] data hx).elim
    | mintBatch dst ids vs data => exact (mint dst ids vs data hx).elim
    | burn src i v =>
      obtain rfl := burn src [i] [v] hx
      exact .inr (.inr (.inl ⟨i, v, hsay⟩))
    | burnBatch src ids vs =>
      obtain rfl := burn src ids vs hx
      exact .inr (.inr (.inr ⟨ids, vs, hsay⟩))

/-- **C103** (finding) In this example anybody can burn anybody's tokens: for every sender, every holder and every amount up to the
balance, the message `burn(holder, id, amount)` succeeds, and `balanceOf` then answers that much less. -/
theorem C103_erc1155_supply_anybody_burns (D : Decoder) (env asker : Env) (s : State)
    (a : Address) (id v : U256) (ha : a ≠ ZERO) (hv : v.toNat ≤ (s.erc1155.balances id a).toNat) :
    ∃ s', run D env s 0#256 (message "burn(address,uint256,uint256)" [.address a, .uint256 id, .uint256 v]) =
        .returned s' [] ∧
      answer (run D) asker s' "balanceOf(address,uint256)" [.address a, .uint256 id] =
        some (values [.uint256 (s.erc1155.balances id a - v)]) := by
  obtain ⟨h1, h2⟩ := Erc1155.Props.C55_burn (Calls.receivers1155 keccak256 D env.world) s.erc1155 env.caller a [id] [v]
  have hd : ∀ i, Spec.Erc1155.demand ([id].zip [v]) i = if id = i then v.toNat else 0 := fun i => rfl
  obtain ⟨t, ht⟩ := h1.mpr ⟨ha, rfl, fun i => by
    rw [hd]; split
    · rename_i h; subst h; exact hv
    · exact Nat.zero_le _⟩
  have hb : Erc1155.exec s.erc1155 ⟨env.caller, Calls.receivers1155 keccak256 D env.world, (Call.burn a id v).base⟩ = .ok t := ht
  rcases Erc1155Supply.Props.C58_fails_only_on_overflow
      (tx := ⟨env.caller, Calls.receivers1155 keccak256 D env.world, .burn a id v⟩) hb with
    ⟨s', h, rfl⟩ | ⟨dst, ids, vs, data, h | ⟨_, _, h, _⟩, _⟩
  · refine ⟨s', ?_, ?_⟩
    · refine (C103_erc1155_supply_call D env s (.burn a id v) (words_lt _ _ (by simp [abi, arg]) (by simp [abi]))).trans ?_
      unfold exec
      rw [h]; rfl
    · unfold answer
      rw [(C103_erc1155_supply_views D asker s' a 0#160 id 0#32).1]
      have hm := (h2 _ ht).balances a id
      rw [hd, if_pos rfl, if_pos ⟨rfl, ha⟩, if_neg (fun h => ha h.1)] at hm
      unfold Spec.Erc1155.bal Erc1155.balanceOf at hm
      have : s'.erc1155.balances id a = s.erc1155.balances id a - v := by
        apply BitVec.eq_of_toNat_eq
        rw [BitVec.toNat_sub_of_le (BitVec.le_def.mpr hv)]
        omega
      rw [this]; rfl
  · cases h
  · cases h

/-! ### The hypotheses are met -/

/-- Nobody has code. -/
def plain : Programs := fun _ => none

/-- Alice gets 5 of token 1, and Bob, who is nobody to her, burns 2 of them. -/
def sample : List (Env × Call) :=
  [(⟨alice, plain⟩, .mint alice 1#256 5#256 []), (⟨bob, plain⟩, .burn alice 1#256 2#256)]

theorem sample_short : ∀ x ∈ sample, (message (abi x.2).1 (abi x.2).2).length < 2 ^ 256 := by
  intro x hx
  simp only [sample, List.mem_cons, List.not_mem_nil, or_false] at hx
  rcases hx with rfl | rfl
  · rw [message_length]; decide +kernel
  · exact words_lt _ _ (by simp [abi, arg]) (by simp [abi])

-- C103_erc1155_supply_outside, _who_lowers, _anybody_burns
example (D : Decoder) (asker : Env) :
    let s := after (run D) init (sent abi (sample.take 1))
    answer (run D) asker s "balanceOf(address,uint256)" [.address alice, .uint256 1#256] = some (values [.uint256 5#256]) ∧
    answer (run D) asker s "isApprovedForAll(address,address)" [.address alice, .address bob] = some (values [.bool false]) ∧
    answer (run D) asker (after (run D) s (sent abi (sample.drop 1))) "balanceOf(address,uint256)" [.address alice, .uint256 1#256] =
      some (values [.uint256 3#256]) := by
  intro s
  have h1 : s = _ := C103_erc1155_supply_sends D init (sample.take 1) fun x hx => sample_short x (List.mem_of_mem_take hx)
  have h2 : after (run D) s (sent abi (sample.drop 1)) = _ :=
    C103_erc1155_supply_sends D s (sample.drop 1) fun x hx => sample_short x (List.mem_of_mem_drop hx)
  have b1 : s.erc1155.balances 1#256 alice = 5#256 := by rw [h1]; rfl
  have b2 : s.erc1155.operatorApprovals alice bob = false := by rw [h1]; rfl
  have b3 : (after (run D) s (sent abi (sample.drop 1))).erc1155.balances 1#256 alice = 3#256 := by
    have m : ∀ l : List (Env × Call), l = sample.take 1 ∨ l = sample.drop 1 →
        l.map (fun x => (⟨x.1.caller, Calls.receivers1155 keccak256 D x.1.world, x.2⟩ : Tx)) =
          l.map (fun x => ⟨x.1.caller, fun _ => none, x.2⟩) := by
      rintro l (rfl | rfl) <;> rfl
    rw [h2, h1, m _ (.inl rfl), m _ (.inr rfl)]
    decide +kernel
  unfold answer
  rw [(C103_erc1155_supply_views D asker s alice bob 1#256 0#32).1, (C103_erc1155_supply_views D asker s alice bob 1#256 0#32).2.1,
    (C103_erc1155_supply_views D asker _ alice bob 1#256 0#32).1, b1, b2, b3]
  exact ⟨rfl, rfl, rfl⟩

end Erc1155SupplyContract

namespace Erc1155MetadataContract
open Verif.Metadata1155
open Verif.Metadata (Str)

/-- The operations of the contract: no minting and no burning. -/
inductive Op where
  | safeTransferFrom (src dst : Address) (id value : U256) (data : Bytes)
  | safeBatchTransferFrom (src dst : Address) (ids values : List U256) (data : Bytes)
  | setApprovalForAll (operator : Address) (approved : Bool)
  | setTokenUri (id : U256) (uri : Str)
  | setBaseUri (uri : Str)

/-- The same as calls of the model. -/
def Op.call : Op → Call
  | .safeTransferFrom src dst id v data => .user (.safeTransferFrom src dst id v data)
  | .safeBatchTransferFrom src dst ids vs data => .user (.safeBatchTransferFrom src dst ids vs data)
  | .setApprovalForAll op b => .user (.setApprovalForAll op b)
  | .setTokenUri id u => .setTokenUri id u
  | .setBaseUri u => .setBaseUri u

/-- Signature and arguments of each operation. -/
def abi : Op → String × List Val
  | .safeTransferFrom src dst id v data =>
    ("safeTransferFrom(address,address,uint256,uint256,bytes)",
      [.address src, .address dst, .uint256 id, .uint256 v, .bytes data])
  | .safeBatchTransferFrom src dst ids vs data =>
    ("safeBatchTransferFrom(address,address,uint256[],uint256[],bytes)",
      [.address src, .address dst, .uints ids, .uints vs, .bytes data])
  | .setApprovalForAll op b => ("setApprovalForAll(address,bool)", [.address op, .bool b])
  | .setTokenUri id u => ("setTokenURI(uint256,string)", [.uint256 id, .string u])
  | .setBaseUri u => ("setBaseURI(string)", [.string u])

/-- The operation of the model, for the sender and in the environment of the message. -/
def exec (D : Decoder) (env : Env) (s : State) (op : Op) : Except Erc1155.Err (State × List Val) :=
  giving (Metadata1155.exec s ⟨env.caller, Calls.receivers1155 keccak256 D env.world, op.call⟩) []

/-- `examples/erc1155-metadata-uri` on bytes. -/
def run (D : Decoder) (env : Env) (s : State) (value : U256) (input : Bytes) : Outcome State :=
  entry keccak256 D Router.erc1155MetadataUriExample (Contracts.erc1155Metadata keccak256 D env) s value input

/-- The revert data of an error. -/
def revert (e : Erc1155.Err) : Bytes := ((Revert.erc1155 e).data keccak256).getD []

abbrev spec : Spec.Router.Entry := ⟨Router.erc1155MetadataUriExample, Spec.Router.erc1155MetadataUriExample, [Spec.Router.erc1155, Spec.Router.erc1155MetadataUri, Spec.Router.erc165]⟩

theorem mem : spec ∈ Spec.Router.contracts := by simp [Spec.Router.contracts]

set_option maxRecDepth 100000 in
/-- **C103** For every operation, sender, environment and state: the message of the call, as the ABI defines it, has exactly the
effect and the reply of the operation, or reverts with exactly the bytes of its error. -/
theorem C103_erc1155_metadata_call (D : Decoder) (env : Env) (s : State) (op : Op)
    (hl : (message (abi op).1 (abi op).2).length < 2 ^ 256) :
    run D env s 0#256 (message (abi op).1 (abi op).2) = reply revert (exec D env s op) := by
  cases op <;> exact run_message mem D _ s _ _ rfl rfl (by operation) (by simp [abi, Spec.Router.erc1155MetadataUriExample]) hl

set_option maxRecDepth 100000 in
theorem ops (D : Decoder) : Ops spec (Contracts.erc1155Metadata keccak256 D) abi (exec D) where
  inv env s sg t n args s' r hm hh := by
    rows hh hm [abi, Spec.Router.erc1155MetadataUriExample] operations [.setTokenUri _ _, .setBaseUri _, .setApprovalForAll _ _,
      .safeTransferFrom _ _ _ _ _, .safeBatchTransferFrom _ _ _ _ _]

/-- **C103** Whatever is sent: the call is refused, or it is answered and changes nothing, or it is a call of one of the
operations (its selector, its arguments, no value) that succeeds, with exactly its effect and its reply. -/
theorem C103_erc1155_metadata_no_other_effect (D : Decoder) (env : Env) (s : State) (value : U256) (input : Bytes) :
    (∃ data, run D env s value input = .reverted data) ∨
    (∃ data, run D env s value input = .returned s data) ∨
    ∃ op s' r, exec D env s op = .ok (s', r) ∧ run D env s value input = .returned s' (values r) ∧
      value = 0#256 ∧ Says D input (abi op).1 (abi op).2 :=
  no_other_effect mem (ops D) D env s value input

/-- **C103** Any list of raw transactions has the effect of a list of operations, made in the same order and in the environments
of transactions of the list. -/
theorem C103_erc1155_metadata_history (D : Decoder) (s : State) (txs : List (Raw Env)) :
    ∃ l : List (Env × Op), after (run D) s txs = Metadata1155.run s (l.map fun x => ⟨x.1.caller, Calls.receivers1155 keccak256 D x.1.world, x.2.call⟩) ∧
      (l.map Prod.fst).Sublist (txs.map Raw.env) := by
  obtain ⟨l, h1, h2⟩ := raw_history mem (ops D) D s txs
  refine ⟨l, ?_, h2⟩
  exact h1.trans (history_runOf (T := Tx) (exec := exec D) (exec' := Metadata1155.exec) (fun x => ⟨x.1.caller, Calls.receivers1155 keccak256 D x.1.world, x.2.call⟩) (r := fun _ => []) (fun _ _ _ => rfl) s l)

/-- **C103** Conversely, any list of operations can be made by sending their messages. -/
theorem C103_erc1155_metadata_sends (D : Decoder) (s : State) (l : List (Env × Op))
    (hl : ∀ x ∈ l, (message (abi x.2).1 (abi x.2).2).length < 2 ^ 256) :
    after (run D) s (sent abi l) = Metadata1155.run s (l.map fun x => ⟨x.1.caller, Calls.receivers1155 keccak256 D x.1.world, x.2.call⟩) :=
  (sent_history (C103_erc1155_metadata_call D) l s hl).trans
    (history_runOf (T := Tx) (exec := exec D) (exec' := Metadata1155.exec) (fun x => ⟨x.1.caller, Calls.receivers1155 keccak256 D x.1.world, x.2.call⟩) (r := fun _ => []) (fun _ _ _ => rfl) s l)

set_option maxRecDepth 100000 in
/-- **C103** What the questions answer, for every sender, environment and state. -/
theorem C103_erc1155_metadata_views (D : Decoder) (env : Env) (s : State) (a b : Address) (i : U256) (x : BitVec 32) :
    run D env s 0#256 (message "balanceOf(address,uint256)" [.address a, .uint256 i]) =
      .returned s (values [.uint256 (s.erc1155.balances i a)]) ∧
    run D env s 0#256 (message "isApprovedForAll(address,address)" [.address a, .address b]) =
      .returned s (values [.bool (s.erc1155.operatorApprovals a b)]) ∧
    run D env s 0#256 (message "uri(uint256)" [.uint256 i]) = .returned s (values [.string
      (if s.uriStorage.tokenUris i = [] then s.metadataUri.uri else s.uriStorage.baseUri ++ s.uriStorage.tokenUris i)]) ∧
    run D env s 0#256 (message "supportsInterface(bytes4)" [.bytes4 x]) =
      .returned s (values [.bool (decide (x ∈ [0xd9b67a26#32, 0x0e89341c#32, 0x01ffc9a7#32]))]) := by
  refine ⟨?_, ?_, ?_, ?_⟩ <;>
    refine run_message mem D _ s _ _ rfl rfl ?_ (by simp [Spec.Router.erc1155MetadataUriExample])
      (words_lt _ _ (by simp [arg]) (by simp))
  · exact outcome_ok _ _
  · exact outcome_ok _ _
  · have e : (if s.uriStorage.tokenUris i = [] then s.metadataUri.uri
        else s.uriStorage.baseUri ++ s.uriStorage.tokenUris i) = uri s i := by
      unfold Metadata1155.uri UriStorage.uri MetadataUri.uriOf
      simp only [List.isEmpty_iff]
    rw [e]
    exact outcome_ok _ _
  · rw [← interface_bool (Interfaces.erc1155MetadataUriExample keccak256 x) [0xd9b67a26#32, 0x0e89341c#32, 0x01ffc9a7#32]
      (Props.Interfaces.C87_supports.2.2.2.2.2.2.2.2.2.2.2.2.2.2.2.2.2.2.2.2.2.2.2.2 x)]
    exact outcome_ok _ _

set_option maxRecDepth 100000 in
/-- **C103** A batch of balances: one for each pair, or the error with the two lengths. -/
theorem C103_erc1155_metadata_batch_view (D : Decoder) (env : Env) (s : State) (as : List Address) (ids : List U256)
    (hl : (message "balanceOfBatch(address[],uint256[])" [.addresses as, .uints ids]).length < 2 ^ 256) :
    run D env s 0#256 (message "balanceOfBatch(address[],uint256[])" [.addresses as, .uints ids]) =
      if ids.length = as.length then
        .returned s (values [.uints (List.zipWith (fun a i => s.erc1155.balances i a) as ids)])
      else .reverted (call "ERC1155InvalidArrayLength(uint256,uint256)"
        [BitVec.ofNat 256 ids.length, BitVec.ofNat 256 as.length]) := by
  refine run_message mem D _ s _ _ rfl rfl ?_ (by simp [Spec.Router.erc1155MetadataUriExample]) hl
  exact batch_view s s.erc1155 as ids

/-- A transfer out of nothing moves nothing. -/
theorem still_empty {u u' : Erc1155.State} {R : Erc1155.Receivers} {caller src dst : Address} {ids vs : List U256} {data : Bytes}
    (hz : ∀ a id, Erc1155.balanceOf u a id = 0#256)
    (h : Erc1155.safeBatchTransferFrom R u caller src dst ids vs data = .ok u') (a : Address) (id : U256) :
    Erc1155.balanceOf u' a id = 0#256 := by
  obtain ⟨h1, h2⟩ := Erc1155.Props.C57_batch_transfer R u caller src dst ids vs data
  obtain ⟨_, _, _, _, hc, _⟩ := h1.mp ⟨_, h⟩
  have hm := (h2 _ h).balances a id
  have hz' : ∀ a id, Spec.Erc1155.bal u a id = 0 := fun a id => by unfold Spec.Erc1155.bal; rw [hz]; rfl
  have hd : Spec.Erc1155.demand (ids.zip vs) id = 0 := by
    unfold Spec.Erc1155.Covered at hc
    split at hc
    · have : ∀ l : List (U256 × U256), (∀ p ∈ l, p.2.toNat ≤ Spec.Erc1155.bal u src p.1) → Spec.Erc1155.demand l id = 0 := by
        intro l
        induction l with
        | nil => intro _; rfl
        | cons p l ih =>
          intro h
          have h1 := h p (by simp)
          rw [hz'] at h1
          rw [Spec.Erc1155.demand, ih fun q hq => h q (by simp [hq])]
          split <;> omega
      exact this _ hc
    · have := (hc id).1
      rw [hz'] at this
      omega
  rw [hd, hz'] at hm
  apply BitVec.eq_of_toNat_eq
  unfold Spec.Erc1155.bal at hm
  simpa using hm

/-- **C103** This example has no function that mints: seen from outside, whatever raw transactions a freshly deployed contract
receives, `balanceOf` answers zero for every account and id. -/
theorem C103_erc1155_metadata_nobody_holds_any (D : Decoder) (d : Str) (txs : List (Raw Env)) (asker : Env) (a : Address)
    (id : U256) :
    answer (run D) asker (after (run D) (init d) txs) "balanceOf(address,uint256)" [.address a, .uint256 id] =
      some (values [.uint256 0#256]) := by
  have key : ∀ (ops : List (Env × Op)) (s : State), (∀ a id, Erc1155.balanceOf s.erc1155 a id = 0#256) →
      ∀ a id, Erc1155.balanceOf
        (Metadata1155.run s (ops.map fun x => ⟨x.1.caller, Calls.receivers1155 keccak256 D x.1.world, x.2.call⟩)).erc1155 a id
        = 0#256 := by
    intro ops
    induction ops with
    | nil => intro s h; exact h
    | cons x ops ih =>
      intro s hz
      refine ih (stepOf Metadata1155.exec s _) ?_
      obtain ⟨env, op⟩ := x
      unfold stepOf
      split
      · rename_i s' he
        intro a id
        cases op with
        | safeTransferFrom src dst i v data =>
          obtain ⟨t, ht, h⟩ := bind_eq_ok.mp he
          cases h
          exact still_empty (ids := [i]) (vs := [v]) hz ht a id
        | safeBatchTransferFrom src dst ids vs data =>
          obtain ⟨t, ht, h⟩ := bind_eq_ok.mp he
          cases h
          exact still_empty hz ht a id
        | setApprovalForAll op b =>
          obtain ⟨t, ht, h⟩ := bind_eq_ok.mp he
          cases h
          unfold Erc1155.execUser at ht
          obtain ⟨_, rfl⟩ := Erc1155.setApprovalForAll_ok.mp ht
          exact hz a id
        | setTokenUri i u => cases he; exact hz a id
        | setBaseUri u => cases he; exact hz a id
      · exact hz
  obtain ⟨l, hl, _⟩ := C103_erc1155_metadata_history D (init d) txs
  unfold answer
  rw [(C103_erc1155_metadata_views D asker _ a 0#160 id 0#32).1, hl]
  have := key l (init d) (fun _ _ => rfl) a id
  unfold Erc1155.balanceOf at this
  rw [this]; rfl

/-! ### The hypotheses are met -/

-- a history that changes something: the URI of token 1 is set, before the base URI
example (D : Decoder) (env asker : Env) (d : Str) :
    answer (run D) asker (after (run D) (init d) (sent abi [(env, .setTokenUri 1#256 ['x']), (env, .setBaseUri ['b'])]))
      "uri(uint256)" [.uint256 1#256] = some (values [.string ['b', 'x']]) := by
  have h := C103_erc1155_metadata_sends D (init d) [(env, .setTokenUri 1#256 ['x']), (env, .setBaseUri ['b'])] (by
    intro x hx
    simp only [List.mem_cons, List.not_mem_nil, or_false] at hx
    rcases hx with rfl | rfl <;> rw [message_length] <;> dsimp only [abi] <;> decide +kernel)
  unfold answer
  rw [(C103_erc1155_metadata_views D asker _ 0#160 0#160 1#256 0#32).2.2.1, h]
  rfl

end Erc1155MetadataContract

end Verif.Props.Contracts
