import Verif.Proofs.Contracts
import Verif.Props.Erc721Enumerable
import Verif.Props.Erc721
import Verif.Props.Erc721Consecutive
import Verif.Props.Compositions
import Verif.Props.Metadata
import Verif.Props.Interfaces
/-! # C103: the ERC-721 example contracts, on bytes -/
namespace Verif.Props.Contracts
open Verif Verif.Abi Verif.Contracts Verif.Proofs.Contracts
open Verif.Spec.Keccak (keccak256)
open Verif.Spec.Contracts
open Verif.Spec.Calls (call)
open Verif.Spec.Revert (addr)

theorem bind_ok {ε α β : Type} {x : Except ε α} {f : α → Except ε β} {y : β} (h : (x >>= f) = .ok y) :
    ∃ a, x = .ok a ∧ f a = .ok y := by
  cases x with
  | ok a => exact ⟨a, rfl, h⟩
  | error e => cases h

/-- Who can change the owner of a token, in the model. -/
theorem theft {u u' : Erc721.State} {R : Erc721.Receivers} {c : Address} (hc : c ≠ ZERO) {id : U256}
    {a : Address} (ho : u.owners id = a) (ha : a ≠ ZERO) (hne : u'.owners id ≠ a)
    (h : (∃ k, Erc721.execUser R u c k = .ok u') ∨ ∃ dst i, Erc721.mint u dst i = .ok u') :
    c = a ∨ u.tokenApprovals id = c ∨ u.operatorApprovals a c = true := by
  have key : ∀ dst j, u' = Erc721.updated u dst j →
      (c = ZERO ∨ Erc721.isAuthorized u (u.owners j) c j = true) →
      c = a ∨ u.tokenApprovals id = c ∨ u.operatorApprovals a c = true := by
    rintro dst j rfl h2
    by_cases he : id = j
    · subst he
      rcases h2 with h2 | h2
      · exact absurd h2 hc
      · unfold Erc721.isAuthorized Erc721.isApprovedForAll Erc721.getApprovedInternal at h2
        rw [ho] at h2
        simp only [Bool.and_eq_true, Bool.or_eq_true, decide_eq_true_eq] at h2
        rcases h2.2 with (h2 | h2) | h2
        · exact .inl h2.symm
        · exact .inr (.inr h2)
        · exact .inr (.inl h2)
    · exfalso; apply hne; simp [Erc721.updated, upd_ne _ _ he, ho]
  rcases h with ⟨k, h⟩ | ⟨dst, i, h⟩
  · cases k with
    | transferFrom src dst j =>
      obtain ⟨_, h2, _, h4⟩ := Erc721.transferFrom_ok.mp h
      exact key dst j h4 h2
    | safeTransferFrom src dst j =>
      obtain ⟨_, h2, _, h4⟩ := Erc721.transferFrom_ok.mp (Erc721.then_check_ok.mp h).1
      exact key dst j h4 h2
    | safeTransferFromWithData src dst j data =>
      obtain ⟨_, h2, _, h4⟩ := Erc721.transferFrom_ok.mp (Erc721.then_check_ok.mp h).1
      exact key dst j h4 h2
    | approve dst j =>
      obtain ⟨_, _, rfl⟩ := (Erc721.approve_ok hc).mp h
      exact absurd ho hne
    | setApprovalForAll p b =>
      obtain ⟨_, rfl⟩ := Erc721.setApprovalForAll_ok.mp h
      exact absurd ho hne
    | burn j =>
      obtain ⟨h2, h4⟩ := Erc721.burn_ok.mp h
      exact key ZERO j h4 h2
  · obtain ⟨_, h2, rfl⟩ := Erc721.mint_ok.mp h
    by_cases he : id = i
    · subst he; exact absurd (ho.symm.trans h2) ha
    · exact absurd (by simp [Erc721.updated, upd_ne _ _ he, ho]) hne

namespace Erc721Contract
open Verif.Enumerable

/-- Signature and arguments of each operation. -/
def abi : Call → String × List Val
  | .burn id => ("burn(uint256)", [.uint256 id])
  | .mint dst id => ("mint(address,uint256)", [.address dst, .uint256 id])
  | .safeMint dst id data => ("safeMint(address,uint256,bytes)", [.address dst, .uint256 id, .bytes data])
  | .transferFrom src dst id => ("transferFrom(address,address,uint256)", [.address src, .address dst, .uint256 id])
  | .safeTransferFrom src dst id =>
    ("safeTransferFrom(address,address,uint256)", [.address src, .address dst, .uint256 id])
  | .safeTransferFromWithData src dst id data =>
    ("safeTransferFrom(address,address,uint256,bytes)", [.address src, .address dst, .uint256 id, .bytes data])
  | .approve dst id => ("approve(address,uint256)", [.address dst, .uint256 id])
  | .setApprovalForAll op b => ("setApprovalForAll(address,bool)", [.address op, .bool b])
  | .pause => ("pause()", [])
  | .unpause => ("unpause()", [])

/-- The operation of the model, for the sender and in the environment of the message. -/
def exec (D : Decoder) (cap : Nat) (env : Env) (s : State) (op : Call) : Except Err (State × List Val) :=
  giving (Enumerable.exec cap s ⟨env.caller, Calls.receivers721 keccak256 D env.world, op⟩) []

/-- `examples/erc721` on bytes. -/
def run (D : Decoder) (cap : Nat) (env : Env) (s : State) (value : U256) (input : Bytes) : Outcome State :=
  entry keccak256 D Router.erc721Example (Contracts.erc721 keccak256 D cap env) s value input

/-- The revert data of an error. -/
def revert (e : Err) : Bytes := ((Revert.erc721Example e).data keccak256).getD []

abbrev spec : Spec.Router.Entry := ⟨Router.erc721Example, Spec.Router.erc721Example, [Spec.Router.erc721, Spec.Router.erc721Enumerable, Spec.Router.erc165]⟩

theorem mem : spec ∈ Spec.Router.contracts := by simp [Spec.Router.contracts]

set_option maxRecDepth 100000 in
/-- **C103** For every operation, sender, environment and state: the message of the call, as the ABI defines it, has exactly the
effect and the reply of the operation, or reverts with exactly the bytes of its error. -/
theorem C103_erc721_call (D : Decoder) (cap : Nat) (env : Env) (s : State) (op : Call)
    (hl : (message (abi op).1 (abi op).2).length < 2 ^ 256) :
    run D cap env s 0#256 (message (abi op).1 (abi op).2) = reply revert (exec D cap env s op) := by
  cases op <;> exact run_message mem D _ s _ _ rfl rfl (by operation) (by simp [abi, Spec.Router.erc721Example]) hl

set_option maxRecDepth 100000 in
theorem ops (D : Decoder) (cap : Nat) : Ops spec (Contracts.erc721 keccak256 D cap) abi (exec D cap) where
  inv env s sg t n args s' r hm hh := by
    rows hh hm [abi, Spec.Router.erc721Example]

/-- **C103** Whatever is sent: the call is refused, or it is answered and changes nothing, or it is a call of one of the
operations (its selector, its arguments, no value) that succeeds, with exactly its effect and its reply. -/
theorem C103_erc721_no_other_effect (D : Decoder) (cap : Nat) (env : Env) (s : State) (value : U256) (input : Bytes) :
    (∃ data, run D cap env s value input = .reverted data) ∨
    (∃ data, run D cap env s value input = .returned s data) ∨
    ∃ op s' r, exec D cap env s op = .ok (s', r) ∧ run D cap env s value input = .returned s' (values r) ∧
      value = 0#256 ∧ Says D input (abi op).1 (abi op).2 :=
  no_other_effect mem (ops D cap) D env s value input

/-- **C103** Any list of raw transactions has the effect of a list of operations, made in the same order and in the environments
of transactions of the list. -/
theorem C103_erc721_history (D : Decoder) (cap : Nat) (s : State) (txs : List (Raw Env)) :
    ∃ l : List (Env × Call), after (run D cap) s txs = Enumerable.run cap s (l.map fun x => ⟨x.1.caller, Calls.receivers721 keccak256 D x.1.world, x.2⟩) ∧
      (l.map Prod.fst).Sublist (txs.map Raw.env) := by
  obtain ⟨l, h1, h2⟩ := raw_history mem (ops D cap) D s txs
  refine ⟨l, ?_, h2⟩
  exact h1.trans (history_runOf (T := Tx) (exec := exec D cap) (exec' := Enumerable.exec cap) (fun x => ⟨x.1.caller, Calls.receivers721 keccak256 D x.1.world, x.2⟩) (r := fun _ => []) (fun _ _ _ => rfl) s l)

/-- **C103** Conversely, any list of operations can be made by sending their messages. -/
theorem C103_erc721_sends (D : Decoder) (cap : Nat) (s : State) (l : List (Env × Call))
    (hl : ∀ x ∈ l, (message (abi x.2).1 (abi x.2).2).length < 2 ^ 256) :
    after (run D cap) s (sent abi l) = Enumerable.run cap s (l.map fun x => ⟨x.1.caller, Calls.receivers721 keccak256 D x.1.world, x.2⟩) :=
  (sent_history (C103_erc721_call D cap) l s hl).trans
    (history_runOf (T := Tx) (exec := exec D cap) (exec' := Enumerable.exec cap) (fun x => ⟨x.1.caller, Calls.receivers721 keccak256 D x.1.world, x.2⟩) (r := fun _ => []) (fun _ _ _ => rfl) s l)

set_option maxRecDepth 100000 in
/-- **C103** What the questions answer, for every sender, environment and state; a question about a token that does not exist, an
index out of bounds or the zero address reverts with exactly the bytes of its error. -/
theorem C103_erc721_views (D : Decoder) (cap : Nat) (env : Env) (s : State) (a b : Address) (i : U256) (x : BitVec 32) :
    run D cap env s 0#256 (message "balanceOf(address)" [.address a]) =
      (if a = ZERO then .reverted (call "ERC721InvalidOwner(address)" [addr ZERO])
       else .returned s (values [.uint256 (s.erc721.balances a)])) ∧
    run D cap env s 0#256 (message "ownerOf(uint256)" [.uint256 i]) =
      (if s.erc721.owners i = ZERO then .reverted (call "ERC721NonexistentToken(uint256)" [i])
       else .returned s (values [.address (s.erc721.owners i)])) ∧
    run D cap env s 0#256 (message "getApproved(uint256)" [.uint256 i]) =
      (if s.erc721.owners i = ZERO then .reverted (call "ERC721NonexistentToken(uint256)" [i])
       else .returned s (values [.address (s.erc721.tokenApprovals i)])) ∧
    run D cap env s 0#256 (message "isApprovedForAll(address,address)" [.address a, .address b]) =
      .returned s (values [.bool (s.erc721.operatorApprovals a b)]) ∧
    run D cap env s 0#256 (message "totalSupply()" []) =
      .returned s (values [.uint256 (BitVec.ofNat 256 s.lists.allTokens.length)]) ∧
    run D cap env s 0#256 (message "tokenByIndex(uint256)" [.uint256 i]) =
      (match s.lists.allTokens[i.toNat]? with
       | some id => .returned s (values [.uint256 id])
       | none => .reverted (call "ERC721OutOfBoundsIndex(address,uint256)" [addr ZERO, i])) ∧
    run D cap env s 0#256 (message "tokenOfOwnerByIndex(address,uint256)" [.address a, .uint256 i]) =
      (if s.lists.ownedTokens a i = 0#256 then .reverted (call "ERC721OutOfBoundsIndex(address,uint256)" [addr a, i])
       else .returned s (values [.uint256 (s.lists.ownedTokens a i)])) ∧
    run D cap env s 0#256 (message "paused()" []) = .returned s (values [.bool s.pausable.paused]) ∧
    run D cap env s 0#256 (message "supportsInterface(bytes4)" [.bytes4 x]) =
      .returned s (values [.bool (decide (x ∈ [0x80ac58cd#32, 0x780e9d63#32, 0x01ffc9a7#32]))]) := by
  refine ⟨?_, ?_, ?_, ?_, ?_, ?_, ?_, ?_, ?_⟩ <;>
    refine run_message mem D _ s _ _ rfl rfl ?_ (by simp [Spec.Router.erc721Example]) (words_lt _ _ (by simp [arg]) (by simp))
  · exact balance_view s s.erc721 a
  · exact owner_view s s.erc721 i
  · exact approved_view s s.erc721 i
  · exact outcome_ok _ _
  · exact outcome_ok _ _
  · show outcome (view _ _ s (one _ (Enumerable.tokenByIndex _ _))) = _
    unfold Enumerable.tokenByIndex
    cases s.lists.allTokens[i.toNat]? with
    | none => exact view_error s _ _ _ _ rfl rfl rfl
    | some id => exact outcome_ok _ _
  · show outcome (view _ _ s (one _ (if _ then _ else _))) = _
    split
    · exact view_error s _ _ _ _ rfl rfl rfl
    · exact outcome_ok _ _
  · exact outcome_ok _ _
  · rw [← interface_bool (Interfaces.erc721Example keccak256 x) [0x80ac58cd#32, 0x780e9d63#32, 0x01ffc9a7#32]
      (Props.Interfaces.C87_supports.2.2.2.2.2.2.2.2.2.2.2.2.2.2.2.2.2.2.2.1 x)]
    exact outcome_ok _ _

theorem exec_base {cap : Nat} {s s' : State} {tx : Tx} (h : Enumerable.exec cap s tx = .ok s') : tx.caller ≠ ZERO ∧
    ((∃ c, Erc721.execUser tx.receivers s.erc721 tx.caller c = .ok s'.erc721) ∨
     (∃ dst id, Erc721.mint s.erc721 dst id = .ok s'.erc721) ∨ s'.erc721 = s.erc721) := by
  obtain ⟨c, R, k⟩ := tx
  unfold Enumerable.exec at h
  by_cases hc : c = ZERO
  · rw [if_pos hc] at h; cases h
  · rw [if_neg hc] at h
    refine ⟨hc, ?_⟩
    have mv : ∀ {f dst id}, mintVia cap s f dst id = .ok s' → f = .ok s'.erc721 := by
      intro f dst id h
      unfold mintVia at h
      obtain ⟨_, _, h⟩ := bind_eq_ok.mp h
      obtain ⟨t, ht, h⟩ := bind_eq_ok.mp h
      obtain ⟨_, _, h⟩ := bind_eq_ok.mp h
      obtain ⟨_, _, h⟩ := bind_eq_ok.mp h
      cases h
      exact lift_ok.mp ht
    have tv : ∀ {f dst id}, transferVia s f dst id = .ok s' → f = .ok s'.erc721 := by
      intro f dst id h
      unfold transferVia at h
      obtain ⟨_, _, h⟩ := bind_eq_ok.mp h
      obtain ⟨_, _, h⟩ := bind_eq_ok.mp h
      obtain ⟨t, ht, h⟩ := bind_eq_ok.mp h
      obtain ⟨_, _, h⟩ := bind_eq_ok.mp h
      cases h
      exact lift_ok.mp ht
    cases k with
    | burn id =>
      left
      dsimp only at h
      unfold Enumerable.burn at h
      obtain ⟨_, _, h⟩ := bind_eq_ok.mp h
      obtain ⟨_, _, h⟩ := bind_eq_ok.mp h
      obtain ⟨t, ht, h⟩ := bind_eq_ok.mp h
      obtain ⟨_, _, h⟩ := bind_eq_ok.mp h
      obtain ⟨_, _, h⟩ := bind_eq_ok.mp h
      cases h
      exact ⟨.burn id, lift_ok.mp ht⟩
    | mint dst id => exact .inr (.inl ⟨dst, id, mv h⟩)
    | safeMint dst id data => exact .inr (.inl ⟨dst, id, ((Props.Erc721.C50_safe_mint _ _ _ _ _ _ _).mp (mv h)).1⟩)
    | transferFrom src dst id => exact .inl ⟨.transferFrom src dst id, tv h⟩
    | safeTransferFrom src dst id => exact .inl ⟨.safeTransferFrom src dst id, tv h⟩
    | safeTransferFromWithData src dst id data => exact .inl ⟨.safeTransferFromWithData src dst id data, tv h⟩
    | approve dst id =>
      left
      obtain ⟨t, ht, h⟩ := bind_eq_ok.mp h
      cases h
      exact ⟨.approve dst id, lift_ok.mp ht⟩
    | setApprovalForAll op b =>
      left
      obtain ⟨t, ht, h⟩ := bind_eq_ok.mp h
      cases h
      exact ⟨.setApprovalForAll op b, lift_ok.mp ht⟩
    | pause => obtain ⟨t, ht, h⟩ := bind_eq_ok.mp h; cases h; exact .inr (.inr rfl)
    | unpause => obtain ⟨t, ht, h⟩ := bind_eq_ok.mp h; cases h; exact .inr (.inr rfl)

theorem answers (D : Decoder) (cap : Nat) (asker : Env) (s : State) (a b : Address) (i : U256) :
    answer (run D cap) asker s "balanceOf(address)" [.address a] =
      (if a = ZERO then none else some (values [.uint256 (s.erc721.balances a)])) ∧
    answer (run D cap) asker s "ownerOf(uint256)" [.uint256 i] =
      (if s.erc721.owners i = ZERO then none else some (values [.address (s.erc721.owners i)])) ∧
    answer (run D cap) asker s "getApproved(uint256)" [.uint256 i] =
      (if s.erc721.owners i = ZERO then none else some (values [.address (s.erc721.tokenApprovals i)])) ∧
    answer (run D cap) asker s "isApprovedForAll(address,address)" [.address a, .address b] =
      some (values [.bool (s.erc721.operatorApprovals a b)]) ∧
    answer (run D cap) asker s "totalSupply()" [] = some (values [.uint256 (totalSupply s.lists)]) ∧
    answer (run D cap) asker s "tokenByIndex(uint256)" [.uint256 i] =
      (s.lists.allTokens[i.toNat]?).map fun id => values [.uint256 id] := by
  obtain ⟨h1, h2, h3, h4, h5, h6, _⟩ := C103_erc721_views D cap asker s a b i 0#32
  unfold answer
  rw [h1, h2, h3, h4, h5, h6]
  refine ⟨?_, ?_, ?_, rfl, rfl, ?_⟩
  · split <;> rfl
  · split <;> rfl
  · split <;> rfl
  · cases s.lists.allTokens[i.toNat]? <;> rfl

/-- **C103** Seen from outside, with bytes only: after any list of raw transactions to a freshly deployed contract every token
has an owner or none; `ownerOf` answers it, `balanceOf` answers the number of tokens of an account, `totalSupply` the number
of tokens with an owner, and `tokenByIndex` lists each of these exactly once. -/
theorem C103_erc721_outside (D : Decoder) (cap : Nat) (hcap : cap < 2 ^ 256) (txs : List (Raw Env)) (asker : Env) :
    let s := after (run D cap) init txs
    ∃ owner : U256 → Option Address,
      (∀ id, answer (run D cap) asker s "ownerOf(uint256)" [.uint256 id] = (owner id).map fun a => values [.address a]) ∧
      (∀ a, a ≠ ZERO → ∃ n : U256, answer (run D cap) asker s "balanceOf(address)" [.address a] = some (values [.uint256 n]) ∧
        n.toNat = (Finset.univ.filter fun id => owner id = some a).card) ∧
      (∃ n : U256, answer (run D cap) asker s "totalSupply()" [] = some (values [.uint256 n]) ∧
        n.toNat = (Finset.univ.filter fun id => owner id ≠ none).card) ∧
      (∀ i v, answer (run D cap) asker s "tokenByIndex(uint256)" [.uint256 i] = some v →
        ∃ id, v = values [.uint256 id] ∧ owner id ≠ none) ∧
      (∀ id, owner id ≠ none → ∃ i, answer (run D cap) asker s "tokenByIndex(uint256)" [.uint256 i] = some (values [.uint256 id]) ∧
        ∀ j, answer (run D cap) asker s "tokenByIndex(uint256)" [.uint256 j] = some (values [.uint256 id]) → j = i) := by
  intro s
  obtain ⟨l, hl, _⟩ := C103_erc721_history D cap init txs
  have hr : Spec.Enumerable.Reachable cap s := ⟨_, hl⟩
  have hi := Props.Enumerable.inv_of_reachable hcap hr
  refine ⟨Spec.Enumerable.owner? s, fun id => ?_, fun a ha => ⟨s.erc721.balances a, ?_, ?_⟩,
    ⟨totalSupply s.lists, ?_, Props.Enumerable.C52_total_supply cap hcap s hr⟩, fun i v hv => ?_, fun id hid => ?_⟩
  · rw [(answers D cap asker s 0#160 0#160 id).2.1, Spec.Enumerable.owner?, Erc721.owner?_eq]
    unfold Spec.Erc721.nobody
    split <;> rfl
  · rw [(answers D cap asker s a 0#160 0#256).1, if_neg ha]
  · have := Props.Enumerable.bal?_eq hcap hi ha
    unfold Spec.Enumerable.bal? at this
    rw [Erc721.bal?_eq ha] at this
    rw [Option.some.injEq] at this
    rw [this]
    have h2 := Erc721.owned_eq s.erc721 ha
    rw [← h2]; rfl
  · exact (answers D cap asker s 0#160 0#160 0#256).2.2.2.2.1
  · rw [(answers D cap asker s 0#160 0#160 i).2.2.2.2.2] at hv
    cases hx : s.lists.allTokens[i.toNat]? with
    | none => rw [hx] at hv; cases hv
    | some id =>
      rw [hx] at hv
      cases hv
      exact ⟨id, rfl, Props.Enumerable.owner?_ne_none.mpr (hi.ae.slot _ _ hx).1⟩
  · obtain ⟨i, _, h2, h3⟩ := Props.Enumerable.C52_each_token_listed_once cap hcap s hr id hid
    have h2 := Props.Enumerable.tokenByIndex_ok.mp h2
    refine ⟨i, by rw [(answers D cap asker s 0#160 0#160 i).2.2.2.2.2, h2]; rfl, fun j hj => h3 j ?_⟩
    rw [(answers D cap asker s 0#160 0#160 j).2.2.2.2.2] at hj
    cases hx : s.lists.allTokens[j.toNat]? with
    | none => rw [hx] at hj; cases hj
    | some id' =>
      rw [hx] at hj
      injection hj with hj
      rw [Props.Enumerable.tokenByIndex_ok, hx, uint256_inj hj]

/-- **C103** Seen from outside, with bytes only: if, after any history of a freshly deployed contract, a raw transaction changes
the answer to `ownerOf(id)`, then the sender was the owner, or `getApproved(id)` had answered the sender, or `isApprovedForAll` had
answered that they are the owner's operator. -/
theorem C103_erc721_no_theft (D : Decoder) (cap : Nat) (txs : List (Raw Env)) (tx : Raw Env) (asker : Env) (id : U256)
    (a : Address)
    (hb : answer (run D cap) asker (after (run D cap) init txs) "ownerOf(uint256)" [.uint256 id] = some (values [.address a]))
    (ha : answer (run D cap) asker (after (run D cap) init (txs ++ [tx])) "ownerOf(uint256)" [.uint256 id] ≠
      some (values [.address a])) :
    tx.env.caller = a ∨
    answer (run D cap) asker (after (run D cap) init txs) "getApproved(uint256)" [.uint256 id] =
      some (values [.address tx.env.caller]) ∨
    answer (run D cap) asker (after (run D cap) init txs) "isApprovedForAll(address,address)" [.address a, .address tx.env.caller] =
      some (values [.bool true]) := by
  rw [after_snoc] at ha
  generalize after (run D cap) init txs = s at *
  rw [(answers D cap asker s 0#160 0#160 id).2.2.1, (answers D cap asker s a tx.env.caller 0#256).2.2.2.1]
  have hb0 := hb
  rw [(answers D cap asker _ 0#160 0#160 id).2.1] at hb
  by_cases h0 : s.erc721.owners id = ZERO
  · rw [if_pos h0] at hb; cases hb
  · rw [if_neg h0] at hb
    rw [if_neg h0]
    injection hb with hb
    have hb := address_inj hb
    rcases C103_erc721_no_other_effect D cap tx.env s tx.value tx.input with ⟨d, h⟩ | ⟨d, h⟩ | ⟨op, s', r, he, h, _, _⟩
    · rw [h] at ha; exact absurd hb0 ha
    · rw [h] at ha; exact absurd hb0 ha
    · rw [h] at ha
      change answer (run D cap) asker s' _ _ ≠ _ at ha
      rw [(answers D cap asker s' 0#160 0#160 id).2.1] at ha
      have hne : s'.erc721.owners id ≠ a := by
        intro e
        rw [e, if_neg (hb ▸ h0)] at ha
        exact ha rfl
      obtain ⟨hc, h⟩ := exec_base (giving_ok he)
      have fin := theft hc hb (hb ▸ h0) hne (R := Calls.receivers721 keccak256 D tx.env.world)
      have fin : tx.env.caller = a ∨ s.erc721.tokenApprovals id = tx.env.caller ∨
          s.erc721.operatorApprovals a tx.env.caller = true := by
        rcases h with ⟨c, h⟩ | ⟨dst, id', h⟩ | h
        · exact fin (.inl ⟨c, h⟩)
        · exact fin (.inr ⟨dst, id', h⟩)
        · rw [h] at hne; exact absurd hb hne
      rcases fin with h | h | h
      · exact .inl h
      · exact .inr (.inl (by rw [h]))
      · exact .inr (.inr (by rw [h]))

/-- **C103** Seen from outside: while `paused` answers yes, the message of every mint, burn and transfer, from any account but the
zero address, reverts with the bytes of `EnforcedPause()`. -/
theorem C103_erc721_paused (D : Decoder) (cap : Nat) (env asker : Env) (s : State)
    (hp : answer (run D cap) asker s "paused()" [] = some (values [.bool true])) (op : Call) (hm : Props.Erc721Example.Call.moves op = true)
    (hc : env.caller ≠ ZERO) (hl : (message (abi op).1 (abi op).2).length < 2 ^ 256) :
    run D cap env s 0#256 (message (abi op).1 (abi op).2) = .reverted (call "EnforcedPause()" []) := by
  unfold answer at hp
  rw [(C103_erc721_views D cap asker s 0#160 0#160 0#256 0#32).2.2.2.2.2.2.2.1] at hp
  have hp : s.pausable.paused = true := by
    cases h : s.pausable.paused with
    | true => rfl
    | false => rw [h] at hp; injection hp with hp; exact absurd hp (by decide +kernel)
  rw [C103_erc721_call D cap env s op hl]
  unfold exec
  rw [Props.Erc721Example.C85_erc721_paused_rejects cap hp _ hc hm]
  exact congrArg Outcome.reverted (error_bytes "EnforcedPause" [] _ rfl rfl)

/-! ### The hypotheses are met -/

/-- Alice mints token 3 for herself, allows Bob to take it, and Bob does. -/
def sample (w : Programs) : List (Env × Call) :=
  [(⟨alice, w⟩, .mint alice 3#256), (⟨alice, w⟩, .approve bob 3#256), (⟨bob, w⟩, .transferFrom alice bob 3#256), (⟨bob, w⟩, .pause)]

theorem sample_short (w : Programs) : ∀ x ∈ sample w, (message (abi x.2).1 (abi x.2).2).length < 2 ^ 256 := by
  intro x hx
  simp only [sample, List.mem_cons, List.not_mem_nil, or_false] at hx
  rcases hx with rfl | rfl | rfl | rfl <;> exact words_lt _ _ (by simp [abi, arg]) (by simp [abi])

-- C103_erc721_outside and C103_erc721_no_theft: Bob takes the token that he was allowed to take
example (D : Decoder) (w : Programs) (asker : Env) :
    let s := after (run D 10) init (sent abi ((sample w).take 2))
    let s' := after (run D 10) init (sent abi ((sample w).take 2) ++ sent abi [(⟨bob, w⟩, .transferFrom alice bob 3#256)])
    answer (run D 10) asker s "ownerOf(uint256)" [.uint256 3#256] = some (values [.address alice]) ∧
    answer (run D 10) asker s "getApproved(uint256)" [.uint256 3#256] = some (values [.address bob]) ∧
    answer (run D 10) asker s "totalSupply()" [] = some (values [.uint256 1#256]) ∧
    answer (run D 10) asker s' "ownerOf(uint256)" [.uint256 3#256] = some (values [.address bob]) := by
  intro s s'
  have h1 : s = _ := C103_erc721_sends D 10 init ((sample w).take 2) fun x hx => sample_short w x (List.mem_of_mem_take hx)
  have h2 : s' = _ := C103_erc721_sends D 10 init ((sample w).take 3) fun x hx => sample_short w x (List.mem_of_mem_take hx)
  have h3 : s.erc721.owners 3#256 = alice := by rw [h1]; rfl
  have h4 : s.erc721.tokenApprovals 3#256 = bob := by rw [h1]; rfl
  have h5 : s.lists.allTokens = [3#256] := by rw [h1]; rfl
  have h6 : s'.erc721.owners 3#256 = bob := by rw [h2]; rfl
  have v := C103_erc721_views D 10 asker s 0#160 0#160 3#256 0#32
  have v' := C103_erc721_views D 10 asker s' 0#160 0#160 3#256 0#32
  unfold answer
  refine ⟨?_, ?_, ?_, ?_⟩
  · rw [v.2.1, if_neg (by rw [h3]; decide), h3]; rfl
  · rw [v.2.2.1, if_neg (by rw [h3]; decide), h4]; rfl
  · rw [v.2.2.2.2.1, h5]; rfl
  · rw [v'.2.1, if_neg (by rw [h6]; decide), h6]; rfl

-- C103_erc721_paused: after the four messages the contract is paused, and a mint moves tokens
example (D : Decoder) (w : Programs) (asker : Env) :
    answer (run D 10) asker (after (run D 10) init (sent abi (sample w))) "paused()" [] = some (values [.bool true]) ∧
    Props.Erc721Example.Call.moves (.mint bob 4#256) = true := by
  have h1 := C103_erc721_sends D 10 init (sample w) (sample_short w)
  have h2 : (after (run D 10) init (sent abi (sample w))).pausable.paused = true := by rw [h1]; rfl
  unfold answer
  rw [(C103_erc721_views D 10 asker _ 0#160 0#160 3#256 0#32).2.2.2.2.2.2.2.1, h2]
  exact ⟨rfl, rfl⟩

end Erc721Contract

namespace Erc721MetadataContract
open Verif.Metadata

/-- Signature and arguments of each operation. -/
def abi : Call → String × List Val
  | .mint dst id => ("mint(address,uint256)", [.address dst, .uint256 id])
  | .user (.transferFrom src dst id) => ("transferFrom(address,address,uint256)", [.address src, .address dst, .uint256 id])
  | .user (.safeTransferFrom src dst id) =>
    ("safeTransferFrom(address,address,uint256)", [.address src, .address dst, .uint256 id])
  | .user (.safeTransferFromWithData src dst id data) =>
    ("safeTransferFrom(address,address,uint256,bytes)", [.address src, .address dst, .uint256 id, .bytes data])
  | .user (.approve dst id) => ("approve(address,uint256)", [.address dst, .uint256 id])
  | .user (.setApprovalForAll op b) => ("setApprovalForAll(address,bool)", [.address op, .bool b])
  | .user (.burn id) => ("burn(uint256)", [.uint256 id])
  | .setTokenUri id u => ("setTokenURI(uint256,string)", [.uint256 id, .string u])

/-- The operation of the model, for the sender and in the environment of the message. -/
def exec (D : Decoder) (env : Env) (s : State) (op : Call) : Except Erc721.Err (State × List Val) :=
  giving (Metadata.exec s ⟨env.caller, Calls.receivers721 keccak256 D env.world, op⟩) []

/-- `examples/erc721-metadata` on bytes. -/
def run (D : Decoder) (env : Env) (s : State) (value : U256) (input : Bytes) : Outcome State :=
  entry keccak256 D Router.erc721MetadataExample (Contracts.erc721Metadata keccak256 D env) s value input

/-- The revert data of an error. -/
def revert (e : Erc721.Err) : Bytes := ((Revert.erc721 e).data keccak256).getD []

abbrev spec : Spec.Router.Entry := ⟨Router.erc721MetadataExample, Spec.Router.erc721MetadataExample, [Spec.Router.erc721, Spec.Router.erc721Metadata, Spec.Router.erc165]⟩

theorem mem : spec ∈ Spec.Router.contracts := by simp [Spec.Router.contracts]

set_option maxRecDepth 100000 in
/-- **C103** For every operation, sender, environment and state: the message of the call, as the ABI defines it, has exactly the
effect and the reply of the operation, or reverts with exactly the bytes of its error. -/
theorem C103_erc721_metadata_call (D : Decoder) (env : Env) (s : State) (op : Call)
    (hl : (message (abi op).1 (abi op).2).length < 2 ^ 256) :
    run D env s 0#256 (message (abi op).1 (abi op).2) = reply revert (exec D env s op) := by
  rcases op with _ | op | _
  rotate_left
  · cases op <;> exact run_message mem D _ s _ _ rfl rfl (by operation) (by simp [abi, Spec.Router.erc721MetadataExample]) hl
  all_goals exact run_message mem D _ s _ _ rfl rfl (by operation) (by simp [abi, Spec.Router.erc721MetadataExample]) hl

set_option maxRecDepth 100000 in
theorem ops (D : Decoder) : Ops spec (Contracts.erc721Metadata keccak256 D) abi (exec D) where
  inv env s sg t n args s' r hm hh := by
    rows hh hm [abi, Spec.Router.erc721MetadataExample]

/-- **C103** Whatever is sent: the call is refused, or it is answered and changes nothing, or it is a call of one of the
operations (its selector, its arguments, no value) that succeeds, with exactly its effect and its reply. -/
theorem C103_erc721_metadata_no_other_effect (D : Decoder) (env : Env) (s : State) (value : U256) (input : Bytes) :
    (∃ data, run D env s value input = .reverted data) ∨
    (∃ data, run D env s value input = .returned s data) ∨
    ∃ op s' r, exec D env s op = .ok (s', r) ∧ run D env s value input = .returned s' (values r) ∧
      value = 0#256 ∧ Says D input (abi op).1 (abi op).2 :=
  no_other_effect mem (ops D) D env s value input

/-- **C103** Any list of raw transactions has the effect of a list of operations, made in the same order and in the environments
of transactions of the list. -/
theorem C103_erc721_metadata_history (D : Decoder) (s : State) (txs : List (Raw Env)) :
    ∃ l : List (Env × Call), after (run D) s txs = Metadata.run s (l.map fun x => ⟨x.1.caller, Calls.receivers721 keccak256 D x.1.world, x.2⟩) ∧
      (l.map Prod.fst).Sublist (txs.map Raw.env) := by
  obtain ⟨l, h1, h2⟩ := raw_history mem (ops D) D s txs
  refine ⟨l, ?_, h2⟩
  exact h1.trans (history_runOf (T := Tx) (exec := exec D) (exec' := Metadata.exec) (fun x => ⟨x.1.caller, Calls.receivers721 keccak256 D x.1.world, x.2⟩) (r := fun _ => []) (fun _ _ _ => rfl) s l)

/-- **C103** Conversely, any list of operations can be made by sending their messages. -/
theorem C103_erc721_metadata_sends (D : Decoder) (s : State) (l : List (Env × Call))
    (hl : ∀ x ∈ l, (message (abi x.2).1 (abi x.2).2).length < 2 ^ 256) :
    after (run D) s (sent abi l) = Metadata.run s (l.map fun x => ⟨x.1.caller, Calls.receivers721 keccak256 D x.1.world, x.2⟩) :=
  (sent_history (C103_erc721_metadata_call D) l s hl).trans
    (history_runOf (T := Tx) (exec := exec D) (exec' := Metadata.exec) (fun x => ⟨x.1.caller, Calls.receivers721 keccak256 D x.1.world, x.2⟩) (r := fun _ => []) (fun _ _ _ => rfl) s l)

set_option maxRecDepth 100000 in
/-- **C103** What the questions answer, for every sender, environment and state. -/
theorem C103_erc721_metadata_views (D : Decoder) (env : Env) (s : State) (a b : Address) (i : U256) (x : BitVec 32) :
    run D env s 0#256 (message "balanceOf(address)" [.address a]) =
      (if a = ZERO then .reverted (call "ERC721InvalidOwner(address)" [addr ZERO])
       else .returned s (values [.uint256 (s.erc721.balances a)])) ∧
    run D env s 0#256 (message "ownerOf(uint256)" [.uint256 i]) =
      (if s.erc721.owners i = ZERO then .reverted (call "ERC721NonexistentToken(uint256)" [i])
       else .returned s (values [.address (s.erc721.owners i)])) ∧
    run D env s 0#256 (message "getApproved(uint256)" [.uint256 i]) =
      (if s.erc721.owners i = ZERO then .reverted (call "ERC721NonexistentToken(uint256)" [i])
       else .returned s (values [.address (s.erc721.tokenApprovals i)])) ∧
    run D env s 0#256 (message "isApprovedForAll(address,address)" [.address a, .address b]) =
      .returned s (values [.bool (s.erc721.operatorApprovals a b)]) ∧
    run D env s 0#256 (message "name()" []) = .returned s (values [.string s.metadata.name]) ∧
    run D env s 0#256 (message "symbol()" []) = .returned s (values [.string s.metadata.symbol]) ∧
    run D env s 0#256 (message "supportsInterface(bytes4)" [.bytes4 x]) =
      .returned s (values [.bool (decide (x ∈ [0x80ac58cd#32, 0x5b5e139f#32, 0x01ffc9a7#32]))]) := by
  refine ⟨?_, ?_, ?_, ?_, ?_, ?_, ?_⟩ <;>
    refine run_message mem D _ s _ _ rfl rfl ?_ (by simp [Spec.Router.erc721MetadataExample]) (words_lt _ _ (by simp [arg]) (by simp))
  · exact balance_view s s.erc721 a
  · exact owner_view s s.erc721 i
  · exact approved_view s s.erc721 i
  · exact outcome_ok _ _
  · exact outcome_ok _ _
  · exact outcome_ok _ _
  · rw [← interface_bool (Interfaces.erc721MetadataExample keccak256 x) [0x80ac58cd#32, 0x5b5e139f#32, 0x01ffc9a7#32]
      (Props.Interfaces.C87_supports.2.2.2.2.2.2.2.2.2.2.2.2.2.2.2.2.2.2.2.2.2.1 x)]
    exact outcome_ok _ _

/-- The URI of a token: the base URI, then what was set for the token; the decimal id if nothing was set, unless there is no base URI. -/
def uriOf (base : Str) (set : Str) (id : U256) : Str := if base ≠ [] ∧ set = [] then base ++ Metadata.decimal id.toNat else base ++ set

set_option maxRecDepth 100000 in
/-- **C103** `tokenURI` on bytes: the bytes of `ERC721NonexistentToken` for a token that does not exist, otherwise the URI. -/
theorem C103_erc721_metadata_uri (D : Decoder) (env : Env) (s : State) (i : U256) :
    run D env s 0#256 (message "tokenURI(uint256)" [.uint256 i]) =
      if s.erc721.owners i = ZERO then .reverted (call "ERC721NonexistentToken(uint256)" [i])
      else .returned s (values [.string (uriOf s.metadata.baseUri (s.uriStorage.tokenUris i) i)]) := by
  refine run_message mem D _ s _ _ rfl rfl ?_ (by simp [Spec.Router.erc721MetadataExample]) (words_lt _ _ (by simp [arg]) (by simp))
  show outcome (view _ _ s (one .string (Metadata.tokenURI s i))) = _
  unfold Metadata.tokenURI UriStorage.tokenUri Erc721Metadata.tokenUri Erc721.ownerOf Erc721.requireOwned Erc721.ownerOfInternal uriOf
  by_cases h : s.erc721.owners i = ZERO
  · simp only [h, if_true]
    exact view_error s _ _ _ _ rfl rfl rfl
  · simp only [h, if_false]
    by_cases hb : s.metadata.baseUri = [] <;> by_cases hs : s.uriStorage.tokenUris i = [] <;>
      simp [hb, hs, pure, Except.pure, bind, Except.bind] <;> exact outcome_ok _ _

/-- What an execution does to the parts. -/
theorem exec_parts {D : Decoder} {env : Env} {s s' : State} {op : Call} {r : List Val} (h : exec D env s op = .ok (s', r)) :
    s'.metadata = s.metadata ∧
    ((s'.uriStorage = s.uriStorage ∧ env.caller ≠ ZERO ∧
        ((∃ k, Erc721.execUser (Calls.receivers721 keccak256 D env.world) s.erc721 env.caller k = .ok s'.erc721) ∨
          ∃ dst i, Erc721.mint s.erc721 dst i = .ok s'.erc721)) ∨
      s'.erc721 = s.erc721 ∧ ∃ i u, op = .setTokenUri i u ∧ s'.uriStorage = s.uriStorage.setTokenUri i u) := by
  have h := giving_ok h
  unfold Metadata.exec at h
  rcases op with ⟨dst, i⟩ | k | ⟨i, u⟩
  · simp only at h
    obtain ⟨t, ht, h⟩ := bind_ok h
    cases h
    unfold Erc721.exec at ht
    by_cases hc : env.caller = ZERO
    · simp [hc] at ht
    · rw [if_neg hc] at ht
      exact ⟨rfl, .inl ⟨rfl, hc, .inr ⟨dst, i, ht⟩⟩⟩
  · simp only at h
    obtain ⟨t, ht, h⟩ := bind_ok h
    cases h
    unfold Erc721.exec at ht
    by_cases hc : env.caller = ZERO
    · simp [hc] at ht
    · rw [if_neg hc] at ht
      exact ⟨rfl, .inl ⟨rfl, hc, .inl ⟨k, ht⟩⟩⟩
  · cases h
    exact ⟨rfl, .inr ⟨rfl, i, u, rfl, rfl⟩⟩

/-- **C103** Seen from outside, with bytes only: if a raw transaction, in any state, makes `tokenURI(id)` give another answer than
before, then its input is a call of `setTokenURI` for this id.  (That call is open to everybody.) -/
theorem C103_erc721_metadata_uri_changes (D : Decoder) (s : State) (tx : Raw Env) (asker : Env) (id : U256) (v w : Bytes)
    (hb : answer (run D) asker s "tokenURI(uint256)" [.uint256 id] = some v)
    (ha : answer (run D) asker (after (run D) s [tx]) "tokenURI(uint256)" [.uint256 id] = some w) (hne : w ≠ v) :
    ∃ u, Says D tx.input "setTokenURI(uint256,string)" [.uint256 id, .string u] := by
  change answer (run D) asker ((run D tx.env s tx.value tx.input).after s) _ _ = _ at ha
  rcases C103_erc721_metadata_no_other_effect D tx.env s tx.value tx.input with ⟨d, h⟩ | ⟨d, h⟩ | ⟨op, s', r, he, h, _, hsays⟩
  · rw [h] at ha; exact absurd (Option.some.inj (ha.symm.trans hb)) hne
  · rw [h] at ha; exact absurd (Option.some.inj (ha.symm.trans hb)) hne
  · rw [h] at ha
    change answer (run D) asker s' _ _ = _ at ha
    unfold answer at ha hb
    rw [C103_erc721_metadata_uri] at ha hb
    by_cases h1 : s.erc721.owners id = ZERO
    · rw [if_pos h1] at hb; cases hb
    by_cases h2 : s'.erc721.owners id = ZERO
    · rw [if_pos h2] at ha; cases ha
    rw [if_neg h1] at hb
    rw [if_neg h2] at ha
    have ha : values [.string (uriOf s'.metadata.baseUri (s'.uriStorage.tokenUris id) id)] = w := Option.some.inj ha
    have hb : values [.string (uriOf s.metadata.baseUri (s.uriStorage.tokenUris id) id)] = v := Option.some.inj hb
    obtain ⟨hm, ⟨hu, _⟩ | ⟨_, i, u, rfl, hu⟩⟩ := exec_parts he
    · rw [hm, hu] at ha; exact absurd (ha.symm.trans hb) hne
    · by_cases hi : id = i
      · subst hi; exact ⟨u, hsays⟩
      · rw [hm, hu] at ha
        have : (s.uriStorage.setTokenUri i u).tokenUris id = s.uriStorage.tokenUris id := by
          simp [UriStorage.setTokenUri, upd_ne _ _ hi]
        rw [this] at ha
        exact absurd (ha.symm.trans hb) hne

/-- **C103** Anybody can set the URI of any token: the message of `setTokenURI` is never refused, and afterwards `tokenURI`, if the
token exists, answers the base URI with the new URI. -/
theorem C103_erc721_metadata_anybody_sets_uri (D : Decoder) (env asker : Env) (s : State) (id : U256) (u : Str)
    (hl : (message "setTokenURI(uint256,string)" [.uint256 id, .string u]).length < 2 ^ 256) (he : s.erc721.owners id ≠ ZERO) :
    answer (run D) asker ((run D env s 0#256 (message "setTokenURI(uint256,string)" [.uint256 id, .string u])).after s)
      "tokenURI(uint256)" [.uint256 id] = some (values [.string (uriOf s.metadata.baseUri u id)]) := by
  have := C103_erc721_metadata_call D env s (.setTokenUri id u) hl
  change run D env s 0#256 (message "setTokenURI(uint256,string)" [.uint256 id, .string u]) = _ at this
  rw [this]
  unfold answer
  change (run D asker { s with uriStorage := s.uriStorage.setTokenUri id u } _ _).reply = _
  rw [C103_erc721_metadata_uri, if_neg he]
  show some (values [.string (uriOf _ ((s.uriStorage.setTokenUri id u).tokenUris id) id)]) = _
  simp [UriStorage.setTokenUri, upd]

/-- **C103** Seen from outside, with bytes only: if a raw transaction changes the answer to `ownerOf(id)`, then the sender was the
owner, or `getApproved(id)` had answered the sender, or `isApprovedForAll` had answered that they are the owner's operator. -/
theorem C103_erc721_metadata_no_theft (D : Decoder) (s : State) (tx : Raw Env) (asker : Env) (id : U256) (a : Address)
    (hb : answer (run D) asker s "ownerOf(uint256)" [.uint256 id] = some (values [.address a]))
    (ha : answer (run D) asker (after (run D) s [tx]) "ownerOf(uint256)" [.uint256 id] ≠ some (values [.address a])) :
    tx.env.caller = a ∨
    answer (run D) asker s "getApproved(uint256)" [.uint256 id] = some (values [.address tx.env.caller]) ∨
    answer (run D) asker s "isApprovedForAll(address,address)" [.address a, .address tx.env.caller] =
      some (values [.bool true]) := by
  change answer (run D) asker ((run D tx.env s tx.value tx.input).after s) _ _ ≠ _ at ha
  have hb0 := hb
  unfold answer at hb ⊢
  rw [(C103_erc721_metadata_views D asker s 0#160 0#160 id 0#32).2.1] at hb
  rw [(C103_erc721_metadata_views D asker s 0#160 0#160 id 0#32).2.2.1,
    (C103_erc721_metadata_views D asker s a tx.env.caller 0#256 0#32).2.2.2.1]
  by_cases h0 : s.erc721.owners id = ZERO
  · rw [if_pos h0] at hb; cases hb
  rw [if_neg h0] at hb
  rw [if_neg h0]
  have hb : s.erc721.owners id = a := address_inj (Option.some.inj hb)
  rcases C103_erc721_metadata_no_other_effect D tx.env s tx.value tx.input with ⟨d, h⟩ | ⟨d, h⟩ | ⟨op, s', r, he, h, _, _⟩
  · rw [h] at ha; exact absurd hb0 ha
  · rw [h] at ha; exact absurd hb0 ha
  · rw [h] at ha
    change answer (run D) asker s' _ _ ≠ _ at ha
    unfold answer at ha
    rw [(C103_erc721_metadata_views D asker s' 0#160 0#160 id 0#32).2.1] at ha
    have hne : s'.erc721.owners id ≠ a := by
      intro e
      rw [e, if_neg (hb ▸ h0)] at ha
      exact ha rfl
    obtain ⟨_, ⟨_, hc, h⟩ | ⟨h, _⟩⟩ := exec_parts he
    · rcases theft hc hb (hb ▸ h0) hne h with h | h | h
      · exact .inl h
      · exact .inr (.inl (by rw [h]; rfl))
      · exact .inr (.inr (by rw [h]; rfl))
    · rw [h] at hne; exact absurd hb hne

/-! ### The hypotheses are met -/

/-- Alice mints token 3 for herself and Bob sets its URI; then she gives the token to Bob. -/
def sample (w : Programs) : List (Env × Call) :=
  [(⟨alice, w⟩, .mint alice 3#256), (⟨bob, w⟩, .setTokenUri 3#256 ['x']), (⟨alice, w⟩, .user (.transferFrom alice bob 3#256))]

theorem sample_short (w : Programs) : ∀ x ∈ sample w, (message (abi x.2).1 (abi x.2).2).length < 2 ^ 256 := by
  intro x hx
  simp only [sample, List.mem_cons, List.not_mem_nil, or_false] at hx
  rcases hx with rfl | rfl | rfl
  · exact words_lt _ _ (by simp [abi, arg]) (by simp [abi])
  · exact (show (message "setTokenURI(uint256,string)" [.uint256 3#256, .string ['x']]).length < 2 ^ 256 by
      rw [message_length]; decide +kernel)
  · exact words_lt _ _ (by simp [abi, arg]) (by simp [abi])

-- C103_erc721_metadata_uri_changes, C103_erc721_metadata_no_theft: base URI b, first b3, then bx; first Alice's, then Bob's
example (D : Decoder) (w : Programs) (asker : Env) :
    let s := fun n => after (run D) (init ⟨['n'], ['s'], ['b']⟩) (sent abi ((sample w).take n))
    answer (run D) asker (s 1) "tokenURI(uint256)" [.uint256 3#256] = some (values [.string ['b', '3']]) ∧
    answer (run D) asker (s 2) "tokenURI(uint256)" [.uint256 3#256] = some (values [.string ['b', 'x']]) ∧
    answer (run D) asker (s 2) "ownerOf(uint256)" [.uint256 3#256] = some (values [.address alice]) ∧
    answer (run D) asker (s 3) "ownerOf(uint256)" [.uint256 3#256] = some (values [.address bob]) := by
  intro s
  have h : ∀ n, s n = _ := fun n =>
    C103_erc721_metadata_sends D (init ⟨['n'], ['s'], ['b']⟩) ((sample w).take n) fun x hx => sample_short w x (List.mem_of_mem_take hx)
  have o1 : (s 1).erc721.owners 3#256 = alice := by rw [h]; rfl
  have o2 : (s 2).erc721.owners 3#256 = alice := by rw [h]; rfl
  have o3 : (s 3).erc721.owners 3#256 = bob := by rw [h]; rfl
  have u1 : uriOf (s 1).metadata.baseUri ((s 1).uriStorage.tokenUris 3#256) 3#256 = ['b', '3'] := by
    rw [h]; show uriOf ['b'] [] 3#256 = _; decide +kernel
  have u2 : uriOf (s 2).metadata.baseUri ((s 2).uriStorage.tokenUris 3#256) 3#256 = ['b', 'x'] := by
    rw [h]; show uriOf ['b'] ['x'] 3#256 = _; decide +kernel
  unfold answer
  refine ⟨?_, ?_, ?_, ?_⟩
  · rw [C103_erc721_metadata_uri, if_neg (by rw [o1]; decide), u1]; rfl
  · rw [C103_erc721_metadata_uri, if_neg (by rw [o2]; decide), u2]; rfl
  · rw [(C103_erc721_metadata_views D asker _ 0#160 0#160 3#256 0#32).2.1, if_neg (by rw [o2]; decide), o2]; rfl
  · rw [(C103_erc721_metadata_views D asker _ 0#160 0#160 3#256 0#32).2.1, if_neg (by rw [o3]; decide), o3]; rfl

end Erc721MetadataContract

namespace Erc721ConsecutiveContract
open Verif.Consecutive

/-- The operations of the contract. -/
inductive Op where
  | transferFrom (src dst : Address) (id : U256)
  | safeTransferFrom (src dst : Address) (id : U256)
  | safeTransferFromWithData (src dst : Address) (id : U256) (data : Bytes)
  | approve (dst : Address) (id : U256)
  | setApprovalForAll (operator : Address) (approved : Bool)
  | mint (dst : Address) (id : U256)
  | burn (id : U256)

/-- The same as calls of the model. -/
def Op.call : Op → Call
  | .transferFrom src dst id => .transferFrom src dst id
  | .safeTransferFrom src dst id => .safeTransferFrom src dst id
  | .safeTransferFromWithData src dst id data => .safeTransferFromWithData src dst id data
  | .approve dst id => .approve dst id
  | .setApprovalForAll op b => .setApprovalForAll op b
  | .mint dst id => .mint dst id
  | .burn id => .burn id

/-- Signature and arguments of each operation. -/
def abi : Op → String × List Val
  | .transferFrom src dst id => ("transferFrom(address,address,uint256)", [.address src, .address dst, .uint256 id])
  | .safeTransferFrom src dst id =>
    ("safeTransferFrom(address,address,uint256)", [.address src, .address dst, .uint256 id])
  | .safeTransferFromWithData src dst id data =>
    ("safeTransferFrom(address,address,uint256,bytes)", [.address src, .address dst, .uint256 id, .bytes data])
  | .approve dst id => ("approve(address,uint256)", [.address dst, .uint256 id])
  | .setApprovalForAll op b => ("setApprovalForAll(address,bool)", [.address op, .bool b])
  | .mint dst id => ("mint(address,uint256)", [.address dst, .uint256 id])
  | .burn id => ("burn(uint256)", [.uint256 id])

/-- The operation of the model, for the sender and in the environment of the message. -/
def exec (D : Decoder) (env : Env) (s : State) (op : Op) : Except Err (State × List Val) :=
  giving (Consecutive.exec s ⟨env.caller, Calls.receivers721 keccak256 D env.world, op.call⟩) []

/-- `examples/erc721-consecutive` on bytes. -/
def run (D : Decoder) (env : Env) (s : State) (value : U256) (input : Bytes) : Outcome State :=
  entry keccak256 D Router.erc721ConsecutiveExample (Contracts.erc721Consecutive keccak256 D env) s value input

/-- The revert data of an error. -/
def revert (e : Err) : Bytes := ((Revert.erc721Consecutive e).data keccak256).getD []

abbrev spec : Spec.Router.Entry := ⟨Router.erc721ConsecutiveExample, Spec.Router.erc721ConsecutiveExample, [Spec.Router.erc721, Spec.Router.erc165]⟩

theorem mem : spec ∈ Spec.Router.contracts := by simp [Spec.Router.contracts]

set_option maxRecDepth 100000 in
/-- **C103** For every operation, sender, environment and state: the message of the call, as the ABI defines it, has exactly the
effect and the reply of the operation, or reverts with exactly the bytes of its error. -/
theorem C103_erc721_consecutive_call (D : Decoder) (env : Env) (s : State) (op : Op)
    (hl : (message (abi op).1 (abi op).2).length < 2 ^ 256) :
    run D env s 0#256 (message (abi op).1 (abi op).2) = reply revert (exec D env s op) := by
  cases op <;> exact run_message mem D _ s _ _ rfl rfl (by operation) (by simp [abi, Spec.Router.erc721ConsecutiveExample]) hl

set_option maxRecDepth 100000 in
theorem ops (D : Decoder) : Ops spec (Contracts.erc721Consecutive keccak256 D) abi (exec D) where
  inv env s sg t n args s' r hm hh := by
    rows hh hm [abi, Spec.Router.erc721ConsecutiveExample] operations [.burn _, .mint _ _,
      .transferFrom _ _ _, .safeTransferFrom _ _ _, .safeTransferFromWithData _ _ _ _, .approve _ _, .setApprovalForAll _ _]

/-- **C103** Whatever is sent: the call is refused, or it is answered and changes nothing, or it is a call of one of the
operations (its selector, its arguments, no value) that succeeds, with exactly its effect and its reply. -/
theorem C103_erc721_consecutive_no_other_effect (D : Decoder) (env : Env) (s : State) (value : U256) (input : Bytes) :
    (∃ data, run D env s value input = .reverted data) ∨
    (∃ data, run D env s value input = .returned s data) ∨
    ∃ op s' r, exec D env s op = .ok (s', r) ∧ run D env s value input = .returned s' (values r) ∧
      value = 0#256 ∧ Says D input (abi op).1 (abi op).2 :=
  no_other_effect mem (ops D) D env s value input

/-- **C103** Any list of raw transactions has the effect of a list of operations, made in the same order and in the environments
of transactions of the list. -/
theorem C103_erc721_consecutive_history (D : Decoder) (s : State) (txs : List (Raw Env)) :
    ∃ l : List (Env × Op), after (run D) s txs = Consecutive.run s (l.map fun x => ⟨x.1.caller, Calls.receivers721 keccak256 D x.1.world, x.2.call⟩) ∧
      (l.map Prod.fst).Sublist (txs.map Raw.env) := by
  obtain ⟨l, h1, h2⟩ := raw_history mem (ops D) D s txs
  refine ⟨l, ?_, h2⟩
  exact h1.trans (history_runOf (T := Tx) (exec := exec D) (exec' := Consecutive.exec) (fun x => ⟨x.1.caller, Calls.receivers721 keccak256 D x.1.world, x.2.call⟩) (r := fun _ => []) (fun _ _ _ => rfl) s l)

/-- **C103** Conversely, any list of operations can be made by sending their messages. -/
theorem C103_erc721_consecutive_sends (D : Decoder) (s : State) (l : List (Env × Op))
    (hl : ∀ x ∈ l, (message (abi x.2).1 (abi x.2).2).length < 2 ^ 256) :
    after (run D) s (sent abi l) = Consecutive.run s (l.map fun x => ⟨x.1.caller, Calls.receivers721 keccak256 D x.1.world, x.2.call⟩) :=
  (sent_history (C103_erc721_consecutive_call D) l s hl).trans
    (history_runOf (T := Tx) (exec := exec D) (exec' := Consecutive.exec) (fun x => ⟨x.1.caller, Calls.receivers721 keccak256 D x.1.world, x.2.call⟩) (r := fun _ => []) (fun _ _ _ => rfl) s l)

set_option maxRecDepth 100000 in
/-- **C103** What the questions answer that need not search the batches, for every sender, environment and state. -/
theorem C103_erc721_consecutive_views (D : Decoder) (env : Env) (s : State) (a b : Address) (x : BitVec 32) :
    run D env s 0#256 (message "balanceOf(address)" [.address a]) =
      (if a = ZERO then .reverted (call "ERC721InvalidOwner(address)" [addr ZERO])
       else .returned s (values [.uint256 (s.erc721.balances a)])) ∧
    run D env s 0#256 (message "isApprovedForAll(address,address)" [.address a, .address b]) =
      .returned s (values [.bool (s.erc721.operatorApprovals a b)]) ∧
    run D env s 0#256 (message "supportsInterface(bytes4)" [.bytes4 x]) =
      .returned s (values [.bool (decide (x ∈ [0x80ac58cd#32, 0x01ffc9a7#32]))]) := by
  refine ⟨?_, ?_, ?_⟩ <;>
    refine run_message mem D _ s _ _ rfl rfl ?_ (by simp [Spec.Router.erc721ConsecutiveExample]) (words_lt _ _ (by simp [arg]) (by simp))
  · show outcome (view _ _ s (one .uint256 (Consecutive.balanceOf s a))) = _
    unfold Consecutive.balanceOf Erc721.balanceOf
    by_cases h : a = ZERO
    · rw [if_pos h, if_pos h]; exact view_error s _ _ _ _ rfl rfl rfl
    · rw [if_neg h, if_neg h]; exact outcome_ok _ _
  · exact outcome_ok _ _
  · rw [← interface_bool (Interfaces.erc721ConsecutiveExample keccak256 x) [0x80ac58cd#32, 0x01ffc9a7#32]
      (Props.Interfaces.C87_supports.2.2.2.2.2.2.2.2.2.2.2.2.2.2.2.2.2.2.2.2.1 x)]
    exact outcome_ok _ _

set_option maxRecDepth 100000 in
theorem owner_views (D : Decoder) (env : Env) {s : State} (h : Inv s) (id : U256) :
    run D env s 0#256 (message "ownerOf(uint256)" [.uint256 id]) =
      (if (abs s).owners id = ZERO then .reverted (call "ERC721NonexistentToken(uint256)" [id])
       else .returned s (values [.address ((abs s).owners id)])) ∧
    run D env s 0#256 (message "getApproved(uint256)" [.uint256 id]) =
      (if (abs s).owners id = ZERO then .reverted (call "ERC721NonexistentToken(uint256)" [id])
       else .returned s (values [.address (s.erc721.tokenApprovals id)])) := by
  refine ⟨?_, ?_⟩ <;>
    refine run_message mem D _ s _ _ rfl rfl ?_ (by simp [Spec.Router.erc721ConsecutiveExample]) (words_lt _ _ (by simp [arg]) (by simp))
  · show outcome (view _ _ s (one .address (Consecutive.ownerOf s id))) = _
    unfold Consecutive.ownerOf
    rw [requireOwned_eq h.sorted]
    unfold Erc721.requireOwned Erc721.ownerOfInternal
    by_cases h : (abs s).owners id = ZERO
    · simp only [h, if_true]; exact view_error s _ _ _ _ rfl rfl rfl
    · simp only [h, if_false]; exact outcome_ok _ _
  · show outcome (view _ _ s (one .address (Consecutive.getApproved s id))) = _
    unfold Consecutive.getApproved
    rw [requireOwned_eq h.sorted]
    unfold Erc721.requireOwned Erc721.ownerOfInternal
    by_cases h : (abs s).owners id = ZERO
    · simp only [h, if_true]; exact view_error s _ _ _ _ rfl rfl rfl
    · simp only [h, if_false]; exact outcome_ok _ _

theorem after_inv (D : Decoder) {first mx : U96} {bs : List (Address × U96)} {s0 : State}
    (hroom : first.toNat + Spec.Consecutive.total bs < 2 ^ 96) (hs : deploy first mx bs = .ok s0) (txs : List (Raw Env)) :
    Inv (after (run D) s0 txs) := by
  obtain ⟨l, hl, _⟩ := C103_erc721_consecutive_history D s0 txs
  rw [hl]
  exact (sim_run _ (deploy_effect hroom hs).1).1

theorem owner_eq {s : State} (h : Inv s) (id : U256) :
    Spec.Consecutive.owner? s id = Spec.Erc721.nobody ((abs s).owners id) := by
  rw [(same_of_abs h).owner id, Erc721.owner?_eq]

/-- **C103** Seen from outside, with bytes only, after any list of raw transactions from a deployment with any batches: every token has
at most one owner, whom `ownerOf` answers, and `balanceOf` counts the tokens of the account; freshly deployed, the owners are those
of the batches, laid out one after the other from the first id. -/
theorem C103_erc721_consecutive_outside (D : Decoder) (first mx : U96) (bs : List (Address × U96)) (s0 : State)
    (hroom : first.toNat + Spec.Consecutive.total bs < 2 ^ 96) (hs : deploy first mx bs = .ok s0) (txs : List (Raw Env)) (asker : Env) :
    let s := after (run D) s0 txs
    ∃ owner : U256 → Option Address,
      (∀ id, run D asker s 0#256 (message "ownerOf(uint256)" [.uint256 id]) =
        match owner id with
        | some a => .returned s (values [.address a])
        | none => .reverted (call "ERC721NonexistentToken(uint256)" [id])) ∧
      (∀ a, a ≠ ZERO → (∃ id, owner id ≠ some a) → ∃ n : U256,
        answer (run D) asker s "balanceOf(address)" [.address a] = some (values [.uint256 n]) ∧
        n.toNat = (Finset.univ.filter fun id => owner id = some a).card) ∧
      (txs = [] → ∀ id, owner id = Spec.Consecutive.batchOwner first.toNat bs id.toNat) := by
  intro s
  have hi : Inv s := after_inv D hroom hs txs
  obtain ⟨l, hl, _⟩ := C103_erc721_consecutive_history D s0 txs
  refine ⟨Spec.Consecutive.owner? s, fun id => ?_, fun a ha hsome => ⟨s.erc721.balances a, ?_, ?_⟩, ?_⟩
  · rw [(owner_views D asker hi id).1, owner_eq hi id]
    unfold Spec.Erc721.nobody
    by_cases h : (abs s).owners id = ZERO
    · rw [if_pos h, if_pos h]
    · rw [if_neg h, if_neg h]
  · unfold answer
    rw [(C103_erc721_consecutive_views D asker s a a 0#32).1, if_neg ha]; rfl
  · have hl : s = _ := hl
    have h := Props.Consecutive.C53_balance_is_count first mx bs s0 hroom hs _ a ha (hl ▸ hsome)
    rw [← hl] at h
    unfold Spec.Consecutive.bal? Consecutive.balanceOf Erc721.balanceOf at h
    rw [if_neg ha] at h
    exact Option.some.inj h
  · rintro rfl id
    exact Props.Consecutive.C53_batches_own_their_ranges first mx bs s0 hroom hs id

/-- What an execution does, in terms of owners. -/
theorem exec_parts {D : Decoder} {env : Env} {s s' : State} (hi : Inv s) {op : Op} {r : List Val} (h : exec D env s op = .ok (s', r)) :
    Inv s' ∧ env.caller ≠ ZERO ∧
    ((∃ k, Erc721.execUser (Calls.receivers721 keccak256 D env.world) (abs s) env.caller k = .ok (abs s')) ∨
      (∃ dst i, Erc721.mint (abs s) dst i = .ok (abs s')) ∨
      ∃ i, op = .burn i ∧ Erc721.burnInternal (abs s) i = .ok (abs s')) := by
  have h := giving_ok h
  have hsim := sim_exec hi ⟨env.caller, Calls.receivers721 keccak256 D env.world, op.call⟩
  rw [h] at hsim
  cases ht : Erc721.exec (abs s) (Spec.Consecutive.plainTx ⟨env.caller, Calls.receivers721 keccak256 D env.world, op.call⟩) with
  | error e => rw [ht] at hsim; exact hsim.elim
  | ok t =>
    rw [ht] at hsim
    obtain ⟨h1, rfl⟩ := hsim
    unfold Erc721.exec at ht
    by_cases hc : env.caller = ZERO
    · simp [Spec.Consecutive.plainTx, hc] at ht
    · rw [if_neg (show ¬ (Spec.Consecutive.plainTx ⟨env.caller, Calls.receivers721 keccak256 D env.world, op.call⟩).caller = ZERO from hc)] at ht
      refine ⟨h1, hc, ?_⟩
      cases op with
      | mint dst i => exact .inr (.inl ⟨dst, i, ht⟩)
      | burn i => exact .inr (.inr ⟨i, rfl, ht⟩)
      | transferFrom src dst i => exact .inl ⟨_, ht⟩
      | safeTransferFrom src dst i => exact .inl ⟨_, ht⟩
      | safeTransferFromWithData src dst i d => exact .inl ⟨_, ht⟩
      | approve dst i => exact .inl ⟨_, ht⟩
      | setApprovalForAll p b => exact .inl ⟨_, ht⟩

/-- **C103** Seen from outside, with bytes only: if a raw transaction changes the answer to `ownerOf(id)`, then the sender was the
owner, or `getApproved(id)` had answered the sender, or `isApprovedForAll` had answered that they are the owner's operator; or the
input is a call of `burn(id)`, which this contract opens to everybody. -/
theorem C103_erc721_consecutive_who_moves (D : Decoder) (first mx : U96) (bs : List (Address × U96)) (s0 : State)
    (hroom : first.toNat + Spec.Consecutive.total bs < 2 ^ 96) (hs : deploy first mx bs = .ok s0) (txs : List (Raw Env))
    (tx : Raw Env) (asker : Env) (id : U256) (a : Address)
    (hb : answer (run D) asker (after (run D) s0 txs) "ownerOf(uint256)" [.uint256 id] = some (values [.address a]))
    (ha : answer (run D) asker (after (run D) s0 (txs ++ [tx])) "ownerOf(uint256)" [.uint256 id] ≠ some (values [.address a])) :
    tx.env.caller = a ∨
    answer (run D) asker (after (run D) s0 txs) "getApproved(uint256)" [.uint256 id] = some (values [.address tx.env.caller]) ∨
    answer (run D) asker (after (run D) s0 txs) "isApprovedForAll(address,address)" [.address a, .address tx.env.caller] =
      some (values [.bool true]) ∨
    Says D tx.input "burn(uint256)" [.uint256 id] := by
  have hi := after_inv D hroom hs txs
  rw [after_snoc] at ha
  generalize after (run D) s0 txs = s at *
  have hb0 := hb
  unfold answer at hb ⊢
  rw [(owner_views D asker hi id).1] at hb
  rw [(owner_views D asker hi id).2, (C103_erc721_consecutive_views D asker s a tx.env.caller 0#32).2.1]
  by_cases h0 : (abs s).owners id = ZERO
  · rw [if_pos h0] at hb; cases hb
  rw [if_neg h0] at hb
  rw [if_neg h0]
  have hb : (abs s).owners id = a := address_inj (Option.some.inj hb)
  rcases C103_erc721_consecutive_no_other_effect D tx.env s tx.value tx.input with ⟨d, h⟩ | ⟨d, h⟩ | ⟨op, s', r, he, h, _, hsays⟩
  · rw [h] at ha; exact absurd hb0 ha
  · rw [h] at ha; exact absurd hb0 ha
  · rw [h] at ha
    obtain ⟨hi', hc, h⟩ := exec_parts hi he
    change answer (run D) asker s' _ _ ≠ _ at ha
    unfold answer at ha
    rw [(owner_views D asker hi' id).1] at ha
    have hne : (abs s').owners id ≠ a := by
      intro e
      rw [e, if_neg (hb ▸ h0)] at ha
      exact ha rfl
    have fin := theft hc hb (hb ▸ h0) hne (R := Calls.receivers721 keccak256 D tx.env.world)
    rcases h with h | h | ⟨i, rfl, h⟩
    · rcases fin (.inl h) with h | h | h
      · exact .inl h
      · exact .inr (.inl (by rw [show s.erc721.tokenApprovals id = _ from h]; rfl))
      · exact .inr (.inr (.inl (by rw [show s.erc721.operatorApprovals a _ = _ from h]; rfl)))
    · rcases fin (.inr h) with h | h | h
      · exact .inl h
      · exact .inr (.inl (by rw [show s.erc721.tokenApprovals id = _ from h]; rfl))
      · exact .inr (.inr (.inl (by rw [show s.erc721.operatorApprovals a _ = _ from h]; rfl)))
    · by_cases e : id = i
      · subst e; exact .inr (.inr (.inr hsays))
      · obtain ⟨_, h⟩ := Erc721.burnInternal_ok.mp h
        rw [h] at hne
        exact absurd (by simp [Erc721.updated, upd_ne _ _ e, hb]) hne

/-- **C103** Anybody but the zero address can burn any token that exists: their message of `burn(id)` is not refused, and afterwards
`ownerOf(id)` reverts. -/
theorem C103_erc721_consecutive_anybody_burns (D : Decoder) (first mx : U96) (bs : List (Address × U96)) (s0 : State)
    (hroom : first.toNat + Spec.Consecutive.total bs < 2 ^ 96) (hs : deploy first mx bs = .ok s0) (txs : List (Raw Env))
    (env asker : Env) (hc : env.caller ≠ ZERO) (id : U256)
    (he : answer (run D) asker (after (run D) s0 txs) "ownerOf(uint256)" [.uint256 id] ≠ none) :
    run D asker (after (run D) s0 (txs ++ [⟨env, 0#256, message "burn(uint256)" [.uint256 id]⟩])) 0#256
      (message "ownerOf(uint256)" [.uint256 id]) = .reverted (call "ERC721NonexistentToken(uint256)" [id]) := by
  have hi := after_inv D hroom hs txs
  rw [after_snoc]
  generalize after (run D) s0 txs = s at *
  unfold answer at he
  rw [(owner_views D asker hi id).1] at he
  by_cases h0 : (abs s).owners id = ZERO
  · rw [if_pos h0] at he; exact absurd rfl he
  have hcall := C103_erc721_consecutive_call D env s (.burn id) (words_lt _ _ (by simp [arg, abi]) (by simp [abi]))
  change run D env s 0#256 (message "burn(uint256)" [.uint256 id]) = _ at hcall
  show run D asker ((run D env s 0#256 (message "burn(uint256)" [.uint256 id])).after s) _ _ = _
  rw [hcall]
  have hsim := sim_burn hi id
  have hb : Erc721.burnInternal (abs s) id = .ok (Erc721.updated (abs s) ZERO id) := Erc721.burnInternal_ok.mpr ⟨h0, rfl⟩
  rw [hb] at hsim
  cases hx : Consecutive.burn s id with
  | error e => rw [hx] at hsim; exact hsim.elim
  | ok s' =>
    rw [hx] at hsim
    obtain ⟨h1, h2⟩ := hsim
    have : exec D env s (.burn id) = .ok (s', []) := by
      unfold exec Consecutive.exec
      rw [if_neg (show ¬ env.caller = ZERO from hc)]
      show giving (Consecutive.burn s id) [] = _
      rw [hx]; rfl
    rw [this]
    show run D asker s' _ _ = _
    rw [(owner_views D asker h1 id).1, h2, if_pos]
    simp [Erc721.updated]

/-! ### The hypotheses are met -/

-- C103_erc721_consecutive_outside, _who_moves, _anybody_burns: Alice is given 0 and 1, Bob 2; Bob burns Alice's token 1
example (D : Decoder) (w : Programs) (asker : Env) :
    ∃ s0, deploy 0#96 10#96 [(alice, 2#96), (bob, 1#96)] = .ok s0 ∧
      (0#96).toNat + Spec.Consecutive.total [(alice, 2#96), (bob, 1#96)] < 2 ^ 96 ∧
      answer (run D) asker s0 "ownerOf(uint256)" [.uint256 1#256] = some (values [.address alice]) ∧
      answer (run D) asker (after (run D) s0 [⟨⟨bob, w⟩, 0#256, message "burn(uint256)" [.uint256 1#256]⟩]) "ownerOf(uint256)"
        [.uint256 1#256] = none := by
  have hroom : (0#96).toNat + Spec.Consecutive.total [(alice, 2#96), (bob, 1#96)] < 2 ^ 96 := by decide
  obtain ⟨s0, h0⟩ := (Props.Consecutive.C53_deploy_succeeds_iff 0#96 10#96 [(alice, 2#96), (bob, 1#96)] hroom).mpr (by
    intro b hb _
    simp only [List.mem_cons, List.not_mem_nil, or_false] at hb
    rcases hb with rfl | rfl <;> decide)
  have h1 : answer (run D) asker s0 "ownerOf(uint256)" [.uint256 1#256] = some (values [.address alice]) := by
    obtain ⟨owner, h1, _, h3⟩ := C103_erc721_consecutive_outside D 0#96 10#96 _ s0 hroom h0 [] asker
    have h1 := h1 1#256
    rw [h3 rfl 1#256, show Spec.Consecutive.batchOwner (0#96).toNat [(alice, 2#96), (bob, 1#96)] (1#256).toNat = some alice by decide +kernel] at h1
    unfold answer
    rw [show after (run D) s0 [] = s0 from rfl] at h1
    rw [h1]; rfl
  refine ⟨s0, h0, hroom, h1, ?_⟩
  have h2 := C103_erc721_consecutive_anybody_burns D 0#96 10#96 _ s0 hroom h0 [] ⟨bob, w⟩ asker (by show bob ≠ ZERO; decide) 1#256
    (by rw [show after (run D) s0 [] = s0 from rfl, h1]; simp)
  unfold answer
  rw [show ([] : List (Raw Env)) ++ [_] = [_] from rfl] at h2
  rw [h2]; rfl

end Erc721ConsecutiveContract

end Verif.Props.Contracts
