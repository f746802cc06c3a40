import Verif.Proofs.MultiDeployed
import Verif.Proofs.Separate
import Verif.Props.OnWords
import Verif.Props.ContractsErc1155
/-!
# C116: `examples/erc1155`, `examples/erc1155-supply` as deployed: calldata, storage words

Nothing of the other models is left in the statements but the contracts on words (`Verif.Model.MultiDeployed`), except that
`C116_*_answers` compares them with the contracts of C103.  `S` are the accounts that take part and `N` the tokens.  Of them it is asked
that the hash values of their storage cells do not coincide (`Apart`), as in C98, C104, C114 and C115.
-/
namespace Verif.Props.MultiDeployed
open Verif Verif.Storage Verif.Spec.MultiDeployed Verif.Props.OnWords
open Verif.Abi (Val Decoder Outcome)
open Verif.Spec.Keccak (keccak256)
open Verif.Spec.Contracts (Raw after message values)
open Verif.Contracts (Env)

/-- A well-formed call is about its sender and its arguments. -/
theorem within {D : Decoder} {e : Spec.Router.Entry} (he : e ∈ Spec.Router.contracts) {S : List Address} {N : List U256} {env : Env} {value : U256}
    {sg t : String} {f : Router.Fn} {args : List Val} (hs : sg ∈ e.abi.map Prod.fst)
    (hr : Props.Router.routeSig e.contract sg = some (t, f)) (ht : args.map Val.type = Abi.flat f.args)
    (hl : (message sg args).length < 2 ^ 256) (hc : env.caller ∈ S) (ha : ∀ a, Names args a → a ∈ S) (hn : ∀ id ∈ tokensOf args, id ∈ N) :
    Within keccak256 D e.contract S N ⟨env, value, message sg args⟩ :=
  ⟨hc, fun args' h => by rw [arguments_message he hs hr ht hl h]; exact ha,
    fun args' h => by rw [arguments_message he hs hr ht hl h]; exact hn⟩

theorem after_returned {σ Env : Type} {run : Env → σ → U256 → Bytes → Outcome σ} {s s' : σ} {txs : List (Raw Env)} {tx : Raw Env} {out : Bytes}
    (h : run tx.env (after run s txs) tx.value tx.input = .returned s' out) : after run s (txs ++ [tx]) = s' := by
  unfold after at h ⊢
  rw [List.foldl_append, List.foldl_cons, List.foldl_nil, h]
  rfl

/-- Nobody has code. -/
def plain : Contracts.Programs := fun _ => none

/-- The cells of three accounts and two tokens. -/
def sampleHoldings (root : List Step) : List (List Step) :=
  let A := [0#160, 1#160, 2#160]
  (([1#256, 2#256].flatMap fun id => A.map (Erc1155Words.balance root id)) ++ A.flatMap fun a => A.map (Erc1155Words.operator root a))

theorem sample_holdings {root p : List Step} (h : Holdings root [0#160, 1#160, 2#160] [1#256, 2#256] p) : p ∈ sampleHoldings root := by
  unfold sampleHoldings
  rcases h with ⟨id, hi, a, ha, rfl⟩ | ⟨a, ha, b, hb, rfl⟩
  · exact List.mem_append_left _ (List.mem_flatMap.mpr ⟨id, hi, List.mem_map_of_mem (f := Erc1155Words.balance root id) ha⟩)
  · exact List.mem_append_right _ (List.mem_flatMap.mpr ⟨a, ha, List.mem_map_of_mem (f := Erc1155Words.operator root a) hb⟩)

/-- What is hashed on the way to them, and the hash values. -/
def holdingsTable : List (Bytes × U256) :=
  [(be32 0x1#256 ++ be32 0x0#256, 0xada5013122d395ba3c54772283fb069b10426056ef8ca54750cb9bb552a59e7d#256),
   (be32 0x0#256 ++ be32 0xada5013122d395ba3c54772283fb069b10426056ef8ca54750cb9bb552a59e7d#256, 0x871b3b0713ea5d7fd1f75a811c349209996193f3a2535cdfd79d35416bf80123#256),
   (be32 0x1#256 ++ be32 0xada5013122d395ba3c54772283fb069b10426056ef8ca54750cb9bb552a59e7d#256, 0xe3be84349242383ed4b31bbb7ede08a8080ac9d5e828342f449d34bf731539e9#256),
   (be32 0x2#256 ++ be32 0xada5013122d395ba3c54772283fb069b10426056ef8ca54750cb9bb552a59e7d#256, 0xb37150ceb7e138645bfe4dfcef9a75073e1d7aa14c524dfdd20d3f751fad1084#256),
   (be32 0x2#256 ++ be32 0x0#256, 0xabbb5caa7dda850e60932de0934eb1f9d0f59695050f761dc64e443e5030a569#256),
   (be32 0x0#256 ++ be32 0xabbb5caa7dda850e60932de0934eb1f9d0f59695050f761dc64e443e5030a569#256, 0x5876eea3bc0f5fdc8a8f5162bbf9ae0de1b6932ac4f065fb87ba4934bb51e90d#256),
   (be32 0x1#256 ++ be32 0xabbb5caa7dda850e60932de0934eb1f9d0f59695050f761dc64e443e5030a569#256, 0x74f1a94432de106f4a8e9fe8ba3e1cfc1d83e37bec74dfb1723c4b3a135d723#256),
   (be32 0x2#256 ++ be32 0xabbb5caa7dda850e60932de0934eb1f9d0f59695050f761dc64e443e5030a569#256, 0x96d8f21026e23863466cad7746a0becd8e1c681e868774bcd95eb153dd75d10c#256),
   (be32 0x0#256 ++ be32 0x1#256, 0xa6eef7e35abe7026729641147f7915573c7e97b47efa546f5f6e3230263bcb49#256),
   (be32 0x0#256 ++ be32 0xa6eef7e35abe7026729641147f7915573c7e97b47efa546f5f6e3230263bcb49#256, 0xe5d06582d467054dda5404b9e1ec93f72b608a4970ba970773776c69ca5664f7#256),
   (be32 0x1#256 ++ be32 0xa6eef7e35abe7026729641147f7915573c7e97b47efa546f5f6e3230263bcb49#256, 0xccfe08badd7fbee8a36c1d2ba2b3090f679bf1a4970d307adddb9d938fc7bd72#256),
   (be32 0x2#256 ++ be32 0xa6eef7e35abe7026729641147f7915573c7e97b47efa546f5f6e3230263bcb49#256, 0xb116e49c5d725dff7d04eff8de2b6cba606adebd5c51d140fbe3ec5c272c5f73#256),
   (be32 0x1#256 ++ be32 0x1#256, 0xcc69885fda6bcc1a4ace058b4a62bf5e179ea78fd58a1ccd71c22cc9b688792f#256),
   (be32 0x0#256 ++ be32 0xcc69885fda6bcc1a4ace058b4a62bf5e179ea78fd58a1ccd71c22cc9b688792f#256, 0x9d41a60c7eb9e1f3f38bbee2eea2761087cd398a4df0eb22dbaa4eaa274957c#256),
   (be32 0x1#256 ++ be32 0xcc69885fda6bcc1a4ace058b4a62bf5e179ea78fd58a1ccd71c22cc9b688792f#256, 0xedb38a93e6e2e82dbb40826a878df1d817a37ef13fcaa25248649a90fa47497b#256),
   (be32 0x2#256 ++ be32 0xcc69885fda6bcc1a4ace058b4a62bf5e179ea78fd58a1ccd71c22cc9b688792f#256, 0x58e76cff22dd72278c8f84685a17f449f02ff85d2e9a03f82022b6f395640860#256),
   (be32 0x2#256 ++ be32 0x1#256, 0xd9d16d34ffb15ba3a3d852f0d403e2ce1d691fb54de27ac87cd2f993f3ec330f#256),
   (be32 0x0#256 ++ be32 0xd9d16d34ffb15ba3a3d852f0d403e2ce1d691fb54de27ac87cd2f993f3ec330f#256, 0xdbf00e7ae1b41a7f88200c81b3488ab68158ddd50fc472b3c3e2284a7349346d#256),
   (be32 0x1#256 ++ be32 0xd9d16d34ffb15ba3a3d852f0d403e2ce1d691fb54de27ac87cd2f993f3ec330f#256, 0xe28818af7bb947aef01108c00a0155d810d5eea20893e766795b298bc4db7819#256),
   (be32 0x2#256 ++ be32 0xd9d16d34ffb15ba3a3d852f0d403e2ce1d691fb54de27ac87cd2f993f3ec330f#256, 0x42f44160cc2e77bbab1a45023ad285dcfafdd00b6fed6e77933c71a0ddb5df3f#256)]

/-- The same for the totals of two tokens. -/
def totalsTable : List (Bytes × U256) :=
  [(be32 0x1#256 ++ be32 0x2#256, 0xe90b7bceb6e7df5418fb78d8ee546e97c83a08bbccc01a0644d599ccd2a7c2e0#256),
   (be32 0x2#256 ++ be32 0x2#256, 0x679795a0195a1b76cdebb7c51d74e058aee92919b8c3389af86ef24535e8a28c#256)]

set_option maxRecDepth 100000 in
theorem table_ok : ∀ e ∈ holdingsTable ++ totalsTable, keccak256 e.1 = e.2 := by
  rw [Proofs.KeccakFast.keccak256_eq]
  decide +kernel

end Verif.Props.MultiDeployed

namespace Verif.Props.Erc1155Deployed
open Verif Verif.Storage Verif.Erc1155Deployed Verif.Spec.Erc1155Deployed Verif.Proofs.Erc1155Deployed Verif.Spec.MultiDeployed
open Verif.Props.OnWords Verif.Props.MultiDeployed
open Verif.Abi (Val Decoder Outcome)
open Verif.Spec.Keccak (keccak256)
open Verif.Spec.OnWords (Apart)
open Verif.Spec.Contracts (Raw after message values)
open Verif.Spec.Calls (call)
open Verif.Contracts (Env)
open Verif.Props.Contracts.Erc1155Contract (abi mem)
open Verif.OnWords (State)

/-- What an account gets to know that asks a question: the bytes of the answer, `none` if it is refused. -/
abbrev ask (D : Decoder) := Spec.Contracts.answer (entry keccak256 D)

/-- The transaction is about accounts of `S` and tokens of `N`. -/
abbrev About (D : Decoder) (S : List Address) (N : List U256) (tx : Raw Env) : Prop := Within keccak256 D Router.erc1155Example S N tx

/-- **C116** Deployment succeeds. -/
theorem C116_erc1155_deploy (K : Hash) : ∃ w, deploy K = some w := deploys

/-- **C116** Bytes in, bytes out, with nothing between but words of storage: after any list of transactions, a transaction is
answered with the same bytes as by the contract with independent mappings that C103 is about, and the events are the same. -/
theorem C116_erc1155_answers {K : Hash} {n : Nat} {S : List Address} {N : List U256} (h : Apart K n erc1155Example (Cells S N)) {w : State Ev}
    (hd : deploy K = some w) (D : Decoder) (txs : List (Raw Env)) (tx : Raw Env)
    (hx : ∀ tx' ∈ txs ++ [tx], Within K D Router.erc1155Example S N tx') :
    let run env s value input := Abi.entry K D Router.erc1155Example (Contracts.erc1155 K D env) s value input
    let s := after run Erc1155Example.init txs
    let w' := after (entry K D) w txs
    Spec.Deployed.answer (entry K D tx.env w' tx.value tx.input) = Spec.Deployed.answer (run tx.env s tx.value tx.input) ∧
    w'.log.filterMap Sum.getLeft? = s.erc1155.log ∧ w'.log.filterMap Sum.getRight? = s.pausable.log := by
  intro run s w'
  have hi := inv_run h D txs (inv_deploy h hd) fun tx' h => hx tx' (List.mem_append_left _ h)
  have hs' : s = after (Proofs.Erc1155Deployed.model K D) Erc1155Example.init txs := rfl
  rw [hs']
  refine ⟨(inv_step h D hi (hx tx (List.mem_append_right _ (by simp)))).1, ?_⟩
  obtain ⟨_, c, _, hv⟩ := hi
  rw [← hv]
  exact ⟨rfl, rfl⟩

section
variable {n : Nat} {S : List Address} {N : List U256} {D : Decoder}

set_option maxRecDepth 100000 in
/-- **C116** A call of a function that changes the state is about its sender and its arguments. -/
theorem C116_erc1155_call_within {env : Env} (op : Erc1155Example.Call) (value : U256) (hl : (message (abi op).1 (abi op).2).length < 2 ^ 256)
    (hc : env.caller ∈ S) (ha : ∀ a, Names (abi op).2 a → a ∈ S) (hn : ∀ id ∈ tokensOf (abi op).2, id ∈ N) :
    About D S N ⟨env, value, message (abi op).1 (abi op).2⟩ := by
  cases op <;> exact within mem (by simp [abi, Spec.Router.erc1155Example]) rfl rfl hl hc ha hn

set_option maxRecDepth 100000 in
/-- A question is about the account that asks and its arguments. -/
theorem question_within {env : Env} {a b : Address} {id : U256} (hc : env.caller ∈ S) (ha : a ∈ S) (hb : b ∈ S) (hi : id ∈ N) :
    About D S N ⟨env, 0#256, message "balanceOf(address,uint256)" [.address a, .uint256 id]⟩ ∧
    About D S N ⟨env, 0#256, message "isApprovedForAll(address,address)" [.address a, .address b]⟩ ∧
    About D S N ⟨env, 0#256, message "paused()" []⟩ := by
  refine ⟨?_, ?_, ?_⟩
  · exact within mem (by simp [Spec.Router.erc1155Example]) rfl rfl
      (Proofs.Contracts.words_lt _ _ (by simp [Spec.Contracts.arg]) (by simp)) hc (by simp [Names, ha]) (by simp [tokensOf, hi])
  · exact within mem (by simp [Spec.Router.erc1155Example]) rfl rfl
      (Proofs.Contracts.words_lt _ _ (by simp [Spec.Contracts.arg]) (by simp)) hc (by simp [Names, ha, hb]) (by simp [tokensOf])
  · exact within mem (by simp [Spec.Router.erc1155Example]) rfl rfl
      (Proofs.Contracts.words_lt _ _ (by simp) (by simp)) hc (by simp [Names]) (by simp [tokensOf])

theorem ask_words (h : Apart keccak256 n erc1155Example (Cells S N)) {w : State Ev} (hd : deploy keccak256 = some w) {txs : List (Raw Env)}
    (hx : ∀ tx ∈ txs, About D S N tx) {asker : Env} {sg : String} {args : List Val} (hq : About D S N ⟨asker, 0#256, message sg args⟩) :
    ask D asker (after (entry keccak256 D) w txs) sg args =
      Spec.Contracts.answer (Contracts.Erc1155Contract.run D) asker
        (after (Contracts.Erc1155Contract.run D) Erc1155Example.init txs) sg args :=
  reply_of_answer (C116_erc1155_answers h hd D txs ⟨asker, 0#256, message sg args⟩ (forall_append hx hq)).1

/-- **C116** With bytes only: the deployed contract answers at first that nobody has anything, that nobody is an operator, and that it
is not paused. -/
theorem C116_erc1155_start (h : Apart keccak256 n erc1155Example (Cells S N)) {w : State Ev} (hd : deploy keccak256 = some w) {asker : Env}
    (hc : asker.caller ∈ S) {a b : Address} (ha : a ∈ S) (hb : b ∈ S) {id : U256} (hi : id ∈ N) :
    ask D asker w "balanceOf(address,uint256)" [.address a, .uint256 id] = some (values [.uint256 0#256]) ∧
    ask D asker w "isApprovedForAll(address,address)" [.address a, .address b] = some (values [.bool false]) ∧
    ask D asker w "paused()" [] = some (values [.bool false]) := by
  obtain ⟨q1, q2, q3⟩ := question_within (D := D) hc ha hb hi
  obtain ⟨v1, v2, v3⟩ := Contracts.Erc1155Contract.answers D asker Erc1155Example.init a b id
  exact ⟨(ask_words h hd (txs := []) (by simp) q1).trans v1, (ask_words h hd (txs := []) (by simp) q2).trans v2,
    (ask_words h hd (txs := []) (by simp) q3).trans v3⟩

/-- **C116** With bytes only: if the answer to `balanceOf` falls over a transaction to the deployed contract, then the sender was the
holder or `isApprovedForAll` had answered that they are the holder's operator, and `paused` had answered no. -/
theorem C116_erc1155_no_theft (h : Apart keccak256 n erc1155Example (Cells S N)) {w : State Ev} (hd : deploy keccak256 = some w)
    {txs : List (Raw Env)} {tx : Raw Env} (hx : ∀ tx' ∈ txs ++ [tx], About D S N tx') {asker : Env} (hc : asker.caller ∈ S)
    {a : Address} (ha : a ∈ S) {id : U256} (hi : id ∈ N) {v v' : U256} :
    let w1 := after (entry keccak256 D) w txs
    let w2 := after (entry keccak256 D) w (txs ++ [tx])
    ask D asker w1 "balanceOf(address,uint256)" [.address a, .uint256 id] = some (values [.uint256 v]) →
    ask D asker w2 "balanceOf(address,uint256)" [.address a, .uint256 id] = some (values [.uint256 v']) →
    v'.toNat < v.toNat →
    (tx.env.caller = a ∨
      ask D asker w1 "isApprovedForAll(address,address)" [.address a, .address tx.env.caller] = some (values [.bool true])) ∧
    ask D asker w1 "paused()" [] = some (values [.bool false]) := by
  intro w1 w2 h1 h2 hlt
  have hx1 : ∀ tx' ∈ txs, About D S N tx' := fun tx' h' => hx tx' (List.mem_append_left _ h')
  have ht : tx.env.caller ∈ S := (hx tx (List.mem_append_right _ (by simp))).sender
  obtain ⟨q1, q2, q3⟩ := question_within (D := D) hc ha ht hi
  rw [show ask D asker w1 _ _ = _ from ask_words h hd hx1 q1] at h1
  rw [show ask D asker w2 _ _ = _ from ask_words h hd hx q1, show after _ _ (txs ++ [tx]) = _ from List.foldl_append] at h2
  rw [show ask D asker w1 "isApprovedForAll(address,address)" _ = _ from ask_words h hd hx1 q2,
    show ask D asker w1 "paused()" _ = _ from ask_words h hd hx1 q3]
  exact Contracts.Erc1155Contract.C103_erc1155_no_theft D _ tx asker a id v v' h1 h2 hlt

/-- **C116** With bytes only: while `paused` answers yes, the message of every mint, burn and transfer reverts with the bytes of
`EnforcedPause()`. -/
theorem C116_erc1155_paused (h : Apart keccak256 n erc1155Example (Cells S N)) {w : State Ev} (hd : deploy keccak256 = some w)
    {txs : List (Raw Env)} (hx : ∀ tx ∈ txs, About D S N tx) {asker : Env} (hc : asker.caller ∈ S) {env : Env} (op : Erc1155Example.Call)
    (hm : op ≠ .pause ∧ op ≠ .unpause ∧ ∀ o b, op ≠ .setApprovalForAll o b) (hl : (message (abi op).1 (abi op).2).length < 2 ^ 256)
    (hop : About D S N ⟨env, 0#256, message (abi op).1 (abi op).2⟩) :
    let w' := after (entry keccak256 D) w txs
    ask D asker w' "paused()" [] = some (values [.bool true]) →
    Spec.Deployed.answer (entry keccak256 D env w' 0#256 (message (abi op).1 (abi op).2)) = .error (call "EnforcedPause()" []) := by
  intro w' hp
  have q3 : About D S N ⟨asker, 0#256, message "paused()" []⟩ :=
    within mem (by simp [Spec.Router.erc1155Example]) rfl rfl
      (Proofs.Contracts.words_lt _ _ (by simp) (by simp)) hc (by simp [Names]) (by simp [tokensOf])
  rw [show ask D asker w' "paused()" [] = _ from ask_words h hd hx q3, (Contracts.Erc1155Contract.answers D asker _ 0#160 0#160 0#256).2.2] at hp
  have hp : (after (Contracts.Erc1155Contract.run D) Erc1155Example.init txs).pausable.paused = true := by
    cases h : (after (Contracts.Erc1155Contract.run D) Erc1155Example.init txs).pausable.paused with
    | true => rfl
    | false => rw [h] at hp; injection hp with hp; exact absurd hp (by decide +kernel)
  refine (C116_erc1155_answers h hd D txs ⟨env, 0#256, _⟩ (forall_append hx hop)).1.trans ?_
  have he := Contracts.Erc1155Contract.C103_erc1155_call D env (after (Contracts.Erc1155Contract.run D) Erc1155Example.init txs) op hl
  unfold Contracts.Erc1155Contract.exec at he
  rw [Props.Erc1155Example.C85_erc1155_paused_rejects hp _ (by
    cases op <;> first | rfl | exact absurd rfl hm.1 | exact absurd rfl hm.2.1 | exact absurd rfl (hm.2.2 _ _))] at he
  exact (congrArg Spec.Deployed.answer he).trans
    (congrArg (fun b => Except.error (ε := Bytes) b) (Proofs.Contracts.error_bytes "EnforcedPause" [] _ rfl rfl))

end

/-! ### The hypotheses are met -/

/-- The cells of three accounts and two tokens. -/
def sampleCells : List (List Step) := sampleHoldings tokens ++ [PausableWords.flag gate]

theorem sample_cells {p : List Step} (h : Cells [0#160, 1#160, 2#160] [1#256, 2#256] p) : p ∈ sampleCells := by
  unfold sampleCells
  rcases h with h | rfl
  · exact List.mem_append_left _ (sample_holdings h)
  · exact List.mem_append_right _ (List.mem_singleton.mpr rfl)

/-- With Keccak the hypotheses of the theorems hold. -/
theorem sample_apart : Apart keccak256 10 erc1155Example (Cells [0#160, 1#160, 2#160] [1#256, 2#256]) :=
  ⟨by decide, Proofs.Separate.separate sampleCells (holdingsTable ++ totalsTable) (fun _ => sample_cells) table_ok
    (by decide +kernel) (by decide +kernel) (by decide +kernel)⟩

/-- Account 1 gets 5 of token 1 and makes account 2 its operator, who burns 2 and pauses the contract. -/
def sampleOps : List (Env × Erc1155Example.Call) :=
  [(⟨1#160, plain⟩, .mint 1#160 1#256 5#256 []), (⟨1#160, plain⟩, .setApprovalForAll 2#160 true),
   (⟨2#160, plain⟩, .burn 1#160 1#256 2#256), (⟨2#160, plain⟩, .pause)]

theorem sample_short : ∀ x ∈ sampleOps, (message (abi x.2).1 (abi x.2).2).length < 2 ^ 256 := by
  intro x hx
  simp only [sampleOps, List.mem_cons, List.not_mem_nil, or_false] at hx
  rcases hx with rfl | rfl | rfl | rfl
  · rw [Proofs.Contracts.message_length]; decide +kernel
  all_goals exact Proofs.Contracts.words_lt _ _ (by simp [abi, Spec.Contracts.arg]) (by simp [abi])

theorem sample_about (D : Decoder) : ∀ tx ∈ Spec.Contracts.sent abi sampleOps, About D [0#160, 1#160, 2#160] [1#256, 2#256] tx := by
  intro tx htx
  obtain ⟨x, hx, rfl⟩ := List.mem_map.mp htx
  have hs := sample_short x hx
  simp only [sampleOps, List.mem_cons, List.not_mem_nil, or_false] at hx
  rcases hx with rfl | rfl | rfl | rfl <;>
    exact C116_erc1155_call_within _ _ hs (by simp) (by simp [abi, Names]) (by simp [abi, tokensOf])

-- the words of the deployed contract answer after these messages that account 1 has 3 left and that the contract is paused
example (D : Decoder) : ∃ w, deploy keccak256 = some w ∧
    let w' := after (entry keccak256 D) w (Spec.Contracts.sent abi sampleOps)
    ask D ⟨1#160, plain⟩ w' "balanceOf(address,uint256)" [.address 1#160, .uint256 1#256] = some (values [.uint256 3#256]) ∧
    ask D ⟨1#160, plain⟩ w' "paused()" [] = some (values [.bool true]) := by
  obtain ⟨w, hd⟩ := C116_erc1155_deploy keccak256
  refine ⟨w, hd, ?_⟩
  have e := Contracts.Erc1155Contract.C103_erc1155_sends D Erc1155Example.init sampleOps sample_short
  obtain ⟨q1, _, q3⟩ := question_within (S := [0#160, 1#160, 2#160]) (N := [1#256, 2#256]) (D := D) (env := ⟨1#160, plain⟩) (a := 1#160) (b := 1#160)
    (id := 1#256) (by simp) (by simp) (by simp) (by simp)
  have m : sampleOps.map (fun x => (⟨x.1.caller, Calls.receivers1155 keccak256 D x.1.world, x.2⟩ : Erc1155Example.Tx)) =
      sampleOps.map fun x => ⟨x.1.caller, fun _ => none, x.2⟩ := rfl
  intro w'
  refine ⟨?_, ?_⟩
  · rw [show ask D _ w' _ _ = _ from ask_words sample_apart hd (sample_about D) q1, e, m]
    refine (Contracts.Erc1155Contract.answers D _ _ 1#160 0#160 1#256).1.trans ?_
    decide +kernel
  · rw [show ask D _ w' _ _ = _ from ask_words sample_apart hd (sample_about D) q3, e, m]
    refine (Contracts.Erc1155Contract.answers D _ _ 1#160 0#160 1#256).2.2.trans ?_
    decide +kernel

end Verif.Props.Erc1155Deployed

namespace Verif.Props.Erc1155SupplyDeployed
open Verif Verif.Storage Verif.Erc1155SupplyDeployed Verif.Spec.Erc1155SupplyDeployed Verif.Proofs.Erc1155SupplyDeployed Verif.Spec.MultiDeployed
open Verif.Props.OnWords Verif.Props.MultiDeployed
open Verif.Abi (Val Decoder Outcome)
open Verif.Spec.Keccak (keccak256)
open Verif.Spec.OnWords (Apart)
open Verif.Spec.Contracts (Raw after message values Says)
open Verif.Contracts (Env)
open Verif.Props.Contracts.Erc1155SupplyContract (abi mem)
open Verif.OnWords (State)
open Verif.Erc1155 (Event)

/-- What an account gets to know that asks a question: the bytes of the answer, `none` if it is refused. -/
abbrev ask (D : Decoder) := Spec.Contracts.answer (entry keccak256 D)

/-- The transaction is about accounts of `S` and tokens of `N`. -/
abbrev About (D : Decoder) (S : List Address) (N : List U256) (tx : Raw Env) : Prop := Within keccak256 D Router.erc1155SupplyExample S N tx

/-- **C116** Bytes in, bytes out, with nothing between but words of storage: after any list of transactions, a transaction is
answered with the same bytes as by the contract with independent mappings that C103 is about, and the events are the same. -/
theorem C116_erc1155_supply_answers {K : Hash} {n : Nat} {S : List Address} {N : List U256} (h : Apart K n erc1155SupplyExample (Cells S N))
    (D : Decoder) (txs : List (Raw Env)) (tx : Raw Env) (hx : ∀ tx' ∈ txs ++ [tx], Within K D Router.erc1155SupplyExample S N tx') :
    let run env s value input := Abi.entry K D Router.erc1155SupplyExample (Contracts.erc1155Supply K D env) s value input
    let s := after run Erc1155Supply.init txs
    let w' := after (entry K D) deployed txs
    Spec.Deployed.answer (entry K D tx.env w' tx.value tx.input) = Spec.Deployed.answer (run tx.env s tx.value tx.input) ∧
    w'.log = s.erc1155.log := by
  intro run s w'
  have hi := inv_run h D txs inv_deploy fun tx' h => hx tx' (List.mem_append_left _ h)
  have hs' : s = after (Proofs.Erc1155SupplyDeployed.model K D) Erc1155Supply.init txs := rfl
  rw [hs']
  refine ⟨(inv_step h D hi (hx tx (List.mem_append_right _ (by simp)))).1, ?_⟩
  obtain ⟨_, c, _, hv⟩ := hi
  rw [← hv]
  rfl

section
variable {n : Nat} {S : List Address} {N : List U256} {D : Decoder}

set_option maxRecDepth 100000 in
/-- **C116** A call of a function that changes the state is about its sender and its arguments. -/
theorem C116_erc1155_supply_call_within {env : Env} (op : Erc1155Supply.Call) (value : U256)
    (hl : (message (abi op).1 (abi op).2).length < 2 ^ 256)
    (hc : env.caller ∈ S) (ha : ∀ a, Names (abi op).2 a → a ∈ S) (hn : ∀ id ∈ tokensOf (abi op).2, id ∈ N) :
    About D S N ⟨env, value, message (abi op).1 (abi op).2⟩ := by
  cases op <;> exact within mem (by simp [abi, Spec.Router.erc1155SupplyExample]) rfl rfl hl hc ha hn

set_option maxRecDepth 100000 in
/-- A question is about the account that asks and its arguments. -/
theorem question_within {env : Env} {a b : Address} {id : U256} (hc : env.caller ∈ S) (ha : a ∈ S) (hb : b ∈ S) (hi : id ∈ N) :
    About D S N ⟨env, 0#256, message "balanceOf(address,uint256)" [.address a, .uint256 id]⟩ ∧
    About D S N ⟨env, 0#256, message "isApprovedForAll(address,address)" [.address a, .address b]⟩ ∧
    About D S N ⟨env, 0#256, message "totalSupply(uint256)" [.uint256 id]⟩ ∧
    About D S N ⟨env, 0#256, message "exists(uint256)" [.uint256 id]⟩ := by
  refine ⟨?_, ?_, ?_, ?_⟩
  · exact within mem (by simp [Spec.Router.erc1155SupplyExample]) rfl rfl
      (Proofs.Contracts.words_lt _ _ (by simp [Spec.Contracts.arg]) (by simp)) hc (by simp [Names, ha]) (by simp [tokensOf, hi])
  · exact within mem (by simp [Spec.Router.erc1155SupplyExample]) rfl rfl
      (Proofs.Contracts.words_lt _ _ (by simp [Spec.Contracts.arg]) (by simp)) hc (by simp [Names, ha, hb]) (by simp [tokensOf])
  · exact within mem (by simp [Spec.Router.erc1155SupplyExample]) rfl rfl
      (Proofs.Contracts.words_lt _ _ (by simp [Spec.Contracts.arg]) (by simp)) hc (by simp [Names]) (by simp [tokensOf, hi])
  · exact within mem (by simp [Spec.Router.erc1155SupplyExample]) rfl rfl
      (Proofs.Contracts.words_lt _ _ (by simp [Spec.Contracts.arg]) (by simp)) hc (by simp [Names]) (by simp [tokensOf, hi])

theorem ask_words (h : Apart keccak256 n erc1155SupplyExample (Cells S N)) {txs : List (Raw Env)}
    (hx : ∀ tx ∈ txs, About D S N tx) {asker : Env} {sg : String} {args : List Val} (hq : About D S N ⟨asker, 0#256, message sg args⟩) :
    ask D asker (after (entry keccak256 D) deployed txs) sg args =
      Spec.Contracts.answer (Contracts.Erc1155SupplyContract.run D) asker
        (after (Contracts.Erc1155SupplyContract.run D) Erc1155Supply.init txs) sg args :=
  reply_of_answer (C116_erc1155_supply_answers h D txs ⟨asker, 0#256, message sg args⟩ (forall_append hx hq)).1

/-- **C116** With bytes only: after any list of transactions to the deployed contract there are balances that `balanceOf` answers,
`totalSupply(id)` answers their sum over the accounts that take part, and `exists(id)` whether one of them has any. -/
theorem C116_erc1155_supply_outside (h : Apart keccak256 n erc1155SupplyExample (Cells S N)) {txs : List (Raw Env)}
    (hx : ∀ tx ∈ txs, About D S N tx) {asker : Env} (hc : asker.caller ∈ S) {id : U256} (hi : id ∈ N) :
    let w := after (entry keccak256 D) deployed txs
    ∃ (balance : Address → U256) (total : U256),
      (∀ a ∈ S, ask D asker w "balanceOf(address,uint256)" [.address a, .uint256 id] = some (values [.uint256 (balance a)])) ∧
      ask D asker w "totalSupply(uint256)" [.uint256 id] = some (values [.uint256 total]) ∧
      total.toNat = ∑ a ∈ S.toFinset, (balance a).toNat ∧
      ∃ e : Bool, ask D asker w "exists(uint256)" [.uint256 id] = some (values [.bool e]) ∧
        (e = true ↔ ∃ a ∈ S, balance a ≠ 0#256) := by
  intro w
  obtain ⟨balance, total, h1, h2, h3, e, h4, h5⟩ := Contracts.Erc1155SupplyContract.C103_erc1155_supply_outside D txs asker id
  have hg : ∀ a, a ∉ S → balance a = 0#256 := by
    intro a ha
    have hz := (inv_run h D txs inv_deploy hx).1 id a ha
    have e1 := h1 a
    rw [show Spec.Contracts.answer _ _ _ _ _ = _ from
      congrArg Outcome.reply (Contracts.Erc1155SupplyContract.C103_erc1155_supply_views D asker _ a 0#160 id 0#32).1] at e1
    exact (Proofs.Contracts.uint256_inj (Option.some.inj e1)).symm.trans hz
  obtain ⟨_, _, q3, q4⟩ := question_within (D := D) (S := S) hc hc hc hi
  refine ⟨balance, total, fun a ha => (ask_words h hx (question_within hc ha ha hi).1).trans (h1 a), (ask_words h hx q3).trans h2, ?_, e,
    (ask_words h hx q4).trans h4, h5.trans ⟨?_, fun ⟨a, _, ha⟩ => ⟨a, ha⟩⟩⟩
  · rw [h3]
    refine (Finset.sum_subset (Finset.subset_univ _) fun a _ ha => ?_).symm
    rw [hg a (fun h => ha (List.mem_toFinset.mpr h))]
    rfl
  · rintro ⟨a, ha⟩
    by_cases hs : a ∈ S
    · exact ⟨a, hs, ha⟩
    · exact absurd (hg a hs) ha

/-- **C116** With bytes only: if the answer to `balanceOf` falls over a transaction to the deployed contract, then the sender was the
holder, or `isApprovedForAll` had answered that they are the holder's operator, or the transaction was a call of `burn` or `burnBatch`
with the holder's address, which this example lets anybody make (see the next theorem). -/
theorem C116_erc1155_supply_who_lowers (h : Apart keccak256 n erc1155SupplyExample (Cells S N))
    {txs : List (Raw Env)} {tx : Raw Env} (hx : ∀ tx' ∈ txs ++ [tx], About D S N tx') {asker : Env} (hc : asker.caller ∈ S)
    {a : Address} (ha : a ∈ S) {id : U256} (hi : id ∈ N) {v v' : U256} :
    let w1 := after (entry keccak256 D) deployed txs
    let w2 := after (entry keccak256 D) deployed (txs ++ [tx])
    ask D asker w1 "balanceOf(address,uint256)" [.address a, .uint256 id] = some (values [.uint256 v]) →
    ask D asker w2 "balanceOf(address,uint256)" [.address a, .uint256 id] = some (values [.uint256 v']) →
    v'.toNat < v.toNat →
    tx.env.caller = a ∨
    ask D asker w1 "isApprovedForAll(address,address)" [.address a, .address tx.env.caller] = some (values [.bool true]) ∨
    (∃ i v, Says D tx.input "burn(address,uint256,uint256)" [.address a, .uint256 i, .uint256 v]) ∨
    (∃ ids vs, Says D tx.input "burnBatch(address,uint256[],uint256[])" [.address a, .uints ids, .uints vs]) := by
  intro w1 w2 h1 h2 hlt
  have hx1 : ∀ tx' ∈ txs, About D S N tx' := fun tx' h' => hx tx' (List.mem_append_left _ h')
  have ht : tx.env.caller ∈ S := (hx tx (List.mem_append_right _ (by simp))).sender
  obtain ⟨q1, q2, _⟩ := question_within (D := D) hc ha ht hi
  rw [show ask D asker w1 _ _ = _ from ask_words h hx1 q1] at h1
  rw [show ask D asker w2 _ _ = _ from ask_words h hx q1, show after _ _ (txs ++ [tx]) = _ from List.foldl_append] at h2
  rw [show ask D asker w1 "isApprovedForAll(address,address)" _ = _ from ask_words h hx1 q2]
  exact Contracts.Erc1155SupplyContract.C103_erc1155_supply_who_lowers D _ tx asker a id v v' h1 h2 hlt

/-- **C116** (finding) With bytes only: anybody can burn anybody's tokens.  If `balanceOf` answers `b` for an account that is not the
zero address, the message `burn(account, id, v)` with `v` up to `b` is accepted from every sender, and `balanceOf` then answers
`b - v`. -/
theorem C116_erc1155_supply_anybody_burns (h : Apart keccak256 n erc1155SupplyExample (Cells S N)) {txs : List (Raw Env)}
    (hx : ∀ tx ∈ txs, About D S N tx) {asker env : Env} (hc : asker.caller ∈ S) (he : env.caller ∈ S) {a : Address} (ha : a ∈ S) (hz : a ≠ ZERO)
    {id : U256} (hi : id ∈ N) {b v : U256} (hv : v.toNat ≤ b.toNat) :
    let burn : Raw Env := ⟨env, 0#256, message "burn(address,uint256,uint256)" [.address a, .uint256 id, .uint256 v]⟩
    let w1 := after (entry keccak256 D) deployed txs
    let w2 := after (entry keccak256 D) deployed (txs ++ [burn])
    ask D asker w1 "balanceOf(address,uint256)" [.address a, .uint256 id] = some (values [.uint256 b]) →
    Spec.Deployed.answer (entry keccak256 D burn.env w1 burn.value burn.input) = .ok [] ∧
    ask D asker w2 "balanceOf(address,uint256)" [.address a, .uint256 id] = some (values [.uint256 (b - v)]) := by
  intro burn w1 w2 hb
  have hbu : About D S N burn := C116_erc1155_supply_call_within (.burn a id v) 0#256
    (Proofs.Contracts.words_lt _ _ (by simp [abi, Spec.Contracts.arg]) (by simp [abi])) he (by simp [abi, Names, ha]) (by simp [abi, tokensOf, hi])
  have hx2 := forall_append hx hbu
  obtain ⟨q1, _⟩ := question_within (D := D) hc ha ha hi
  rw [show ask D asker w1 _ _ = _ from ask_words h hx q1, show Spec.Contracts.answer _ _ _ _ _ = _ from
    congrArg Outcome.reply (Contracts.Erc1155SupplyContract.C103_erc1155_supply_views D asker _ a 0#160 id 0#32).1] at hb
  have hb := Proofs.Contracts.uint256_inj (Option.some.inj hb)
  obtain ⟨s', h1, h2⟩ := Contracts.Erc1155SupplyContract.C103_erc1155_supply_anybody_burns D env asker
    (after (Contracts.Erc1155SupplyContract.run D) Erc1155Supply.init txs) a id v hz (by rw [hb]; exact hv)
  refine ⟨(C116_erc1155_supply_answers h D txs burn hx2).1.trans (congrArg Spec.Deployed.answer h1), ?_⟩
  rw [hb] at h2
  rw [show ask D asker w2 _ _ = _ from ask_words h hx2 q1, after_returned (tx := burn) h1]
  exact h2

end

/-! ### The hypotheses are met -/

/-- The cells of three accounts and two tokens. -/
def sampleCells : List (List Step) :=
  sampleHoldings (Erc1155SupplyWords.base root) ++ ([1#256, 2#256].map (Erc1155SupplyWords.total root) ++ [Erc1155SupplyWords.totalAll root])

theorem sample_cells {p : List Step} (h : Cells [0#160, 1#160, 2#160] [1#256, 2#256] p) : p ∈ sampleCells := by
  unfold sampleCells
  rcases h with h | ⟨id, hi, rfl⟩ | rfl
  · exact List.mem_append_left _ (sample_holdings h)
  · exact List.mem_append_right _ (List.mem_append_left _ (List.mem_map_of_mem (f := Erc1155SupplyWords.total root) hi))
  · exact List.mem_append_right _ (List.mem_append_right _ (List.mem_singleton.mpr rfl))

/-- With Keccak the hypotheses of the theorems hold. -/
theorem sample_apart : Apart keccak256 10 erc1155SupplyExample (Cells [0#160, 1#160, 2#160] [1#256, 2#256]) :=
  ⟨by decide, Proofs.Separate.separate sampleCells (holdingsTable ++ totalsTable) (fun _ => sample_cells) table_ok
    (by decide +kernel) (by decide +kernel) (by decide +kernel)⟩

/-- Account 1 gets 5 of token 1, and account 2, who is nobody to it, burns 2 of them. -/
def sampleOps : List (Env × Erc1155Supply.Call) :=
  [(⟨1#160, plain⟩, .mint 1#160 1#256 5#256 []), (⟨2#160, plain⟩, .burn 1#160 1#256 2#256)]

theorem sample_short : ∀ x ∈ sampleOps, (message (abi x.2).1 (abi x.2).2).length < 2 ^ 256 := by
  intro x hx
  simp only [sampleOps, List.mem_cons, List.not_mem_nil, or_false] at hx
  rcases hx with rfl | rfl
  · rw [Proofs.Contracts.message_length]; decide +kernel
  · exact Proofs.Contracts.words_lt _ _ (by simp [abi, Spec.Contracts.arg]) (by simp [abi])

theorem sample_about (D : Decoder) : ∀ tx ∈ Spec.Contracts.sent abi sampleOps, About D [0#160, 1#160, 2#160] [1#256, 2#256] tx := by
  intro tx htx
  obtain ⟨x, hx, rfl⟩ := List.mem_map.mp htx
  have hs := sample_short x hx
  simp only [sampleOps, List.mem_cons, List.not_mem_nil, or_false] at hx
  rcases hx with rfl | rfl <;>
    exact C116_erc1155_supply_call_within _ _ hs (by simp) (by simp [abi, Names]) (by simp [abi, tokensOf])

-- the words of the deployed contract answer after these messages that account 1 has 3 left, and so many there are
example (D : Decoder) :
    let w := after (entry keccak256 D) deployed (Spec.Contracts.sent abi sampleOps)
    ask D ⟨1#160, plain⟩ w "balanceOf(address,uint256)" [.address 1#160, .uint256 1#256] = some (values [.uint256 3#256]) ∧
    ask D ⟨1#160, plain⟩ w "totalSupply(uint256)" [.uint256 1#256] = some (values [.uint256 3#256]) := by
  have e := Contracts.Erc1155SupplyContract.C103_erc1155_supply_sends D Erc1155Supply.init sampleOps sample_short
  obtain ⟨q1, _, q3, _⟩ := question_within (S := [0#160, 1#160, 2#160]) (N := [1#256, 2#256]) (D := D) (env := ⟨1#160, plain⟩) (a := 1#160)
    (b := 1#160) (id := 1#256) (by simp) (by simp) (by simp) (by simp)
  have m : sampleOps.map (fun x => (⟨x.1.caller, Calls.receivers1155 keccak256 D x.1.world, x.2⟩ : Erc1155Supply.Tx)) =
      sampleOps.map fun x => ⟨x.1.caller, fun _ => none, x.2⟩ := rfl
  intro w
  have v := fun s => Contracts.Erc1155SupplyContract.C103_erc1155_supply_views D ⟨1#160, plain⟩ s 1#160 0#160 1#256 0#32
  refine ⟨?_, ?_⟩
  · rw [show ask D _ w _ _ = _ from ask_words sample_apart (sample_about D) q1, e, m]
    refine (congrArg Outcome.reply (v _).1).trans ?_
    decide +kernel
  · rw [show ask D _ w _ _ = _ from ask_words sample_apart (sample_about D) q3, e, m]
    refine (congrArg Outcome.reply (v _).2.2.1).trans ?_
    decide +kernel

end Verif.Props.Erc1155SupplyDeployed
