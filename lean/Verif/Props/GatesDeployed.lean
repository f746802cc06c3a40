import Verif.Proofs.GatesDeployed
import Verif.Props.OnWords
import Verif.Proofs.Separate
import Verif.Props.ContractsErc20
/-!
# C115: `examples/ownable`, `examples/ownable-two-step`, `examples/access-control` as deployed: constructor, calldata, storage words

Nothing of the other models is left in the statements but the contracts on words (`Verif.Model.GatesDeployed`), except that
`C115_*_answers` compares them with the contracts of C103.  `S` are the accounts that take part and `N` the roles.  Of them it is asked
that the hash values of their storage cells do not coincide (`Apart`, `Setting`), as in C98, C104 and C114.
-/
namespace Verif.Props.OnWords
open Verif Verif.Storage Verif.Spec.OnWords
open Verif.Abi (Val Decoder Outcome)
open Verif.Spec.Keccak (keccak256)
open Verif.Spec.Contracts (Raw after message values)

/-- A well-formed call is about its sender and its arguments. -/
theorem within {D : Decoder} {e : Spec.Router.Entry} (he : e ∈ Spec.Router.contracts) {S : List Address} {env : Address} {value : U256}
    {sg t : String} {f : Router.Fn} {args : List Val} (hs : sg ∈ e.abi.map Prod.fst)
    (hr : Props.Router.routeSig e.contract sg = some (t, f)) (ht : args.map Val.type = Abi.flat f.args)
    (hl : (message sg args).length < 2 ^ 256) (hc : env ∈ S) (ha : ∀ a, Val.address a ∈ args → a ∈ S) :
    Within keccak256 D e.contract S ⟨env, value, message sg args⟩ :=
  ⟨hc, fun args' h => by rw [arguments_message he hs hr ht hl h]; exact ha⟩

theorem roles {D : Decoder} {e : Spec.Router.Entry} (he : e ∈ Spec.Router.contracts) {N : List U256} {env : Address} {value : U256}
    {sg t : String} {f : Router.Fn} {args : List Val} (hs : sg ∈ e.abi.map Prod.fst)
    (hr : Props.Router.routeSig e.contract sg = some (t, f)) (ht : args.map Val.type = Abi.flat f.args)
    (hl : (message sg args).length < 2 ^ 256) (ha : ∀ r, Val.bytes32 r ∈ args → r ∈ N) :
    Roles keccak256 D e.contract N ⟨env, value, message sg args⟩ :=
  fun args' h => by rw [arguments_message he hs hr ht hl h]; exact ha

/-- The token cells of three accounts. -/
def tokenCells : List (List Step) :=
  let A := [0#160, 1#160, 2#160]
  [Erc20Words.supply OnWords.token] ++ (A.map (Erc20Words.balance OnWords.token) ++
    A.flatMap fun a => A.map (Erc20Words.allowance OnWords.token a))

theorem token_cells {p : List Step} (h : Spec.StoragePrograms.Accounts OnWords.token [0#160, 1#160, 2#160] p) : p ∈ tokenCells := by
  unfold tokenCells
  rcases h with rfl | ⟨a, ha, rfl⟩ | ⟨a, ha, b, hb, rfl⟩
  · exact List.mem_append_left _ (by simp)
  · exact List.mem_append_right _ (List.mem_append_left _ (List.mem_map_of_mem ha))
  · exact List.mem_append_right _ (List.mem_append_right _ (List.mem_flatMap.mpr ⟨a, ha, List.mem_map_of_mem hb⟩))

/-- What is hashed on the way to them, and the hash values. -/
def tokenTable : List (Bytes × U256) :=
  [(be32 0x0#256 ++ be32 0x0#256, 0xad3228b676f7d3cd4284a5443f17f1962b36e491b30a40b2405849e597ba5fb5#256),
   (be32 0x1#256 ++ be32 0x0#256, 0xada5013122d395ba3c54772283fb069b10426056ef8ca54750cb9bb552a59e7d#256),
   (be32 0x2#256 ++ be32 0x0#256, 0xabbb5caa7dda850e60932de0934eb1f9d0f59695050f761dc64e443e5030a569#256),
   (be32 0x0#256 ++ be32 0x1#256, 0xa6eef7e35abe7026729641147f7915573c7e97b47efa546f5f6e3230263bcb49#256),
   (be32 0x0#256 ++ be32 0xa6eef7e35abe7026729641147f7915573c7e97b47efa546f5f6e3230263bcb49#256, 0xe5d06582d467054dda5404b9e1ec93f72b608a4970ba970773776c69ca5664f7#256),
   (be32 0x1#256 ++ be32 0xa6eef7e35abe7026729641147f7915573c7e97b47efa546f5f6e3230263bcb49#256, 0xccfe08badd7fbee8a36c1d2ba2b3090f679bf1a4970d307adddb9d938fc7bd72#256),
   (be32 0x2#256 ++ be32 0xa6eef7e35abe7026729641147f7915573c7e97b47efa546f5f6e3230263bcb49#256, 0xb116e49c5d725dff7d04eff8de2b6cba606adebd5c51d140fbe3ec5c272c5f73#256),
   (be32 0x1#256 ++ be32 0x1#256, 0xcc69885fda6bcc1a4ace058b4a62bf5e179ea78fd58a1ccd71c22cc9b688792f#256),
   (be32 0x0#256 ++ be32 0xcc69885fda6bcc1a4ace058b4a62bf5e179ea78fd58a1ccd71c22cc9b688792f#256, 0x9d41a60c7eb9e1f3f38bbee2eea2761087cd398a4df0eb22dbaa4eaa274957c#256),
   (be32 0x1#256 ++ be32 0xcc69885fda6bcc1a4ace058b4a62bf5e179ea78fd58a1ccd71c22cc9b688792f#256, 0xedb38a93e6e2e82dbb40826a878df1d817a37ef13fcaa25248649a90fa47497b#256),
   (be32 0x2#256 ++ be32 0xcc69885fda6bcc1a4ace058b4a62bf5e179ea78fd58a1ccd71c22cc9b688792f#256, 0x58e76cff22dd72278c8f84685a17f449f02ff85d2e9a03f82022b6f395640860#256),
   (be32 0x2#256 ++ be32 0x1#256, 0xd9d16d34ffb15ba3a3d852f0d403e2ce1d691fb54de27ac87cd2f993f3ec330f#256),
   (be32 0x0#256 ++ be32 0xd9d16d34ffb15ba3a3d852f0d403e2ce1d691fb54de27ac87cd2f993f3ec330f#256, 0xdbf00e7ae1b41a7f88200c81b3488ab68158ddd50fc472b3c3e2284a7349346d#256),
   (be32 0x1#256 ++ be32 0xd9d16d34ffb15ba3a3d852f0d403e2ce1d691fb54de27ac87cd2f993f3ec330f#256, 0xe28818af7bb947aef01108c00a0155d810d5eea20893e766795b298bc4db7819#256),
   (be32 0x2#256 ++ be32 0xd9d16d34ffb15ba3a3d852f0d403e2ce1d691fb54de27ac87cd2f993f3ec330f#256, 0x42f44160cc2e77bbab1a45023ad285dcfafdd00b6fed6e77933c71a0ddb5df3f#256)]

/-- The same for the cells of two roles. -/
def roleTable : List (Bytes × U256) :=
  [(be32 0x0#256 ++ be32 0x3#256, 0x3617319a054d772f909f7c479a2cebe5066e836a939412e32403c99029b92eff#256),
   (be32 0x0#256 ++ be32 0x3617319a054d772f909f7c479a2cebe5066e836a939412e32403c99029b92eff#256, 0x84fa35e963a209ed7b6693816f0819bcb70c934337c6902235d48a9c59ebe6eb#256),
   (be32 0x1#256 ++ be32 0x3617319a054d772f909f7c479a2cebe5066e836a939412e32403c99029b92eff#256, 0xf5d2b9d7b7dcf31fafb527f48cb641b3e286ba85117ea973378ae75f2b0f27c9#256),
   (be32 0x2#256 ++ be32 0x3617319a054d772f909f7c479a2cebe5066e836a939412e32403c99029b92eff#256, 0xcd92e5b4e6598c1949a71e034c2db052fecdb0cbb23287b5cc133a4ab147474#256),
   (be32 0x8502233096d909befbda0999bb8ea2f3a6be3c138b9fbf003752a4c8bce86f6c#256 ++ be32 0x3#256, 0xd42b1f43d615c6e11d7128c3dc0271972190d90aa8fbf570ea51e7ace340fbbb#256),
   (be32 0x0#256 ++ be32 0xd42b1f43d615c6e11d7128c3dc0271972190d90aa8fbf570ea51e7ace340fbbb#256, 0x5461f2db46b02198991f4334fcaa1fa1f53236d070e63ee70232430233a2ff6b#256),
   (be32 0x1#256 ++ be32 0xd42b1f43d615c6e11d7128c3dc0271972190d90aa8fbf570ea51e7ace340fbbb#256, 0x63ff135589004c3f4e281a0cac6aaae8269f0d5752afef69f16aea5a032a4e73#256),
   (be32 0x2#256 ++ be32 0xd42b1f43d615c6e11d7128c3dc0271972190d90aa8fbf570ea51e7ace340fbbb#256, 0x30872ade227cd1cb235a4e728ea791212671ff2819ee2a36dc9bbb5601a857e3#256)]

set_option maxRecDepth 100000 in
theorem table_ok : ∀ e ∈ tokenTable ++ roleTable, keccak256 e.1 = e.2 := by
  rw [Proofs.KeccakFast.keccak256_eq]
  decide +kernel

end Verif.Props.OnWords

namespace Verif.Props.OwnableDeployed
open Verif Verif.Storage Verif.OwnableDeployed Verif.Spec.OwnableDeployed Verif.Proofs.OwnableDeployed Verif.Spec.OnWords Verif.Props.OnWords
open Verif.Abi (Val Decoder Outcome)
open Verif.Spec.Keccak (keccak256)
open Verif.Spec.Contracts (Raw after message values Says)
open Verif.Spec.Calls (call)
open Verif.Spec.Revert (addr)
open Verif.Props.Contracts.OwnableContract (abi mem)
open Verif.OnWords (State)
open Verif.OwnableDeployed (Ev)

/-- What an account gets to know that asks a question: the bytes of the answer, `none` if it is refused. -/
abbrev ask (D : Decoder) := Spec.Contracts.answer (entry keccak256 D)

/-- The transaction is about accounts of `S`. -/
abbrev About (D : Decoder) (S : List Address) (tx : Raw Address) : Prop := Within keccak256 D Router.ownableExample S tx

/-- **C115** Deployment is refused for the zero address as owner, and for no other. -/
theorem C115_ownable_deploy (K : Hash) (owner : Address) : deploy K owner = none ↔ owner = ZERO := deploys owner

/-- **C115** Bytes in, bytes out, with nothing between but words of storage: after any list of transactions, a transaction is
answered with the same bytes as by the contract with independent mappings that C103 is about, and the events are the same. -/
theorem C115_ownable_answers {K : Hash} {n : Nat} {S : List Address} (h : Apart K n ownableExample (Cells S)) {owner : Address} {w : State Ev}
    (hd : deploy K owner = some w) (D : Decoder) (txs : List (Raw Address)) (tx : Raw Address)
    (hx : ∀ tx' ∈ txs ++ [tx], Within K D Router.ownableExample S tx') :
    let run caller s value input := Abi.entry K D Router.ownableExample (Contracts.ownable K caller) s value input
    let s := after run ⟨Erc20.init, ⟨owner, []⟩⟩ txs
    let w' := after (entry K D) w txs
    Spec.Deployed.answer (entry K D tx.env w' tx.value tx.input) = Spec.Deployed.answer (run tx.env s tx.value tx.input) ∧
    w'.log.filterMap Sum.getLeft? = s.erc20.log ∧ w'.log.filterMap Sum.getRight? = s.ownable.log := by
  intro run s w'
  have hi := inv_run h D txs (inv_deploy h hd) fun tx' h => hx tx' (List.mem_append_left _ h)
  refine ⟨(inv_step h D hi (hx tx (List.mem_append_right _ (by simp)))).1, ?_⟩
  obtain ⟨_, c, _, hv⟩ := hi
  rw [show s = _ from hv.symm]
  exact ⟨rfl, rfl⟩

section
variable {n : Nat} {S : List Address} {D : Decoder}

set_option maxRecDepth 100000 in
/-- **C115** A call of a function that changes the state is about its sender and its arguments. -/
theorem C115_ownable_call_within {env : Address} (op : OwnableExample.Call) (value : U256)
    (hc : env ∈ S) (ha : ∀ a, Val.address a ∈ (abi op).2 → a ∈ S) : About D S ⟨env, value, message (abi op).1 (abi op).2⟩ := by
  rcases op with _ | _ | _ | op
  rotate_right
  · cases op <;> exact within mem (by simp [abi, Spec.Router.ownableExample]) rfl rfl
      (Proofs.Contracts.words_lt _ _ (by simp [abi, Spec.Contracts.arg]) (by simp [abi])) hc ha
  all_goals
    exact within mem (by simp [abi, Spec.Router.ownableExample]) rfl rfl
      (Proofs.Contracts.words_lt _ _ (by simp [abi, Spec.Contracts.arg]) (by simp [abi])) hc ha

set_option maxRecDepth 100000 in
/-- A question is about the account that asks. -/
theorem question_within {env : Address} (hc : env ∈ S) : About D S ⟨env, 0#256, message "owner()" []⟩ := by
  exact within mem (by simp [Spec.Router.ownableExample]) rfl rfl
    (Proofs.Contracts.words_lt _ _ (by simp [Spec.Contracts.arg]) (by simp)) hc (by simp)

theorem ask_words (h : Apart keccak256 n ownableExample (Cells S)) {owner : Address} {w : State Ev} (hd : deploy keccak256 owner = some w)
    {txs : List (Raw Address)} (hx : ∀ tx ∈ txs, About D S tx) {asker : Address} {sg : String} {args : List Val}
    (hq : About D S ⟨asker, 0#256, message sg args⟩) :
    ask D asker (after (entry keccak256 D) w txs) sg args =
      Spec.Contracts.answer (Contracts.OwnableContract.run D) asker
        (after (Contracts.OwnableContract.run D) ⟨Erc20.init, ⟨owner, []⟩⟩ txs) sg args :=
  reply_of_answer (C115_ownable_answers h hd D txs ⟨asker, 0#256, message sg args⟩ (forall_append hx hq)).1

/-- **C115** With bytes only: the deployed contract answers at first that its owner is the one it was deployed for. -/
theorem C115_ownable_start (h : Apart keccak256 n ownableExample (Cells S)) {owner : Address} {w : State Ev}
    (hd : deploy keccak256 owner = some w) {asker : Address} (hc : asker ∈ S) :
    ask D asker w "owner()" [] = some (values [.address owner]) := by
  refine (ask_words h hd (txs := []) (by simp) (question_within hc)).trans ?_
  exact congrArg Outcome.reply (Contracts.OwnableContract.C103_ownable_views D asker _ 0#160 0#160).2.2.2

/-- **C115** With bytes only: if a transaction to the deployed contract changes the answer to `owner`, then the sender had been the
owner; they sent `transferOwnership` and the new owner is its argument, or they sent `renounceOwnership` and there is none. -/
theorem C115_ownable_owner_changes (h : Apart keccak256 n ownableExample (Cells S)) {owner : Address} {w : State Ev}
    (hd : deploy keccak256 owner = some w) {txs : List (Raw Address)} {tx : Raw Address} (hx : ∀ tx' ∈ txs ++ [tx], About D S tx')
    {asker : Address} (hc : asker ∈ S) {new : Address} :
    let w1 := after (entry keccak256 D) w txs
    let w2 := after (entry keccak256 D) w (txs ++ [tx])
    ask D asker w2 "owner()" [] = some (values [.address new]) → ask D asker w1 "owner()" [] ≠ some (values [.address new]) →
    ask D asker w1 "owner()" [] = some (values [.address tx.env]) ∧
    ((new ≠ ZERO ∧ Says D tx.input "transferOwnership(address)" [.address new]) ∨
     (new = ZERO ∧ Says D tx.input "renounceOwnership()" [])) := by
  intro w1 w2 ha hb
  have h1 : ∀ tx' ∈ txs, About D S tx' := fun tx' h' => hx tx' (List.mem_append_left _ h')
  have q := question_within (D := D) hc
  have e1 : ask D asker w1 "owner()" [] = _ := ask_words h hd h1 q
  rw [show ask D asker w2 "owner()" [] = _ from ask_words h hd hx q] at ha
  rw [e1] at hb
  rw [e1]
  rw [show after _ _ (txs ++ [tx]) = _ from List.foldl_append] at ha
  exact Contracts.OwnableContract.C103_ownable_owner_changes D _ tx asker new ha hb

/-- **C115** With bytes only: while `owner` does not answer the sender, the message `transfer` to the deployed contract reverts with
the bytes of `OwnableUnauthorizedAccount(sender)`. -/
theorem C115_ownable_gate (h : Apart keccak256 n ownableExample (Cells S)) {owner : Address} {w : State Ev}
    (hd : deploy keccak256 owner = some w) {txs : List (Raw Address)} (hx : ∀ tx ∈ txs, About D S tx) {asker caller dst : Address}
    (hc : asker ∈ S) (hs : caller ∈ S) (ht : dst ∈ S) (v : U256) :
    let w' := after (entry keccak256 D) w txs
    ask D asker w' "owner()" [] ≠ some (values [.address caller]) →
    Spec.Deployed.answer (entry keccak256 D caller w' 0#256 (message "transfer(address,uint256)" [.address dst, .uint256 v])) =
      .error (call "OwnableUnauthorizedAccount(address)" [addr caller]) := by
  intro w' hb
  rw [show ask D asker w' "owner()" [] = _ from ask_words h hd hx (question_within hc)] at hb
  refine (C115_ownable_answers h hd D txs ⟨caller, 0#256, _⟩ (forall_append hx
    (C115_ownable_call_within (.transfer dst v) 0#256 hs (by simp [abi, ht])))).1.trans ?_
  exact congrArg Spec.Deployed.answer (Contracts.OwnableContract.C103_ownable_gate D _ caller asker dst v hb)

end

/-! ### The hypotheses are met -/

theorem sample_cells {p : List Step} (h : Cells [0#160, 1#160, 2#160] p) :
    p ∈ tokenCells ++ [[.field "ownable", .field "owner"]] := by
  rcases h with h | rfl
  · exact List.mem_append_left _ (token_cells h)
  · exact List.mem_append_right _ (by simp)

/-- With Keccak the hypotheses of the theorems hold. -/
theorem sample_setting : Apart keccak256 10 ownableExample (Cells [0#160, 1#160, 2#160]) :=
  ⟨by decide, Proofs.Separate.separate _ tokenTable (fun _ => sample_cells)
    (fun e he => table_ok e (List.mem_append_left _ he)) (by decide +kernel) (by decide +kernel) (by decide +kernel)⟩

/-- Account 2 tries to become the owner and fails; account 1, the owner, hands over to account 2. -/
def sampleOps : List (Address × OwnableExample.Call) :=
  [(2#160, .ownable (.transferOwnership 2#160)), (1#160, .ownable (.transferOwnership 2#160))]

theorem sample_about (D : Decoder) : ∀ tx ∈ Spec.Contracts.sent abi sampleOps, About D [0#160, 1#160, 2#160] tx := by
  intro tx htx
  obtain ⟨x, hx, rfl⟩ := List.mem_map.mp htx
  simp only [sampleOps, List.mem_cons, List.not_mem_nil, or_false] at hx
  rcases hx with rfl | rfl <;> exact C115_ownable_call_within _ _ (by simp) (by simp [abi])

-- the words of the deployed contract answer after these messages that account 2 is the owner
example (D : Decoder) : ∃ w, deploy keccak256 1#160 = some w ∧
    ask D 1#160 w "owner()" [] = some (values [.address 1#160]) ∧
    ask D 1#160 (after (entry keccak256 D) w (Spec.Contracts.sent abi sampleOps)) "owner()" [] = some (values [.address 2#160]) := by
  obtain ⟨w, hd⟩ : ∃ w, deploy keccak256 1#160 = some w :=
    Option.ne_none_iff_exists'.mp fun h => absurd ((C115_ownable_deploy _ _).mp h) (by decide)
  refine ⟨w, hd, C115_ownable_start sample_setting hd (by simp), ?_⟩
  rw [ask_words sample_setting hd (sample_about D) (question_within (by simp)),
    Contracts.OwnableContract.C103_ownable_sends D _ sampleOps (by
      intro x hx
      simp only [sampleOps, List.mem_cons, List.not_mem_nil, or_false] at hx
      rcases hx with rfl | rfl <;> exact Proofs.Contracts.words_lt _ _ (by simp [abi, Spec.Contracts.arg]) (by simp [abi]))]
  refine (congrArg Outcome.reply (Contracts.OwnableContract.C103_ownable_views D 1#160 _ 0#160 0#160).2.2.2).trans ?_
  decide +kernel

end Verif.Props.OwnableDeployed

namespace Verif.Props.Ownable2StepDeployed
open Verif Verif.Storage Verif.Ownable2StepDeployed Verif.Spec.Ownable2StepDeployed Verif.Proofs.Ownable2StepDeployed Verif.Spec.OnWords Verif.Props.OnWords
open Verif.Abi (Val Decoder Outcome)
open Verif.Spec.Keccak (keccak256)
open Verif.Spec.Contracts (Raw after message values Says)
open Verif.Spec.Calls (call)
open Verif.Spec.Revert (addr)
open Verif.Props.Contracts.Ownable2StepContract (abi mem)
open Verif.OnWords (State)
open Verif.OwnableDeployed (Ev)

/-- What an account gets to know that asks a question: the bytes of the answer, `none` if it is refused. -/
abbrev ask (D : Decoder) := Spec.Contracts.answer (entry keccak256 D)

/-- The transaction is about accounts of `S`. -/
abbrev About (D : Decoder) (S : List Address) (tx : Raw Address) : Prop := Within keccak256 D Router.ownableTwoStepExample S tx

/-- **C115** Deployment is refused for the zero address as owner, and for no other. -/
theorem C115_ownable_two_step_deploy (K : Hash) (owner : Address) : deploy K owner = none ↔ owner = ZERO := deploys owner

/-- **C115** Bytes in, bytes out, with nothing between but words of storage: after any list of transactions, a transaction is
answered with the same bytes as by the contract with independent mappings that C103 is about, and the events are the same. -/
theorem C115_ownable_two_step_answers {K : Hash} {n : Nat} {S : List Address} (h : Apart K n ownableTwoStepExample (Cells S)) {owner : Address} {w : State Ev}
    (hd : deploy K owner = some w) (D : Decoder) (txs : List (Raw Address)) (tx : Raw Address)
    (hx : ∀ tx' ∈ txs ++ [tx], Within K D Router.ownableTwoStepExample S tx') :
    let run caller s value input := Abi.entry K D Router.ownableTwoStepExample (Contracts.ownable2Step K caller) s value input
    let s := after run ⟨Erc20.init, Ownable2Step.init owner⟩ txs
    let w' := after (entry K D) w txs
    Spec.Deployed.answer (entry K D tx.env w' tx.value tx.input) = Spec.Deployed.answer (run tx.env s tx.value tx.input) ∧
    w'.log.filterMap Sum.getLeft? = s.erc20.log ∧ w'.log.filterMap Sum.getRight? = s.ownable.ownable.log := by
  intro run s w'
  have hi := inv_run h D txs (inv_deploy h hd) fun tx' h => hx tx' (List.mem_append_left _ h)
  refine ⟨(inv_step h D hi (hx tx (List.mem_append_right _ (by simp)))).1, ?_⟩
  obtain ⟨_, c, _, hv⟩ := hi
  rw [show s = _ from hv.symm]
  exact ⟨rfl, rfl⟩

section
variable {n : Nat} {S : List Address} {D : Decoder}

set_option maxRecDepth 100000 in
/-- **C115** A call of a function that changes the state is about its sender and its arguments. -/
theorem C115_ownable_two_step_call_within {env : Address} (op : Ownable2StepExample.Call) (value : U256)
    (hc : env ∈ S) (ha : ∀ a, Val.address a ∈ (abi op).2 → a ∈ S) : About D S ⟨env, value, message (abi op).1 (abi op).2⟩ := by
  rcases op with _ | _ | _ | op
  rotate_right
  · cases op <;> exact within mem (by simp [abi, Spec.Router.ownableTwoStepExample]) rfl rfl
      (Proofs.Contracts.words_lt _ _ (by simp [abi, Spec.Contracts.arg]) (by simp [abi])) hc ha
  all_goals
    exact within mem (by simp [abi, Spec.Router.ownableTwoStepExample]) rfl rfl
      (Proofs.Contracts.words_lt _ _ (by simp [abi, Spec.Contracts.arg]) (by simp [abi])) hc ha

set_option maxRecDepth 100000 in
/-- A question is about the account that asks. -/
theorem question_within {env : Address} (hc : env ∈ S) : About D S ⟨env, 0#256, message "owner()" []⟩ ∧
    About D S ⟨env, 0#256, message "pendingOwner()" []⟩ := by
  refine ⟨?_, ?_⟩ <;> exact within mem (by simp [Spec.Router.ownableTwoStepExample]) rfl rfl
    (Proofs.Contracts.words_lt _ _ (by simp [Spec.Contracts.arg]) (by simp)) hc (by simp)

theorem ask_words (h : Apart keccak256 n ownableTwoStepExample (Cells S)) {owner : Address} {w : State Ev} (hd : deploy keccak256 owner = some w)
    {txs : List (Raw Address)} (hx : ∀ tx ∈ txs, About D S tx) {asker : Address} {sg : String} {args : List Val}
    (hq : About D S ⟨asker, 0#256, message sg args⟩) :
    ask D asker (after (entry keccak256 D) w txs) sg args =
      Spec.Contracts.answer (Contracts.Ownable2StepContract.run D) asker
        (after (Contracts.Ownable2StepContract.run D) ⟨Erc20.init, Ownable2Step.init owner⟩ txs) sg args :=
  reply_of_answer (C115_ownable_two_step_answers h hd D txs ⟨asker, 0#256, message sg args⟩ (forall_append hx hq)).1

/-- **C115** With bytes only: the deployed contract answers at first that its owner is the one it was deployed for, and that nobody is to become the owner. -/
theorem C115_ownable_two_step_start (h : Apart keccak256 n ownableTwoStepExample (Cells S)) {owner : Address} {w : State Ev}
    (hd : deploy keccak256 owner = some w) {asker : Address} (hc : asker ∈ S) :
    ask D asker w "owner()" [] = some (values [.address owner]) ∧
    ask D asker w "pendingOwner()" [] = some (values [.address ZERO]) := by
  have q := question_within (D := D) hc
  refine ⟨(ask_words h hd (txs := []) (by simp) q.1).trans ?_, (ask_words h hd (txs := []) (by simp) q.2).trans ?_⟩
  · exact congrArg Outcome.reply (Contracts.Ownable2StepContract.C103_ownable_two_step_views D asker _ 0#160 0#160).2.2.2.1
  · exact congrArg Outcome.reply (Contracts.Ownable2StepContract.C103_ownable_two_step_views D asker _ 0#160 0#160).2.2.2.2

/-- **C115** With bytes only: if a transaction to the deployed contract changes the answer to `owner`, then the sender had been the
pending owner, is the new one, and sent `acceptOwnership`; or they had been the owner, and sent `renounceOwnership`. -/
theorem C115_ownable_two_step_owner_changes (h : Apart keccak256 n ownableTwoStepExample (Cells S)) {owner : Address} {w : State Ev}
    (hd : deploy keccak256 owner = some w) {txs : List (Raw Address)} {tx : Raw Address} (hx : ∀ tx' ∈ txs ++ [tx], About D S tx')
    {asker : Address} (hc : asker ∈ S) {new : Address} :
    let w1 := after (entry keccak256 D) w txs
    let w2 := after (entry keccak256 D) w (txs ++ [tx])
    ask D asker w2 "owner()" [] = some (values [.address new]) → ask D asker w1 "owner()" [] ≠ some (values [.address new]) →
    (ask D asker w1 "pendingOwner()" [] = some (values [.address tx.env]) ∧ new = tx.env ∧ Says D tx.input "acceptOwnership()" []) ∨
    (ask D asker w1 "owner()" [] = some (values [.address tx.env]) ∧ new = ZERO ∧ Says D tx.input "renounceOwnership()" []) := by
  intro w1 w2 ha hb
  have h1 : ∀ tx' ∈ txs, About D S tx' := fun tx' h' => hx tx' (List.mem_append_left _ h')
  have q := question_within (D := D) hc
  have e1 : ask D asker w1 "owner()" [] = _ := ask_words h hd h1 q.1
  rw [show ask D asker w2 "owner()" [] = _ from ask_words h hd hx q.1] at ha
  rw [e1] at hb
  rw [e1, show ask D asker w1 "pendingOwner()" [] = _ from ask_words h hd h1 q.2]
  rw [show after _ _ (txs ++ [tx]) = _ from List.foldl_append] at ha
  exact Contracts.Ownable2StepContract.C103_ownable_two_step_owner_changes D _ tx asker new ha hb

/-- **C115** With bytes only: while `owner` does not answer the sender, the message `transfer` to the deployed contract reverts with
the bytes of `OwnableUnauthorizedAccount(sender)`. -/
theorem C115_ownable_two_step_gate (h : Apart keccak256 n ownableTwoStepExample (Cells S)) {owner : Address} {w : State Ev}
    (hd : deploy keccak256 owner = some w) {txs : List (Raw Address)} (hx : ∀ tx ∈ txs, About D S tx) {asker caller dst : Address}
    (hc : asker ∈ S) (hs : caller ∈ S) (ht : dst ∈ S) (v : U256) :
    let w' := after (entry keccak256 D) w txs
    ask D asker w' "owner()" [] ≠ some (values [.address caller]) →
    Spec.Deployed.answer (entry keccak256 D caller w' 0#256 (message "transfer(address,uint256)" [.address dst, .uint256 v])) =
      .error (call "OwnableUnauthorizedAccount(address)" [addr caller]) := by
  intro w' hb
  rw [show ask D asker w' "owner()" [] = _ from ask_words h hd hx (question_within hc).1] at hb
  refine (C115_ownable_two_step_answers h hd D txs ⟨caller, 0#256, _⟩ (forall_append hx
    (C115_ownable_two_step_call_within (.transfer dst v) 0#256 hs (by simp [abi, ht])))).1.trans ?_
  exact congrArg Spec.Deployed.answer (Contracts.Ownable2StepContract.C103_ownable_two_step_gate D _ caller asker dst v hb)

end

/-! ### The hypotheses are met -/

theorem sample_cells {p : List Step} (h : Cells [0#160, 1#160, 2#160] p) :
    p ∈ tokenCells ++ [[.field "ownable", .field "ownable", .field "owner"], [.field "ownable", .field "pending_owner"]] := by
  rcases h with h | rfl | rfl
  · exact List.mem_append_left _ (token_cells h)
  all_goals exact List.mem_append_right _ (by simp)

/-- With Keccak the hypotheses of the theorems hold. -/
theorem sample_setting : Apart keccak256 10 ownableTwoStepExample (Cells [0#160, 1#160, 2#160]) :=
  ⟨by decide, Proofs.Separate.separate _ tokenTable (fun _ => sample_cells)
    (fun e he => table_ok e (List.mem_append_left _ he)) (by decide +kernel) (by decide +kernel) (by decide +kernel)⟩

/-- Account 1, the owner, offers to hand over to account 2, and it accepts. -/
def sampleOps : List (Address × Ownable2StepExample.Call) :=
  [(1#160, .ownable (.transferOwnership 2#160)), (2#160, .ownable .acceptOwnership)]

theorem sample_about (D : Decoder) : ∀ tx ∈ Spec.Contracts.sent abi sampleOps, About D [0#160, 1#160, 2#160] tx := by
  intro tx htx
  obtain ⟨x, hx, rfl⟩ := List.mem_map.mp htx
  simp only [sampleOps, List.mem_cons, List.not_mem_nil, or_false] at hx
  rcases hx with rfl | rfl <;> exact C115_ownable_two_step_call_within _ _ (by simp) (by simp [abi])

-- the words of the deployed contract answer after these messages that account 2 is the owner
example (D : Decoder) : ∃ w, deploy keccak256 1#160 = some w ∧
    ask D 1#160 w "owner()" [] = some (values [.address 1#160]) ∧
    ask D 1#160 (after (entry keccak256 D) w (Spec.Contracts.sent abi sampleOps)) "owner()" [] = some (values [.address 2#160]) := by
  obtain ⟨w, hd⟩ : ∃ w, deploy keccak256 1#160 = some w :=
    Option.ne_none_iff_exists'.mp fun h => absurd ((C115_ownable_two_step_deploy _ _).mp h) (by decide)
  refine ⟨w, hd, (C115_ownable_two_step_start sample_setting hd (by simp)).1, ?_⟩
  rw [ask_words sample_setting hd (sample_about D) (question_within (by simp)).1,
    Contracts.Ownable2StepContract.C103_ownable_two_step_sends D _ sampleOps (by
      intro x hx
      simp only [sampleOps, List.mem_cons, List.not_mem_nil, or_false] at hx
      rcases hx with rfl | rfl <;> exact Proofs.Contracts.words_lt _ _ (by simp [abi, Spec.Contracts.arg]) (by simp [abi]))]
  refine (congrArg Outcome.reply (Contracts.Ownable2StepContract.C103_ownable_two_step_views D 1#160 _ 0#160 0#160).2.2.2.1).trans ?_
  decide +kernel

end Verif.Props.Ownable2StepDeployed

namespace Verif.Props.AccessDeployed
open Verif Verif.Storage Verif.AccessDeployed Verif.Spec.AccessDeployed Verif.Spec.OnWords Verif.Props.OnWords
open Verif.Proofs.AccessDeployed (inv_step inv_run inv_deploy start)
open Verif.AccessExample (TRANSFER_ROLE)
open Verif.Abi (Val Decoder Outcome)
open Verif.Spec.Keccak (keccak256)
open Verif.Spec.Contracts (Raw after message values Says)
open Verif.Spec.Calls (call)
open Verif.Spec.Revert (addr)
open Verif.Props.Contracts.AccessContract (abi mem)
open Verif.OnWords (State)

/-- What an account gets to know that asks a question: the bytes of the answer, `none` if it is refused. -/
abbrev ask (D : Decoder) := Spec.Contracts.answer (entry keccak256 D)

/-- The transaction is about accounts of `S` and roles of `N`. -/
abbrev About (D : Decoder) (S : List Address) (N : List U256) (tx : Raw Address) : Prop :=
  Within keccak256 D Router.accessControlExample S tx ∧ Roles keccak256 D Router.accessControlExample N tx

/-- **C115** Deployment always succeeds. -/
theorem C115_access_control_deploy (K : Hash) (deployer : Address) : ∃ w, deploy K deployer = some w :=
  Proofs.AccessDeployed.deploys deployer

theorem start_eq (deployer : Address) : (⟨Erc20.init,
    { members := fun r a => r = 0#256 ∧ a = deployer, admin := fun _ => 0#256, log := [] }⟩ : AccessExample.State) = start deployer := by
  unfold start
  congr 2

/-- **C115** Bytes in, bytes out, with nothing between but words of storage: after any list of transactions, a transaction is
answered with the same bytes as by the contract with independent mappings that C103 is about (which starts with nothing but the
default admin role of the deployer), and the events are the same. -/
theorem C115_access_control_answers {K : Hash} {n : Nat} {S : List Address} {N : List U256} (h : Setting K n S N) {deployer : Address}
    (hs : deployer ∈ S) {w : State Ev} (hd : deploy K deployer = some w) (D : Decoder) (txs : List (Raw Address)) (tx : Raw Address)
    (hx : ∀ tx' ∈ txs ++ [tx], Within K D Router.accessControlExample S tx' ∧ Roles K D Router.accessControlExample N tx') :
    let run caller s value input := Abi.entry K D Router.accessControlExample (Contracts.accessControl K caller) s value input
    let s := after run ⟨Erc20.init, { members := fun r a => r = 0#256 ∧ a = deployer, admin := fun _ => 0#256, log := [] }⟩ txs
    let w' := after (entry K D) w txs
    Spec.Deployed.answer (entry K D tx.env w' tx.value tx.input) = Spec.Deployed.answer (run tx.env s tx.value tx.input) ∧
    w'.log.filterMap Sum.getLeft? = s.erc20.log ∧ w'.log.filterMap Sum.getRight? = s.access.log := by
  intro run s w'
  have e := start_eq deployer
  have hi := inv_run h D txs (inv_deploy h hs hd) fun tx' h => hx tx' (List.mem_append_left _ h)
  have hs' : s = after (Proofs.AccessDeployed.model K D) (start deployer) txs := by rw [← e]; rfl
  rw [hs']
  refine ⟨(inv_step h D hi (hx tx (List.mem_append_right _ (by simp)))).1, ?_⟩
  obtain ⟨_, c, _, hv⟩ := hi
  rw [← hv]
  exact ⟨rfl, rfl⟩

section
variable {n : Nat} {S : List Address} {N : List U256} {D : Decoder}

set_option maxRecDepth 100000 in
/-- **C115** A call of a function that changes the state is about its sender and its arguments. -/
theorem C115_access_control_call_within {env : Address} (op : AccessExample.Call) (value : U256)
    (hc : env ∈ S) (ha : ∀ a, Val.address a ∈ (abi op).2 → a ∈ S) (hr : ∀ r, Val.bytes32 r ∈ (abi op).2 → r ∈ N) :
    About D S N ⟨env, value, message (abi op).1 (abi op).2⟩ := by
  rcases op with _ | _ | _ | _ | _ | op
  rotate_right
  · cases op <;> exact ⟨within mem (by simp [abi, Spec.Router.accessControlExample]) rfl rfl
      (Proofs.Contracts.words_lt _ _ (by simp [abi, Spec.Contracts.arg]) (by simp [abi])) hc ha,
      roles mem (by simp [abi, Spec.Router.accessControlExample]) rfl rfl
      (Proofs.Contracts.words_lt _ _ (by simp [abi, Spec.Contracts.arg]) (by simp [abi])) hr⟩
  all_goals
    exact ⟨within mem (by simp [abi, Spec.Router.accessControlExample]) rfl rfl
      (Proofs.Contracts.words_lt _ _ (by simp [abi, Spec.Contracts.arg]) (by simp [abi])) hc ha,
      roles mem (by simp [abi, Spec.Router.accessControlExample]) rfl rfl
      (Proofs.Contracts.words_lt _ _ (by simp [abi, Spec.Contracts.arg]) (by simp [abi])) hr⟩

set_option maxRecDepth 100000 in
/-- A question is about the account that asks and its arguments. -/
theorem question_within {env a : Address} {r : U256} (hc : env ∈ S) (ha : a ∈ S) (hr : r ∈ N) :
    About D S N ⟨env, 0#256, message "hasRole(bytes32,address)" [.bytes32 r, .address a]⟩ ∧
    About D S N ⟨env, 0#256, message "getRoleAdmin(bytes32)" [.bytes32 r]⟩ := by
  refine ⟨⟨?_, ?_⟩, ?_, ?_⟩
  · exact within mem (by simp [Spec.Router.accessControlExample]) rfl rfl
      (Proofs.Contracts.words_lt _ _ (by simp [Spec.Contracts.arg]) (by simp)) hc (by simp [ha])
  · exact roles mem (by simp [Spec.Router.accessControlExample]) rfl rfl
      (Proofs.Contracts.words_lt _ _ (by simp [Spec.Contracts.arg]) (by simp)) (by simp [hr])
  · exact within mem (by simp [Spec.Router.accessControlExample]) rfl rfl
      (Proofs.Contracts.words_lt _ _ (by simp [Spec.Contracts.arg]) (by simp)) hc (by simp)
  · exact roles mem (by simp [Spec.Router.accessControlExample]) rfl rfl
      (Proofs.Contracts.words_lt _ _ (by simp [Spec.Contracts.arg]) (by simp)) (by simp [hr])

theorem ask_words (h : Setting keccak256 n S N) {deployer : Address} (hs : deployer ∈ S) {w : State Ev}
    (hd : deploy keccak256 deployer = some w) {txs : List (Raw Address)} (hx : ∀ tx ∈ txs, About D S N tx) {asker : Address}
    {sg : String} {args : List Val} (hq : About D S N ⟨asker, 0#256, message sg args⟩) :
    ask D asker (after (entry keccak256 D) w txs) sg args =
      Spec.Contracts.answer (Contracts.AccessContract.run D) asker
        (after (Contracts.AccessContract.run D)
          ⟨Erc20.init, { members := fun r a => r = 0#256 ∧ a = deployer, admin := fun _ => 0#256, log := [] }⟩ txs) sg args :=
  reply_of_answer (C115_access_control_answers h hs hd D txs ⟨asker, 0#256, message sg args⟩ (forall_append hx hq)).1

/-- **C115** With bytes only: the deployed contract answers at first that the deployer has the role 0 and that nobody has any other
role, and that the role 0 administers every role. -/
theorem C115_access_control_start (h : Setting keccak256 n S N) {deployer : Address} (hs : deployer ∈ S) {w : State Ev}
    (hd : deploy keccak256 deployer = some w) {asker : Address} (hc : asker ∈ S) {a : Address} (ha : a ∈ S) {r : U256} (hr : r ∈ N) :
    ask D asker w "hasRole(bytes32,address)" [.bytes32 r, .address a] = some (values [.bool (r = 0#256 ∧ a = deployer)]) ∧
    ask D asker w "getRoleAdmin(bytes32)" [.bytes32 r] = some (values [.bytes32 0#256]) := by
  have q := question_within (D := D) hc ha hr
  refine ⟨(ask_words h hs hd (txs := []) (by simp) q.1).trans ?_, (ask_words h hs hd (txs := []) (by simp) q.2).trans ?_⟩
  · exact congrArg Outcome.reply (Contracts.AccessContract.C103_access_control_views D asker _ a 0#160 r).2.2.2.1
  · exact congrArg Outcome.reply (Contracts.AccessContract.C103_access_control_views D asker _ a 0#160 r).2.2.2.2.1

/-- **C115** With bytes only: if a transaction to the deployed contract changes the answer to `hasRole(r, a)`, then `getRoleAdmin(r)`
had answered a role that `hasRole` had answered the sender to have; or the sender is `a` and sent `renounceRole(r, a)`. -/
theorem C115_access_control_roles_change (h : Setting keccak256 n S N) {deployer : Address} (hs : deployer ∈ S) {w : State Ev}
    (hd : deploy keccak256 deployer = some w) {txs : List (Raw Address)} {tx : Raw Address} (hx : ∀ tx' ∈ txs ++ [tx], About D S N tx')
    {asker : Address} (hc : asker ∈ S) {a : Address} (ha : a ∈ S) {r : U256} (hr : r ∈ N) {b : Bool} :
    let w1 := after (entry keccak256 D) w txs
    let w2 := after (entry keccak256 D) w (txs ++ [tx])
    ask D asker w1 "hasRole(bytes32,address)" [.bytes32 r, .address a] = some (values [.bool b]) →
    ask D asker w2 "hasRole(bytes32,address)" [.bytes32 r, .address a] ≠ some (values [.bool b]) →
    (∃ admin, ask D asker w1 "getRoleAdmin(bytes32)" [.bytes32 r] = some (values [.bytes32 admin]) ∧
      ask D asker w1 "hasRole(bytes32,address)" [.bytes32 admin, .address tx.env] = some (values [.bool true])) ∨
    (tx.env = a ∧ Says D tx.input "renounceRole(bytes32,address)" [.bytes32 r, .address a]) := by
  intro w1 w2 hb ha'
  have h1 : ∀ tx' ∈ txs, About D S N tx' := fun tx' h' => hx tx' (List.mem_append_left _ h')
  have q := question_within (D := D) hc ha hr
  have e1 : ask D asker w1 _ _ = _ := ask_words h hs hd h1 q.1
  rw [show ask D asker w2 _ _ = _ from ask_words h hs hd hx q.1] at ha'
  rw [e1] at hb
  rw [show ask D asker w1 "getRoleAdmin(bytes32)" _ = _ from ask_words h hs hd h1 q.2]
  rw [show after _ _ (txs ++ [tx]) = _ from List.foldl_append] at ha'
  have hg := (inv_run h D txs (inv_deploy h hs hd) h1).1 r hr
  have ht : tx.env ∈ S := (hx tx (List.mem_append_right _ (by simp))).1.sender
  have e := start_eq deployer
  refine (Contracts.AccessContract.C103_access_control_roles_change D _ tx asker a r b hb ha').imp ?_ id
  rintro ⟨admin, h2, h3⟩
  refine ⟨admin, h2, ?_⟩
  have hn : admin ∈ N := by
    have e2 := h2
    rw [show Spec.Contracts.answer _ _ _ _ _ = _ from
      congrArg Outcome.reply (Contracts.AccessContract.C103_access_control_views D asker _ a 0#160 r).2.2.2.2.1] at e2
    have e3 := Proofs.Contracts.uint256_inj (Option.some.inj e2)
    rw [← e3, e]
    exact hg
  exact (ask_words h hs hd h1 (question_within (D := D) hc ht hn).1).trans h3

/-- **C115** With bytes only: while `hasRole` does not answer that the sender holds the transfer role, the message `transferFrom` to
the deployed contract reverts with the bytes of `AccessControlUnauthorizedAccount` for the sender and `keccak256("TRANSFER_ROLE")`. -/
theorem C115_access_control_gate (h : Setting keccak256 n S N) {deployer : Address} (hs : deployer ∈ S) {w : State Ev}
    (hd : deploy keccak256 deployer = some w) {txs : List (Raw Address)} (hx : ∀ tx ∈ txs, About D S N tx)
    {asker caller src dst : Address} (hc : asker ∈ S) (hcs : caller ∈ S) (hsrc : src ∈ S) (hdst : dst ∈ S) (v : U256) :
    let w' := after (entry keccak256 D) w txs
    ask D asker w' "hasRole(bytes32,address)" [.bytes32 (keccak256 (ascii "TRANSFER_ROLE")), .address caller] ≠
      some (values [.bool true]) →
    Spec.Deployed.answer (entry keccak256 D caller w' 0#256
      (message "transferFrom(address,address,uint256)" [.address src, .address dst, .uint256 v])) =
      .error (call "AccessControlUnauthorizedAccount(address,bytes32)" [addr caller, keccak256 (ascii "TRANSFER_ROLE")]) := by
  intro w' hb
  have hr : keccak256 (ascii "TRANSFER_ROLE") ∈ N := by
    rw [← Props.Interfaces.C87_constants.2.2.2.1]
    exact h.transfer
  rw [show ask D asker w' _ _ = _ from ask_words h hs hd hx (question_within hc hcs hr).1] at hb
  refine (C115_access_control_answers h hs hd D txs ⟨caller, 0#256, _⟩ (forall_append hx
    (C115_access_control_call_within (.transferFrom src dst v) 0#256 hcs (by simp [abi, hsrc, hdst]) (by simp [abi])))).1.trans ?_
  exact congrArg Spec.Deployed.answer (Contracts.AccessContract.C103_access_control_gate D _ caller asker src dst v hb)

end

/-! ### The hypotheses are met -/

/-- The cells of three accounts and the two roles of the contract. -/
def sampleCells : List (List Step) :=
  let A := [0#160, 1#160, 2#160]
  let N := [0#256, TRANSFER_ROLE]
  tokenCells ++ ((N.flatMap fun r => A.map (AccessWords.memberCell gate r)) ++ N.map (AccessWords.adminCell gate))

theorem sample_cells {p : List Step} (h : Cells [0#160, 1#160, 2#160] [0#256, TRANSFER_ROLE] p) : p ∈ sampleCells := by
  unfold sampleCells
  rcases h with h | ⟨r, hr, a, ha, rfl⟩ | ⟨r, hr, rfl⟩
  · exact List.mem_append_left _ (token_cells h)
  · exact List.mem_append_right _ (List.mem_append_left _ (List.mem_flatMap.mpr ⟨r, hr, List.mem_map_of_mem (f := AccessWords.memberCell gate r) ha⟩))
  · exact List.mem_append_right _ (List.mem_append_right _ (List.mem_map_of_mem (f := AccessWords.adminCell gate) hr))

/-- With Keccak the hypotheses of the theorems hold. -/
theorem sample_setting : Setting keccak256 10 [0#160, 1#160, 2#160] [0#256, TRANSFER_ROLE] :=
  ⟨⟨by decide, Proofs.Separate.separate sampleCells (tokenTable ++ roleTable) (fun _ => sample_cells) table_ok
    (by decide +kernel) (by decide +kernel) (by decide +kernel)⟩, by simp, by simp⟩

/-- Account 2 tries to become an administrator and fails; account 1, who deployed the contract, makes account 2 a transferrer. -/
def sampleOps : List (Address × AccessExample.Call) :=
  [(2#160, .access (.grantRole 0#256 2#160)), (1#160, .makeAdmin 2#160)]

theorem sample_about (D : Decoder) :
    ∀ tx ∈ Spec.Contracts.sent abi sampleOps, About D [0#160, 1#160, 2#160] [0#256, TRANSFER_ROLE] tx := by
  intro tx htx
  obtain ⟨x, hx, rfl⟩ := List.mem_map.mp htx
  simp only [sampleOps, List.mem_cons, List.not_mem_nil, or_false] at hx
  rcases hx with rfl | rfl <;> exact C115_access_control_call_within _ _ (by simp) (by simp [abi]) (by simp [abi])

-- the words of the deployed contract answer after these messages that account 2 has the transfer role and not the role 0
example (D : Decoder) : ∃ w, deploy keccak256 1#160 = some w ∧
    let w' := after (entry keccak256 D) w (Spec.Contracts.sent abi sampleOps)
    ask D 1#160 w' "hasRole(bytes32,address)" [.bytes32 TRANSFER_ROLE, .address 2#160] = some (values [.bool true]) ∧
    ask D 1#160 w' "hasRole(bytes32,address)" [.bytes32 0#256, .address 2#160] = some (values [.bool false]) := by
  obtain ⟨w, hd⟩ := C115_access_control_deploy keccak256 1#160
  refine ⟨w, hd, ?_⟩
  have e := fun s => Contracts.AccessContract.C103_access_control_sends D s sampleOps (by
      intro x hx
      simp only [sampleOps, List.mem_cons, List.not_mem_nil, or_false] at hx
      rcases hx with rfl | rfl <;> exact Proofs.Contracts.words_lt _ _ (by simp [abi, Spec.Contracts.arg]) (by simp [abi]))
  intro w'
  refine ⟨?_, ?_⟩
  · rw [show ask D 1#160 w' _ _ = _ from ask_words sample_setting (by simp) hd (sample_about D) (question_within (by simp) (by simp) (by simp)).1, e]
    refine (congrArg Outcome.reply (Contracts.AccessContract.C103_access_control_views D 1#160 _ 2#160 0#160 _).2.2.2.1).trans ?_
    decide +kernel
  · rw [show ask D 1#160 w' _ _ = _ from ask_words sample_setting (by simp) hd (sample_about D) (question_within (by simp) (by simp) (by simp)).1, e]
    refine (congrArg Outcome.reply (Contracts.AccessContract.C103_access_control_views D 1#160 _ 2#160 0#160 _).2.2.2.1).trans ?_
    decide +kernel

end Verif.Props.AccessDeployed
