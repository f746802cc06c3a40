import Verif.Proofs.NftDeployedRun
import Verif.Proofs.Separate
import Verif.Props.ContractsErc721
/-!
# C114: the enumerable, pausable ERC-721 token as deployed: constructor, calldata, storage words

Nothing of the other models is left in the statements but the contract on words (`Verif.Model.NftDeployed`).  `S` are the accounts
and `N` the numbers (tokens, indices) that take part.  Of them it is asked that the hash values of their storage cells do not
coincide (`Setting`), as in C98 and C113.
-/
namespace Verif.Props.NftDeployed
open Verif Verif.Storage Verif.NftDeployed Verif.Spec.NftDeployed Verif.Proofs.NftDeployed
open Verif.Abi (Val Decoder Outcome)
open Verif.Contracts (Env)
open Verif.Spec.Keccak (keccak256)
open Verif.Spec.Contracts (Raw after message values)
open Verif.Spec.Calls (call)
open Verif.Props.Contracts.Erc721Contract (abi)

/-- What an account gets to know that asks a question: the bytes of the answer, `none` if it is refused. -/
abbrev ask (D : Decoder) (cap : Nat) := Spec.Contracts.answer (entry keccak256 D cap)

/-- **C114** Deployment always succeeds; all words are zero and there are no events. -/
theorem C114_deploy (K : Hash) : deploy K = some { words := fun _ => 0#256, log := [] } := deployed K

section
variable {K : Hash} {n cap : Nat} {S : List Address} {N : List U256}

/-- **C114** Bytes in, bytes out, with nothing between but words of storage: after any list of transactions, a transaction is
answered with the same bytes as by the contract with independent mappings and lists that C103 is about, and the events are the
same. -/
theorem C114_answers (h : Setting K n cap S N) {w : State} (hd : deploy K = some w) (D : Decoder) (txs : List (Raw Env)) (tx : Raw Env)
    (hx : ∀ tx' ∈ txs ++ [tx], Within K D S N tx') :
    let run env s value input := Abi.entry K D Router.erc721Example (Contracts.erc721 K D cap env) s value input
    let s := after run Enumerable.init txs
    let w' := after (entry K D cap) w txs
    Spec.Deployed.answer (entry K D cap tx.env w' tx.value tx.input) = Spec.Deployed.answer (run tx.env s tx.value tx.input) ∧
    (w'.log.filterMap fun | .token e => some e | _ => none) = s.erc721.log ∧
    (w'.log.filterMap fun | .pausable e => some e | _ => none) = s.pausable.log := by
  intro run s w'
  cases (deployed K).symm.trans hd
  have hi := inv_run h D txs (inv_deploy h) fun tx' h => hx tx' (List.mem_append_left _ h)
  refine ⟨(inv_step h D hi (hx tx (List.mem_append_right _ (by simp)))).1, ?_⟩
  obtain ⟨_, c, _, hv⟩ := hi
  rw [show s = _ from hv.symm]
  exact ⟨rfl, rfl⟩

/-- **C114** Where the words are: after any list of transactions, the length word of the vector `all_tokens` holds how many tokens
there are, and its elements hold the tokens in the order in which the contract with independent lists has them; the words of
`owned_tokens` and of the two indices hold what its mappings hold. -/
theorem C114_words (h : Setting K n cap S N) {w : State} (hd : deploy K = some w) (D : Decoder) (txs : List (Raw Env))
    (hx : ∀ tx ∈ txs, Within K D S N tx) :
    let run env s value input := Abi.entry K D Router.erc721Example (Contracts.erc721 K D cap env) s value input
    let l := (after run Enumerable.init txs).lists
    let word p := Constructors.get K erc721Example (after (entry K D cap) w txs).words (.field "enumerable" :: p)
    word [.field "all_tokens"] = some (BitVec.ofNat 256 l.allTokens.length) ∧ l.allTokens.length ≤ N.length ∧
    (∀ i (hi : i < l.allTokens.length), word [.field "all_tokens", .index i] = some l.allTokens[i]) ∧
    (∀ a ∈ S, ∀ i ∈ N, word [.field "owned_tokens", .key (a.setWidth 256), .key i] = some (l.ownedTokens a i)) ∧
    ∀ id ∈ N, word [.field "owned_tokens_index", .key id] = some (l.ownedTokensIndex id) ∧
      word [.field "all_tokens_index", .key id] = some (l.allTokensIndex id) := by
  intro run l word
  cases (deployed K).symm.trans hd
  obtain ⟨hg, c, hc, hv⟩ := inv_run h D txs (inv_deploy h) hx
  have get : ∀ p, Cells S N (.field "enumerable" :: p) → word p = some (c (.field "enumerable" :: p)) := by
    intro p hp
    obtain ⟨m, hm, _⟩ := h.separate.cells _ hp
    show Constructors.get _ _ _ _ = _
    unfold Constructors.get
    rw [hm, Option.map_some, hc _ hp m hm]
  have el : l = lists c := congrArg Enumerable.State.lists hv.symm
  have ea : l.allTokens.length = (c all).toNat := by rw [el]; simp [lists]
  have hb : l.allTokens.length ≤ N.length := by
    have := length_le hg
    exact this
  refine ⟨?_, hb, fun i hi => ?_, fun a ha i hi => ?_, fun id hid => ⟨?_, ?_⟩⟩
  · rw [ea, BitVec.ofNat_toNat, BitVec.setWidth_eq]
    exact get _ cell_all
  · refine (get _ (cell_allAt (by omega))).trans ?_
    simp only [el, lists, List.getElem_map, List.getElem_range]
    rfl
  · rw [el]
    exact get _ (.inr (.inr (.inl ⟨a, ha, i, .inr hi, rfl⟩)))
  · rw [el]
    exact get _ (.inr (.inr (.inr (.inl ⟨id, hid, rfl⟩))))
  · rw [el]
    exact get _ (cell_allIndex hid)

end

/-! ## What well-formed calls are about -/

theorem arguments_message {D : Decoder} {env : Env} {value : U256} {sg t : String} {f : Router.Fn} {args args' : List Val}
    (hs : sg ∈ Spec.Router.erc721Example.map Prod.fst) (hr : Props.Router.routeSig Router.erc721Example sg = some (t, f))
    (ht : args.map Val.type = Abi.flat f.args) (hl : (message sg args).length < 2 ^ 256)
    (h : Arguments keccak256 D ⟨env, value, message sg args⟩ args') : args' = args := by
  obtain ⟨⟨_, t', n⟩, hm, rfl⟩ := List.mem_map.mp hs
  obtain ⟨t1, f1, h1, h2⟩ := h
  have hc := Contracts.Erc721Contract.mem
  dsimp only at h1 h2
  unfold message at *
  rw [← Proofs.Contracts.encode_values] at *
  rw [← Proofs.Entry.be4_selector] at h1 h2 hl
  rw [Proofs.Entry.selectorOf_be4, Props.Router.route_selector hc (Props.Router.rows_ok _ hc _ hm).1, hr] at h1
  cases h1
  rw [List.length_append] at hl
  rw [List.drop_left' (Proofs.Entry.be4_length _), ← ht, D.complete args (by omega)] at h2
  exact (Option.some.inj h2).symm

section
variable {n cap : Nat} {S : List Address} {N : List U256} {D : Decoder} {env : Env}

/-- A well-formed call is about its sender and its arguments. -/
theorem within {value : U256} {sg t : String} {f : Router.Fn} {args : List Val}
    (hs : sg ∈ Spec.Router.erc721Example.map Prod.fst) (hr : Props.Router.routeSig Router.erc721Example sg = some (t, f))
    (ht : args.map Val.type = Abi.flat f.args) (hl : (message sg args).length < 2 ^ 256) (hc : env.caller ∈ S)
    (ha : ∀ a, Val.address a ∈ args → a ∈ S) (hv : ∀ v, Val.uint256 v ∈ args → v ∈ N) :
    Within keccak256 D S N ⟨env, value, message sg args⟩ := by
  refine ⟨hc, fun args' h => ?_, fun args' h => ?_⟩
  · rw [arguments_message hs hr ht hl h]; exact ha
  · rw [arguments_message hs hr ht hl h]; exact hv

set_option maxRecDepth 100000 in
/-- **C114** A call of a function that changes the state is about its sender and its arguments. -/
theorem C114_call_within (op : Enumerable.Call) (value : U256) (hl : (message (abi op).1 (abi op).2).length < 2 ^ 256)
    (hc : env.caller ∈ S) (ha : ∀ a, Val.address a ∈ (abi op).2 → a ∈ S) (hv : ∀ v, Val.uint256 v ∈ (abi op).2 → v ∈ N) :
    Within keccak256 D S N ⟨env, value, message (abi op).1 (abi op).2⟩ := by
  cases op <;> exact within (by simp [abi, Spec.Router.erc721Example]) rfl rfl hl hc ha hv

set_option maxRecDepth 100000 in
/-- A question is about the account that asks and its arguments. -/
theorem question_within {a b : Address} {i : U256} (hc : env.caller ∈ S) (ha : a ∈ S) (hb : b ∈ S) (hi : i ∈ N) :
    Within keccak256 D S N ⟨env, 0#256, message "balanceOf(address)" [.address a]⟩ ∧
    Within keccak256 D S N ⟨env, 0#256, message "ownerOf(uint256)" [.uint256 i]⟩ ∧
    Within keccak256 D S N ⟨env, 0#256, message "getApproved(uint256)" [.uint256 i]⟩ ∧
    Within keccak256 D S N ⟨env, 0#256, message "isApprovedForAll(address,address)" [.address a, .address b]⟩ ∧
    Within keccak256 D S N ⟨env, 0#256, message "totalSupply()" []⟩ ∧
    Within keccak256 D S N ⟨env, 0#256, message "tokenByIndex(uint256)" [.uint256 i]⟩ ∧
    Within keccak256 D S N ⟨env, 0#256, message "tokenOfOwnerByIndex(address,uint256)" [.address a, .uint256 i]⟩ ∧
    Within keccak256 D S N ⟨env, 0#256, message "paused()" []⟩ := by
  refine ⟨?_, ?_, ?_, ?_, ?_, ?_, ?_, ?_⟩ <;>
    exact within (by simp [Spec.Router.erc721Example]) rfl rfl
      (Proofs.Contracts.words_lt _ _ (by simp [Spec.Contracts.arg]) (by simp)) hc (by simp_all) (by simp_all)

theorem reply_of_answer {σ τ : Type} {o : Outcome σ} {o' : Outcome τ} (h : Spec.Deployed.answer o = Spec.Deployed.answer o') :
    o.reply = o'.reply := by
  cases o <;> cases o' <;> simp_all [Spec.Deployed.answer, Outcome.reply]

theorem ask_words (h : Setting keccak256 n cap S N) {w : State} (hd : deploy keccak256 = some w) {txs : List (Raw Env)}
    (hx : ∀ tx ∈ txs, Within keccak256 D S N tx) {asker : Env} {sg : String} {args : List Val}
    (hq : Within keccak256 D S N ⟨asker, 0#256, message sg args⟩) :
    ask D cap asker (after (entry keccak256 D cap) w txs) sg args =
      Spec.Contracts.answer (Contracts.Erc721Contract.run D cap) asker (after (Contracts.Erc721Contract.run D cap) Enumerable.init txs) sg args := by
  have := (C114_answers h hd D txs ⟨asker, 0#256, message sg args⟩ (by
    intro tx' h'
    rcases List.mem_append.mp h' with h' | h'
    · exact hx tx' h'
    · rw [List.mem_singleton.mp h']; exact hq)).1
  unfold ask Spec.Contracts.answer
  exact reply_of_answer this

/-! ## Seen from outside -/

/-- **C114** With bytes only: after any list of transactions to the deployed contract, sent by accounts of `S` about accounts of `S`
and numbers of `N`, every token has an owner or none; `ownerOf` answers it, tokens outside `N` have none, `balanceOf` answers the
number of tokens of an account, `totalSupply` the number of tokens with an owner, `tokenByIndex` answers tokens with an owner, and if
`N` contains the indices, `tokenByIndex` lists each of these exactly once. -/
theorem C114_outside (h : Setting keccak256 n cap S N) {w : State} (hd : deploy keccak256 = some w) {txs : List (Raw Env)}
    (hx : ∀ tx ∈ txs, Within keccak256 D S N tx) {asker : Env} (hc : asker.caller ∈ S) :
    let w' := after (entry keccak256 D cap) w txs
    ∃ owner : U256 → Option Address,
      (∀ id ∈ N, ask D cap asker w' "ownerOf(uint256)" [.uint256 id] = (owner id).map fun a => values [.address a]) ∧
      (∀ id, id ∉ N → owner id = none) ∧
      (∀ a ∈ S, a ≠ ZERO → ∃ v : U256, ask D cap asker w' "balanceOf(address)" [.address a] = some (values [.uint256 v]) ∧
        v.toNat = (Finset.univ.filter fun id => owner id = some a).card) ∧
      (∃ v : U256, ask D cap asker w' "totalSupply()" [] = some (values [.uint256 v]) ∧
        v.toNat = (Finset.univ.filter fun id => owner id ≠ none).card) ∧
      (∀ i ∈ N, ∀ v, ask D cap asker w' "tokenByIndex(uint256)" [.uint256 i] = some v →
        ∃ id, v = values [.uint256 id] ∧ owner id ≠ none) ∧
      ((∀ i : U256, i.toNat < N.length → i ∈ N) → ∀ id, owner id ≠ none →
        ∃ i ∈ N, ask D cap asker w' "tokenByIndex(uint256)" [.uint256 i] = some (values [.uint256 id]) ∧
          ∀ j ∈ N, ask D cap asker w' "tokenByIndex(uint256)" [.uint256 j] = some (values [.uint256 id]) → j = i) := by
  intro w'
  have q := fun (a : Address) (ha : a ∈ S) (i : U256) (hi : i ∈ N) => question_within (D := D) (S := S) (N := N) hc ha ha hi
  have hg : Good cap S N (after (Contracts.Erc721Contract.run D cap) Enumerable.init txs) := (inv_run h D txs (inv_deploy h) hx).1
  obtain ⟨owner, h1, h2, h3, h4, h5⟩ := Contracts.Erc721Contract.C103_erc721_outside D cap h.vector txs asker
  have e6 := fun (i : U256) (hi : i ∈ N) => ask_words h hd hx (q ZERO h.zero i hi).2.2.2.2.2.1
  refine ⟨owner, fun id hid => ?_, fun id hid => ?_, fun a ha hz => ?_, ?_, fun i hi v hv => ?_, fun hN id hid => ?_⟩
  · rw [← h1 id]
    exact ask_words h hd hx (q ZERO h.zero id hid).2.1
  · have e := h1 id
    rw [(Contracts.Erc721Contract.answers D cap asker _ 0#160 0#160 id).2.1, if_pos (hg.outside id hid)] at e
    cases ho : owner id with
    | none => rfl
    | some a => rw [ho] at e; cases e
  · rw [show ask D cap asker w' "balanceOf(address)" [.address a] = _ from ask_words h hd hx (q a ha 0#256 h.token).1]
    exact h2 a hz
  · rw [show ask D cap asker w' "totalSupply()" [] = _ from ask_words h hd hx (q ZERO h.zero 0#256 h.token).2.2.2.2.1]
    exact h3
  · exact h4 i v ((e6 i hi).symm.trans hv)
  · obtain ⟨i, hi, hj⟩ := h5 id hid
    have hiN : i ∈ N := by
      refine hN i ?_
      have e := hi
      rw [(Contracts.Erc721Contract.answers D cap asker _ 0#160 0#160 i).2.2.2.2.2] at e
      refine Nat.lt_of_lt_of_le ?_ (length_le hg)
      by_contra hlt
      rw [List.getElem?_eq_none (by omega)] at e
      cases e
    exact ⟨i, hiN, (e6 i hiN).trans hi, fun j hjN hj' => hj j ((e6 j hjN).symm.trans hj')⟩

/-- **C114** With bytes only: if a transaction to the deployed contract changes the answer to `ownerOf(id)`, then the sender was
the owner, or `getApproved(id)` had answered the sender, or `isApprovedForAll` had answered that they are the owner's operator. -/
theorem C114_no_theft (h : Setting keccak256 n cap S N) {w : State} (hd : deploy keccak256 = some w) {txs : List (Raw Env)} {tx : Raw Env}
    (hx : ∀ tx' ∈ txs ++ [tx], Within keccak256 D S N tx') {asker : Env} (hc : asker.caller ∈ S) {id : U256} (hid : id ∈ N)
    {a : Address} :
    let w1 := after (entry keccak256 D cap) w txs
    let w2 := after (entry keccak256 D cap) w (txs ++ [tx])
    ask D cap asker w1 "ownerOf(uint256)" [.uint256 id] = some (values [.address a]) →
    ask D cap asker w2 "ownerOf(uint256)" [.uint256 id] ≠ some (values [.address a]) →
    tx.env.caller = a ∨ ask D cap asker w1 "getApproved(uint256)" [.uint256 id] = some (values [.address tx.env.caller]) ∨
    ask D cap asker w1 "isApprovedForAll(address,address)" [.address a, .address tx.env.caller] = some (values [.bool true]) := by
  intro w1 w2 hb ha
  have h1 : ∀ tx' ∈ txs, Within keccak256 D S N tx' := fun tx' h' => hx tx' (List.mem_append_left _ h')
  have hs : tx.env.caller ∈ S := (hx tx (List.mem_append_right _ (by simp))).sender
  have hg : Good cap S N (after (Contracts.Erc721Contract.run D cap) Enumerable.init txs) := (inv_run h D txs (inv_deploy h) h1).1
  have q := fun (a : Address) (ha : a ∈ S) => question_within (D := D) (S := S) (N := N) hc ha hs hid
  rw [show ask D cap asker w1 "ownerOf(uint256)" [.uint256 id] = _ from ask_words h hd h1 (q ZERO h.zero).2.1] at hb
  rw [show ask D cap asker w2 "ownerOf(uint256)" [.uint256 id] = _ from ask_words h hd hx (q ZERO h.zero).2.1] at ha
  have haS : a ∈ S := by
    have e := hb
    rw [(Contracts.Erc721Contract.answers D cap asker _ 0#160 0#160 id).2.1] at e
    split at e
    · cases e
    · have := Proofs.Contracts.address_inj (Option.some.inj e)
      rw [← this]
      exact hg.owners id hid
  rw [show ask D cap asker w1 "getApproved(uint256)" [.uint256 id] = _ from ask_words h hd h1 (q ZERO h.zero).2.2.1,
    show ask D cap asker w1 "isApprovedForAll(address,address)" [.address a, .address tx.env.caller] = _ from
      ask_words h hd h1 (q a haS).2.2.2.1]
  exact Contracts.Erc721Contract.C103_erc721_no_theft D cap txs tx asker id a hb ha

/-- **C114** With bytes only: while `paused` answers yes, the message of every mint, burn and transfer, from any account but the zero
address, reverts with the bytes of `EnforcedPause()`. -/
theorem C114_paused (h : Setting keccak256 n cap S N) {w : State} (hd : deploy keccak256 = some w) {txs : List (Raw Env)}
    (hx : ∀ tx ∈ txs, Within keccak256 D S N tx) {asker : Env} (hc : asker.caller ∈ S) (op : Enumerable.Call)
    (hm : Props.Erc721Example.Call.moves op = true) (hz : env.caller ≠ ZERO) (hl : (message (abi op).1 (abi op).2).length < 2 ^ 256)
    (hop : Within keccak256 D S N ⟨env, 0#256, message (abi op).1 (abi op).2⟩) :
    let w' := after (entry keccak256 D cap) w txs
    ask D cap asker w' "paused()" [] = some (values [.bool true]) →
    Spec.Deployed.answer (entry keccak256 D cap env w' 0#256 (message (abi op).1 (abi op).2)) = .error (call "EnforcedPause()" []) := by
  intro w' hp
  rw [show ask D cap asker w' "paused()" [] = _ from
    ask_words h hd hx (question_within hc h.zero h.zero h.token).2.2.2.2.2.2.2] at hp
  rw [(C114_answers h hd D txs ⟨env, 0#256, message (abi op).1 (abi op).2⟩ (by
    intro tx' h'
    rcases List.mem_append.mp h' with h' | h'
    · exact hx tx' h'
    · rw [List.mem_singleton.mp h']; exact hop)).1]
  exact congrArg Spec.Deployed.answer (Contracts.Erc721Contract.C103_erc721_paused D cap env asker _ hp op hm hz hl)

end

/-! ## The hypotheses are met -/

/-- The cells of three accounts and three numbers. -/
def sampleCells : List (List Step) :=
  let A := [0#160, 1#160, 2#160]
  let N := [0#256, 1#256, 2#256]
  N.map (Erc721Words.owner token) ++ (A.map (Erc721Words.balance token) ++ (N.map (Erc721Words.approved token) ++
    ((A.flatMap fun a => A.map (Erc721Words.operator token a)) ++ ([pausedCell, all] ++
    ((A.flatMap fun a => [0#256, 1#256, 2#256, 3#256].map (owned a)) ++ (N.map ownedIndex ++ ([0, 1, 2].map allAt ++ N.map allIndex)))))))

/-- What is hashed on the way to them, and the hash values. -/
def sampleTable : List (Bytes × U256) :=
  [(be32 0x0#256 ++ be32 0x0#256, 0xad3228b676f7d3cd4284a5443f17f1962b36e491b30a40b2405849e597ba5fb5#256),
   (be32 0x1#256 ++ be32 0x0#256, 0xada5013122d395ba3c54772283fb069b10426056ef8ca54750cb9bb552a59e7d#256),
   (be32 0x2#256 ++ be32 0x0#256, 0xabbb5caa7dda850e60932de0934eb1f9d0f59695050f761dc64e443e5030a569#256),
   (be32 0x0#256 ++ be32 0x1#256, 0xa6eef7e35abe7026729641147f7915573c7e97b47efa546f5f6e3230263bcb49#256),
   (be32 0x1#256 ++ be32 0x1#256, 0xcc69885fda6bcc1a4ace058b4a62bf5e179ea78fd58a1ccd71c22cc9b688792f#256),
   (be32 0x2#256 ++ be32 0x1#256, 0xd9d16d34ffb15ba3a3d852f0d403e2ce1d691fb54de27ac87cd2f993f3ec330f#256),
   (be32 0x0#256 ++ be32 0x2#256, 0xac33ff75c19e70fe83507db0d683fd3465c996598dc972688b7ace676c89077b#256),
   (be32 0x1#256 ++ be32 0x2#256, 0xe90b7bceb6e7df5418fb78d8ee546e97c83a08bbccc01a0644d599ccd2a7c2e0#256),
   (be32 0x2#256 ++ be32 0x2#256, 0x679795a0195a1b76cdebb7c51d74e058aee92919b8c3389af86ef24535e8a28c#256),
   (be32 0x0#256 ++ be32 0x3#256, 0x3617319a054d772f909f7c479a2cebe5066e836a939412e32403c99029b92eff#256),
   (be32 0x0#256 ++ be32 0x3617319a054d772f909f7c479a2cebe5066e836a939412e32403c99029b92eff#256, 0x84fa35e963a209ed7b6693816f0819bcb70c934337c6902235d48a9c59ebe6eb#256),
   (be32 0x1#256 ++ be32 0x3617319a054d772f909f7c479a2cebe5066e836a939412e32403c99029b92eff#256, 0xf5d2b9d7b7dcf31fafb527f48cb641b3e286ba85117ea973378ae75f2b0f27c9#256),
   (be32 0x2#256 ++ be32 0x3617319a054d772f909f7c479a2cebe5066e836a939412e32403c99029b92eff#256, 0xcd92e5b4e6598c1949a71e034c2db052fecdb0cbb23287b5cc133a4ab147474#256),
   (be32 0x1#256 ++ be32 0x3#256, 0xa15bc60c955c405d20d9149c709e2460f1c2d9a497496a7f46004d1772c3054c#256),
   (be32 0x0#256 ++ be32 0xa15bc60c955c405d20d9149c709e2460f1c2d9a497496a7f46004d1772c3054c#256, 0xeb972bfd9e24bc26d8a6be6cef621408cbdcf8fa2ccd03b0e5bf1d9b7c401dee#256),
   (be32 0x1#256 ++ be32 0xa15bc60c955c405d20d9149c709e2460f1c2d9a497496a7f46004d1772c3054c#256, 0xfb8d863de1250aa620936e91467e1af01a92eb0e70a9507f29fbc3ded4c65f25#256),
   (be32 0x2#256 ++ be32 0xa15bc60c955c405d20d9149c709e2460f1c2d9a497496a7f46004d1772c3054c#256, 0x63383099118369e3b7e10810450c200ba30ca74f16a798c21d846e7b8f29f8e5#256),
   (be32 0x2#256 ++ be32 0x3#256, 0xc3a24b0501bd2c13a7e57f2db4369ec4c223447539fc0724a9d55ac4a06ebd4d#256),
   (be32 0x0#256 ++ be32 0xc3a24b0501bd2c13a7e57f2db4369ec4c223447539fc0724a9d55ac4a06ebd4d#256, 0xc29ccf1405d46e3650025b4cb3dd2c6fea976ca3366b6639ae6c9b22378c9255#256),
   (be32 0x1#256 ++ be32 0xc3a24b0501bd2c13a7e57f2db4369ec4c223447539fc0724a9d55ac4a06ebd4d#256, 0x7cc2ad579ffe0e9670c4ed407723dde34cdc5f3ce03ea5a5fd278a558b291aec#256),
   (be32 0x2#256 ++ be32 0xc3a24b0501bd2c13a7e57f2db4369ec4c223447539fc0724a9d55ac4a06ebd4d#256, 0xae01d7727e6eee9de04cfde373d61a6d46a5148baca09e4486c66e17138a24b0#256),
   (be32 0x0#256 ++ be32 0x4#256, 0x17ef568e3e12ab5b9c7254a8d58478811de00f9e6eb34345acd53bf8fd09d3ec#256),
   (be32 0x0#256 ++ be32 0x17ef568e3e12ab5b9c7254a8d58478811de00f9e6eb34345acd53bf8fd09d3ec#256, 0x396a5abb6bca56e91bb5dd6bbc43dc9c37f3b8d5af727f8b42952b318eb483f7#256),
   (be32 0x1#256 ++ be32 0x17ef568e3e12ab5b9c7254a8d58478811de00f9e6eb34345acd53bf8fd09d3ec#256, 0x560c5c35d362ebe12852e61b5bb1957021175ee6b552ac19e7c3fb4e272bed3f#256),
   (be32 0x2#256 ++ be32 0x17ef568e3e12ab5b9c7254a8d58478811de00f9e6eb34345acd53bf8fd09d3ec#256, 0xf2dfd1aed85f0715c432d0e56b8d7d53fa1dec4c25ed607e31f579ced79688cc#256),
   (be32 0x3#256 ++ be32 0x17ef568e3e12ab5b9c7254a8d58478811de00f9e6eb34345acd53bf8fd09d3ec#256, 0xee69c65cdda9eb329ced9262963bb8486a7a0b875d65ea6fea5d6082f29d26d8#256),
   (be32 0x1#256 ++ be32 0x4#256, 0xabd6e7cb50984ff9c2f3e18a2660c3353dadf4e3291deeb275dae2cd1e44fe05#256),
   (be32 0x0#256 ++ be32 0xabd6e7cb50984ff9c2f3e18a2660c3353dadf4e3291deeb275dae2cd1e44fe05#256, 0xa854ba23287a95c22b66b66e4f07bb2441b3fd4ecec9d0720a55aaffc00a6db4#256),
   (be32 0x1#256 ++ be32 0xabd6e7cb50984ff9c2f3e18a2660c3353dadf4e3291deeb275dae2cd1e44fe05#256, 0x91a929c9ec5705e488608361b51aeeb184fe55eb85793f3a420f51243ca22a37#256),
   (be32 0x2#256 ++ be32 0xabd6e7cb50984ff9c2f3e18a2660c3353dadf4e3291deeb275dae2cd1e44fe05#256, 0x3ee599b7498e5f58c0cf496e6a67fe2810c85ff58f1b3809c5e04df57a6aac5d#256),
   (be32 0x3#256 ++ be32 0xabd6e7cb50984ff9c2f3e18a2660c3353dadf4e3291deeb275dae2cd1e44fe05#256, 0x3b6e0960102b35c1db694ba6b177dcaa59c66c9ba0851b01eccff0beab171432#256),
   (be32 0x2#256 ++ be32 0x4#256, 0x91da3fd0782e51c6b3986e9e672fd566868e71f3dbc2d6c2cd6fbb3e361af2a7#256),
   (be32 0x0#256 ++ be32 0x91da3fd0782e51c6b3986e9e672fd566868e71f3dbc2d6c2cd6fbb3e361af2a7#256, 0x23a8b3930d40243c6050962392c5f42a8d68219c31a95256ad251969f8898d7d#256),
   (be32 0x1#256 ++ be32 0x91da3fd0782e51c6b3986e9e672fd566868e71f3dbc2d6c2cd6fbb3e361af2a7#256, 0x6763387ad2d066a53cf4a1abdf70cd5bddab334e579a9ba59bf3a7a53cda81ca#256),
   (be32 0x2#256 ++ be32 0x91da3fd0782e51c6b3986e9e672fd566868e71f3dbc2d6c2cd6fbb3e361af2a7#256, 0x88fd72165bcd3228b2975728293d34e1dc5b10f8d02106c2da453d97ba88259e#256),
   (be32 0x3#256 ++ be32 0x91da3fd0782e51c6b3986e9e672fd566868e71f3dbc2d6c2cd6fbb3e361af2a7#256, 0x4d16478f263168393d7809adc880ac5e7305b6a7c70b135338e83054c1d8c637#256),
   (be32 0x0#256 ++ be32 0x5#256, 0x5b8ccbb9d4d8fb16ea74ce3c29a41f1b461fbdaff4714a0d9a8eb05499746bc#256),
   (be32 0x1#256 ++ be32 0x5#256, 0x1471eb6eb2c5e789fc3de43f8ce62938c7d1836ec861730447e2ada8fd81017b#256),
   (be32 0x2#256 ++ be32 0x5#256, 0x89832631fb3c3307a103ba2c84ab569c64d6182a18893dcd163f0f1c2090733a#256),
   (be32 0x6#256, 0xf652222313e28459528d920b65115c16c04f3efc82aaedc97be59f3f377c0d3f#256),
   (be32 0x0#256 ++ be32 0x7#256, 0x6d5257204ebe7d88fd91ae87941cb2dd9d8062b64ae5a2bd2d28ec40b9fbf6df#256),
   (be32 0x1#256 ++ be32 0x7#256, 0xb39221ace053465ec3453ce2b36430bd138b997ecea25c1043da0c366812b828#256),
   (be32 0x2#256 ++ be32 0x7#256, 0xb7c774451310d1be4108bc180d1b52823cb0ee0274a6c0081bcaf94f115fb96d#256)]

set_option maxRecDepth 100000 in
theorem sample_table : ∀ e ∈ sampleTable, keccak256 e.1 = e.2 := by
  rw [Proofs.KeccakFast.keccak256_eq]
  decide +kernel

theorem sample_cells {p : List Step} (h : Cells [0#160, 1#160, 2#160] [0#256, 1#256, 2#256] p) : p ∈ sampleCells := by
  have small : ∀ i : U256, (i.toNat ≤ [0#256, 1#256, 2#256].length ∨ i ∈ [0#256, 1#256, 2#256]) → i ∈ [0#256, 1#256, 2#256, 3#256] := by
    intro i hi
    have : i.toNat ≤ 3 := by
      rcases hi with h | h
      · exact h
      · simp only [List.mem_cons, List.not_mem_nil, or_false] at h
        rcases h with rfl | rfl | rfl <;> decide
    simp only [List.mem_cons, List.not_mem_nil, or_false]
    bv_omega
  unfold sampleCells
  dsimp only
  simp only [List.mem_append]
  rcases h with (⟨a, ha, rfl⟩ | ⟨a, ha, rfl⟩ | ⟨a, ha, rfl⟩ | ⟨a, ha, b, hb, rfl⟩) | rfl | ⟨a, ha, i, hi, rfl⟩ | ⟨i, hi, rfl⟩ | rfl | ⟨i, hi, rfl⟩ | ⟨i, hi, rfl⟩
  · exact .inl (List.mem_map_of_mem ha)
  · exact .inr (.inl (List.mem_map_of_mem ha))
  · exact .inr (.inr (.inl (List.mem_map_of_mem ha)))
  · exact .inr (.inr (.inr (.inl (List.mem_flatMap.mpr ⟨a, ha, List.mem_map_of_mem hb⟩))))
  · exact .inr (.inr (.inr (.inr (.inl (by simp)))))
  · exact .inr (.inr (.inr (.inr (.inr (.inl (List.mem_flatMap.mpr ⟨a, ha, List.mem_map_of_mem (small i hi)⟩))))))
  · exact .inr (.inr (.inr (.inr (.inr (.inr (.inl (List.mem_map_of_mem hi)))))))
  · exact .inr (.inr (.inr (.inr (.inl (by simp)))))
  · exact .inr (.inr (.inr (.inr (.inr (.inr (.inr (.inl (List.mem_map_of_mem (by
      simp only [List.length_cons, List.length_nil] at hi
      simp only [List.mem_cons, List.not_mem_nil, or_false]
      omega)))))))))
  · exact .inr (.inr (.inr (.inr (.inr (.inr (.inr (.inr (List.mem_map_of_mem hi))))))))

/-- With Keccak the hypotheses of the theorems hold. -/
theorem sample_setting : Setting keccak256 10 1000 [0#160, 1#160, 2#160] [0#256, 1#256, 2#256] :=
  ⟨by decide, by decide, by decide, by decide, by decide,
    Proofs.Separate.separate sampleCells sampleTable (fun _ => sample_cells) sample_table (by decide +kernel) (by decide +kernel)
      (by decide +kernel)⟩

/-- An account that asks, in a world without other contracts. -/
def by_ (a : Address) : Env := ⟨a, fun _ => none⟩

/-- Mints of two tokens, an approval, a transfer by the approved account, a transfer by someone who may not, a burn. -/
def sampleOps : List (Env × Enumerable.Call) :=
  [(by_ 1#160, .mint 1#160 1#256), (by_ 1#160, .mint 1#160 2#256), (by_ 1#160, .approve 2#160 1#256),
   (by_ 2#160, .transferFrom 1#160 2#160 1#256), (by_ 2#160, .transferFrom 1#160 2#160 2#256), (by_ 1#160, .burn 2#256)]

theorem sample_short : ∀ x ∈ sampleOps, (message (abi x.2).1 (abi x.2).2).length < 2 ^ 256 := by
  intro x hx
  simp only [sampleOps, List.mem_cons, List.not_mem_nil, or_false] at hx
  rcases hx with rfl | rfl | rfl | rfl | rfl | rfl <;>
    exact Proofs.Contracts.words_lt _ _ (by simp [abi, Spec.Contracts.arg]) (by simp [abi])

theorem sample_within (D : Decoder) : ∀ tx ∈ Spec.Contracts.sent abi sampleOps,
    Within keccak256 D [0#160, 1#160, 2#160] [0#256, 1#256, 2#256] tx := by
  intro tx htx
  obtain ⟨x, hx, rfl⟩ := List.mem_map.mp htx
  have hl := sample_short x hx
  simp only [sampleOps, List.mem_cons, List.not_mem_nil, or_false] at hx
  rcases hx with rfl | rfl | rfl | rfl | rfl | rfl <;>
    exact C114_call_within _ _ hl (by simp [by_]) (by simp [abi]) (by simp [abi])

/-- These operations do not ask receivers. -/
theorem sample_plain (D : Decoder) : Enumerable.run 1000 Enumerable.init
      (sampleOps.map fun x => ⟨x.1.caller, Calls.receivers721 keccak256 D x.1.world, x.2⟩) =
    Enumerable.run 1000 Enumerable.init (sampleOps.map fun x => ⟨x.1.caller, fun _ => none, x.2⟩) := by
  have key : ∀ (l : List (Env × Enumerable.Call)) (s : Enumerable.State),
      (∀ x ∈ l, ∀ s R R', Enumerable.exec 1000 s ⟨x.1.caller, R, x.2⟩ = Enumerable.exec 1000 s ⟨x.1.caller, R', x.2⟩) →
      Enumerable.run 1000 s (l.map fun x => ⟨x.1.caller, Calls.receivers721 keccak256 D x.1.world, x.2⟩) =
        Enumerable.run 1000 s (l.map fun x => ⟨x.1.caller, fun _ => none, x.2⟩) := by
    intro l
    induction l with
    | nil => intros; rfl
    | cons x l ih =>
      intro s hx
      unfold Enumerable.run at *
      rw [List.map_cons, List.map_cons, runOf_cons, runOf_cons, ih _ fun y hy => hx y (List.mem_cons_of_mem _ hy)]
      unfold stepOf
      rw [hx x List.mem_cons_self]
  refine key _ _ fun x hx => ?_
  simp only [sampleOps, List.mem_cons, List.not_mem_nil, or_false] at hx
  rcases hx with rfl | rfl | rfl | rfl | rfl | rfl <;> exact fun _ _ _ => rfl

-- the words of the deployed contract, after these messages: account 2 owns token 1, token 2 is gone, and token 1 is the only one listed
example (D : Decoder) {w : State} (hd : deploy keccak256 = some w) :
    let w' := after (entry keccak256 D 1000) w (Spec.Contracts.sent abi sampleOps)
    ask D 1000 (by_ 2#160) w' "ownerOf(uint256)" [.uint256 1#256] = some (values [.address 2#160]) ∧
    ask D 1000 (by_ 2#160) w' "ownerOf(uint256)" [.uint256 2#256] = none ∧
    ask D 1000 (by_ 2#160) w' "totalSupply()" [] = some (values [.uint256 1#256]) ∧
    ask D 1000 (by_ 2#160) w' "tokenByIndex(uint256)" [.uint256 0#256] = some (values [.uint256 1#256]) := by
  intro w'
  have q := fun (i : U256) (hi : i ∈ [0#256, 1#256, 2#256]) => question_within (D := D) (S := [0#160, 1#160, 2#160])
    (N := [0#256, 1#256, 2#256]) (env := by_ 2#160) (a := ZERO) (b := ZERO) (by simp [by_]) (by decide) (by decide) hi
  have aw := fun {sg args} => ask_words (sg := sg) (args := args) sample_setting hd (sample_within D) (asker := by_ 2#160)
  have e := Contracts.Erc721Contract.C103_erc721_sends D 1000 Enumerable.init sampleOps sample_short
  rw [sample_plain] at e
  refine ⟨?_, ?_, ?_, ?_⟩
  · rw [show ask D 1000 _ w' _ _ = _ from aw (q 1#256 (by decide)).2.1, e,
      (Contracts.Erc721Contract.answers D 1000 _ _ 0#160 0#160 _).2.1]
    decide +kernel
  · rw [show ask D 1000 _ w' _ _ = _ from aw (q 2#256 (by decide)).2.1, e,
      (Contracts.Erc721Contract.answers D 1000 _ _ 0#160 0#160 _).2.1]
    decide +kernel
  · rw [show ask D 1000 _ w' _ _ = _ from aw (q 0#256 (by decide)).2.2.2.2.1, e,
      (Contracts.Erc721Contract.answers D 1000 _ _ 0#160 0#160 0#256).2.2.2.2.1]
    decide +kernel
  · rw [show ask D 1000 _ w' _ _ = _ from aw (q 0#256 (by decide)).2.2.2.2.2.1, e,
      (Contracts.Erc721Contract.answers D 1000 _ _ 0#160 0#160 _).2.2.2.2.2]
    decide +kernel

-- C114_words: the vector of all tokens has one element, and it is token 1
example (D : Decoder) {w : State} (hd : deploy keccak256 = some w) :
    let w' := after (entry keccak256 D 1000) w (Spec.Contracts.sent abi sampleOps)
    Constructors.get keccak256 erc721Example w'.words [.field "enumerable", .field "all_tokens"] = some 1#256 ∧
    Constructors.get keccak256 erc721Example w'.words [.field "enumerable", .field "all_tokens", .index 0] = some 1#256 := by
  obtain ⟨h1, _, h2, _⟩ := C114_words sample_setting hd D _ (sample_within D)
  have e := Contracts.Erc721Contract.C103_erc721_sends D 1000 Enumerable.init sampleOps sample_short
  rw [sample_plain] at e
  have en : (Enumerable.run 1000 Enumerable.init (sampleOps.map fun x => ⟨x.1.caller, fun _ => none, x.2⟩)).lists.allTokens = [1#256] := by
    decide +kernel
  have el : (after (fun env s value input => Abi.entry keccak256 D Router.erc721Example (Contracts.erc721 keccak256 D 1000 env) s value input)
    Enumerable.init (Spec.Contracts.sent abi sampleOps)).lists.allTokens = [1#256] := by
    rw [show after (fun env s value input => Abi.entry keccak256 D Router.erc721Example (Contracts.erc721 keccak256 D 1000 env) s value input)
      Enumerable.init (Spec.Contracts.sent abi sampleOps) = _ from e]
    exact en
  dsimp only at h1 h2
  generalize (after (fun env s value input => Abi.entry keccak256 D Router.erc721Example (Contracts.erc721 keccak256 D 1000 env) s value input)
    Enumerable.init (Spec.Contracts.sent abi sampleOps)).lists.allTokens = L at h1 h2 el
  subst el
  exact ⟨h1, h2 0 (by decide)⟩

end Verif.Props.NftDeployed
