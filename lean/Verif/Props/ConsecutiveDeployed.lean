import Verif.Proofs.ConsecutiveDeployedRun
import Verif.Proofs.Separate
import Verif.Props.ContractsErc721
/-!
# C124: the ERC-721 example with batches as deployed: constructor, calldata, storage words

Nothing of the other models is left in the statements but the contract on words (`Verif.Model.ConsecutiveDeployed`), with its
constructor written in Solidity.  `S` are the accounts and `N` the tokens that take part.  Of them it is asked that the hash values of
their storage cells do not coincide (`Setting`), as in C98 and C113.  The batches may hold any number of tokens, in `N` or not.
-/
namespace Verif.Props.ConsecutiveDeployed
open Verif Verif.Storage Verif.ConsecutiveDeployed Verif.Spec.ConsecutiveDeployed Verif.Proofs.ConsecutiveDeployed
open Verif.Abi (Val Decoder Outcome)
open Verif.Contracts (Env)
open Verif.Spec.Keccak (keccak256)
open Verif.Spec.Contracts (Raw after message values Says)
open Verif.Spec.Consecutive (total batchOwner)
open Verif.Props.Contracts.Erc721ConsecutiveContract (abi Op)

/-- What an account gets to know that asks a question: the bytes of the answer, `none` if it is refused. -/
abbrev ask (D : Decoder) := Spec.Contracts.answer (entry keccak256 D)

/-- The constructor, given the batches as pairs of a receiver and a number of tokens. -/
abbrev deployed (K : Hash) (bs : List (Address × U96)) (first mx : U96) : Option State :=
  deploy K (bs.map fun b => b.1) (bs.map fun b => b.2) first mx

section
variable {K : Hash} {n : Nat} {S : List Address} {N : List U256} {bs : List (Address × U96)} {first mx : U96}

/-- **C124** Deployment succeeds exactly if the tokens fit below `2^96` and no batch with tokens goes to the zero address or is larger
than allowed. -/
theorem C124_deploy (h : Setting K n S N (bs.map fun b => b.1)) :
    (∃ w, deployed K bs first mx = some w) ↔
      first.toNat + total bs < 2 ^ 96 ∧ ∀ b ∈ bs, b.2 ≠ 0#96 → b.1 ≠ ZERO ∧ b.2.toNat ≤ mx.toNat := by
  constructor
  · rintro ⟨w, hd⟩
    obtain ⟨h1, s, h2, _⟩ := inv_deploy h hd
    exact ⟨h1, (Props.Consecutive.C53_deploy_succeeds_iff first mx bs h1).mp ⟨s, h2⟩⟩
  · rintro ⟨h1, h2⟩
    obtain ⟨s, hs⟩ := (Props.Consecutive.C53_deploy_succeeds_iff first mx bs h1).mpr h2
    have hc := (Props.ConsecutiveConstructor.C99_consecutive first mx bs s).mpr ⟨h1, hs⟩
    have ha := deploy_agree h (bs.map fun b => b.2) first mx
    rw [hc] at ha
    cases hd : deploy K (bs.map fun b => b.1) (bs.map fun b => b.2) first mx with
    | none => rw [hd] at ha; exact ha.elim
    | some w => exact ⟨w, hd⟩

/-- **C124** The lists of the constructor need not have the same length: amounts that are left over are ignored, missing ones make it
revert. -/
theorem C124_lengths {receivers : List Address} (h : Setting K n S N receivers) (amounts : List U96) :
    (amounts.length < receivers.length → deploy K receivers amounts first mx = none) ∧
    (receivers.length ≤ amounts.length →
      deploy K receivers amounts first mx = deployed K (receivers.zip amounts) first mx) := by
  constructor
  · intro hl
    have ha := deploy_agree h amounts first mx
    rw [(Props.ConsecutiveConstructor.C99_consecutive_lengths receivers amounts first mx).1 hl] at ha
    cases hd : deploy K receivers amounts first mx with
    | none => rfl
    | some w => rw [hd] at ha; exact ha.elim
  · have key : ∀ (l : List Address) (am : List U96), l.length ≤ am.length →
        solLoop l am = solLoop ((l.zip am).map fun b => b.1) ((l.zip am).map fun b => b.2) := by
      intro l
      induction l with
      | nil => intro am _; rfl
      | cons r l ih =>
        intro am hl
        cases am with
        | nil => exact absurd hl (by simp)
        | cons a am =>
          show (solMint r a).bind _ = (solMint r a).bind _
          rw [ih am (by simpa using hl)]
          rfl
    intro hl
    unfold deployed deploy solConstruct
    rw [key receivers amounts hl]

/-- **C124** Bytes in, bytes out, with nothing between but words of storage: after any list of transactions, a transaction is
answered with the same bytes as by the contract with independent mappings and lists that C103 is about, deployed with the same batches,
and the events are the same. -/
theorem C124_answers (h : Setting K n S N (bs.map fun b => b.1)) {w : State} (hd : deployed K bs first mx = some w) (D : Decoder)
    (txs : List (Raw Env)) (tx : Raw Env) (hx : ∀ tx' ∈ txs ++ [tx], Within K D S N tx') :
    let run env s value input := Abi.entry K D Router.erc721ConsecutiveExample (Contracts.erc721Consecutive K D env) s value input
    let w' := after (entry K D) w txs
    ∃ s0, Consecutive.deploy first mx bs = .ok s0 ∧
    Spec.Deployed.answer (entry K D tx.env w' tx.value tx.input) =
      Spec.Deployed.answer (run tx.env (after run s0 txs) tx.value tx.input) ∧
    (w'.log.filterMap fun | .token e => some e | _ => none) = (after run s0 txs).erc721.log ∧
    (w'.log.filterMap fun | .batch e => some e | _ => none) = (after run s0 txs).batchLog := by
  intro run w'
  obtain ⟨_, s0, hs, hi⟩ := inv_deploy h hd
  have hi := inv_run h D txs hi fun tx' h => hx tx' (List.mem_append_left _ h)
  refine ⟨s0, hs, (inv_step h D hi (hx tx (List.mem_append_right _ (by simp)))).1, ?_⟩
  obtain ⟨_, c, _, hv⟩ := hi
  rw [show after run s0 txs = _ from hv.symm]
  exact ⟨rfl, rfl⟩

end

/-! ## What well-formed calls are about -/

theorem arguments_message {D : Decoder} {env : Env} {value : U256} {sg t : String} {f : Router.Fn} {args args' : List Val}
    (hs : sg ∈ Spec.Router.erc721ConsecutiveExample.map Prod.fst)
    (hr : Props.Router.routeSig Router.erc721ConsecutiveExample sg = some (t, f))
    (ht : args.map Val.type = Abi.flat f.args) (hl : (message sg args).length < 2 ^ 256)
    (h : Arguments keccak256 D ⟨env, value, message sg args⟩ args') : args' = args := by
  obtain ⟨⟨_, t', n⟩, hm, rfl⟩ := List.mem_map.mp hs
  obtain ⟨t1, f1, h1, h2⟩ := h
  have hc := Contracts.Erc721ConsecutiveContract.mem
  dsimp only at h1 h2
  unfold message at *
  rw [← Proofs.Contracts.encode_values] at *
  rw [← Proofs.Entry.be4_selector] at h1 h2 hl
  rw [Proofs.Entry.selectorOf_be4, Props.Router.route_selector hc (Props.Router.rows_ok _ hc _ hm).1, hr] at h1
  cases h1
  rw [List.length_append] at hl
  rw [List.drop_left' (Proofs.Entry.be4_length _), ← ht, D.complete args (by omega)] at h2
  exact (Option.some.inj h2).symm

section
variable {n : Nat} {S : List Address} {N : List U256} {bs : List (Address × U96)} {first mx : U96} {D : Decoder} {env : Env}

/-- A well-formed call is about its sender and its arguments. -/
theorem within {value : U256} {sg t : String} {f : Router.Fn} {args : List Val}
    (hs : sg ∈ Spec.Router.erc721ConsecutiveExample.map Prod.fst)
    (hr : Props.Router.routeSig Router.erc721ConsecutiveExample sg = some (t, f))
    (ht : args.map Val.type = Abi.flat f.args) (hl : (message sg args).length < 2 ^ 256) (hc : env.caller ∈ S)
    (ha : ∀ a, Val.address a ∈ args → a ∈ S) (hv : ∀ v, Val.uint256 v ∈ args → v ∈ N) :
    Within keccak256 D S N ⟨env, value, message sg args⟩ := by
  refine ⟨hc, fun args' h => ?_, fun args' h => ?_⟩
  · rw [arguments_message hs hr ht hl h]; exact ha
  · rw [arguments_message hs hr ht hl h]; exact hv

set_option maxRecDepth 100000 in
/-- **C124** A call of a function that changes the state is about its sender and its arguments. -/
theorem C124_call_within (op : Op) (value : U256) (hl : (message (abi op).1 (abi op).2).length < 2 ^ 256)
    (hc : env.caller ∈ S) (ha : ∀ a, Val.address a ∈ (abi op).2 → a ∈ S) (hv : ∀ v, Val.uint256 v ∈ (abi op).2 → v ∈ N) :
    Within keccak256 D S N ⟨env, value, message (abi op).1 (abi op).2⟩ := by
  cases op <;> exact within (by simp [abi, Spec.Router.erc721ConsecutiveExample]) rfl rfl hl hc ha hv

set_option maxRecDepth 100000 in
/-- A question about accounts is about these and the account that asks. -/
theorem asks_account {a b : Address} (hc : env.caller ∈ S) (ha : a ∈ S) (hb : b ∈ S) :
    Within keccak256 D S N ⟨env, 0#256, message "balanceOf(address)" [.address a]⟩ ∧
    Within keccak256 D S N ⟨env, 0#256, message "isApprovedForAll(address,address)" [.address a, .address b]⟩ := by
  refine ⟨?_, ?_⟩ <;>
    exact within (by simp [Spec.Router.erc721ConsecutiveExample]) rfl rfl
      (Proofs.Contracts.words_lt _ _ (by simp [Spec.Contracts.arg]) (by simp)) hc (by simp_all) (by simp_all)

set_option maxRecDepth 100000 in
/-- A question about a token is about this and the account that asks. -/
theorem asks_token {i : U256} (hc : env.caller ∈ S) (hi : i ∈ N) :
    Within keccak256 D S N ⟨env, 0#256, message "ownerOf(uint256)" [.uint256 i]⟩ ∧
    Within keccak256 D S N ⟨env, 0#256, message "getApproved(uint256)" [.uint256 i]⟩ := by
  refine ⟨?_, ?_⟩ <;>
    exact within (by simp [Spec.Router.erc721ConsecutiveExample]) rfl rfl
      (Proofs.Contracts.words_lt _ _ (by simp [Spec.Contracts.arg]) (by simp)) hc (by simp_all) (by simp_all)

theorem reply_of_answer {σ τ : Type} {o : Outcome σ} {o' : Outcome τ} (h : Spec.Deployed.answer o = Spec.Deployed.answer o') :
    o.reply = o'.reply := by
  cases o <;> cases o' <;> simp_all [Spec.Deployed.answer, Outcome.reply]

theorem answer_words (h : Setting keccak256 n S N (bs.map fun b => b.1)) {w : State} (hd : deployed keccak256 bs first mx = some w)
    {s0 : Consecutive.State} (hs : Consecutive.deploy first mx bs = .ok s0) {txs : List (Raw Env)}
    (hx : ∀ tx ∈ txs, Within keccak256 D S N tx) {tx : Raw Env} (hq : Within keccak256 D S N tx) :
    Spec.Deployed.answer (entry keccak256 D tx.env (after (entry keccak256 D) w txs) tx.value tx.input) =
    Spec.Deployed.answer (Contracts.Erc721ConsecutiveContract.run D tx.env
      (after (Contracts.Erc721ConsecutiveContract.run D) s0 txs) tx.value tx.input) := by
  obtain ⟨_, s, e, hi⟩ := inv_deploy h hd
  rw [hs] at e
  injection e with e
  subst e
  have hm : model keccak256 D = Contracts.Erc721ConsecutiveContract.run D := rfl
  rw [← hm]
  exact (inv_step h D (inv_run h D txs hi hx) hq).1

theorem ask_words (h : Setting keccak256 n S N (bs.map fun b => b.1)) {w : State} (hd : deployed keccak256 bs first mx = some w)
    {s0 : Consecutive.State} (hs : Consecutive.deploy first mx bs = .ok s0) {txs : List (Raw Env)}
    (hx : ∀ tx ∈ txs, Within keccak256 D S N tx) {asker : Env} {sg : String} {args : List Val}
    (hq : Within keccak256 D S N ⟨asker, 0#256, message sg args⟩) :
    ask D asker (after (entry keccak256 D) w txs) sg args =
      Spec.Contracts.answer (Contracts.Erc721ConsecutiveContract.run D) asker
        (after (Contracts.Erc721ConsecutiveContract.run D) s0 txs) sg args := by
  have e := answer_words h hd hs hx hq
  dsimp only at e
  unfold ask Spec.Contracts.answer
  exact reply_of_answer e

/-! ## Seen from outside -/

/-- **C124** With bytes only: after any list of transactions to the deployed contract, sent by accounts of `S` about accounts of `S`
and tokens of `N`, every token has an owner or none.  `ownerOf` answers the owner, and reverts with the bytes of
`ERC721NonexistentToken` if there is none; `balanceOf` answers the number of tokens of an account; tokens outside `N` are still with the
owner that their batch gave them, and before the first transaction all tokens are. -/
theorem C124_outside (h : Setting keccak256 n S N (bs.map fun b => b.1)) {w : State} (hd : deployed keccak256 bs first mx = some w)
    {txs : List (Raw Env)} (hx : ∀ tx ∈ txs, Within keccak256 D S N tx) {asker : Env} (hc : asker.caller ∈ S) :
    let w' := after (entry keccak256 D) w txs
    ∃ owner : U256 → Option Address,
      (∀ id ∈ N, Spec.Deployed.answer (entry keccak256 D asker w' 0#256 (message "ownerOf(uint256)" [.uint256 id])) =
        match owner id with
        | some a => .ok (values [.address a])
        | none => .error (Spec.Calls.call "ERC721NonexistentToken(uint256)" [id])) ∧
      (∀ a ∈ S, a ≠ ZERO → (∃ id, owner id ≠ some a) → ∃ v : U256,
        ask D asker w' "balanceOf(address)" [.address a] = some (values [.uint256 v]) ∧
        v.toNat = (Finset.univ.filter fun id => owner id = some a).card) ∧
      (∀ id, id ∉ N → owner id = batchOwner first.toNat bs id.toNat) ∧
      (txs = [] → ∀ id, owner id = batchOwner first.toNat bs id.toNat) := by
  intro w'
  obtain ⟨hroom, s0, hs, hi⟩ := inv_deploy h hd
  have hg : Good (Consecutive.own s0) S N _ (after (Contracts.Erc721ConsecutiveContract.run D) s0 txs) := (inv_run h D txs hi hx).1
  obtain ⟨owner, h1, h2, h3⟩ := Contracts.Erc721ConsecutiveContract.C103_erc721_consecutive_outside D first mx bs s0 hroom hs txs asker
  refine ⟨owner, fun id hid => ?_, fun a ha hz hsome => ?_, fun id hid => ?_, h3⟩
  · rw [show Spec.Deployed.answer (entry keccak256 D asker w' 0#256 (message "ownerOf(uint256)" [.uint256 id])) = _ from
      answer_words h hd hs hx (tx := ⟨asker, 0#256, message "ownerOf(uint256)" [.uint256 id]⟩) (asks_token hc hid).1]
    dsimp only
    rw [h1 id]
    cases owner id <;> rfl
  · rw [show ask D asker w' "balanceOf(address)" [.address a] = _ from ask_words h hd hs hx (asks_account hc ha ha).1]
    exact h2 a hz hsome
  · have e : owner id = Spec.Erc721.nobody (Consecutive.own (after (Contracts.Erc721ConsecutiveContract.run D) s0 txs) id) := by
      have e1 := h1 id
      rw [(Contracts.Erc721ConsecutiveContract.owner_views D asker hg.inv id).1] at e1
      unfold Spec.Erc721.nobody
      change (if Consecutive.own _ id = ZERO then _ else Outcome.returned _ (values [.address (Consecutive.own _ id)])) = _ at e1
      by_cases hz : Consecutive.own (after (Contracts.Erc721ConsecutiveContract.run D) s0 txs) id = ZERO
      · rw [if_pos hz] at e1 ⊢
        cases ho : owner id with
        | none => rfl
        | some a => rw [ho] at e1; cases e1
      · rw [if_neg hz] at e1 ⊢
        cases ho : owner id with
        | none => rw [ho] at e1; cases e1
        | some a =>
          rw [ho] at e1
          injection e1 with _ e1
          rw [Proofs.Contracts.address_inj e1]
    rw [e, hg.outside id hid, ← Props.Consecutive.C53_batches_own_their_ranges first mx bs s0 hroom hs id]
    exact (Contracts.Erc721ConsecutiveContract.owner_eq (Consecutive.deploy_effect hroom hs).1 id).symm

/-- **C124** With bytes only: if a transaction to the deployed contract changes the answer to `ownerOf(id)`, then the sender was
the owner, or `getApproved(id)` had answered the sender, or `isApprovedForAll` had answered that they are the owner's operator; or the
input is a call of `burn(id)`, which this contract opens to everybody. -/
theorem C124_who_moves (h : Setting keccak256 n S N (bs.map fun b => b.1)) {w : State} (hd : deployed keccak256 bs first mx = some w)
    {txs : List (Raw Env)} {tx : Raw Env} (hx : ∀ tx' ∈ txs ++ [tx], Within keccak256 D S N tx') {asker : Env} (hc : asker.caller ∈ S)
    {id : U256} (hid : id ∈ N) {a : Address} :
    let w1 := after (entry keccak256 D) w txs
    let w2 := after (entry keccak256 D) w (txs ++ [tx])
    ask D asker w1 "ownerOf(uint256)" [.uint256 id] = some (values [.address a]) →
    ask D asker w2 "ownerOf(uint256)" [.uint256 id] ≠ some (values [.address a]) →
    tx.env.caller = a ∨ ask D asker w1 "getApproved(uint256)" [.uint256 id] = some (values [.address tx.env.caller]) ∨
    ask D asker w1 "isApprovedForAll(address,address)" [.address a, .address tx.env.caller] = some (values [.bool true]) ∨
    Says D tx.input "burn(uint256)" [.uint256 id] := by
  intro w1 w2 hb ha
  have h1 : ∀ tx' ∈ txs, Within keccak256 D S N tx' := fun tx' h' => hx tx' (List.mem_append_left _ h')
  have hsd : tx.env.caller ∈ S := (hx tx (List.mem_append_right _ (by simp))).sender
  obtain ⟨hroom, s0, hs, hi⟩ := inv_deploy h hd
  have hg : Good (Consecutive.own s0) S N _ (after (Contracts.Erc721ConsecutiveContract.run D) s0 txs) := (inv_run h D txs hi h1).1
  rw [show ask D asker w1 "ownerOf(uint256)" [.uint256 id] = _ from ask_words h hd hs h1 (asks_token hc hid).1] at hb
  rw [show ask D asker w2 "ownerOf(uint256)" [.uint256 id] = _ from ask_words h hd hs hx (asks_token hc hid).1] at ha
  have haS : a ∈ S := by
    have e := hb
    unfold Spec.Contracts.answer at e
    rw [(Contracts.Erc721ConsecutiveContract.owner_views D asker hg.inv id).1] at e
    split at e
    · cases e
    · rw [← Proofs.Contracts.address_inj (Option.some.inj e)]
      exact owner_mem h.zero hg hid (Consecutive.ownerOfInternal_eq hg.inv.sorted id)
  rw [show ask D asker w1 "getApproved(uint256)" [.uint256 id] = _ from ask_words h hd hs h1 (asks_token hc hid).2,
    show ask D asker w1 "isApprovedForAll(address,address)" [.address a, .address tx.env.caller] = _ from
      ask_words h hd hs h1 (asks_account hc haS hsd).2]
  exact Contracts.Erc721ConsecutiveContract.C103_erc721_consecutive_who_moves D first mx bs s0 hroom hs txs tx asker id a hb ha

/-- **C124** With bytes only: anybody of `S` but the zero address can burn any token of `N` that exists, with the message of
`burn(id)`; afterwards `ownerOf(id)` reverts. -/
theorem C124_anybody_burns (h : Setting keccak256 n S N (bs.map fun b => b.1)) {w : State} (hd : deployed keccak256 bs first mx = some w)
    {txs : List (Raw Env)} (hx : ∀ tx ∈ txs, Within keccak256 D S N tx) {asker : Env} (hc : asker.caller ∈ S) (hb : env.caller ∈ S)
    (hz : env.caller ≠ ZERO) {id : U256} (hid : id ∈ N)
    (he : ask D asker (after (entry keccak256 D) w txs) "ownerOf(uint256)" [.uint256 id] ≠ none) :
    let w2 := after (entry keccak256 D) w (txs ++ [⟨env, 0#256, message "burn(uint256)" [.uint256 id]⟩])
    Spec.Deployed.answer (entry keccak256 D asker w2 0#256 (message "ownerOf(uint256)" [.uint256 id])) =
      .error (Spec.Calls.call "ERC721NonexistentToken(uint256)" [id]) := by
  intro w2
  obtain ⟨hroom, s0, hs, _⟩ := inv_deploy h hd
  have hburn : Within keccak256 D S N ⟨env, 0#256, message "burn(uint256)" [.uint256 id]⟩ :=
    C124_call_within (.burn id) 0#256 (Proofs.Contracts.words_lt _ _ (by simp [abi, Spec.Contracts.arg]) (by simp [abi])) hb
      (by simp [abi]) (by simp [abi, hid])
  have hx2 : ∀ tx ∈ txs ++ [⟨env, 0#256, message "burn(uint256)" [.uint256 id]⟩], Within keccak256 D S N tx := by
    intro tx' h'
    rcases List.mem_append.mp h' with h' | h'
    · exact hx tx' h'
    · rw [List.mem_singleton.mp h']; exact hburn
  rw [ask_words h hd hs hx (asks_token hc hid).1] at he
  have e := Contracts.Erc721ConsecutiveContract.C103_erc721_consecutive_anybody_burns D first mx bs s0 hroom hs txs env asker hz id he
  rw [show Spec.Deployed.answer (entry keccak256 D asker w2 0#256 (message "ownerOf(uint256)" [.uint256 id])) = _ from
      answer_words h hd hs hx2 (tx := ⟨asker, 0#256, message "ownerOf(uint256)" [.uint256 id]⟩) (asks_token hc hid).1]
  dsimp only
  rw [e]
  rfl

end

/-! ## The hypotheses are met -/

/-- The cells of three accounts, three tokens and two batches. -/
def sampleCells : List (List Step) :=
  let A := [0#160, 1#160, 2#160]
  let N := [0#256, 1#256, 2#256]
  N.map (Erc721Words.owner token) ++ (A.map (Erc721Words.balance token) ++ (N.map (Erc721Words.approved token) ++
    ((A.flatMap fun a => A.map (Erc721Words.operator token a)) ++
    [firstCell, maxCell, bucket 0#256, count, keyAt 0, keyAt 1, valueAt 0, valueAt 1])))

/-- What is hashed on the way to them, and the hash values. -/
def sampleTable : List (Bytes × U256) :=
  [(be32 0x0#256 ++ be32 0x0#256, 0xad3228b676f7d3cd4284a5443f17f1962b36e491b30a40b2405849e597ba5fb5#256),
   (be32 0x1#256 ++ be32 0x0#256, 0xada5013122d395ba3c54772283fb069b10426056ef8ca54750cb9bb552a59e7d#256),
   (be32 0x2#256 ++ be32 0x0#256, 0xabbb5caa7dda850e60932de0934eb1f9d0f59695050f761dc64e443e5030a569#256),
   (be32 0x0#256 ++ be32 0x1#256, 0xa6eef7e35abe7026729641147f7915573c7e97b47efa546f5f6e3230263bcb49#256),
   (be32 0x1#256 ++ be32 0x1#256, 0xcc69885fda6bcc1a4ace058b4a62bf5e179ea78fd58a1ccd71c22cc9b688792f#256),
   (be32 0x2#256 ++ be32 0x1#256, 0xd9d16d34ffb15ba3a3d852f0d403e2ce1d691fb54de27ac87cd2f993f3ec330f#256),
   (be32 0x0#256 ++ be32 0x2#256, 0xac33ff75c19e70fe83507db0d683fd3465c996598dc972688b7ace676c89077b#256),
   (be32 0x1#256 ++ be32 0x2#256, 0xe90b7bceb6e7df5418fb78d8ee546e97c83a08bbccc01a0644d599ccd2a7c2e0#256),
   (be32 0x2#256 ++ be32 0x2#256, 0x679795a0195a1b76cdebb7c51d74e058aee92919b8c3389af86ef24535e8a28c#256),
   (be32 0x0#256 ++ be32 0x3#256, 0x3617319a054d772f909f7c479a2cebe5066e836a939412e32403c99029b92eff#256),
   (be32 0x0#256 ++ be32 0x3617319a054d772f909f7c479a2cebe5066e836a939412e32403c99029b92eff#256, 0x84fa35e963a209ed7b6693816f0819bcb70c934337c6902235d48a9c59ebe6eb#256),
   (be32 0x1#256 ++ be32 0x3617319a054d772f909f7c479a2cebe5066e836a939412e32403c99029b92eff#256, 0xf5d2b9d7b7dcf31fafb527f48cb641b3e286ba85117ea973378ae75f2b0f27c9#256),
   (be32 0x2#256 ++ be32 0x3617319a054d772f909f7c479a2cebe5066e836a939412e32403c99029b92eff#256, 0xcd92e5b4e6598c1949a71e034c2db052fecdb0cbb23287b5cc133a4ab147474#256),
   (be32 0x1#256 ++ be32 0x3#256, 0xa15bc60c955c405d20d9149c709e2460f1c2d9a497496a7f46004d1772c3054c#256),
   (be32 0x0#256 ++ be32 0xa15bc60c955c405d20d9149c709e2460f1c2d9a497496a7f46004d1772c3054c#256, 0xeb972bfd9e24bc26d8a6be6cef621408cbdcf8fa2ccd03b0e5bf1d9b7c401dee#256),
   (be32 0x1#256 ++ be32 0xa15bc60c955c405d20d9149c709e2460f1c2d9a497496a7f46004d1772c3054c#256, 0xfb8d863de1250aa620936e91467e1af01a92eb0e70a9507f29fbc3ded4c65f25#256),
   (be32 0x2#256 ++ be32 0xa15bc60c955c405d20d9149c709e2460f1c2d9a497496a7f46004d1772c3054c#256, 0x63383099118369e3b7e10810450c200ba30ca74f16a798c21d846e7b8f29f8e5#256),
   (be32 0x2#256 ++ be32 0x3#256, 0xc3a24b0501bd2c13a7e57f2db4369ec4c223447539fc0724a9d55ac4a06ebd4d#256),
   (be32 0x0#256 ++ be32 0xc3a24b0501bd2c13a7e57f2db4369ec4c223447539fc0724a9d55ac4a06ebd4d#256, 0xc29ccf1405d46e3650025b4cb3dd2c6fea976ca3366b6639ae6c9b22378c9255#256),
   (be32 0x1#256 ++ be32 0xc3a24b0501bd2c13a7e57f2db4369ec4c223447539fc0724a9d55ac4a06ebd4d#256, 0x7cc2ad579ffe0e9670c4ed407723dde34cdc5f3ce03ea5a5fd278a558b291aec#256),
   (be32 0x2#256 ++ be32 0xc3a24b0501bd2c13a7e57f2db4369ec4c223447539fc0724a9d55ac4a06ebd4d#256, 0xae01d7727e6eee9de04cfde373d61a6d46a5148baca09e4486c66e17138a24b0#256),
   (be32 0x4#256, 0x8a35acfbc15ff81a39ae7d344fd709f28e8600b4aa8c65c6b64bfe7fe36bd19b#256),
   (be32 0x0#256 ++ be32 0x5#256, 0x5b8ccbb9d4d8fb16ea74ce3c29a41f1b461fbdaff4714a0d9a8eb05499746bc#256)]

set_option maxRecDepth 100000 in
theorem sample_table : ∀ e ∈ sampleTable, keccak256 e.1 = e.2 := by
  rw [Proofs.KeccakFast.keccak256_eq]
  decide +kernel

theorem sample_cells {p : List Step} (h : Cells [0#160, 1#160, 2#160] [0#256, 1#256, 2#256] 2 p) : p ∈ sampleCells := by
  unfold sampleCells
  dsimp only
  simp only [List.mem_append]
  rcases h with (⟨a, ha, rfl⟩ | ⟨a, ha, rfl⟩ | ⟨a, ha, rfl⟩ | ⟨a, ha, b, hb, rfl⟩) | h
  · exact .inl (List.mem_map_of_mem ha)
  · exact .inr (.inl (List.mem_map_of_mem ha))
  · exact .inr (.inr (.inl (List.mem_map_of_mem ha)))
  · exact .inr (.inr (.inr (.inl (List.mem_flatMap.mpr ⟨a, ha, List.mem_map_of_mem hb⟩))))
  · refine .inr (.inr (.inr (.inr ?_)))
    have two : ∀ i < 2, i = 0 ∨ i = 1 := by omega
    rcases h with rfl | rfl | ⟨id, hid, rfl⟩ | rfl | ⟨i, hi, rfl⟩ | ⟨i, hi, rfl⟩
    · simp
    · simp
    · have hb : BitMap.getBucket id = 0#256 := by
        simp only [List.mem_cons, List.not_mem_nil, or_false] at hid
        rcases hid with rfl | rfl | rfl <;> decide
      rw [hb]
      simp
    · simp
    · rcases two i hi with rfl | rfl <;> simp
    · rcases two i hi with rfl | rfl <;> simp

/-- Two batches: two tokens for account 1, one for account 2. -/
def sampleBatches : List (Address × U96) := [(1#160, 2#96), (2#160, 1#96)]

/-- With Keccak the hypotheses of the theorems hold. -/
theorem sample_setting : Setting keccak256 10 [0#160, 1#160, 2#160] [0#256, 1#256, 2#256] (sampleBatches.map fun b => b.1) :=
  ⟨by decide, by decide, by simp [sampleBatches], by simp [sampleBatches],
    Proofs.Separate.separate sampleCells sampleTable (fun _ => sample_cells) sample_table (by decide +kernel) (by decide +kernel)
      (by decide +kernel)⟩

-- C124_deploy: these batches can be deployed; one token too many in a batch, and they cannot
example : (∃ w, deployed keccak256 sampleBatches 0#96 2#96 = some w) ∧ ¬ ∃ w, deployed keccak256 sampleBatches 0#96 1#96 = some w := by
  refine ⟨(C124_deploy sample_setting).mpr ⟨by decide, ?_⟩, fun h => ?_⟩
  · intro b hb _
    simp only [sampleBatches, List.mem_cons, List.not_mem_nil, or_false] at hb
    rcases hb with rfl | rfl <;> decide
  · have := ((C124_deploy sample_setting).mp h).2 (1#160, 2#96) (by simp [sampleBatches]) (by decide)
    exact absurd this.2 (by decide)

-- C124_lengths: an amount is missing; an amount is left over
example : deploy keccak256 [1#160, 2#160] [2#96] 0#96 2#96 = none ∧
    deploy keccak256 [1#160, 2#160] [2#96, 1#96, 7#96] 0#96 2#96 = deployed keccak256 sampleBatches 0#96 2#96 :=
  ⟨(C124_lengths (receivers := [1#160, 2#160]) sample_setting [2#96]).1 (by simp),
    (C124_lengths (receivers := [1#160, 2#160]) sample_setting [2#96, 1#96, 7#96]).2 (by simp)⟩

/-- An account that asks, in a world without other contracts. -/
def by_ (a : Address) : Env := ⟨a, fun _ => none⟩

-- account 1 has token 1 from its batch and account 2 has token 2; account 2 burns the token of account 1
example (D : Decoder) {w : State} (hd : deployed keccak256 sampleBatches 0#96 2#96 = some w) :
    ask D (by_ 1#160) w "ownerOf(uint256)" [.uint256 1#256] = some (values [.address 1#160]) ∧
    ask D (by_ 1#160) w "ownerOf(uint256)" [.uint256 2#256] = some (values [.address 2#160]) ∧
    Spec.Deployed.answer (entry keccak256 D (by_ 1#160)
      (after (entry keccak256 D) w [⟨by_ 2#160, 0#256, message "burn(uint256)" [.uint256 1#256]⟩]) 0#256
        (message "ownerOf(uint256)" [.uint256 1#256])) = .error (Spec.Calls.call "ERC721NonexistentToken(uint256)" [1#256]) := by
  have hw : ∀ i ∈ [0#256, 1#256, 2#256], ∀ a, batchOwner 0 sampleBatches i.toNat = some a →
      ask D (by_ 1#160) w "ownerOf(uint256)" [.uint256 i] = some (values [.address a]) := by
    intro i hi a ha
    obtain ⟨owner, h1, _, _, h4⟩ := C124_outside (D := D) sample_setting hd (txs := []) (by simp) (asker := by_ 1#160) (by simp [by_])
    have h1 := h1 i hi
    rw [h4 rfl i, show batchOwner (0#96).toNat sampleBatches i.toNat = some a from ha] at h1
    unfold ask Spec.Contracts.answer
    change Spec.Deployed.answer (entry keccak256 D (by_ 1#160) w 0#256 (message "ownerOf(uint256)" [.uint256 i])) = _ at h1
    cases hx : entry keccak256 D (by_ 1#160) w 0#256 (message "ownerOf(uint256)" [.uint256 i]) with
    | reverted d => rw [hx] at h1; cases h1
    | returned s d =>
      rw [hx] at h1
      have h1 : (.ok d : Except Bytes Bytes) = .ok (values [.address a]) := h1
      rw [Except.ok.inj h1]
      rfl
  have h1 := hw 1#256 (by simp) 1#160 (by decide +kernel)
  refine ⟨h1, hw 2#256 (by simp) 2#160 (by decide +kernel), ?_⟩
  exact C124_anybody_burns (D := D) (env := by_ 2#160) sample_setting hd (txs := []) (by simp) (asker := by_ 1#160) (by simp [by_])
    (by simp [by_]) (by simp [by_, ZERO]) (by simp) (by
      show ask D (by_ 1#160) w "ownerOf(uint256)" [.uint256 1#256] ≠ none
      rw [h1]
      simp)

end Verif.Props.ConsecutiveDeployed
