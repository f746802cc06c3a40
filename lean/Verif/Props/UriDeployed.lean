import Verif.Proofs.UriDeployed
import Verif.Props.MultiDeployed
import Verif.Props.PermitDeployed
import Verif.Props.ContractsErc721
/-!
# C118: `examples/erc721-metadata`, `examples/erc1155-metadata-uri` as deployed: calldata, storage words

Nothing of the other models is left in the statements but the contracts on words (`Verif.Model.UriDeployed`), except that
`C118_*_answers` compares them with the contracts of C103.  `S` are the accounts that take part, `N` the tokens, and no text is longer
than `L` words.  Of the accounts and tokens it is asked that the hash values of their storage cells do not coincide (`Apart`), as in C98,
C104 and C114 to C117; the cells are those of texts of any length up to `L` words.
-/
namespace Verif.Props.UriDeployed
open Verif Verif.Storage Verif.Spec.UriDeployed Verif.Props.OnWords
open Verif.Spec.MultiDeployed (tokensOf)
open Verif.Abi (Val Decoder Outcome)
open Verif.Spec.Keccak (keccak256)
open Verif.Spec.Contracts (Raw after message)
open Verif.Contracts (Env)

/-- A well-formed call is about its sender and its arguments. -/
theorem within {D : Decoder} {e : Spec.Router.Entry} (he : e ∈ Spec.Router.contracts) {S : List Address} {N : List U256} {L : Nat} {env : Env}
    {value : U256} {sg t : String} {f : Router.Fn} {args : List Val} (hs : sg ∈ e.abi.map Prod.fst)
    (hr : Props.Router.routeSig e.contract sg = some (t, f)) (ht : args.map Val.type = Abi.flat f.args)
    (hl : (message sg args).length < 2 ^ 256) (hc : env.caller ∈ S) (ha : ∀ a, Spec.MultiDeployed.Names args a → a ∈ S)
    (hn : ∀ id ∈ tokensOf args, id ∈ N) (hu : ∀ s, Val.string s ∈ args → Short L s) :
    Within keccak256 D e.contract S N L ⟨env, value, message sg args⟩ :=
  ⟨MultiDeployed.within he hs hr ht hl hc ha hn, fun args' h => by rw [arguments_message he hs hr ht hl h]; exact hu⟩

/-- The cells of a text of two words. -/
def sampleText (p : List Step) : List (List Step) := [p, p ++ [.index 0], p ++ [.index 1]]

theorem sample_text {p q : List Step} (h : Text p 2 q) : q ∈ sampleText p := by
  rcases h with rfl | ⟨i, hi, rfl⟩
  · simp [sampleText]
  · obtain rfl | rfl : i = 0 ∨ i = 1 := by omega
    all_goals simp [sampleText]

/-- A text of 37 bytes. -/
def long : List Char := "ipfs://0123456789abcdef0123456789abcd".toList

theorem long_short : Short 2 long := by unfold Short; decide +kernel

end Verif.Props.UriDeployed

namespace Verif.Props.Erc1155UriDeployed
open Verif Verif.Storage Verif.Erc1155UriDeployed Verif.Spec.Erc1155UriDeployed Verif.Proofs.Erc1155UriDeployed Verif.Spec.UriDeployed
open Verif.Props.OnWords Verif.Props.UriDeployed
open Verif.Props.MultiDeployed (plain sampleHoldings sample_holdings holdingsTable)
open Verif.Spec.MultiDeployed (tokensOf Names)
open Verif.Abi (Val Decoder Outcome)
open Verif.Deployed (Utf8)
open Verif.Spec.Keccak (keccak256)
open Verif.Spec.OnWords (Apart)
open Verif.Spec.Contracts (Raw after message values Says)
open Verif.Contracts (Env)
open Verif.Props.Contracts.Erc1155MetadataContract (abi mem Op)
open Verif.Metadata1155 (init)
open Verif.OnWords (State)

/-- What an account gets to know that asks a question: the bytes of the answer, `none` if it is refused. -/
abbrev ask (D : Decoder) (U : Utf8) := Spec.Contracts.answer (entry keccak256 D U)

/-- The transaction is about accounts of `S`, tokens of `N` and texts of at most `L` words. -/
abbrev About (D : Decoder) (S : List Address) (N : List U256) (L : Nat) (tx : Raw Env) : Prop :=
  Within keccak256 D Router.erc1155MetadataUriExample S N L tx

/-- **C118** Deployment with a default URI of at most `L` words succeeds. -/
theorem C118_erc1155_metadata_deploy {K : Hash} {n : Nat} {S : List Address} {N : List U256} {L : Nat}
    (h : Apart K n erc1155MetadataUriExample (Cells S N L)) {d : List Char} (hs : Short L d) : ∃ w, deploy K d = some w :=
  let ⟨w, hw, _⟩ := inv_deploy h hs
  ⟨w, hw⟩

/-- **C118** Bytes in, bytes out, with nothing between but words of storage: after any list of transactions, a transaction is
answered with the same bytes as by the contract with independent mappings and texts that C103 is about, and the events are the
same. -/
theorem C118_erc1155_metadata_answers {K : Hash} {n : Nat} {S : List Address} {N : List U256} {L : Nat} (hL : 32 * L < 2 ^ 255)
    (h : Apart K n erc1155MetadataUriExample (Cells S N L)) {d : List Char} (hs : Short L d) {w : State Ev}
    (hd : deploy K d = some w) (D : Decoder) (U : Utf8) (txs : List (Raw Env)) (tx : Raw Env)
    (hx : ∀ tx' ∈ txs ++ [tx], Within K D Router.erc1155MetadataUriExample S N L tx') :
    let run env s value input := Abi.entry K D Router.erc1155MetadataUriExample (Contracts.erc1155Metadata K D env) s value input
    let s := after run (init d) txs
    let w' := after (entry K D U) w txs
    Spec.Deployed.answer (entry K D U tx.env w' tx.value tx.input) = Spec.Deployed.answer (run tx.env s tx.value tx.input) ∧
    w'.log.filterMap Sum.getLeft? = s.erc1155.log ∧ w'.log.filterMap Sum.getRight? = s.uriStorage.events := by
  intro run s w'
  obtain ⟨w0, hw, hi⟩ := inv_deploy h hs
  rw [hd] at hw
  cases hw
  have hi := inv_run h hL D U txs hi fun tx' h => hx tx' (List.mem_append_left _ h)
  have hs' : s = after (Proofs.Erc1155UriDeployed.model K D) (init d) txs := rfl
  rw [hs']
  refine ⟨(inv_step h hL D U hi (hx tx (List.mem_append_right _ (by simp)))).1, ?_⟩
  obtain ⟨c, _, hr⟩ := hi
  exact ⟨by rw [hr.tokens]; rfl, hr.events.symm⟩

section
variable {n : Nat} {S : List Address} {N : List U256} {L : Nat} {D : Decoder} {U : Utf8} {d : List Char} {w : State Ev}

set_option maxRecDepth 100000 in
/-- **C118** A call of a function that changes the state is about its sender and its arguments. -/
theorem C118_erc1155_metadata_call_within {env : Env} (op : Op) (value : U256) (hl : (message (abi op).1 (abi op).2).length < 2 ^ 256)
    (hc : env.caller ∈ S) (ha : ∀ a, Names (abi op).2 a → a ∈ S) (hn : ∀ id ∈ tokensOf (abi op).2, id ∈ N)
    (hu : ∀ s, Val.string s ∈ (abi op).2 → Short L s) : About D S N L ⟨env, value, message (abi op).1 (abi op).2⟩ := by
  cases op <;> exact within mem (by simp [abi, Spec.Router.erc1155MetadataUriExample]) rfl rfl hl hc ha hn hu

set_option maxRecDepth 100000 in
/-- A question is about the account that asks and its arguments. -/
theorem question_within {env : Env} {a b : Address} {id : U256} (hc : env.caller ∈ S) (ha : a ∈ S) (hb : b ∈ S) (hi : id ∈ N) :
    About D S N L ⟨env, 0#256, message "balanceOf(address,uint256)" [.address a, .uint256 id]⟩ ∧
    About D S N L ⟨env, 0#256, message "isApprovedForAll(address,address)" [.address a, .address b]⟩ ∧
    About D S N L ⟨env, 0#256, message "uri(uint256)" [.uint256 id]⟩ := by
  refine ⟨?_, ?_, ?_⟩
  · exact within mem (by simp [Spec.Router.erc1155MetadataUriExample]) rfl rfl
      (Proofs.Contracts.words_lt _ _ (by simp [Spec.Contracts.arg]) (by simp)) hc (by simp [Names, ha]) (by simp [tokensOf, hi]) (by simp)
  · exact within mem (by simp [Spec.Router.erc1155MetadataUriExample]) rfl rfl
      (Proofs.Contracts.words_lt _ _ (by simp [Spec.Contracts.arg]) (by simp)) hc (by simp [Names, ha, hb]) (by simp [tokensOf]) (by simp)
  · exact within mem (by simp [Spec.Router.erc1155MetadataUriExample]) rfl rfl
      (Proofs.Contracts.words_lt _ _ (by simp [Spec.Contracts.arg]) (by simp)) hc (by simp [Names]) (by simp [tokensOf, hi]) (by simp)

theorem ask_words (hL : 32 * L < 2 ^ 255) (h : Apart keccak256 n erc1155MetadataUriExample (Cells S N L)) (hs : Short L d)
    (hd : deploy keccak256 d = some w) {txs : List (Raw Env)}
    (hx : ∀ tx ∈ txs, About D S N L tx) {asker : Env} {sg : String} {args : List Val} (hq : About D S N L ⟨asker, 0#256, message sg args⟩) :
    ask D U asker (after (entry keccak256 D U) w txs) sg args =
      Spec.Contracts.answer (Contracts.Erc1155MetadataContract.run D) asker
        (after (Contracts.Erc1155MetadataContract.run D) (init d) txs) sg args :=
  reply_of_answer (C118_erc1155_metadata_answers hL h hs hd D U txs ⟨asker, 0#256, message sg args⟩ (forall_append hx hq)).1

/-- The default URI of the contract of C103 is the one of the constructor. -/
theorem default_kept (D : Decoder) (d : List Char) (txs : List (Raw Env)) :
    (after (Contracts.Erc1155MetadataContract.run D) (init d) txs).metadataUri.uri = d := by
  obtain ⟨l, hl, _⟩ := Contracts.Erc1155MetadataContract.C103_erc1155_metadata_history D (init d) txs
  rw [hl]
  unfold Metadata1155.run
  have key : ∀ (l : List Metadata1155.Tx) (s : Metadata1155.State), s.metadataUri.uri = d → (runOf Metadata1155.exec s l).metadataUri.uri = d := by
    intro l
    induction l with
    | nil => intro s h; exact h
    | cons tx l ih =>
      intro s h
      rw [runOf_cons]
      refine ih _ ?_
      unfold stepOf
      cases he : Metadata1155.exec s tx with
      | error e => exact h
      | ok s' =>
        unfold Metadata1155.exec at he
        split at he
        · obtain ⟨t, _, e⟩ := bind_eq_ok.mp he
          cases e
          exact h
        · cases he; exact h
        · cases he; exact h
  exact key _ _ rfl

/-- **C118** With bytes only: the deployed contract answers at first, for every token, the default URI of the constructor. -/
theorem C118_erc1155_metadata_start (hL : 32 * L < 2 ^ 255) (h : Apart keccak256 n erc1155MetadataUriExample (Cells S N L)) (hs : Short L d)
    (hd : deploy keccak256 d = some w) {asker : Env} (hc : asker.caller ∈ S) {id : U256} (hi : id ∈ N) :
    ask D U asker w "uri(uint256)" [.uint256 id] = some (values [.string d]) := by
  obtain ⟨_, _, q⟩ := question_within (D := D) (L := L) hc hc hc hi
  refine (ask_words (U := U) hL h hs hd (txs := []) (by simp) q).trans ?_
  unfold Spec.Contracts.answer
  rw [(Contracts.Erc1155MetadataContract.C103_erc1155_metadata_views D asker _ 0#160 0#160 id 0#32).2.2.1]
  rfl

theorem sets_about {e1 e2 : Env} (h1 : e1.caller ∈ S) (h2 : e2.caller ∈ S) {id : U256} (hi : id ∈ N) {b u : List Char}
    (hb : Short L b) (hu : Short L u) (hlb : (message "setBaseURI(string)" [.string b]).length < 2 ^ 256)
    (hlu : (message "setTokenURI(uint256,string)" [.uint256 id, .string u]).length < 2 ^ 256) :
    ∀ tx ∈ ([⟨e1, 0#256, message "setBaseURI(string)" [.string b]⟩,
      ⟨e2, 0#256, message "setTokenURI(uint256,string)" [.uint256 id, .string u]⟩] : List (Raw Env)), About D S N L tx := by
  intro tx ht
  simp only [List.mem_cons, List.not_mem_nil, or_false] at ht
  rcases ht with rfl | rfl
  · exact C118_erc1155_metadata_call_within (.setBaseUri b) _ hlb h1 (by simp [abi, Names]) (by simp [abi, tokensOf])
      (by simp [abi, hb])
  · exact C118_erc1155_metadata_call_within (.setTokenUri id u) _ hlu h2 (by simp [abi, Names]) (by simp [abi, tokensOf, hi])
      (by simp [abi, hu])

/-- What these two calls do to the contract of C103. -/
theorem sets_effect (D : Decoder) (d : List Char) (txs : List (Raw Env)) {e1 e2 : Env} {id : U256} {b u : List Char}
    (hlb : (message "setBaseURI(string)" [.string b]).length < 2 ^ 256)
    (hlu : (message "setTokenURI(uint256,string)" [.uint256 id, .string u]).length < 2 ^ 256) :
    let s := after (Contracts.Erc1155MetadataContract.run D) (init d) txs
    after (Contracts.Erc1155MetadataContract.run D) (init d) (txs ++ [⟨e1, 0#256, message "setBaseURI(string)" [.string b]⟩,
      ⟨e2, 0#256, message "setTokenURI(uint256,string)" [.uint256 id, .string u]⟩]) =
      { s with uriStorage := (s.uriStorage.setBaseUri b).setTokenUri id u s.metadataUri } := by
  intro s
  refine (List.foldl_append : after _ _ (txs ++ _) = _).trans ?_
  exact Contracts.Erc1155MetadataContract.C103_erc1155_metadata_sends D s [(e1, .setBaseUri b), (e2, .setTokenUri id u)] (by
    intro x hx
    simp only [List.mem_cons, List.not_mem_nil, or_false] at hx
    rcases hx with rfl | rfl
    · exact hlb
    · exact hlu)

/-- **C118** With bytes only: after any history, anybody can set the base URI and the URI of any token, and then `uri` answers the one
followed by the other, if the latter is not empty, and otherwise the default URI of the constructor.  Texts that were there before, of
whatever length, leave no trace. -/
theorem C118_erc1155_metadata_sets_uri (hL : 32 * L < 2 ^ 255) (h : Apart keccak256 n erc1155MetadataUriExample (Cells S N L)) (hs : Short L d)
    (hd : deploy keccak256 d = some w) {txs : List (Raw Env)} (hx : ∀ tx ∈ txs, About D S N L tx) {e1 e2 asker : Env}
    (h1 : e1.caller ∈ S) (h2 : e2.caller ∈ S) (hc : asker.caller ∈ S) {id : U256} (hi : id ∈ N) {b u : List Char}
    (hb : Short L b) (hu : Short L u) (hlb : (message "setBaseURI(string)" [.string b]).length < 2 ^ 256)
    (hlu : (message "setTokenURI(uint256,string)" [.uint256 id, .string u]).length < 2 ^ 256) :
    let sets : List (Raw Env) := [⟨e1, 0#256, message "setBaseURI(string)" [.string b]⟩,
      ⟨e2, 0#256, message "setTokenURI(uint256,string)" [.uint256 id, .string u]⟩]
    ask D U asker (after (entry keccak256 D U) w (txs ++ sets)) "uri(uint256)" [.uint256 id] =
      some (values [.string (if u = [] then d else b ++ u)]) := by
  intro sets
  obtain ⟨_, _, q⟩ := question_within (D := D) (L := L) hc hc hc hi
  have hall : ∀ tx ∈ txs ++ sets, About D S N L tx := fun tx ht =>
    (List.mem_append.mp ht).elim (hx tx) (sets_about h1 h2 hi hb hu hlb hlu tx)
  refine (ask_words (U := U) hL h hs hd hall q).trans ?_
  rw [show after (Contracts.Erc1155MetadataContract.run D) (init d) (txs ++ sets) = _ from sets_effect D d txs hlb hlu]
  unfold Spec.Contracts.answer
  rw [(Contracts.Erc1155MetadataContract.C103_erc1155_metadata_views D asker _ 0#160 0#160 id 0#32).2.2.1]
  have hk := default_kept D d txs
  simp [Metadata1155.UriStorage.setTokenUri, Metadata1155.UriStorage.setBaseUri, upd, Outcome.reply, hk]

/-- **C118** The same in the storage itself: after such a history the words of the base URI and of the token's URI hold exactly these
texts, and the words that longer texts had needed are zero; those of the default URI still hold the text of the constructor. -/
theorem C118_erc1155_metadata_words (hL : 32 * L < 2 ^ 255) (h : Apart keccak256 n erc1155MetadataUriExample (Cells S N L)) (hs : Short L d)
    (hd : deploy keccak256 d = some w) {txs : List (Raw Env)} (hx : ∀ tx ∈ txs, About D S N L tx) {e1 e2 : Env}
    (h1 : e1.caller ∈ S) (h2 : e2.caller ∈ S) {id : U256} (hi : id ∈ N) {b u : List Char}
    (hb : Short L b) (hu : Short L u) (hlb : (message "setBaseURI(string)" [.string b]).length < 2 ^ 256)
    (hlu : (message "setTokenURI(uint256,string)" [.uint256 id, .string u]).length < 2 ^ 256) :
    let sets : List (Raw Env) := [⟨e1, 0#256, message "setBaseURI(string)" [.string b]⟩,
      ⟨e2, 0#256, message "setTokenURI(uint256,string)" [.uint256 id, .string u]⟩]
    let w' := after (entry keccak256 D U) w (txs ++ sets)
    Stored keccak256 erc1155MetadataUriExample w'.words [.field "metadata_uri", .field "uri"] L d ∧
    Stored keccak256 erc1155MetadataUriExample w'.words [.field "uri_storage", .field "base_uri"] L b ∧
    Stored keccak256 erc1155MetadataUriExample w'.words [.field "uri_storage", .field "token_uris", .key id] L u := by
  intro sets w'
  have hall : ∀ tx ∈ txs ++ sets, About D S N L tx := fun tx ht =>
    (List.mem_append.mp ht).elim (hx tx) (sets_about h1 h2 hi hb hu hlb hlu tx)
  obtain ⟨w0, hw, hi'⟩ := inv_deploy h hs
  rw [hd] at hw
  cases hw
  obtain ⟨c, ha, hr⟩ := inv_run h hL D U (txs ++ sets) hi' hall
  have e := sets_effect D d txs hlb hlu (e1 := e1) (e2 := e2)
  have k1 := hr.default
  have k2 := hr.base
  have k3 := hr.uris id
  rw [show after (model keccak256 D) (init d) (txs ++ sets) = _ from e] at k1 k2 k3
  have hk := default_kept D d txs
  simp only [Metadata1155.UriStorage.setTokenUri, Metadata1155.UriStorage.setBaseUri, upd_same] at k1 k2 k3
  rw [hk] at k1
  exact ⟨Proofs.Texts.has_stored h ha hL (fun _ => default_cells) k1, Proofs.Texts.has_stored h ha hL (fun _ => base_cells) k2,
    Proofs.Texts.has_stored h ha hL (fun _ => uri_cells hi) k3⟩

/-- **C118** With bytes only: if a transaction to the deployed contract makes `uri(id)` give another answer, then its input is a call of
`setTokenURI` for this token or of `setBaseURI`. -/
theorem C118_erc1155_metadata_uri_changes (hL : 32 * L < 2 ^ 255) (h : Apart keccak256 n erc1155MetadataUriExample (Cells S N L))
    (hs : Short L d) (hd : deploy keccak256 d = some w) {txs : List (Raw Env)} {tx : Raw Env} (hx : ∀ tx' ∈ txs ++ [tx], About D S N L tx')
    {asker : Env} (hc : asker.caller ∈ S) {id : U256} (hi : id ∈ N) :
    ask D U asker (after (entry keccak256 D U) w (txs ++ [tx])) "uri(uint256)" [.uint256 id] ≠
      ask D U asker (after (entry keccak256 D U) w txs) "uri(uint256)" [.uint256 id] →
    (∃ u, Says D tx.input "setTokenURI(uint256,string)" [.uint256 id, .string u]) ∨
    ∃ u, Says D tx.input "setBaseURI(string)" [.string u] := by
  obtain ⟨_, _, q⟩ := question_within (D := D) (L := L) hc hc hc hi
  rw [ask_words hL h hs hd hx q, ask_words hL h hs hd (fun tx' h' => hx tx' (List.mem_append_left _ h')) q, PermitDeployed.after_snoc]
  generalize after (Contracts.Erc1155MetadataContract.run D) (init d) txs = s
  intro hne
  unfold Spec.Contracts.answer at hne
  rcases Contracts.Erc1155MetadataContract.C103_erc1155_metadata_no_other_effect D tx.env s tx.value tx.input with
    ⟨_, h⟩ | ⟨_, h⟩ | ⟨op, s', r, he, h, _, hsays⟩
  · rw [h] at hne; exact absurd rfl hne
  · rw [h] at hne; exact absurd rfl hne
  · rw [h] at hne
    change (Contracts.Erc1155MetadataContract.run D asker s' _ _).reply ≠ _ at hne
    rw [(Contracts.Erc1155MetadataContract.C103_erc1155_metadata_views D asker s' 0#160 0#160 id 0#32).2.2.1,
      (Contracts.Erc1155MetadataContract.C103_erc1155_metadata_views D asker s 0#160 0#160 id 0#32).2.2.1] at hne
    have he := Proofs.Contracts.giving_ok he
    have user : ∀ c, Metadata1155.exec s ⟨tx.env.caller, Calls.receivers1155 keccak256 D tx.env.world, .user c⟩ = .ok s' → False := by
      intro c he
      obtain ⟨t, _, h⟩ := bind_eq_ok.mp he
      cases h
      exact hne rfl
    cases op with
    | safeTransferFrom => exact (user _ he).elim
    | safeBatchTransferFrom => exact (user _ he).elim
    | setApprovalForAll => exact (user _ he).elim
    | setBaseUri u => exact .inr ⟨u, hsays⟩
    | setTokenUri i u =>
      by_cases hid : id = i
      · subst hid; exact .inl ⟨u, hsays⟩
      · cases he
        refine absurd ?_ hne
        simp [Metadata1155.UriStorage.setTokenUri, upd_ne _ _ hid, Outcome.reply]

/-- **C118** With bytes only: the example has no function that mints, so whatever the deployed contract receives, `balanceOf` answers
zero. -/
theorem C118_erc1155_metadata_nobody_holds_any (hL : 32 * L < 2 ^ 255) (h : Apart keccak256 n erc1155MetadataUriExample (Cells S N L))
    (hs : Short L d) (hd : deploy keccak256 d = some w) {txs : List (Raw Env)} (hx : ∀ tx ∈ txs, About D S N L tx)
    {asker : Env} (hc : asker.caller ∈ S) {a : Address} (ha : a ∈ S) {id : U256} (hi : id ∈ N) :
    ask D U asker (after (entry keccak256 D U) w txs) "balanceOf(address,uint256)" [.address a, .uint256 id] = some (values [.uint256 0#256]) :=
  (ask_words hL h hs hd hx (question_within hc ha ha hi).1).trans
    (Contracts.Erc1155MetadataContract.C103_erc1155_metadata_nobody_holds_any D d txs asker a id)

end

/-! ### The hypotheses are met -/

/-- The cells of three accounts, two tokens and texts of two words. -/
def sampleCells : List (List Step) :=
  sampleHoldings tokens ++ (sampleText defaultCell ++ (sampleText baseCell ++ [1#256, 2#256].flatMap fun id => sampleText (uriCell id)))

theorem sample_cells {p : List Step} (h : Cells [0#160, 1#160, 2#160] [1#256, 2#256] 2 p) : p ∈ sampleCells := by
  unfold sampleCells
  rcases h with h | h | h | ⟨id, hi, h⟩
  · exact List.mem_append_left _ (sample_holdings h)
  · exact List.mem_append_right _ (List.mem_append_left _ (sample_text h))
  · exact List.mem_append_right _ (List.mem_append_right _ (List.mem_append_left _ (sample_text h)))
  · exact List.mem_append_right _ (List.mem_append_right _ (List.mem_append_right _ (List.mem_flatMap.mpr ⟨id, hi, sample_text h⟩)))

/-- What is hashed on the way to the texts, and the hash values. -/
def textTable : List (Bytes × U256) :=
  [(be32 0x2#256, 0x405787fa12a823e0f2b7631cc41b3ba8828b3321ca811111fa75cd3aa3bb5ace#256),
   (be32 0x3#256, 0xc2575a0e9e593c00f959f8c92f12db2869c3395a3b0502d05e2516446f71f85b#256),
   (be32 0x1#256 ++ be32 0x4#256, 0xabd6e7cb50984ff9c2f3e18a2660c3353dadf4e3291deeb275dae2cd1e44fe05#256),
   (be32 0xabd6e7cb50984ff9c2f3e18a2660c3353dadf4e3291deeb275dae2cd1e44fe05#256, 0x210afe6ebef982fa193bb4e17f9f236cdf09af7788627b5d54d9e3e4b100021b#256),
   (be32 0x2#256 ++ be32 0x4#256, 0x91da3fd0782e51c6b3986e9e672fd566868e71f3dbc2d6c2cd6fbb3e361af2a7#256),
   (be32 0x91da3fd0782e51c6b3986e9e672fd566868e71f3dbc2d6c2cd6fbb3e361af2a7#256, 0xff2ead72d53401d823f4de3290714b95c588de2c574133f57728a2d3d3763d3a#256)]

set_option maxRecDepth 100000 in
theorem table_ok : ∀ e ∈ holdingsTable ++ textTable, keccak256 e.1 = e.2 := by
  rw [Proofs.KeccakFast.keccak256_eq]
  decide +kernel

/-- With Keccak the hypotheses of the theorems hold. -/
theorem sample_apart : Apart keccak256 10 erc1155MetadataUriExample (Cells [0#160, 1#160, 2#160] [1#256, 2#256] 2) :=
  ⟨by decide, Proofs.Separate.separate sampleCells (holdingsTable ++ textTable) (fun _ => sample_cells) table_ok
    (by decide +kernel) (by decide +kernel) (by decide +kernel)⟩

-- a text of 37 bytes is set for token 1, then a short one: nothing of the long one is left
example (D : Decoder) (U : Utf8) : ∃ w, deploy keccak256 ['d'] = some w ∧
    let before : List (Raw Env) := [⟨⟨2#160, plain⟩, 0#256, message "setTokenURI(uint256,string)" [.uint256 1#256, .string long]⟩]
    let sets : List (Raw Env) := [⟨⟨1#160, plain⟩, 0#256, message "setBaseURI(string)" [.string ['b']]⟩,
      ⟨⟨1#160, plain⟩, 0#256, message "setTokenURI(uint256,string)" [.uint256 1#256, .string ['x']]⟩]
    ask D U ⟨1#160, plain⟩ (after (entry keccak256 D U) w (before ++ sets)) "uri(uint256)" [.uint256 1#256] =
      some (values [.string ['b', 'x']]) := by
  have hs : ∀ c ∈ ['d', 'b', 'x'], Short 2 [c] := by unfold Short; decide +kernel
  obtain ⟨w, hd⟩ := C118_erc1155_metadata_deploy sample_apart (hs 'd' (by simp))
  refine ⟨w, hd, ?_⟩
  refine C118_erc1155_metadata_sets_uri (by decide) sample_apart (hs 'd' (by simp)) hd (fun tx ht => ?_) (by simp) (by simp) (by simp) (by simp)
    (hs 'b' (by simp)) (hs 'x' (by simp)) ?_ ?_
  · rw [List.mem_singleton.mp ht]
    refine C118_erc1155_metadata_call_within (.setTokenUri 1#256 long) _ ?_ (by simp) (by simp [abi, Names]) (by simp [abi, tokensOf])
      (by simp [abi, long_short])
    rw [Proofs.Contracts.message_length]; decide +kernel
  · rw [Proofs.Contracts.message_length]; decide +kernel
  · rw [Proofs.Contracts.message_length]; decide +kernel

end Verif.Props.Erc1155UriDeployed

namespace Verif.Props.Erc721UriDeployed
open Verif Verif.Storage Verif.Erc721UriDeployed Verif.Spec.Erc721UriDeployed Verif.Proofs.Erc721UriDeployed Verif.Spec.UriDeployed
open Verif.Props.OnWords Verif.Props.UriDeployed
open Verif.Props.MultiDeployed (plain)
open Verif.Spec.MultiDeployed (tokensOf Names)
open Verif.Abi (Val Decoder Outcome)
open Verif.Deployed (Utf8)
open Verif.Spec.Keccak (keccak256)
open Verif.Spec.OnWords (Apart)
open Verif.Spec.Contracts (Raw after message values Says)
open Verif.Contracts (Env)
open Verif.Props.Contracts.Erc721MetadataContract (abi mem uriOf)
open Verif.Metadata (init Erc721Metadata Call)
open Verif.OnWords (State)

/-- What an account gets to know that asks a question: the bytes of the answer, `none` if it is refused. -/
abbrev ask (D : Decoder) (U : Utf8) := Spec.Contracts.answer (entry keccak256 D U)

/-- The transaction is about accounts of `S`, tokens of `N` and texts of at most `L` words. -/
abbrev About (D : Decoder) (S : List Address) (N : List U256) (L : Nat) (tx : Raw Env) : Prop :=
  Within keccak256 D Router.erc721MetadataExample S N L tx

/-- Where the contract is deployed with name, symbol and base URI `m`, and what is asked: the zero address is one of `S`, the texts have
at most `L` words, and the hash values of the cells do not coincide. -/
structure Setting (K : Hash) (n : Nat) (S : List Address) (N : List U256) (L : Nat) (m : Erc721Metadata) (w : State Ev) : Prop where
  small : 32 * L < 2 ^ 255
  zero : ZERO ∈ S
  name : Short L m.name
  symbol : Short L m.symbol
  base : Short L m.baseUri
  apart : Apart K n erc721MetadataExample (Cells S N L)
  deployed : deploy K m = some w

/-- **C118** Deployment with a name, a symbol and a base URI of at most `L` words succeeds. -/
theorem C118_erc721_metadata_deploy {K : Hash} {n : Nat} {S : List Address} {N : List U256} {L : Nat} {m : Erc721Metadata}
    (hL : 32 * L < 2 ^ 255) (h0 : ZERO ∈ S) (hn : Short L m.name) (hy : Short L m.symbol) (hb : Short L m.baseUri)
    (h : Apart K n erc721MetadataExample (Cells S N L)) : ∃ w, Setting K n S N L m w :=
  let ⟨w, hw, _⟩ := inv_deploy h h0 hn hy hb
  ⟨w, hL, h0, hn, hy, hb, h, hw⟩

/-- **C118** Bytes in, bytes out, with nothing between but words of storage: after any list of transactions, a transaction is
answered with the same bytes as by the contract with independent mappings and texts that C103 is about, and the events are the
same. -/
theorem C118_erc721_metadata_answers {K : Hash} {n : Nat} {S : List Address} {N : List U256} {L : Nat} {m : Erc721Metadata} {w : State Ev}
    (h : Setting K n S N L m w) (D : Decoder) (U : Utf8) (txs : List (Raw Env)) (tx : Raw Env)
    (hx : ∀ tx' ∈ txs ++ [tx], Within K D Router.erc721MetadataExample S N L tx') :
    let run env s value input := Abi.entry K D Router.erc721MetadataExample (Contracts.erc721Metadata K D env) s value input
    let s := after run (init m) txs
    let w' := after (entry K D U) w txs
    Spec.Deployed.answer (entry K D U tx.env w' tx.value tx.input) = Spec.Deployed.answer (run tx.env s tx.value tx.input) ∧
    w'.log.filterMap Sum.getLeft? = s.erc721.log ∧ w'.log.filterMap Sum.getRight? = s.uriStorage.updates := by
  intro run s w'
  obtain ⟨w0, hw, hi⟩ := inv_deploy h.apart h.zero h.name h.symbol h.base
  rw [h.deployed] at hw
  cases hw
  have hi := inv_run h.apart h.small h.zero D U txs hi fun tx' h => hx tx' (List.mem_append_left _ h)
  have hs' : s = after (Proofs.Erc721UriDeployed.model K D) (init m) txs := rfl
  rw [hs']
  refine ⟨(inv_step h.apart h.small h.zero D U hi (hx tx (List.mem_append_right _ (by simp)))).1, ?_⟩
  obtain ⟨c, _, hr⟩ := hi
  exact ⟨by rw [hr.token]; rfl, hr.updates.symm⟩

section
variable {n : Nat} {S : List Address} {N : List U256} {L : Nat} {D : Decoder} {U : Utf8} {m : Erc721Metadata} {w : State Ev}

set_option maxRecDepth 100000 in
/-- **C118** A call of a function that changes the state is about its sender and its arguments. -/
theorem C118_erc721_metadata_call_within {env : Env} (op : Call) (value : U256) (hl : (message (abi op).1 (abi op).2).length < 2 ^ 256)
    (hc : env.caller ∈ S) (ha : ∀ a, Names (abi op).2 a → a ∈ S) (hn : ∀ id ∈ tokensOf (abi op).2, id ∈ N)
    (hu : ∀ s, Val.string s ∈ (abi op).2 → Short L s) : About D S N L ⟨env, value, message (abi op).1 (abi op).2⟩ := by
  rcases op with _ | op | _
  rotate_left
  · cases op <;> exact within mem (by simp [abi, Spec.Router.erc721MetadataExample]) rfl rfl hl hc ha hn hu
  all_goals exact within mem (by simp [abi, Spec.Router.erc721MetadataExample]) rfl rfl hl hc ha hn hu

set_option maxRecDepth 100000 in
/-- A question is about the account that asks and its arguments. -/
theorem question_within {env : Env} {a b : Address} {id : U256} (hc : env.caller ∈ S) (ha : a ∈ S) (hb : b ∈ S) (hi : id ∈ N) :
    About D S N L ⟨env, 0#256, message "ownerOf(uint256)" [.uint256 id]⟩ ∧
    About D S N L ⟨env, 0#256, message "getApproved(uint256)" [.uint256 id]⟩ ∧
    About D S N L ⟨env, 0#256, message "isApprovedForAll(address,address)" [.address a, .address b]⟩ ∧
    About D S N L ⟨env, 0#256, message "tokenURI(uint256)" [.uint256 id]⟩ := by
  refine ⟨?_, ?_, ?_, ?_⟩ <;> exact within mem (by simp [Spec.Router.erc721MetadataExample]) rfl rfl
      (Proofs.Contracts.words_lt _ _ (by simp [Spec.Contracts.arg]) (by simp)) hc (by simp [Names, ha, hb]) (by simp [tokensOf, hi]) (by simp)

set_option maxRecDepth 100000 in
theorem text_within {env : Env} (hc : env.caller ∈ S) :
    About D S N L ⟨env, 0#256, message "name()" []⟩ ∧ About D S N L ⟨env, 0#256, message "symbol()" []⟩ := by
  refine ⟨?_, ?_⟩ <;> exact within mem (by simp [Spec.Router.erc721MetadataExample]) rfl rfl
      (Proofs.Contracts.words_lt _ _ (by simp) (by simp)) hc (by simp [Names]) (by simp [tokensOf]) (by simp)

theorem ask_words (h : Setting keccak256 n S N L m w) {txs : List (Raw Env)}
    (hx : ∀ tx ∈ txs, About D S N L tx) {asker : Env} {sg : String} {args : List Val} (hq : About D S N L ⟨asker, 0#256, message sg args⟩) :
    ask D U asker (after (entry keccak256 D U) w txs) sg args =
      Spec.Contracts.answer (Contracts.Erc721MetadataContract.run D) asker
        (after (Contracts.Erc721MetadataContract.run D) (init m) txs) sg args :=
  reply_of_answer (C118_erc721_metadata_answers h D U txs ⟨asker, 0#256, message sg args⟩ (forall_append hx hq)).1

/-- Name, symbol and base URI of the contract of C103 are those of the constructor. -/
theorem metadata_kept (D : Decoder) (m : Erc721Metadata) (txs : List (Raw Env)) :
    (after (Contracts.Erc721MetadataContract.run D) (init m) txs).metadata = m := by
  obtain ⟨l, hl, _⟩ := Contracts.Erc721MetadataContract.C103_erc721_metadata_history D (init m) txs
  rw [hl]
  unfold Metadata.run
  have key : ∀ (l : List Metadata.Tx) (s : Metadata.State), s.metadata = m → (runOf Metadata.exec s l).metadata = m := by
    intro l
    induction l with
    | nil => intro s h; exact h
    | cons tx l ih =>
      intro s h
      rw [runOf_cons]
      refine ih _ ?_
      unfold stepOf
      cases he : Metadata.exec s tx with
      | error e => exact h
      | ok s' =>
        unfold Metadata.exec at he
        split at he
        · obtain ⟨t, _, e⟩ := bind_eq_ok.mp he
          cases e
          exact h
        · obtain ⟨t, _, e⟩ := bind_eq_ok.mp he
          cases e
          exact h
        · cases he; exact h
  exact key _ _ rfl

/-- **C118** With bytes only: whatever transactions come, `name` and `symbol` answer what the constructor was given. -/
theorem C118_erc721_metadata_name (h : Setting keccak256 n S N L m w) {txs : List (Raw Env)} (hx : ∀ tx ∈ txs, About D S N L tx)
    {asker : Env} (hc : asker.caller ∈ S) :
    ask D U asker (after (entry keccak256 D U) w txs) "name()" [] = some (values [.string m.name]) ∧
    ask D U asker (after (entry keccak256 D U) w txs) "symbol()" [] = some (values [.string m.symbol]) := by
  obtain ⟨q1, q2⟩ := text_within (D := D) (N := N) (L := L) hc
  obtain ⟨_, _, _, _, v1, v2, _⟩ := Contracts.Erc721MetadataContract.C103_erc721_metadata_views D asker
    (after (Contracts.Erc721MetadataContract.run D) (init m) txs) 0#160 0#160 0#256 0#32
  rw [metadata_kept] at v1 v2
  exact ⟨(ask_words h hx q1).trans (congrArg Outcome.reply v1), (ask_words h hx q2).trans (congrArg Outcome.reply v2)⟩

/-- **C118** With bytes only: `tokenURI` is refused exactly if `ownerOf` is, and it always begins with the base URI of the
constructor. -/
theorem C118_erc721_metadata_uri (h : Setting keccak256 n S N L m w) {txs : List (Raw Env)} (hx : ∀ tx ∈ txs, About D S N L tx)
    {asker : Env} (hc : asker.caller ∈ S) {id : U256} (hi : id ∈ N) :
    let w' := after (entry keccak256 D U) w txs
    (ask D U asker w' "tokenURI(uint256)" [.uint256 id] = none ↔ ask D U asker w' "ownerOf(uint256)" [.uint256 id] = none) ∧
    (ask D U asker w' "tokenURI(uint256)" [.uint256 id] = none ∨
      ∃ u, ask D U asker w' "tokenURI(uint256)" [.uint256 id] = some (values [.string (m.baseUri ++ u)])) := by
  intro w'
  obtain ⟨q1, _, _, q4⟩ := question_within (D := D) (L := L) hc hc hc hi
  rw [show ask D U asker w' "tokenURI(uint256)" _ = _ from ask_words h hx q4, show ask D U asker w' "ownerOf(uint256)" _ = _ from ask_words h hx q1]
  unfold Spec.Contracts.answer
  rw [Contracts.Erc721MetadataContract.C103_erc721_metadata_uri,
    (Contracts.Erc721MetadataContract.C103_erc721_metadata_views D asker _ 0#160 0#160 id 0#32).2.1, metadata_kept]
  split
  · simp [Outcome.reply]
  · refine ⟨by simp [Outcome.reply], .inr ?_⟩
    unfold uriOf
    split
    · exact ⟨_, rfl⟩
    · exact ⟨_, rfl⟩

/-- **C118** With bytes only: if `ownerOf(id)` has an answer, then anybody can set the URI of the token, to any text; `tokenURI` then
answers the base URI of the constructor followed by this text, or, if the text is empty and the base URI is not, by the decimal id.  The
text that was there before, of whatever length, leaves no trace. -/
theorem C118_erc721_metadata_anybody_sets_uri (h : Setting keccak256 n S N L m w) {txs : List (Raw Env)} (hx : ∀ tx ∈ txs, About D S N L tx)
    {asker env : Env} (hc : asker.caller ∈ S) (he : env.caller ∈ S) {id : U256} (hi : id ∈ N) {u : List Char} (hu : Short L u)
    (hl : (message "setTokenURI(uint256,string)" [.uint256 id, .string u]).length < 2 ^ 256) :
    let tx : Raw Env := ⟨env, 0#256, message "setTokenURI(uint256,string)" [.uint256 id, .string u]⟩
    ask D U asker (after (entry keccak256 D U) w txs) "ownerOf(uint256)" [.uint256 id] ≠ none →
    ask D U asker (after (entry keccak256 D U) w (txs ++ [tx])) "tokenURI(uint256)" [.uint256 id] =
      some (values [.string (uriOf m.baseUri u id)]) := by
  intro tx ho
  obtain ⟨q1, _, _, q4⟩ := question_within (D := D) (L := L) hc hc hc hi
  have ht : About D S N L tx := C118_erc721_metadata_call_within (.setTokenUri id u) _ hl he (by simp [abi, Names])
    (by simp [abi, tokensOf, hi]) (by simp [abi, hu])
  rw [ask_words h hx q1] at ho
  unfold Spec.Contracts.answer at ho
  rw [(Contracts.Erc721MetadataContract.C103_erc721_metadata_views D asker _ 0#160 0#160 id 0#32).2.1] at ho
  rw [ask_words h (forall_append hx ht) q4, PermitDeployed.after_snoc]
  refine (Contracts.Erc721MetadataContract.C103_erc721_metadata_anybody_sets_uri D env asker _ id u hl fun e => ?_).trans (by rw [metadata_kept])
  rw [if_pos e] at ho
  exact ho rfl

/-- **C118** The same in the storage itself, whether the token exists or not: after such a call the words of the token's URI hold exactly
this text, and the words that a longer text had needed are zero; name, symbol and base URI are still those of the constructor. -/
theorem C118_erc721_metadata_words (h : Setting keccak256 n S N L m w) {txs : List (Raw Env)} (hx : ∀ tx ∈ txs, About D S N L tx)
    {env : Env} (he : env.caller ∈ S) {id : U256} (hi : id ∈ N) {u : List Char} (hu : Short L u)
    (hl : (message "setTokenURI(uint256,string)" [.uint256 id, .string u]).length < 2 ^ 256) :
    let tx : Raw Env := ⟨env, 0#256, message "setTokenURI(uint256,string)" [.uint256 id, .string u]⟩
    let w' := after (entry keccak256 D U) w (txs ++ [tx])
    Stored keccak256 erc721MetadataExample w'.words [.field "metadata", .field "metadata", .field "name"] L m.name ∧
    Stored keccak256 erc721MetadataExample w'.words [.field "metadata", .field "metadata", .field "symbol"] L m.symbol ∧
    Stored keccak256 erc721MetadataExample w'.words [.field "metadata", .field "base_uri"] L m.baseUri ∧
    Stored keccak256 erc721MetadataExample w'.words [.field "uri_storage", .field "token_uris", .key id] L u := by
  intro tx w'
  have ht : About D S N L tx := C118_erc721_metadata_call_within (.setTokenUri id u) _ hl he (by simp [abi, Names])
    (by simp [abi, tokensOf, hi]) (by simp [abi, hu])
  obtain ⟨w0, hw, hi'⟩ := inv_deploy h.apart h.zero h.name h.symbol h.base
  rw [h.deployed] at hw
  cases hw
  obtain ⟨c, ha, hr⟩ := inv_run h.apart h.small h.zero D U (txs ++ [tx]) hi' (forall_append hx ht)
  have k1 := hr.name
  have k2 := hr.symbol
  have k3 := hr.base
  have k4 := hr.uris id
  rw [show (after (model keccak256 D) (init m) (txs ++ [tx])).metadata = m from metadata_kept D m _] at k1 k2 k3
  have e : (after (Contracts.Erc721MetadataContract.run D) (init m) (txs ++ [tx])).uriStorage.tokenUris id = u := by
    rw [PermitDeployed.after_snoc]
    generalize after (Contracts.Erc721MetadataContract.run D) (init m) txs = s
    have := Contracts.Erc721MetadataContract.C103_erc721_metadata_call D env s (.setTokenUri id u) hl
    change Contracts.Erc721MetadataContract.run D env s 0#256 (message "setTokenURI(uint256,string)" [.uint256 id, .string u]) = _ at this
    rw [this]
    show (s.uriStorage.setTokenUri id u).tokenUris id = u
    simp [Metadata.UriStorage.setTokenUri, upd]
  rw [show (after (model keccak256 D) (init m) (txs ++ [tx])).uriStorage.tokenUris id = u from e] at k4
  exact ⟨Proofs.Texts.has_stored h.apart ha h.small (fun _ => name_cells) k1, Proofs.Texts.has_stored h.apart ha h.small (fun _ => symbol_cells) k2,
    Proofs.Texts.has_stored h.apart ha h.small (fun _ => base_cells) k3, Proofs.Texts.has_stored h.apart ha h.small (fun _ => uri_cells hi) k4⟩

/-- **C118** With bytes only: if a transaction to the deployed contract makes `tokenURI(id)` give another answer, then its input is a call
of `setTokenURI` for this token. -/
theorem C118_erc721_metadata_uri_changes (h : Setting keccak256 n S N L m w) {txs : List (Raw Env)} {tx : Raw Env}
    (hx : ∀ tx' ∈ txs ++ [tx], About D S N L tx') {asker : Env} (hc : asker.caller ∈ S) {id : U256} (hi : id ∈ N) {v v' : Bytes} :
    ask D U asker (after (entry keccak256 D U) w txs) "tokenURI(uint256)" [.uint256 id] = some v →
    ask D U asker (after (entry keccak256 D U) w (txs ++ [tx])) "tokenURI(uint256)" [.uint256 id] = some v' → v' ≠ v →
    ∃ u, Says D tx.input "setTokenURI(uint256,string)" [.uint256 id, .string u] := by
  obtain ⟨_, _, _, q⟩ := question_within (D := D) (L := L) hc hc hc hi
  rw [ask_words h hx q, ask_words h (fun tx' h' => hx tx' (List.mem_append_left _ h')) q, PermitDeployed.after_snoc]
  intro hb ha hne
  exact Contracts.Erc721MetadataContract.C103_erc721_metadata_uri_changes D _ tx asker id v v' hb ha hne

/-- **C118** With bytes only: if a transaction to the deployed contract changes the answer to `ownerOf(id)`, then the sender was the
owner, or `getApproved(id)` had answered the sender, or `isApprovedForAll` had answered that they are the owner's operator. -/
theorem C118_erc721_metadata_no_theft (h : Setting keccak256 n S N L m w) {txs : List (Raw Env)} {tx : Raw Env}
    (hx : ∀ tx' ∈ txs ++ [tx], About D S N L tx') {asker : Env} (hc : asker.caller ∈ S) {a : Address} (ha : a ∈ S) {id : U256} (hi : id ∈ N) :
    let w1 := after (entry keccak256 D U) w txs
    let w2 := after (entry keccak256 D U) w (txs ++ [tx])
    ask D U asker w1 "ownerOf(uint256)" [.uint256 id] = some (values [.address a]) →
    ask D U asker w2 "ownerOf(uint256)" [.uint256 id] ≠ some (values [.address a]) →
    tx.env.caller = a ∨
    ask D U asker w1 "getApproved(uint256)" [.uint256 id] = some (values [.address tx.env.caller]) ∨
    ask D U asker w1 "isApprovedForAll(address,address)" [.address a, .address tx.env.caller] = some (values [.bool true]) := by
  intro w1 w2 h1 h2
  have hx1 : ∀ tx' ∈ txs, About D S N L tx' := fun tx' h' => hx tx' (List.mem_append_left _ h')
  have ht : tx.env.caller ∈ S := (hx tx (List.mem_append_right _ (by simp))).names.sender
  obtain ⟨q1, q2, q3, _⟩ := question_within (D := D) (L := L) hc ha ht hi
  rw [show ask D U asker w1 "ownerOf(uint256)" _ = _ from ask_words h hx1 q1] at h1
  rw [show ask D U asker w2 "ownerOf(uint256)" _ = _ from ask_words h hx q1, PermitDeployed.after_snoc] at h2
  rw [show ask D U asker w1 "getApproved(uint256)" _ = _ from ask_words h hx1 q2,
    show ask D U asker w1 "isApprovedForAll(address,address)" _ = _ from ask_words h hx1 q3]
  exact Contracts.Erc721MetadataContract.C103_erc721_metadata_no_theft D _ tx asker id a h1 h2

end

/-! ### The hypotheses are met -/

/-- The cells of three accounts, two tokens and texts of two words. -/
def sampleCells : List (List Step) :=
  let A := [0#160, 1#160, 2#160]
  let N := [1#256, 2#256]
  N.map (Erc721Words.owner token) ++ (A.map (Erc721Words.balance token) ++ (N.map (Erc721Words.approved token) ++
    ((A.flatMap fun a => A.map (Erc721Words.operator token a)) ++ (sampleText nameCell ++ (sampleText symbolCell ++ (sampleText baseCell ++
    N.flatMap fun id => sampleText (uriCell id)))))))

theorem sample_cells {p : List Step} (h : Cells [0#160, 1#160, 2#160] [1#256, 2#256] 2 p) : p ∈ sampleCells := by
  unfold sampleCells
  dsimp only
  simp only [List.mem_append]
  rcases h with (⟨a, ha, rfl⟩ | ⟨a, ha, rfl⟩ | ⟨a, ha, rfl⟩ | ⟨a, ha, b, hb, rfl⟩) | h | h | h | ⟨id, hi, h⟩
  · exact .inl (List.mem_map_of_mem ha)
  · exact .inr (.inl (List.mem_map_of_mem ha))
  · exact .inr (.inr (.inl (List.mem_map_of_mem ha)))
  · exact .inr (.inr (.inr (.inl (List.mem_flatMap.mpr ⟨a, ha, List.mem_map_of_mem hb⟩))))
  · exact .inr (.inr (.inr (.inr (.inl (sample_text h)))))
  · exact .inr (.inr (.inr (.inr (.inr (.inl (sample_text h))))))
  · exact .inr (.inr (.inr (.inr (.inr (.inr (.inl (sample_text h)))))))
  · exact .inr (.inr (.inr (.inr (.inr (.inr (.inr (List.mem_flatMap.mpr ⟨id, hi, sample_text h⟩)))))))

/-- What is hashed on the way to them, and the hash values. -/
def sampleTable : List (Bytes × U256) :=
  [(be32 0x1#256 ++ be32 0x0#256, 0xada5013122d395ba3c54772283fb069b10426056ef8ca54750cb9bb552a59e7d#256),
   (be32 0x2#256 ++ be32 0x0#256, 0xabbb5caa7dda850e60932de0934eb1f9d0f59695050f761dc64e443e5030a569#256),
   (be32 0x0#256 ++ be32 0x1#256, 0xa6eef7e35abe7026729641147f7915573c7e97b47efa546f5f6e3230263bcb49#256),
   (be32 0x1#256 ++ be32 0x1#256, 0xcc69885fda6bcc1a4ace058b4a62bf5e179ea78fd58a1ccd71c22cc9b688792f#256),
   (be32 0x2#256 ++ be32 0x1#256, 0xd9d16d34ffb15ba3a3d852f0d403e2ce1d691fb54de27ac87cd2f993f3ec330f#256),
   (be32 0x1#256 ++ be32 0x2#256, 0xe90b7bceb6e7df5418fb78d8ee546e97c83a08bbccc01a0644d599ccd2a7c2e0#256),
   (be32 0x2#256 ++ be32 0x2#256, 0x679795a0195a1b76cdebb7c51d74e058aee92919b8c3389af86ef24535e8a28c#256),
   (be32 0x0#256 ++ be32 0x3#256, 0x3617319a054d772f909f7c479a2cebe5066e836a939412e32403c99029b92eff#256),
   (be32 0x0#256 ++ be32 0x3617319a054d772f909f7c479a2cebe5066e836a939412e32403c99029b92eff#256, 0x84fa35e963a209ed7b6693816f0819bcb70c934337c6902235d48a9c59ebe6eb#256),
   (be32 0x1#256 ++ be32 0x3617319a054d772f909f7c479a2cebe5066e836a939412e32403c99029b92eff#256, 0xf5d2b9d7b7dcf31fafb527f48cb641b3e286ba85117ea973378ae75f2b0f27c9#256),
   (be32 0x2#256 ++ be32 0x3617319a054d772f909f7c479a2cebe5066e836a939412e32403c99029b92eff#256, 0xcd92e5b4e6598c1949a71e034c2db052fecdb0cbb23287b5cc133a4ab147474#256),
   (be32 0x1#256 ++ be32 0x3#256, 0xa15bc60c955c405d20d9149c709e2460f1c2d9a497496a7f46004d1772c3054c#256),
   (be32 0x0#256 ++ be32 0xa15bc60c955c405d20d9149c709e2460f1c2d9a497496a7f46004d1772c3054c#256, 0xeb972bfd9e24bc26d8a6be6cef621408cbdcf8fa2ccd03b0e5bf1d9b7c401dee#256),
   (be32 0x1#256 ++ be32 0xa15bc60c955c405d20d9149c709e2460f1c2d9a497496a7f46004d1772c3054c#256, 0xfb8d863de1250aa620936e91467e1af01a92eb0e70a9507f29fbc3ded4c65f25#256),
   (be32 0x2#256 ++ be32 0xa15bc60c955c405d20d9149c709e2460f1c2d9a497496a7f46004d1772c3054c#256, 0x63383099118369e3b7e10810450c200ba30ca74f16a798c21d846e7b8f29f8e5#256),
   (be32 0x2#256 ++ be32 0x3#256, 0xc3a24b0501bd2c13a7e57f2db4369ec4c223447539fc0724a9d55ac4a06ebd4d#256),
   (be32 0x0#256 ++ be32 0xc3a24b0501bd2c13a7e57f2db4369ec4c223447539fc0724a9d55ac4a06ebd4d#256, 0xc29ccf1405d46e3650025b4cb3dd2c6fea976ca3366b6639ae6c9b22378c9255#256),
   (be32 0x1#256 ++ be32 0xc3a24b0501bd2c13a7e57f2db4369ec4c223447539fc0724a9d55ac4a06ebd4d#256, 0x7cc2ad579ffe0e9670c4ed407723dde34cdc5f3ce03ea5a5fd278a558b291aec#256),
   (be32 0x2#256 ++ be32 0xc3a24b0501bd2c13a7e57f2db4369ec4c223447539fc0724a9d55ac4a06ebd4d#256, 0xae01d7727e6eee9de04cfde373d61a6d46a5148baca09e4486c66e17138a24b0#256),
   (be32 0x4#256, 0x8a35acfbc15ff81a39ae7d344fd709f28e8600b4aa8c65c6b64bfe7fe36bd19b#256),
   (be32 0x5#256, 0x36b6384b5eca791c62761152d0c79bb0604c104a5fb6f4eb0703f3154bb3db0#256),
   (be32 0x6#256, 0xf652222313e28459528d920b65115c16c04f3efc82aaedc97be59f3f377c0d3f#256),
   (be32 0x1#256 ++ be32 0x7#256, 0xb39221ace053465ec3453ce2b36430bd138b997ecea25c1043da0c366812b828#256),
   (be32 0xb39221ace053465ec3453ce2b36430bd138b997ecea25c1043da0c366812b828#256, 0xb2401e68d452ad3af4aed95d6e19d1a690ed00a9a5bee1b2b0a83b6028446a4f#256),
   (be32 0x2#256 ++ be32 0x7#256, 0xb7c774451310d1be4108bc180d1b52823cb0ee0274a6c0081bcaf94f115fb96d#256),
   (be32 0xb7c774451310d1be4108bc180d1b52823cb0ee0274a6c0081bcaf94f115fb96d#256, 0xd6de725bb48e0bc629c0e827168a68e25f0ced693aa574d8ae15b651380a01c9#256)]

set_option maxRecDepth 100000 in
theorem table_ok : ∀ e ∈ sampleTable, keccak256 e.1 = e.2 := by
  rw [Proofs.KeccakFast.keccak256_eq]
  decide +kernel

/-- With Keccak the hypotheses of the theorems hold. -/
theorem sample_apart : Apart keccak256 10 erc721MetadataExample (Cells [0#160, 1#160, 2#160] [1#256, 2#256] 2) :=
  ⟨by decide, Proofs.Separate.separate sampleCells sampleTable (fun _ => sample_cells) table_ok
    (by decide +kernel) (by decide +kernel) (by decide +kernel)⟩

/-- Account 1 mints token 1. -/
def sampleMint : List (Raw Env) := Spec.Contracts.sent abi [(⟨1#160, plain⟩, .mint 1#160 1#256)]

-- account 1 mints token 1; account 2 sets its URI to a text of 37 bytes, then to a short one; `tokenURI` answers them after the base URI
example (D : Decoder) (U : Utf8) : ∃ w, Setting keccak256 10 [0#160, 1#160, 2#160] [1#256, 2#256] 2 ⟨['n'], ['s'], ['b']⟩ w ∧
    let set u : Raw Env := ⟨⟨2#160, plain⟩, 0#256, message "setTokenURI(uint256,string)" [.uint256 1#256, .string u]⟩
    ask D U ⟨1#160, plain⟩ (after (entry keccak256 D U) w (sampleMint ++ [set long])) "tokenURI(uint256)" [.uint256 1#256] =
      some (values [.string ('b' :: long)]) ∧
    ask D U ⟨1#160, plain⟩ (after (entry keccak256 D U) w (sampleMint ++ [set long] ++ [set ['x']])) "tokenURI(uint256)" [.uint256 1#256] =
      some (values [.string ['b', 'x']]) := by
  have hs : ∀ c ∈ ['n', 's', 'b', 'x'], Short 2 [c] := by unfold Short; decide +kernel
  obtain ⟨w, h⟩ := C118_erc721_metadata_deploy (m := ⟨['n'], ['s'], ['b']⟩) (by decide) (by simp [ZERO]) (hs 'n' (by simp)) (hs 's' (by simp))
    (hs 'b' (by simp)) sample_apart
  refine ⟨w, h, ?_⟩
  have lm : (message (abi (.mint 1#160 1#256)).1 (abi (.mint 1#160 1#256)).2).length < 2 ^ 256 :=
    Proofs.Contracts.words_lt _ _ (by simp [abi, Spec.Contracts.arg]) (by simp [abi])
  have ll : (message "setTokenURI(uint256,string)" [.uint256 1#256, .string long]).length < 2 ^ 256 := by
    rw [Proofs.Contracts.message_length]; decide +kernel
  have lx : (message "setTokenURI(uint256,string)" [.uint256 1#256, .string ['x']]).length < 2 ^ 256 := by
    rw [Proofs.Contracts.message_length]; decide +kernel
  have hm : ∀ tx ∈ sampleMint, About D [0#160, 1#160, 2#160] [1#256, 2#256] 2 tx := by
    intro tx ht
    rw [List.mem_singleton.mp ht]
    exact C118_erc721_metadata_call_within (.mint 1#160 1#256) _ lm (by simp) (by simp [abi, Names]) (by simp [abi, tokensOf]) (by simp [abi])
  have hset : About D [0#160, 1#160, 2#160] [1#256, 2#256] 2
      ⟨⟨2#160, plain⟩, 0#256, message "setTokenURI(uint256,string)" [.uint256 1#256, .string long]⟩ :=
    C118_erc721_metadata_call_within (.setTokenUri 1#256 long) _ ll (by simp) (by simp [abi, Names]) (by simp [abi, tokensOf])
      (by simp [abi, long_short])
  have owned : ask D U ⟨1#160, plain⟩ (after (entry keccak256 D U) w sampleMint) "ownerOf(uint256)" [.uint256 1#256] ≠ none := by
    rw [ask_words h hm (question_within (a := 1#160) (b := 1#160) (by simp) (by simp) (by simp) (by simp)).1]
    unfold sampleMint
    rw [Contracts.Erc721MetadataContract.C103_erc721_metadata_sends D _ _ (by
      intro x hx
      rw [List.mem_singleton.mp hx]
      exact lm)]
    unfold Spec.Contracts.answer
    rw [(Contracts.Erc721MetadataContract.C103_erc721_metadata_views D _ _ 0#160 0#160 1#256 0#32).2.1]
    have m : [((⟨1#160, plain⟩ : Env), Call.mint 1#160 1#256)].map
        (fun x => (⟨x.1.caller, Calls.receivers721 keccak256 D x.1.world, x.2⟩ : Metadata.Tx)) =
        [⟨1#160, fun _ => none, .mint 1#160 1#256⟩] := rfl
    rw [m]
    decide +kernel
  have h1 := C118_erc721_metadata_anybody_sets_uri (U := U) h hm (asker := ⟨1#160, plain⟩) (env := ⟨2#160, plain⟩) (by simp) (by simp)
    (id := 1#256) (by simp) long_short ll owned
  refine ⟨h1, ?_⟩
  refine C118_erc721_metadata_anybody_sets_uri h (forall_append hm hset) (by simp) (by simp) (by simp) (hs 'x' (by simp)) lx fun e => ?_
  have := ((C118_erc721_metadata_uri (U := U) h (forall_append hm hset) (asker := ⟨1#160, plain⟩) (by simp) (id := 1#256) (by simp)).1).mpr e
  rw [h1] at this
  cases this

end Verif.Props.Erc721UriDeployed
