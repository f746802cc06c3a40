import Verif.Proofs.NftWrapperDeployed
import Verif.Props.OnWords
import Verif.Props.NftBytes
import Verif.Props.NftSystem
import Verif.Props.Erc721Words
import Verif.Proofs.Separate
/-!
# C123: `examples/erc721-wrapper` as deployed: constructor, calldata, storage words, and any program as the wrapped token

Nothing of the other models is left in the statements but the wrapper on words (`Verif.Model.NftWrapperDeployed`) and the rest of the
chain (`World` of `Verif.Model.Outside`), except that `C123_answers` compares the wrapper with that of C111.  `S` are the accounts and
`N` the tokens that take part.  Of them it is asked that the hash values of their storage cells do not coincide (`Apart`), as in C98,
C104 and C115.
-/
namespace Verif.Props.NftWrapperDeployed
open Verif Verif.Storage Verif.Outside Verif.NftWrapperDeployed Verif.Spec.NftWrapperDeployed Verif.Spec.OnWords
open Verif.Proofs.NftWrapperDeployed Verif.Props.OnWords
open Verif.OnWords (Chained)
open Verif.Abi (Val Decoder Outcome)
open Verif.Erc721 (Event)
open Verif.Spec.Keccak (keccak256)
open Verif.Spec.Contracts (Raw message values Says)
open Verif.Spec.Outside (Step)
open Verif.Spec.NftBytes (Obeys Welcomes Moved Wraps Unwraps newNfts nftsAfter Signed NftsReached Hosts Possible Runs Without nft)
open Verif.Spec.MultiDeployed (Names tokensOf)
open Verif.Spec.Calls (call)
open Verif.Spec.Revert (addr)
open Verif.Props.NftBytes (abi Op mem)

variable {τ : Type}

/-- What an account gets to know that asks a question: the bytes of the answer, `none` if it is refused. -/
abbrev ask (W : World τ) (D : Decoder) := Spec.Contracts.answer (run W keccak256 D)

/-- What `ownerOf` answers. -/
abbrev owns (W : World τ) (D : Decoder) (asker : Address) (w : Chained Event τ) (id : U256) :=
  ask W D asker w "ownerOf(uint256)" [.uint256 id]

/-- The answers say that the account may move the wrapped token: it is the owner, or an operator of the owner, or approved. -/
def May (W : World τ) (D : Decoder) (asker : Address) (w : Chained Event τ) (caller : Address) (id : U256) : Prop :=
  ∃ o, owns W D asker w id = some (values [.address o]) ∧ (caller = o ∨
    ask W D asker w "getApproved(uint256)" [.uint256 id] = some (values [.address caller]) ∨
    ask W D asker w "isApprovedForAll(address,address)" [.address o, .address caller] = some (values [.bool true]))

/-- **C123** Deployment is never refused. -/
theorem C123_deploy (K : Hash) (self under : Address) (t : τ) : ∃ w, deploy K self under t = some w := ⟨_, rfl⟩

section
variable {n : Nat} {S : List Address} {N : List U256} {W : World τ} {D : Decoder}

theorem within {caller : Address} {value : U256} {sg ty : String} {f : Router.Fn} {args : List Val}
    (hs : sg ∈ Spec.Router.erc721WrapperExample.map Prod.fst) (hr : Props.Router.routeSig Router.erc721WrapperExample sg = some (ty, f))
    (ht : args.map Val.type = Abi.flat f.args) (hl : (message sg args).length < 2 ^ 256) (hc : caller ∈ S) (hz : caller ≠ ZERO)
    (ha : ∀ a, Names args a → a ∈ S) (hn : ∀ id ∈ tokensOf args, id ∈ N) :
    Within keccak256 D S N ⟨caller, value, message sg args⟩ :=
  ⟨hc, hz, fun args' h => by rw [arguments_message mem hs hr ht hl h]; exact ha,
    fun args' h => by rw [arguments_message mem hs hr ht hl h]; exact hn⟩

set_option maxRecDepth 100000 in
/-- **C123** A call of a function that changes the state is about its sender, the addresses and the tokens among its arguments. -/
theorem C123_call_within {caller : Address} (hc : caller ∈ S) (hz : caller ≠ ZERO) (op : Op) (value : U256)
    (hl : (message (abi op).1 (abi op).2).length < 2 ^ 256) (ha : ∀ a, Names (abi op).2 a → a ∈ S)
    (hn : ∀ id ∈ tokensOf (abi op).2, id ∈ N) : Within keccak256 D S N ⟨caller, value, message (abi op).1 (abi op).2⟩ := by
  rcases op with _ | _ | _ | c
  · exact within (by simp [abi, Spec.Router.erc721WrapperExample]) rfl rfl hl hc hz ha hn
  · exact within (by simp [abi, Spec.Router.erc721WrapperExample]) rfl rfl hl hc hz ha hn
  · exact within (by simp [abi, Spec.Router.erc721WrapperExample]) rfl rfl hl hc hz ha hn
  · cases c <;> exact within (by simp [abi, Spec.Router.erc721WrapperExample]) rfl rfl hl hc hz ha hn

set_option maxRecDepth 100000 in
theorem question_within {asker a b : Address} {id : U256} (hc : asker ∈ S) (hz : asker ≠ ZERO) :
    Within keccak256 D S N ⟨asker, 0#256, message "underlying()" []⟩ ∧
    (a ∈ S → Within keccak256 D S N ⟨asker, 0#256, message "balanceOf(address)" [.address a]⟩) ∧
    (id ∈ N → Within keccak256 D S N ⟨asker, 0#256, message "ownerOf(uint256)" [.uint256 id]⟩) ∧
    (id ∈ N → Within keccak256 D S N ⟨asker, 0#256, message "getApproved(uint256)" [.uint256 id]⟩) ∧
    (a ∈ S → b ∈ S →
      Within keccak256 D S N ⟨asker, 0#256, message "isApprovedForAll(address,address)" [.address a, .address b]⟩) := by
  refine ⟨?_, fun h1 => ?_, fun h1 => ?_, fun h1 => ?_, fun h1 h2 => ?_⟩ <;>
    exact within (by simp [Spec.Router.erc721WrapperExample]) rfl rfl
      (Proofs.Contracts.words_lt _ _ (by simp [Spec.Contracts.arg]) (by simp)) hc hz (by simp_all [Names]) (by simp_all [tokensOf])

/-- Questions. -/
theorem ask_agree (h : Apart keccak256 n erc721WrapperExample (Cells S N)) (h0 : ZERO ∈ S) {w : Chained Event τ} {s : Nfts.State τ}
    (hi : Agrees keccak256 S N w s) {asker : Address} {sg : String} {args : List Val}
    (hq : Within keccak256 D S N ⟨asker, 0#256, message sg args⟩) :
    ask W D asker w sg args = Spec.Contracts.answer (NftBytes.wrapper W D) asker s sg args :=
  reply_of_answer (inv_run h h0 W D hi hq).1

/-- What the questions answer. -/
theorem asks (h : Apart keccak256 n erc721WrapperExample (Cells S N)) (h0 : ZERO ∈ S) {w : Chained Event τ} {s : Nfts.State τ}
    (hi : Agrees keccak256 S N w s) {asker : Address} (hc : asker ∈ S) (hz : asker ≠ ZERO) :
    ask W D asker w "underlying()" [] = some (values [.address s.underlying]) ∧
    (∀ a ∈ S, a ≠ ZERO → ask W D asker w "balanceOf(address)" [.address a] = some (values [.uint256 (s.token.balances a)])) ∧
    (∀ id ∈ N, owns W D asker w id = if s.token.owners id = ZERO then none else some (values [.address (s.token.owners id)])) ∧
    (∀ id ∈ N, ask W D asker w "getApproved(uint256)" [.uint256 id] =
      if s.token.owners id = ZERO then none else some (values [.address (s.token.tokenApprovals id)])) ∧
    (∀ a ∈ S, ∀ b ∈ S, ask W D asker w "isApprovedForAll(address,address)" [.address a, .address b] =
      some (values [.bool (s.token.operatorApprovals a b)])) := by
  refine ⟨?_, fun a ha hn => ?_, fun id hid => ?_, fun id hid => ?_, fun a ha b hb => ?_⟩
  · exact (ask_agree h h0 hi (question_within (a := ZERO) (b := ZERO) (id := 0#256) hc hz).1).trans
      (congrArg Outcome.reply (NftBytes.C111_views W D asker s ZERO ZERO 0#256).1)
  · refine (ask_agree h h0 hi ((question_within (b := ZERO) (id := 0#256) hc hz).2.1 ha)).trans ?_
    rw [(NftBytes.answers W D asker s a ZERO 0#256).1, if_neg hn]
  · exact (ask_agree h h0 hi ((question_within (a := ZERO) (b := ZERO) hc hz).2.2.1 hid)).trans
      (NftBytes.answers W D asker s ZERO ZERO id).2.1
  · exact (ask_agree h h0 hi ((question_within (a := ZERO) (b := ZERO) hc hz).2.2.2.1 hid)).trans
      (NftBytes.answers W D asker s ZERO ZERO id).2.2.1
  · exact (ask_agree h h0 hi ((question_within (id := 0#256) hc hz).2.2.2.2 ha hb)).trans
      (NftBytes.answers W D asker s a b 0#256).2.2.2

theorem world_eq {w : Chained Event τ} {s : Nfts.State τ} (hi : Agrees keccak256 S N w s) : w.world = s.world := by
  obtain ⟨⟨c, _, rfl, _⟩, _⟩ := hi; rfl

theorem self_eq {w : Chained Event τ} {s : Nfts.State τ} (hi : Agrees keccak256 S N w s) : w.self_ = s.self_ := by
  obtain ⟨⟨c, _, rfl, _⟩, _⟩ := hi; rfl

theorem log_eq {w : Chained Event τ} {s : Nfts.State τ} (hi : Agrees keccak256 S N w s) : w.log = s.token.log := by
  obtain ⟨⟨c, _, rfl, _⟩, _⟩ := hi; rfl

/-- Nobody owns tokens that take no part. -/
theorem nothing {w : Chained Event τ} {s : Nfts.State τ} (hi : Agrees keccak256 S N w s) {id : U256} (hid : id ∉ N) :
    s.token.owners id = ZERO := by
  obtain ⟨⟨c, _, rfl, hz⟩, _⟩ := hi
  have : c (Erc721Words.owner token id) = 0#256 := by
    refine hz (Erc721Words.owner token id) ?_
    rintro ((⟨b, hb, h⟩ | ⟨b, hb, h⟩ | ⟨b, hb, h⟩ | ⟨b, _, d, _, h⟩) | h)
    · simp only [Erc721Words.owner, token, List.append_cancel_left_eq, List.cons.injEq, Step.key.injEq, and_true, true_and] at h
      exact hid (h ▸ hb)
    all_goals simp [Erc721Words.owner, Erc721Words.balance, Erc721Words.approved, Erc721Words.operator, token] at h
  show (c (Erc721Words.owner token id)).setWidth 160 = ZERO
  rw [this]; rfl

/-- The outcomes correspond. -/
theorem returned {w w' : Chained Event τ} {s : Nfts.State τ} (h : Apart keccak256 n erc721WrapperExample (Cells S N)) (h0 : ZERO ∈ S)
    (hi : Agrees keccak256 S N w s) {tx : Raw Address} (hx : Within keccak256 D S N tx) {d : Bytes}
    (hr : run W keccak256 D tx.env w tx.value tx.input = .returned w' d) :
    ∃ s', NftBytes.wrapper W D tx.env s tx.value tx.input = .returned s' d ∧ Agrees keccak256 S N w' s' := by
  obtain ⟨h1, h2⟩ := inv_run h h0 W D hi hx
  rw [hr] at h1 h2
  unfold NftBytes.wrapper
  revert h1 h2
  cases Nfts.run W keccak256 D tx.env s tx.value tx.input with
  | reverted d' => exact fun h1 _ => by cases h1
  | returned w' d' => exact fun h1 h2 => ⟨w', by cases h1; rfl, h2⟩

theorem returns {w : Chained Event τ} {s : Nfts.State τ} (h : Apart keccak256 n erc721WrapperExample (Cells S N)) (h0 : ZERO ∈ S)
    (hi : Agrees keccak256 S N w s) {tx : Raw Address} (hx : Within keccak256 D S N tx) {s' : Nfts.State τ} {d : Bytes}
    (hr : NftBytes.wrapper W D tx.env s tx.value tx.input = .returned s' d) :
    ∃ w', run W keccak256 D tx.env w tx.value tx.input = .returned w' d ∧ Agrees keccak256 S N w' s' := by
  obtain ⟨h1, h2⟩ := inv_run h h0 W D hi hx
  unfold NftBytes.wrapper at hr
  rw [hr] at h1 h2
  revert h1 h2
  cases run W keccak256 D tx.env w tx.value tx.input with
  | reverted d' => exact fun h1 _ => by cases h1
  | returned w' d' => exact fun h1 h2 => ⟨w', by cases h1; rfl, h2⟩

theorem reverted {w : Chained Event τ} {s : Nfts.State τ} (h : Apart keccak256 n erc721WrapperExample (Cells S N)) (h0 : ZERO ∈ S)
    (hi : Agrees keccak256 S N w s) {tx : Raw Address} (hx : Within keccak256 D S N tx) {d : Bytes}
    (hr : NftBytes.wrapper W D tx.env s tx.value tx.input = .reverted d) :
    run W keccak256 D tx.env w tx.value tx.input = .reverted d := by
  obtain ⟨h1, _⟩ := inv_run h h0 W D hi hx
  unfold NftBytes.wrapper at hr
  rw [hr] at h1
  revert h1
  cases run W keccak256 D tx.env w tx.value tx.input with
  | reverted d' => exact fun h1 => by cases h1; rfl
  | returned w' d' => exact fun h1 => by cases h1

theorem owner_none (h : Apart keccak256 n erc721WrapperExample (Cells S N)) (h0 : ZERO ∈ S) {w : Chained Event τ} {s : Nfts.State τ}
    (hi : Agrees keccak256 S N w s) {asker : Address} (hc : asker ∈ S) (hz : asker ≠ ZERO) {id : U256} (hid : id ∈ N) :
    owns W D asker w id = none ↔ s.token.owners id = ZERO := by
  rw [(asks h h0 hi hc hz).2.2.1 id hid]; split <;> simp_all

theorem owner_some (h : Apart keccak256 n erc721WrapperExample (Cells S N)) (h0 : ZERO ∈ S) {w : Chained Event τ} {s : Nfts.State τ}
    (hi : Agrees keccak256 S N w s) {asker : Address} (hc : asker ∈ S) (hz : asker ≠ ZERO) {id : U256} (hid : id ∈ N) {a : Address} :
    owns W D asker w id = some (values [.address a]) ↔ s.token.owners id = a ∧ a ≠ ZERO := by
  rw [show owns W D asker w id = _ from ask_agree h h0 hi ((question_within (a := ZERO) (b := ZERO) hc hz).2.2.1 hid),
    NftBytes.owner_some]

theorem bool_inj {b : Bool} (h : values [.bool b] = values [.bool true]) : b = true := by
  cases b with
  | true => rfl
  | false => revert h; decide +kernel

/-- Who may move a token, as the answers say it. -/
theorem may_iff (h : Apart keccak256 n erc721WrapperExample (Cells S N)) (h0 : ZERO ∈ S) {w : Chained Event τ} {s : Nfts.State τ}
    (hi : Agrees keccak256 S N w s) (hu : Erc721.NoGhost s.token) {asker : Address} (hc : asker ∈ S) (hz : asker ≠ ZERO) {id : U256}
    (hid : id ∈ N) {caller : Address} (hk : caller ∈ S) (hn : caller ≠ ZERO) :
    May W D asker w caller id ↔ Spec.Erc721.MayMove s.token caller id := by
  obtain ⟨_, _, _, q4, q5⟩ := asks (W := W) (D := D) h h0 hi hc hz
  have ho : ∀ o, s.token.owners id = o → o ∈ S := fun o e => e ▸ hi.2 id
  have e1 : ∀ o, owns W D asker w id = some (values [.address o]) ↔ Spec.Erc721.owner? s.token id = some o := fun o => by
    rw [owner_some h h0 hi hc hz hid, Erc721.owner?_eq, Erc721.nobody_some]
  have e2 : Spec.Erc721.approved? s.token id = some caller ↔
      ask W D asker w "getApproved(uint256)" [.uint256 id] = some (values [.address caller]) := by
    rw [q4 id hid, Erc721.approved?_eq hu, Erc721.nobody_some]
    by_cases e : s.token.owners id = ZERO
    · rw [if_pos e, hu.appr id e]
      exact ⟨fun h => absurd h.1.symm hn, fun h => by cases h⟩
    · rw [if_neg e]
      exact ⟨fun h => by rw [h.1], fun h => ⟨Proofs.Contracts.address_inj (Option.some.inj h), hn⟩⟩
  unfold May Spec.Erc721.MayMove
  constructor
  · rintro ⟨o, h1, h2⟩
    refine ⟨o, (e1 o).mp h1, ?_⟩
    rcases h2 with h2 | h2 | h2
    · exact .inl h2
    · exact .inr (.inr (e2.mpr h2))
    · rw [q5 o (ho o ((owner_some h h0 hi hc hz hid).mp h1).1) caller hk] at h2
      exact .inr (.inl (bool_inj (Option.some.inj h2)))
  · rintro ⟨o, h1, h2⟩
    have h1 := (e1 o).mpr h1
    refine ⟨o, h1, ?_⟩
    rcases h2 with h2 | h2 | h2
    · exact .inl h2
    · rw [q5 o (ho o ((owner_some h h0 hi hc hz hid).mp h1).1) caller hk]
      exact .inr (.inr (by unfold Erc721.isApprovedForAll at h2; rw [h2]))
    · exact .inr (.inl (e2.mp h2))

/-! ### Wrapping and unwrapping one after the other -/

/-- What becomes of the wrapped tokens: those of `ids` go to `dst`, the others stay. -/
structure Went (u u' : Erc721.State) (ids : List U256) (dst : Address) : Prop where
  owners : ∀ i, u'.owners i = if i ∈ ids then dst else u.owners i
  approvals : ∀ i, u'.tokenApprovals i = if i ∈ ids then ZERO else u.tokenApprovals i
  operators : u'.operatorApprovals = u.operatorApprovals
  log : u'.log = u.log ++ ids.map fun i => .transfer (u.owners i) dst i

theorem went_nil (u : Erc721.State) (dst : Address) : Went u u [] dst := ⟨by simp, by simp, rfl, by simp⟩

theorem went_cons {u u1 u' : Erc721.State} {id : U256} {ids : List U256} {dst : Address} (h : Moved u u1 id dst) (h' : Went u1 u' ids dst)
    (hn : id ∉ ids) : Went u u' (id :: ids) dst := by
  refine ⟨fun i => ?_, fun i => ?_, h'.operators.trans h.operators, ?_⟩
  · rw [h'.owners, h.owners]; by_cases e : i = id <;> simp [e]
  · rw [h'.approvals, h.approvals]; by_cases e : i = id <;> simp [e]
  · rw [h'.log, h.log, List.append_assoc]
    refine congrArg (u.log ++ ·) (congrArg (Event.transfer (u.owners id) dst id :: ·) (List.map_congr_left fun i hi => ?_))
    rw [h.owners, if_neg fun e : i = id => hn (e ▸ hi)]

theorem noGhost_moved {u u1 : Erc721.State} {id : U256} {dst : Address} (hu : Erc721.NoGhost u) (h : Moved u u1 id dst) :
    Erc721.NoGhost u1 := by
  refine ⟨fun i hi => ?_, by rw [h.operators]; exact hu.oper, by rw [h.operators]; exact hu.toZero⟩
  rw [h.approvals]
  split
  · rfl
  · rename_i e
    rw [h.owners, if_neg e] at hi
    exact hu.appr i hi

theorem wraps_of {self under c a : Address} : ∀ (ids : List U256) {u u' : Erc721.State} {t t' : τ},
    Wraps W D self under c a ids u t u' t' → Pulls W D self under c a ids t t' ∧ (ids ≠ [] → a ≠ ZERO) ∧ Went u u' ids a
  | [], u, _, _, _, ⟨h1, h2⟩ => by subst h1; exact ⟨h2, fun h => absurd rfl h, went_nil _ _⟩
  | id :: ids, u, u', t, t', h => by
    have hn := (List.nodup_cons.mp (NftBytes.wraps_effect _ h).2.2).1
    obtain ⟨t1, u1, t2, h1, h2, _, h4, h5, h6⟩ := h
    obtain ⟨k1, _, k3⟩ := wraps_of ids h6
    exact ⟨⟨t1, t2, h1, h5, k1⟩, fun _ => h2, went_cons h4 k3 hn⟩

theorem wraps_mk {self under c a : Address} : ∀ (ids : List U256) {u : Erc721.State} {t t' : τ}, Erc721.NoGhost u →
    (ids ≠ [] → a ≠ ZERO) → ids.Nodup → (∀ id ∈ ids, u.owners id = ZERO) → Pulls W D self under c a ids t t' →
    ∃ u', Wraps W D self under c a ids u t u' t'
  | [], u, _, _, _, _, _, _, h => ⟨u, rfl, h⟩
  | id :: ids, u, t, t', hu, ha, hn, ho, ⟨t1, t2, h1, h2, h3⟩ => by
    have ha := ha (by simp)
    have hm := (NftBytes.moved_iff hu (id := id) (.inr ha)).mp rfl
    obtain ⟨n1, n2⟩ := List.nodup_cons.mp hn
    obtain ⟨u', k⟩ := wraps_mk ids (noGhost_moved hu hm) (fun _ => ha) n2 (fun i hi => by
      rw [hm.owners, if_neg fun e : i = id => n1 (e ▸ hi)]; exact ho i (List.mem_cons_of_mem _ hi)) h3
    exact ⟨u', t1, _, t2, h1, ha, ho id List.mem_cons_self, hm, h2, k⟩

theorem unwraps_of {self under c a : Address} : ∀ (ids : List U256) {u u' : Erc721.State} {t t' : τ},
    Unwraps W D self under c a ids u t u' t' → Pushes W D self under a ids t t' ∧ Went u u' ids ZERO
  | [], u, _, _, _, ⟨h1, h2⟩ => by subst h1; exact ⟨h2, went_nil _ _⟩
  | id :: ids, u, u', t, t', h => by
    have hn := (List.nodup_cons.mp (NftBytes.unwraps_effect _ h).2.2).1
    obtain ⟨t1, u1, _, h2, h3, h4⟩ := h
    obtain ⟨k1, k2⟩ := unwraps_of ids h4
    exact ⟨⟨t1, h3, k1⟩, went_cons h2 k2 hn⟩

theorem mayMove_other {u u' : Erc721.State} {id i : U256} {a c : Address} (hu : Erc721.NoGhost u) (h : Moved u u' id a) (hi : i ≠ id)
    (hm : Spec.Erc721.MayMove u c i) : Spec.Erc721.MayMove u' c i := by
  obtain ⟨o, h1, h2⟩ := hm
  refine ⟨o, by rw [Erc721.owner?_eq] at h1 ⊢; rw [h.owners, if_neg hi]; exact h1, ?_⟩
  rcases h2 with h2 | h2 | h2
  · exact .inl h2
  · exact .inr (.inl (by unfold Erc721.isApprovedForAll at *; rw [h.operators]; exact h2))
  · refine .inr (.inr ?_)
    rw [Erc721.approved?_eq hu] at h2
    rw [Erc721.approved?_eq (noGhost_moved hu h), h.approvals, if_neg hi]
    exact h2

theorem unwraps_mk {self under c a : Address} : ∀ (ids : List U256) {u : Erc721.State} {t t' : τ}, Erc721.NoGhost u →
    ids.Nodup → (∀ id ∈ ids, Spec.Erc721.MayMove u c id) → Pushes W D self under a ids t t' →
    ∃ u', Unwraps W D self under c a ids u t u' t'
  | [], u, _, _, _, _, _, h => ⟨u, rfl, h⟩
  | id :: ids, u, t, t', hu, hn, ho, ⟨t1, h1, h2⟩ => by
    have hm := (NftBytes.moved_iff hu (id := id) (dst := ZERO) (.inl (NftBytes.mayMove_owned (ho id List.mem_cons_self)))).mp rfl
    obtain ⟨n1, n2⟩ := List.nodup_cons.mp hn
    obtain ⟨u', k⟩ := unwraps_mk ids (noGhost_moved hu hm) n2 (fun i hi =>
      mayMove_other hu hm (fun e => n1 (e ▸ hi)) (ho i (List.mem_cons_of_mem _ hi))) h2
    exact ⟨u', t1, _, ho id List.mem_cons_self, hm, h1, k⟩

theorem signed {l : List (Step τ)} (hl : ∀ x ∈ l, About keccak256 D S N x) : Signed l := fun _ _ _ hm => (hl _ hm).signed

theorem play_agree (h : Apart keccak256 n erc721WrapperExample (Cells S N)) (h0 : ZERO ∈ S) (l : List (Step τ)) {w : Chained Event τ}
    {s : Nfts.State τ} (hi : Agrees keccak256 S N w s) (hx : ∀ x ∈ l, About keccak256 D S N x) :
    Agrees keccak256 S N (play W keccak256 D w l) (nftsAfter W D s l) := inv_play h h0 W D l hi hx

theorem start_agree (h : Apart keccak256 n erc721WrapperExample (Cells S N)) (h0 : ZERO ∈ S) {self under : Address} {t : τ}
    {w : Chained Event τ} (hd : deploy keccak256 self under t = some w) : Agrees keccak256 S N w (newNfts self under t) := by
  obtain ⟨w1, h1, h2⟩ := inv_deploy h h0 self under t
  rw [hd] at h1
  injection h1 with h1
  exact h1 ▸ h2

section
variable {self under : Address} {t : τ} {w : Chained Event τ}

/-- Where a deployed wrapper is, and what it wraps. -/
theorem fixed (l : List (Step τ)) (hl : ∀ x ∈ l, About keccak256 D S N x) :
    NftsReached W D (nftsAfter W D (newNfts self under t) l) ∧ (nftsAfter W D (newNfts self under t) l).self_ = self ∧
    (nftsAfter W D (newNfts self under t) l).underlying = under := by
  obtain ⟨h1, h2⟩ := NftBytes.C111_fixed W D l (signed hl) (s := newNfts self under t)
    ⟨self, under, t, [], (fun _ _ _ h => by simp at h), rfl⟩
  exact ⟨⟨self, under, t, l, signed hl, rfl⟩, h1, h2⟩

/-- **C123** Bytes in, bytes out, with nothing between but words of storage: after any transactions and anything that others do, a
transaction is answered with the same bytes as by the wrapper with independent mappings that C111 is about, the rest of the chain is
the same before and after it, and so are the events. -/
theorem C123_answers (h : Apart keccak256 n erc721WrapperExample (Cells S N)) (h0 : ZERO ∈ S)
    (hd : deploy keccak256 self under t = some w) (l : List (Step τ)) (tx : Raw Address)
    (hl : ∀ x ∈ l, About keccak256 D S N x) (hx : Within keccak256 D S N tx) :
    let s := nftsAfter W D (newNfts self under t) l
    let w' := play W keccak256 D w l
    let out := run W keccak256 D tx.env w' tx.value tx.input
    let out' := Nfts.run W keccak256 D tx.env s tx.value tx.input
    Spec.Deployed.answer out = Spec.Deployed.answer out' ∧ w'.world = s.world ∧ (out.after w').world = (out'.after s).world ∧
    w'.log = s.token.log := by
  intro s w' out out'
  have hi := play_agree (W := W) h h0 l (start_agree h h0 hd) hl
  obtain ⟨h1, h2⟩ := inv_run h h0 W D hi hx
  exact ⟨h1, world_eq hi, world_eq h2, log_eq hi⟩

/-- **C123** With bytes only: right after the deployment nothing is wrapped, nobody has a token, nobody is an operator. -/
theorem C123_start (h : Apart keccak256 n erc721WrapperExample (Cells S N)) (h0 : ZERO ∈ S)
    (hd : deploy keccak256 self under t = some w) {asker a b : Address} {id : U256} (hc : asker ∈ S) (hz : asker ≠ ZERO) (ha : a ∈ S)
    (hb : b ∈ S) (hid : id ∈ N) :
    owns W D asker w id = none ∧ ask W D asker w "getApproved(uint256)" [.uint256 id] = none ∧
    (a ≠ ZERO → ask W D asker w "balanceOf(address)" [.address a] = some (values [.uint256 0#256])) ∧
    ask W D asker w "isApprovedForAll(address,address)" [.address a, .address b] = some (values [.bool false]) := by
  obtain ⟨_, q2, q3, q4, q5⟩ := asks (W := W) (D := D) h h0 (start_agree h h0 hd) hc hz
  exact ⟨q3 id hid, q4 id hid, q2 a ha, q5 a ha b hb⟩

/-- **C123** With bytes only: whatever happens, the answer to `underlying` is that of the deployment. -/
theorem C123_fixed (h : Apart keccak256 n erc721WrapperExample (Cells S N)) (h0 : ZERO ∈ S)
    (hd : deploy keccak256 self under t = some w) (l : List (Step τ)) (hl : ∀ x ∈ l, About keccak256 D S N x) {asker : Address}
    (hc : asker ∈ S) (hz : asker ≠ ZERO) :
    ask W D asker (play W keccak256 D w l) "underlying()" [] = some (values [.address under]) := by
  have hi := play_agree (W := W) h h0 l (start_agree h h0 hd) hl
  rw [(asks h h0 hi hc hz).1, (fixed l hl).2.2]

/-- **C123** With bytes only: whatever happens, `balanceOf` answers for how many of the tokens that take part `ownerOf` answers the
account. -/
theorem C123_balances (h : Apart keccak256 n erc721WrapperExample (Cells S N)) (h0 : ZERO ∈ S)
    (hd : deploy keccak256 self under t = some w) (l : List (Step τ)) (hl : ∀ x ∈ l, About keccak256 D S N x) (hN : N.Nodup)
    {asker a : Address} (hc : asker ∈ S) (hz : asker ≠ ZERO) (ha : a ∈ S) (hn : a ≠ ZERO) :
    let w' := play W keccak256 D w l
    ask W D asker w' "balanceOf(address)" [.address a] =
      some (values [.uint256 (BitVec.ofNat 256 (N.filter fun id => owns W D asker w' id = some (values [.address a])).length)]) := by
  intro w'
  have hi : Agrees keccak256 S N w' _ := play_agree (W := W) h h0 l (start_agree h h0 hd) hl
  have hr := (fixed (W := W) (self := self) (under := under) (t := t) l hl).1
  generalize nftsAfter W D (newNfts self under t) l = s at hi hr
  rw [(asks h h0 hi hc hz).2.1 a ha hn, (NftBytes.reached_inv hr).count a hn]
  have : Erc721.cnt s.token.owners a = (N.filter fun id => owns W D asker w' id = some (values [.address a])).length := by
    have e : (N.filter fun id => owns W D asker w' id = some (values [.address a])) = N.filter fun id => s.token.owners id = a :=
      List.filter_congr fun id hid => by
        rw [decide_eq_decide]
        exact (owner_some h h0 hi hc hz hid).trans ⟨fun h => h.1, fun h => ⟨h, hn⟩⟩
    rw [e, ← List.toFinset_card_of_nodup (hN.filter _)]
    unfold Erc721.cnt
    rw [← Finset.sum_filter, Finset.sum_const, smul_eq_mul, mul_one]
    refine congrArg Finset.card (Finset.ext fun id => ?_)
    simp only [Finset.mem_filter, Finset.mem_univ, true_and, List.mem_toFinset, List.mem_filter, decide_eq_true_eq]
    refine ⟨fun h1 => ⟨?_, h1⟩, fun h1 => h1.2⟩
    by_contra hid
    exact hn (h1.symm.trans (nothing hi hid))
  rw [this]

/-- What the answers say when tokens went to `dst`. -/
theorem went_answers (h : Apart keccak256 n erc721WrapperExample (Cells S N)) (h0 : ZERO ∈ S) {w' w2 : Chained Event τ}
    {s s' : Nfts.State τ} (hi : Agrees keccak256 S N w' s) (h2 : Agrees keccak256 S N w2 s') {ids : List U256} {dst : Address}
    (k : Went s.token s'.token ids dst) {asker : Address} (hc : asker ∈ S) (hz : asker ≠ ZERO) :
    (∀ id ∈ N, owns W D asker w2 id = if id ∈ ids then (if dst = ZERO then none else some (values [.address dst]))
      else owns W D asker w' id) ∧
    (∀ id ∈ N, ask W D asker w2 "getApproved(uint256)" [.uint256 id] =
      if id ∈ ids then (if dst = ZERO then none else some (values [.address ZERO])) else ask W D asker w' "getApproved(uint256)" [.uint256 id]) ∧
    ∀ b ∈ S, ∀ b' ∈ S, ask W D asker w2 "isApprovedForAll(address,address)" [.address b, .address b'] =
      ask W D asker w' "isApprovedForAll(address,address)" [.address b, .address b'] := by
  obtain ⟨_, _, p3, p4, p5⟩ := asks (W := W) (D := D) h h0 hi hc hz
  obtain ⟨_, _, q3, q4, q5⟩ := asks (W := W) (D := D) h h0 h2 hc hz
  refine ⟨fun id hid => ?_, fun id hid => ?_, fun b hb b' hb' => ?_⟩
  · rw [q3 id hid, p3 id hid, k.owners]
    by_cases e : id ∈ ids
    · simp only [e, if_true]
    · simp only [e, if_false]
  · rw [q4 id hid, p4 id hid, k.owners, k.approvals]
    by_cases e : id ∈ ids
    · simp only [e, if_true]
    · simp only [e, if_false]
  · rw [q5 b hb b' hb', p5 b hb b' hb', k.operators]

/-- **C123** With bytes only: after any history, `depositFor(a, ids)` goes through exactly if the ids are distinct, none of them is
wrapped according to the answers, `a` is not the zero address (unless there are no ids), and for one id after the other the underlying
token obeys `transferFrom(sender, wrapper, id)` and `a` welcomes the wrapped token.  Then it answers true, the chain is as they left
it, `ownerOf` answers `a` for the ids, nobody is approved for them, all other answers stay, and there is one event for each id. -/
theorem C123_depositFor (h : Apart keccak256 n erc721WrapperExample (Cells S N)) (h0 : ZERO ∈ S)
    (hd : deploy keccak256 self under t = some w) (l : List (Step τ)) (hl : ∀ x ∈ l, About keccak256 D S N x)
    {caller asker a : Address} (hcal : caller ∈ S) (hcz : caller ≠ ZERO) (hc : asker ∈ S) (hz : asker ≠ ZERO) (ha : a ∈ S)
    {ids : List U256} (hids : ∀ id ∈ ids, id ∈ N)
    (hm : (message "depositFor(address,uint256[])" [.address a, .uints ids]).length < 2 ^ 256) :
    let w' := play W keccak256 D w l
    let out := run W keccak256 D caller w' 0#256 (message "depositFor(address,uint256[])" [.address a, .uints ids])
    (∀ t', (ids ≠ [] → a ≠ ZERO) → ids.Nodup → (∀ id ∈ ids, owns W D asker w' id = none) →
      Pulls W D self under caller a ids w'.world t' → ∃ w2, out = .returned w2 (values [.bool true]) ∧ w2.world = t') ∧
    ∀ w2 d, out = .returned w2 d →
      (ids ≠ [] → a ≠ ZERO) ∧ ids.Nodup ∧ (∀ id ∈ ids, owns W D asker w' id = none) ∧
      Pulls W D self under caller a ids w'.world w2.world ∧ d = values [.bool true] ∧
      w2.log = w'.log ++ ids.map (.transfer ZERO a ·) ∧
      (∀ id ∈ N, owns W D asker w2 id = if id ∈ ids then some (values [.address a]) else owns W D asker w' id) ∧
      (∀ id ∈ N, ask W D asker w2 "getApproved(uint256)" [.uint256 id] =
        if id ∈ ids then some (values [.address ZERO]) else ask W D asker w' "getApproved(uint256)" [.uint256 id]) ∧
      ∀ b ∈ S, ∀ b' ∈ S, ask W D asker w2 "isApprovedForAll(address,address)" [.address b, .address b'] =
        ask W D asker w' "isApprovedForAll(address,address)" [.address b, .address b'] := by
  intro w' out
  have hi : Agrees keccak256 S N w' _ := play_agree (W := W) h h0 l (start_agree h h0 hd) hl
  obtain ⟨hr, f1, f2⟩ := fixed (W := W) (self := self) (under := under) (t := t) l hl
  generalize nftsAfter W D (newNfts self under t) l = s at hi hr f1 f2
  have hx := C123_call_within (D := D) hcal hcz (.depositFor a ids) 0#256 hm (by simp [abi, Names, ha]) (by simpa [abi, tokensOf] using hids)
  have hk := NftBytes.C111_depositFor W D caller hr a ids
  rw [f1, f2, ← world_eq hi] at hk
  refine ⟨fun t' c1 c2 c3 c4 => ?_, fun w2 d ho => ?_⟩
  · obtain ⟨u, hu⟩ := wraps_mk (W := W) (D := D) ids (NftBytes.reached_inv hr).toNoGhost c1 c2
      (fun id hid => (owner_none h h0 hi hc hz (hids id hid)).mp (c3 id hid)) c4
    obtain ⟨w2, h1, h2⟩ := returns (tx := ⟨caller, _, _⟩) h h0 hi hx ((hk _ _ hm).mpr ⟨u, t', hu, rfl, rfl⟩)
    exact ⟨w2, h1, world_eq h2⟩
  · obtain ⟨s', h1, h2⟩ := returned (tx := ⟨caller, _, _⟩) h h0 hi hx ho
    obtain ⟨u, t', k, rfl, rfl⟩ := (hk _ _ hm).mp h1
    obtain ⟨k1, k2, k3⟩ := wraps_of ids k
    obtain ⟨_, e2, e3⟩ := NftBytes.wraps_effect ids k
    obtain ⟨r1, r2, r3⟩ := went_answers (W := W) (D := D) h h0 hi h2 k3 hc hz
    refine ⟨k2, e3, fun id hid => (owner_none h h0 hi hc hz (hids id hid)).mpr (e2 id hid).1, world_eq h2 ▸ k1, rfl, ?_,
      fun id hid => ?_, fun id hid => ?_, r3⟩
    · rw [log_eq h2, log_eq hi]
      refine k3.log.trans (congrArg (s.token.log ++ ·) (List.map_congr_left fun i hi => ?_))
      rw [(e2 i hi).1]
    · rw [r1 id hid]
      by_cases e : id ∈ ids
      · simp only [e, if_true]
        rw [if_neg (k2 (List.ne_nil_of_mem e))]
      · simp only [e, if_false]
    · rw [r2 id hid]
      by_cases e : id ∈ ids
      · simp only [e, if_true]
        rw [if_neg (k2 (List.ne_nil_of_mem e))]
      · simp only [e, if_false]

/-- **C123** With bytes only: after any history, `withdrawTo(a, ids)` goes through exactly if the ids are distinct, the sender may move
each of them according to the answers, and for one id after the other the underlying token obeys
`safeTransferFrom(wrapper, a, id, "")`.  Then it answers true, the chain is as the underlying token left it, the ids are no longer
wrapped, all other answers stay, and there is one event for each id, from the account that `ownerOf` answered. -/
theorem C123_withdrawTo (h : Apart keccak256 n erc721WrapperExample (Cells S N)) (h0 : ZERO ∈ S)
    (hd : deploy keccak256 self under t = some w) (l : List (Step τ)) (hl : ∀ x ∈ l, About keccak256 D S N x)
    {caller asker a : Address} (hcal : caller ∈ S) (hcz : caller ≠ ZERO) (hc : asker ∈ S) (hz : asker ≠ ZERO) (ha : a ∈ S)
    {ids : List U256} (hids : ∀ id ∈ ids, id ∈ N)
    (hm : (message "withdrawTo(address,uint256[])" [.address a, .uints ids]).length < 2 ^ 256) :
    let w' := play W keccak256 D w l
    let out := run W keccak256 D caller w' 0#256 (message "withdrawTo(address,uint256[])" [.address a, .uints ids])
    (∀ t', ids.Nodup → (∀ id ∈ ids, May W D asker w' caller id) → Pushes W D self under a ids w'.world t' →
      ∃ w2, out = .returned w2 (values [.bool true]) ∧ w2.world = t') ∧
    ∀ w2 d, out = .returned w2 d →
      ids.Nodup ∧ (∀ id ∈ ids, May W D asker w' caller id) ∧
      Pushes W D self under a ids w'.world w2.world ∧ d = values [.bool true] ∧
      (∃ owner : U256 → Address, (∀ id ∈ ids, owns W D asker w' id = some (values [.address (owner id)])) ∧
        w2.log = w'.log ++ ids.map fun id => .transfer (owner id) ZERO id) ∧
      (∀ id ∈ N, owns W D asker w2 id = if id ∈ ids then none else owns W D asker w' id) ∧
      (∀ id ∈ N, ask W D asker w2 "getApproved(uint256)" [.uint256 id] =
        if id ∈ ids then none else ask W D asker w' "getApproved(uint256)" [.uint256 id]) ∧
      ∀ b ∈ S, ∀ b' ∈ S, ask W D asker w2 "isApprovedForAll(address,address)" [.address b, .address b'] =
        ask W D asker w' "isApprovedForAll(address,address)" [.address b, .address b'] := by
  intro w' out
  have hi : Agrees keccak256 S N w' _ := play_agree (W := W) h h0 l (start_agree h h0 hd) hl
  obtain ⟨hr, f1, f2⟩ := fixed (W := W) (self := self) (under := under) (t := t) l hl
  generalize nftsAfter W D (newNfts self under t) l = s at hi hr f1 f2
  have hx := C123_call_within (D := D) hcal hcz (.withdrawTo a ids) 0#256 hm (by simp [abi, Names, ha]) (by simpa [abi, tokensOf] using hids)
  have hg := (NftBytes.reached_inv hr).toNoGhost
  have hk := NftBytes.C111_withdrawTo W D caller hcz hr a ids
  rw [f1, f2, ← world_eq hi] at hk
  refine ⟨fun t' c2 c3 c4 => ?_, fun w2 d ho => ?_⟩
  · obtain ⟨u, hu⟩ := unwraps_mk (W := W) (D := D) ids hg c2
      (fun id hid => (may_iff h h0 hi hg hc hz (hids id hid) hcal hcz).mp (c3 id hid)) c4
    obtain ⟨w2, h1, h2⟩ := returns (tx := ⟨caller, _, _⟩) h h0 hi hx ((hk _ _ hm).mpr ⟨u, t', hu, rfl, rfl⟩)
    exact ⟨w2, h1, world_eq h2⟩
  · obtain ⟨s', h1, h2⟩ := returned (tx := ⟨caller, _, _⟩) h h0 hi hx ho
    obtain ⟨u, t', k, rfl, rfl⟩ := (hk _ _ hm).mp h1
    obtain ⟨k1, k3⟩ := unwraps_of ids k
    obtain ⟨_, e2, e3⟩ := NftBytes.unwraps_effect ids k
    obtain ⟨r1, r2, r3⟩ := went_answers (W := W) (D := D) h h0 hi h2 k3 hc hz
    simp only [if_true] at r1 r2
    refine ⟨e3, fun id hid => (may_iff h h0 hi hg hc hz (hids id hid) hcal hcz).mpr (e2 id hid).1, world_eq h2 ▸ k1, rfl,
      ⟨s.token.owners, fun id hid => (owner_some h h0 hi hc hz (hids id hid)).mpr ⟨rfl, NftBytes.mayMove_owned (e2 id hid).1⟩, ?_⟩,
      r1, r2, r3⟩
    rw [log_eq h2, log_eq hi]
    exact k3.log

/-- **C123** With bytes only: after any history, `onErc721Received(operator, a, id, data)` goes through exactly if the underlying token
sends it, `id` is not wrapped according to the answers, `a` is not the zero address and welcomes the wrapped token.  Then it answers the
selector of `onERC721Received`, the chain is as `a` left it, `ownerOf(id)` answers `a`, all other answers stay, and there is one event. -/
theorem C123_onReceived (h : Apart keccak256 n erc721WrapperExample (Cells S N)) (h0 : ZERO ∈ S)
    (hd : deploy keccak256 self under t = some w) (l : List (Step τ)) (hl : ∀ x ∈ l, About keccak256 D S N x)
    {caller asker o a : Address} (hcal : caller ∈ S) (hcz : caller ≠ ZERO) (hc : asker ∈ S) (hz : asker ≠ ZERO) (ha : a ∈ S) (hop : o ∈ S)
    {id : U256} (hid : id ∈ N) (data : Bytes)
    (hm : (message "onErc721Received(address,address,uint256,bytes)"
      [.address o, .address a, .uint256 id, .bytes data]).length < 2 ^ 256) :
    let w' := play W keccak256 D w l
    let out := run W keccak256 D caller w' 0#256 (message "onErc721Received(address,address,uint256,bytes)"
      [.address o, .address a, .uint256 id, .bytes data])
    (∀ t', caller = under → a ≠ ZERO → owns W D asker w' id = none → Welcomes W D w'.world self caller ZERO a id [] t' →
      ∃ w2, out = .returned w2 (values [.bytes4 0x150b7a02#32]) ∧ w2.world = t') ∧
    ∀ w2 d, out = .returned w2 d →
      caller = under ∧ a ≠ ZERO ∧ owns W D asker w' id = none ∧ Welcomes W D w'.world self caller ZERO a id [] w2.world ∧
      d = values [.bytes4 0x150b7a02#32] ∧ w2.log = w'.log ++ [.transfer ZERO a id] ∧
      (∀ i ∈ N, owns W D asker w2 i = if i = id then some (values [.address a]) else owns W D asker w' i) ∧
      (∀ i ∈ N, ask W D asker w2 "getApproved(uint256)" [.uint256 i] =
        if i = id then some (values [.address ZERO]) else ask W D asker w' "getApproved(uint256)" [.uint256 i]) ∧
      ∀ b ∈ S, ∀ b' ∈ S, ask W D asker w2 "isApprovedForAll(address,address)" [.address b, .address b'] =
        ask W D asker w' "isApprovedForAll(address,address)" [.address b, .address b'] := by
  intro w' out
  have hi : Agrees keccak256 S N w' _ := play_agree (W := W) h h0 l (start_agree h h0 hd) hl
  obtain ⟨hr, f1, f2⟩ := fixed (W := W) (self := self) (under := under) (t := t) l hl
  generalize nftsAfter W D (newNfts self under t) l = s at hi hr f1 f2
  have hx := C123_call_within (D := D) hcal hcz (.onReceived o a id data) 0#256 hm (by simp [abi, Names, ha, hop])
    (by simpa [abi, tokensOf] using hid)
  have hg := (NftBytes.reached_inv hr).toNoGhost
  have hk := fun s' d => NftBytes.C111_onReceived W D caller hr o a id data s' d hm
  rw [f1, f2, ← world_eq hi] at hk
  refine ⟨fun t' c1 c2 c3 c4 => ?_, fun w2 d ho => ?_⟩
  · have e := (owner_none h h0 hi hc hz hid).mp c3
    obtain ⟨w2, h1, h2⟩ := returns (tx := ⟨caller, _, _⟩) h h0 hi hx
      ((hk _ _).mpr ⟨_, t', c1, c2, e, (NftBytes.moved_iff hg (.inr c2)).mp rfl, c4, rfl, rfl⟩)
    exact ⟨w2, h1, world_eq h2⟩
  · obtain ⟨s', h1, h2⟩ := returned (tx := ⟨caller, _, _⟩) h h0 hi hx ho
    obtain ⟨u, t', k1, k2, k3, k4, k5, rfl, rfl⟩ := (hk _ _).mp h1
    have k := went_cons k4 (went_nil u a) (by simp)
    obtain ⟨r1, r2, r3⟩ := went_answers (W := W) (D := D) h h0 hi h2 k hc hz
    simp only [List.mem_singleton, if_neg k2] at r1 r2
    refine ⟨k1, k2, (owner_none h h0 hi hc hz hid).mpr k3, world_eq h2 ▸ k5, rfl, ?_, r1, r2, r3⟩
    rw [log_eq h2, log_eq hi]
    exact k4.log.trans (by rw [k3])

/-- **C123** With bytes only: after any history, `transferFrom(src, dst, id)` of a wrapped token goes through exactly if the sender may
move it according to the answers, `ownerOf` answers `src`, and `dst` is not the zero address.  Then `ownerOf(id)` answers `dst`, nobody
is approved for it, all other answers and the rest of the chain stay, and there is one event. -/
theorem C123_transferFrom (h : Apart keccak256 n erc721WrapperExample (Cells S N)) (h0 : ZERO ∈ S)
    (hd : deploy keccak256 self under t = some w) (l : List (Step τ)) (hl : ∀ x ∈ l, About keccak256 D S N x)
    {caller asker src dst : Address} (hcal : caller ∈ S) (hcz : caller ≠ ZERO) (hc : asker ∈ S) (hz : asker ≠ ZERO) (hs : src ∈ S)
    (hds : dst ∈ S) {id : U256} (hid : id ∈ N) :
    let w' := play W keccak256 D w l
    let out := run W keccak256 D caller w' 0#256
      (message "transferFrom(address,address,uint256)" [.address src, .address dst, .uint256 id])
    (dst ≠ ZERO → May W D asker w' caller id → owns W D asker w' id = some (values [.address src]) →
      ∃ w2, out = .returned w2 (values [])) ∧
    ∀ w2 d, out = .returned w2 d →
      dst ≠ ZERO ∧ May W D asker w' caller id ∧ owns W D asker w' id = some (values [.address src]) ∧
      w2.world = w'.world ∧ d = values [] ∧ w2.log = w'.log ++ [.transfer src dst id] ∧
      (∀ i ∈ N, owns W D asker w2 i = if i = id then some (values [.address dst]) else owns W D asker w' i) ∧
      (∀ i ∈ N, ask W D asker w2 "getApproved(uint256)" [.uint256 i] =
        if i = id then some (values [.address ZERO]) else ask W D asker w' "getApproved(uint256)" [.uint256 i]) ∧
      ∀ b ∈ S, ∀ b' ∈ S, ask W D asker w2 "isApprovedForAll(address,address)" [.address b, .address b'] =
        ask W D asker w' "isApprovedForAll(address,address)" [.address b, .address b'] := by
  intro w' out
  have hi : Agrees keccak256 S N w' _ := play_agree (W := W) h h0 l (start_agree h h0 hd) hl
  obtain ⟨hr, f1, f2⟩ := fixed (W := W) (self := self) (under := under) (t := t) l hl
  generalize nftsAfter W D (newNfts self under t) l = s at hi hr f1 f2
  have hx := C123_call_within (D := D) (S := S) (N := N) hcal hcz (.token (.transferFrom src dst id)) 0#256
    (Proofs.Contracts.words_lt _ _ (by simp [abi, Spec.Contracts.arg]) (by simp [abi])) (by simp [abi, Names, hs, hds])
    (by simpa [abi, tokensOf] using hid)
  have hg := (NftBytes.reached_inv hr).toNoGhost
  have hk := NftBytes.C111_transferFrom W D caller hcz hr src dst id
  refine ⟨fun c1 c2 c3 => ?_, fun w2 d ho => ?_⟩
  · obtain ⟨w2, h1, _⟩ := returns (tx := ⟨caller, _, _⟩) h h0 hi hx ((hk _ _).mpr ⟨_, c1,
      (may_iff h h0 hi hg hc hz hid hcal hcz).mp c2, ((owner_some h h0 hi hc hz hid).mp c3).1,
      (NftBytes.moved_iff hg (.inr c1)).mp rfl, rfl, rfl⟩)
    exact ⟨w2, h1⟩
  · obtain ⟨s', h1, h2⟩ := returned (tx := ⟨caller, _, _⟩) h h0 hi hx ho
    obtain ⟨u, k1, k2, k3, k4, rfl, rfl⟩ := (hk _ _).mp h1
    have k := went_cons k4 (went_nil u dst) (by simp)
    obtain ⟨r1, r2, r3⟩ := went_answers (W := W) (D := D) h h0 hi h2 k hc hz
    simp only [List.mem_singleton, if_neg k1] at r1 r2
    refine ⟨k1, (may_iff h h0 hi hg hc hz hid hcal hcz).mpr k2,
      (owner_some h h0 hi hc hz hid).mpr ⟨k3, k3 ▸ NftBytes.mayMove_owned k2⟩, (world_eq h2).trans (world_eq hi).symm, rfl, ?_, r1, r2, r3⟩
    rw [log_eq h2, log_eq hi]
    exact k4.log.trans (by rw [k3])

theorem after_append (l : List (Step τ)) (x : Step τ) (s : Nfts.State τ) :
    nftsAfter W D s (l ++ [x]) = nftsAfter W D (nftsAfter W D s l) [x] := List.foldl_append

theorem owns_agree (h : Apart keccak256 n erc721WrapperExample (Cells S N)) (h0 : ZERO ∈ S) {w : Chained Event τ} {s : Nfts.State τ}
    (hi : Agrees keccak256 S N w s) {asker : Address} (hc : asker ∈ S) (hz : asker ≠ ZERO) {id : U256} (hid : id ∈ N) :
    owns W D asker w id = Spec.Contracts.answer (NftBytes.wrapper W D) asker s "ownerOf(uint256)" [.uint256 id] :=
  ask_agree h h0 hi ((question_within (a := ZERO) (b := ZERO) hc hz).2.2.1 hid)

/-- **C123** With bytes only: whatever is sent, and whatever the other contracts do, a token gets wrapped only in a call
`depositFor(a, ids)` with its id, for `a`, and then the underlying token obeyed `transferFrom(sender, wrapper, id)`; or in a call
`onErc721Received(_, a, id, _)` that the underlying token sent, for `a`. -/
theorem C123_wrapped (h : Apart keccak256 n erc721WrapperExample (Cells S N)) (h0 : ZERO ∈ S)
    (hd : deploy keccak256 self under t = some w) (l : List (Step τ)) (x : Step τ) (hl : ∀ y ∈ l ++ [x], About keccak256 D S N y)
    {asker a : Address} (hc : asker ∈ S) (hz : asker ≠ ZERO) {id : U256} (hid : id ∈ N) :
    owns W D asker (play W keccak256 D w l) id = none →
    owns W D asker (play W keccak256 D w (l ++ [x])) id = some (values [.address a]) →
    ∃ caller input, x = .call caller 0#256 input ∧
      ((∃ ids t t', id ∈ ids ∧ Says D input "depositFor(address,uint256[])" [.address a, .uints ids] ∧
        Obeys W D t self under
          (message "transferFrom(address,address,uint256)" [.address caller, .address self, .uint256 id]) t') ∨
      (caller = under ∧ ∃ o d, Says D input "onErc721Received(address,address,uint256,bytes)"
        [.address o, .address a, .uint256 id, .bytes d])) := by
  intro hb hf
  have hl1 : ∀ y ∈ l, About keccak256 D S N y := fun y hy => hl y (List.mem_append_left _ hy)
  have h1 := play_agree (W := W) h h0 l (start_agree h h0 hd) hl1
  have h2 := play_agree (W := W) h h0 (l ++ [x]) (start_agree h h0 hd) hl
  rw [after_append] at h2
  obtain ⟨hr, f1, f2⟩ := fixed (W := W) (self := self) (under := under) (t := t) l hl1
  rw [owns_agree h h0 h1 hc hz hid] at hb
  rw [owns_agree h h0 h2 hc hz hid] at hf
  have := NftBytes.C111_wrapped W D hr x (signed fun y hy => hl y (List.mem_append_right _ hy)) asker a id hb hf
  rw [f1, f2] at this
  exact this

/-- **C123** With bytes only: a token gets unwrapped only in a call `withdrawTo(dst, ids)` with its id, from somebody who may move it
according to the answers, and then the underlying token obeyed `safeTransferFrom(wrapper, dst, id, "")`. -/
theorem C123_unwrapped (h : Apart keccak256 n erc721WrapperExample (Cells S N)) (h0 : ZERO ∈ S)
    (hd : deploy keccak256 self under t = some w) (l : List (Step τ)) (x : Step τ) (hl : ∀ y ∈ l ++ [x], About keccak256 D S N y)
    {asker a : Address} (hc : asker ∈ S) (hz : asker ≠ ZERO) {id : U256} (hid : id ∈ N) :
    owns W D asker (play W keccak256 D w l) id = some (values [.address a]) →
    owns W D asker (play W keccak256 D w (l ++ [x])) id = none →
    ∃ caller input dst ids t t', x = .call caller 0#256 input ∧ id ∈ ids ∧
      Says D input "withdrawTo(address,uint256[])" [.address dst, .uints ids] ∧ May W D asker (play W keccak256 D w l) caller id ∧
      Obeys W D t self under (message "safeTransferFrom(address,address,uint256,bytes)"
        [.address self, .address dst, .uint256 id, .bytes []]) t' := by
  intro hb hf
  have hl1 : ∀ y ∈ l, About keccak256 D S N y := fun y hy => hl y (List.mem_append_left _ hy)
  have h1 := play_agree (W := W) h h0 l (start_agree h h0 hd) hl1
  have h2 := play_agree (W := W) h h0 (l ++ [x]) (start_agree h h0 hd) hl
  rw [after_append] at h2
  obtain ⟨hr, f1, f2⟩ := fixed (W := W) (self := self) (under := under) (t := t) l hl1
  rw [owns_agree h h0 h1 hc hz hid] at hb
  rw [owns_agree h h0 h2 hc hz hid] at hf
  obtain ⟨caller, input, dst, ids, t1, t2, rfl, k1, k2, k3, k4⟩ :=
    NftBytes.C111_unwrapped W D hr x (signed fun y hy => hl y (List.mem_append_right _ hy)) asker a id hb hf
  rw [f1, f2] at k4
  have hx : Within keccak256 D S N ⟨caller, 0#256, input⟩ := hl (.call caller 0#256 input) (by simp)
  exact ⟨caller, input, dst, ids, t1, t2, rfl, k1, k2,
    (may_iff h h0 h1 (NftBytes.reached_inv hr).toNoGhost hc hz hid hx.sender hx.signed).mpr k3, k4⟩

/-- **C123** With bytes only: if `ownerOf(id)` no longer answers the account over a step, the step is a transaction to the wrapper, and
its sender may move the token according to the answers before it. -/
theorem C123_no_theft (h : Apart keccak256 n erc721WrapperExample (Cells S N)) (h0 : ZERO ∈ S)
    (hd : deploy keccak256 self under t = some w) (l : List (Step τ)) (x : Step τ) (hl : ∀ y ∈ l ++ [x], About keccak256 D S N y)
    {asker a : Address} (hc : asker ∈ S) (hz : asker ≠ ZERO) {id : U256} (hid : id ∈ N) :
    owns W D asker (play W keccak256 D w l) id = some (values [.address a]) →
    owns W D asker (play W keccak256 D w (l ++ [x])) id ≠ some (values [.address a]) →
    ∃ caller value input, x = .call caller value input ∧ May W D asker (play W keccak256 D w l) caller id := by
  intro hb hf
  have hl1 : ∀ y ∈ l, About keccak256 D S N y := fun y hy => hl y (List.mem_append_left _ hy)
  have h1 := play_agree (W := W) h h0 l (start_agree h h0 hd) hl1
  have h2 := play_agree (W := W) h h0 (l ++ [x]) (start_agree h h0 hd) hl
  rw [after_append] at h2
  obtain ⟨hr, _⟩ := fixed (W := W) (self := self) (under := under) (t := t) l hl1
  have hb0 := hb
  have ha : a ∈ S := ((owner_some h h0 h1 hc hz hid).mp hb).1 ▸ h1.2 id
  rw [owns_agree h h0 h1 hc hz hid] at hb
  rw [owns_agree h h0 h2 hc hz hid] at hf
  obtain ⟨caller, value, input, rfl, k⟩ :=
    NftBytes.C111_no_theft W D hr x (signed fun y hy => hl y (List.mem_append_right _ hy)) asker a id hb hf
  have hx : Within keccak256 D S N ⟨caller, value, input⟩ := hl (.call caller value input) (by simp)
  refine ⟨caller, value, input, rfl, a, hb0, k.imp_right (Or.imp (fun k => ?_) fun k => ?_)⟩
  · exact (ask_agree h h0 h1 ((question_within (a := ZERO) (b := ZERO) hc hz).2.2.2.1 hid)).trans k
  · exact (ask_agree h h0 h1 ((question_within (id := 0#256) hc hz).2.2.2.2 ha hx.sender)).trans k

/-- **C123** With bytes only, what the wrapper reverts with when somebody else refuses, after any history.  If the underlying token
reverts `transferFrom` for the first id of a deposit, or `safeTransferFrom` for the first id of a withdrawal by somebody who may move the
wrapped token, the wrapper reverts with the same bytes, or with `Erc721FailedOperation(underlying)` if there are none; if somebody else
than the underlying token calls `onErc721Received`, it reverts with `ERC721UnsupportedToken(sender)`. -/
theorem C123_refused (h : Apart keccak256 n erc721WrapperExample (Cells S N)) (h0 : ZERO ∈ S)
    (hd : deploy keccak256 self under t = some w) (l : List (Step τ)) (hl : ∀ x ∈ l, About keccak256 D S N x)
    {caller asker o a : Address} (hcal : caller ∈ S) (hcz : caller ≠ ZERO) (hc : asker ∈ S) (hz : asker ≠ ZERO) (ha : a ∈ S)
    (hop : o ∈ S) {id : U256} {ids : List U256} (hids : ∀ i ∈ id :: ids, i ∈ N) (data r : Bytes)
    (m1 : (message "depositFor(address,uint256[])" [.address a, .uints (id :: ids)]).length < 2 ^ 256)
    (m2 : (message "withdrawTo(address,uint256[])" [.address a, .uints (id :: ids)]).length < 2 ^ 256)
    (m3 : (message "onErc721Received(address,address,uint256,bytes)"
      [.address o, .address a, .uint256 id, .bytes data]).length < 2 ^ 256) :
    let w' := play W keccak256 D w l
    let reason := if r = [] then call "Erc721FailedOperation(address)" [addr under] else r
    W.hasCode w'.world under = true →
    (W.call w'.world self under (message "transferFrom(address,address,uint256)"
        [.address caller, .address self, .uint256 id]) = .reverted r →
      run W keccak256 D caller w' 0#256 (message "depositFor(address,uint256[])" [.address a, .uints (id :: ids)]) =
        .reverted reason) ∧
    (May W D asker w' caller id →
      W.call w'.world self under (message "safeTransferFrom(address,address,uint256,bytes)"
        [.address self, .address a, .uint256 id, .bytes []]) = .reverted r →
      run W keccak256 D caller w' 0#256 (message "withdrawTo(address,uint256[])" [.address a, .uints (id :: ids)]) =
        .reverted reason) ∧
    (caller ≠ under →
      run W keccak256 D caller w' 0#256 (message "onErc721Received(address,address,uint256,bytes)"
        [.address o, .address a, .uint256 id, .bytes data]) =
        .reverted (call "ERC721UnsupportedToken(address)" [addr caller])) := by
  intro w' reason hu
  have hi : Agrees keccak256 S N w' _ := play_agree (W := W) h h0 l (start_agree h h0 hd) hl
  obtain ⟨hr, f1, f2⟩ := fixed (W := W) (self := self) (under := under) (t := t) l hl
  generalize nftsAfter W D (newNfts self under t) l = s at hi hr f1 f2
  have x1 := C123_call_within (D := D) hcal hcz (.depositFor a (id :: ids)) 0#256 m1 (by simp [abi, Names, ha])
    (by simpa [abi, tokensOf] using hids)
  have x2 := C123_call_within (D := D) hcal hcz (.withdrawTo a (id :: ids)) 0#256 m2 (by simp [abi, Names, ha])
    (by simpa [abi, tokensOf] using hids)
  have hid := hids id List.mem_cons_self
  have x3 := C123_call_within (D := D) (S := S) (N := N) hcal hcz (.onReceived o a id data) 0#256 m3 (by simp [abi, Names, ha, hop])
    (by simpa [abi, tokensOf] using hid)
  have hk := NftBytes.C111_refused W D caller hcz hr o a id ids data r m1 m2 m3
  rw [f1, f2, ← world_eq hi] at hk
  obtain ⟨k1, k2, k3⟩ := hk hu
  exact ⟨fun c => reverted (tx := ⟨caller, _, _⟩) h h0 hi x1 (k1 c),
    fun c1 c2 => reverted (tx := ⟨caller, _, _⟩) h h0 hi x2
      (k2 ((may_iff h h0 hi (NftBytes.reached_inv hr).toNoGhost hc hz hid hcal hcz).mp c1) c2),
    fun c => reverted (tx := ⟨caller, _, _⟩) h h0 hi x3 (k3 c)⟩

/-! ### Over the token of `examples/erc721-metadata` -/

variable {u : τ → Metadata.State}

/-- **C123** Over the token of `examples/erc721-metadata`, on any chain and after any history: while the wrapper answers that somebody
owns an id, the token answers that the wrapper owns it, that nobody is approved for it, and that the wrapper has no operator. -/
theorem C123_backed (h : Apart keccak256 n erc721WrapperExample (Cells S N)) (h0 : ZERO ∈ S) (H : Hosts W D self under u) (hs : self ≠ ZERO)
    (ht : ∃ m, Without D self (Metadata.init m) (u t)) (hd : deploy keccak256 self under t = some w) (l : List (Step τ))
    (hp : Possible D self under u l) (hl : ∀ x ∈ l, About keccak256 D S N x) {asker : Address} (hc : asker ∈ S) (hz : asker ≠ ZERO)
    {id : U256} (hid : id ∈ N) (env : Contracts.Env) :
    let w' := play W keccak256 D w l
    owns W D asker w' id ≠ none →
    Spec.Contracts.answer (nft D) env (u w'.world) "ownerOf(uint256)" [.uint256 id] = some (values [.address self]) ∧
    Spec.Contracts.answer (nft D) env (u w'.world) "getApproved(uint256)" [.uint256 id] = some (values [.address ZERO]) ∧
    ∀ p, Spec.Contracts.answer (nft D) env (u w'.world) "isApprovedForAll(address,address)" [.address self, .address p] =
      some (values [.bool false]) := by
  intro w' ho
  have hi : Agrees keccak256 S N w' _ := play_agree (W := W) h h0 l (start_agree h h0 hd) hl
  rw [owns_agree h h0 hi hc hz hid] at ho
  obtain ⟨b, hb⟩ := Option.ne_none_iff_exists'.mp ho
  rw [world_eq hi]
  exact NftBytes.C111_backed H hs ⟨t, l, ht, hp, rfl⟩ asker env id hb

/-- **C123** Then `withdrawTo` goes through exactly for distinct ids that the sender may move according to the answers, if they go to
an account without code; afterwards the token answers that this account owns them, and they are no longer wrapped. -/
theorem C123_redeemable (h : Apart keccak256 n erc721WrapperExample (Cells S N)) (h0 : ZERO ∈ S) (H : Hosts W D self under u)
    (hs : self ≠ ZERO) (ht : ∃ m, Without D self (Metadata.init m) (u t)) (hd : deploy keccak256 self under t = some w) (l : List (Step τ))
    (hp : Possible D self under u l) (hl : ∀ x ∈ l, About keccak256 D S N x) {caller asker a : Address} (hcal : caller ∈ S)
    (hcz : caller ≠ ZERO) (hc : asker ∈ S) (hz : asker ≠ ZERO) (ha : a ∈ S) (haz : a ≠ ZERO) (hn : ∀ t, W.hasCode t a = false)
    {ids : List U256} (hids : ∀ id ∈ ids, id ∈ N)
    (hm : (message "withdrawTo(address,uint256[])" [.address a, .uints ids]).length < 2 ^ 256) :
    let w' := play W keccak256 D w l
    let out := run W keccak256 D caller w' 0#256 (message "withdrawTo(address,uint256[])" [.address a, .uints ids])
    ((∃ w2 d, out = .returned w2 d) ↔ ids.Nodup ∧ ∀ id ∈ ids, May W D asker w' caller id) ∧
    ∀ w2 d, out = .returned w2 d → ∀ env, ∀ id ∈ ids,
      Spec.Contracts.answer (nft D) env (u w2.world) "ownerOf(uint256)" [.uint256 id] = some (values [.address a]) ∧
      owns W D asker w2 id = none := by
  intro w' out
  have hi : Agrees keccak256 S N w' _ := play_agree (W := W) h h0 l (start_agree h h0 hd) hl
  have hr : Runs W D self under u (nftsAfter W D (newNfts self under t) l) := ⟨t, l, ht, hp, rfl⟩
  obtain ⟨hr', f1, f2⟩ := fixed (W := W) (self := self) (under := under) (t := t) l hl
  generalize nftsAfter W D (newNfts self under t) l = s at hi hr hr' f1 f2
  have hx := C123_call_within (D := D) hcal hcz (.withdrawTo a ids) 0#256 hm (by simp [abi, Names, ha]) (by simpa [abi, tokensOf] using hids)
  have hg := (NftBytes.reached_inv hr').toNoGhost
  obtain ⟨k1, k2⟩ := NftBytes.C111_redeemable H hs hr caller a hcz haz hn ids hm
  refine ⟨⟨?_, ?_⟩, fun w2 d ho env id hid => ?_⟩
  · rintro ⟨w2, d, ho⟩
    obtain ⟨s', h1, _⟩ := returned (tx := ⟨caller, _, _⟩) h h0 hi hx ho
    obtain ⟨k3, k4⟩ := k1.mp ⟨s', d, h1⟩
    exact ⟨k3, fun id hid => (may_iff h h0 hi hg hc hz (hids id hid) hcal hcz).mpr (k4 id hid)⟩
  · rintro ⟨k3, k4⟩
    obtain ⟨s', d, h1⟩ := k1.mpr ⟨k3, fun id hid => (may_iff h h0 hi hg hc hz (hids id hid) hcal hcz).mp (k4 id hid)⟩
    obtain ⟨w2, h2, _⟩ := returns (tx := ⟨caller, _, _⟩) h h0 hi hx h1
    exact ⟨w2, d, h2⟩
  · obtain ⟨s', h1, h2⟩ := returned (tx := ⟨caller, _, _⟩) h h0 hi hx ho
    obtain ⟨k3, k4⟩ := k2 s' d h1 asker env id hid
    rw [world_eq h2, owns_agree h h0 h2 hc hz (hids id hid)]
    exact ⟨k3, k4⟩

/-- **C123** And `depositFor` an account without code goes through exactly for distinct ids that the sender owns and for which the
wrapper is approved, by `approve` or as operator, as the token answers; afterwards the token answers that the wrapper owns them, and the
wrapper that the account does. -/
theorem C123_depositable (h : Apart keccak256 n erc721WrapperExample (Cells S N)) (h0 : ZERO ∈ S) (H : Hosts W D self under u)
    (hs : self ≠ ZERO) (ht : ∃ m, Without D self (Metadata.init m) (u t)) (hd : deploy keccak256 self under t = some w) (l : List (Step τ))
    (hp : Possible D self under u l) (hl : ∀ x ∈ l, About keccak256 D S N x) {caller asker a : Address} (hcal : caller ∈ S)
    (hcz : caller ≠ ZERO) (hcs : caller ≠ self) (hc : asker ∈ S) (hz : asker ≠ ZERO) (ha : a ∈ S) (haz : a ≠ ZERO)
    (hn : ∀ t, W.hasCode t a = false) {ids : List U256} (hids : ∀ id ∈ ids, id ∈ N)
    (hm : (message "depositFor(address,uint256[])" [.address a, .uints ids]).length < 2 ^ 256) :
    let w' := play W keccak256 D w l
    let out := run W keccak256 D caller w' 0#256 (message "depositFor(address,uint256[])" [.address a, .uints ids])
    ((∃ w2 d, out = .returned w2 d) ↔ ids.Nodup ∧ ∀ env, ∀ id ∈ ids,
      Spec.Contracts.answer (nft D) env (u w'.world) "ownerOf(uint256)" [.uint256 id] = some (values [.address caller]) ∧
      (Spec.Contracts.answer (nft D) env (u w'.world) "getApproved(uint256)" [.uint256 id] = some (values [.address self]) ∨
       Spec.Contracts.answer (nft D) env (u w'.world) "isApprovedForAll(address,address)" [.address caller, .address self] =
         some (values [.bool true]))) ∧
    ∀ w2 d, out = .returned w2 d → ∀ env, ∀ id ∈ ids,
      Spec.Contracts.answer (nft D) env (u w2.world) "ownerOf(uint256)" [.uint256 id] = some (values [.address self]) ∧
      owns W D asker w2 id = some (values [.address a]) := by
  intro w' out
  have hi : Agrees keccak256 S N w' _ := play_agree (W := W) h h0 l (start_agree h h0 hd) hl
  have hr : Runs W D self under u (nftsAfter W D (newNfts self under t) l) := ⟨t, l, ht, hp, rfl⟩
  generalize nftsAfter W D (newNfts self under t) l = s at hi hr
  have hx := C123_call_within (D := D) hcal hcz (.depositFor a ids) 0#256 hm (by simp [abi, Names, ha]) (by simpa [abi, tokensOf] using hids)
  obtain ⟨k1, k2⟩ := NftBytes.C111_depositable H hs hr caller a hcz hcs haz hn ids hm
  rw [← world_eq hi] at k1
  refine ⟨⟨?_, ?_⟩, fun w2 d ho env id hid => ?_⟩
  · rintro ⟨w2, d, ho⟩
    obtain ⟨s', h1, _⟩ := returned (tx := ⟨caller, _, _⟩) h h0 hi hx ho
    exact k1.mp ⟨s', d, h1⟩
  · intro k3
    obtain ⟨s', d, h1⟩ := k1.mpr k3
    obtain ⟨w2, h2, _⟩ := returns (tx := ⟨caller, _, _⟩) h h0 hi hx h1
    exact ⟨w2, d, h2⟩
  · obtain ⟨s', h1, h2⟩ := returned (tx := ⟨caller, _, _⟩) h h0 hi hx ho
    obtain ⟨k3, k4⟩ := k2 s' d h1 asker env id hid
    rw [world_eq h2, owns_agree h h0 h2 hc hz (hids id hid)]
    exact ⟨k3, k4⟩

end

end

/-! ### Concrete cases -/

/-- The cells of three accounts and two tokens. -/
def sampleCells : List (List Storage.Step) := Props.Erc721Words.sampleCells ++ [underlyingCell]

theorem sample_cells {p : List Storage.Step} (h : Cells [0#160, 1#160, 2#160] [7#256, 8#256] p) : p ∈ sampleCells := by
  rcases h with h | rfl
  · exact List.mem_append_left _ (Props.Erc721Words.sample_cells h)
  · exact List.mem_append_right _ (by simp [underlyingCell])

theorem sample_setting : Apart keccak256 10 erc721WrapperExample (Cells [0#160, 1#160, 2#160] [7#256, 8#256]) :=
  ⟨by decide, Proofs.Separate.separate sampleCells Props.Erc721Words.sampleTable (fun _ => sample_cells) Props.Erc721Words.sample_table
    (by decide +kernel) (by decide +kernel) (by decide +kernel)⟩

/-- One more transaction. -/
theorem play_call {W : World τ} {D : Decoder} (w : Chained Event τ) (l : List (Step τ)) (c : Address) (v : U256) (i : Bytes) :
    play W keccak256 D w (l ++ [.call c v i]) =
      Outcome.after (play W keccak256 D w l) (run W keccak256 D c (play W keccak256 D w l) v i) := by
  simp only [play, Spec.Outside.play, List.foldl_append, List.foldl]

abbrev alice : Address := 1#160
abbrev bob : Address := 2#160

/-- Alice has the tokens 7 and 8 of the token at 0xee and approves the wrapper, at 0xcc, for 7 (the chain of `Props/NftSystem`). -/
def aliceDid : List (Contracts.Env × Metadata.Call) :=
  [(⟨alice, fun _ => none⟩, .mint alice 7#256), (⟨alice, fun _ => none⟩, .mint alice 8#256),
   (⟨alice, fun _ => none⟩, .user (.approve 0xcc#160 7#256))]

def start (D : Decoder) : Metadata.State :=
  Spec.Contracts.after (nft D) (Metadata.init ⟨[], [], []⟩) (Spec.Contracts.sent Contracts.Erc721MetadataContract.abi aliceDid)

theorem start_eq (D : Decoder) : start D = Metadata.run (Metadata.init ⟨[], [], []⟩)
    (aliceDid.map fun x => ⟨x.1.caller, Calls.receivers721 keccak256 D x.1.world, x.2⟩) := by
  refine Contracts.Erc721MetadataContract.C103_erc721_metadata_sends D _ aliceDid fun x hx => ?_
  simp only [aliceDid, List.mem_cons, List.not_mem_nil, or_false] at hx
  rcases hx with rfl | rfl | rfl <;>
    exact Proofs.Contracts.words_lt _ _ (by simp [Contracts.Erc721MetadataContract.abi, Spec.Contracts.arg])
      (by simp [Contracts.Erc721MetadataContract.abi])

theorem start_without (D : Decoder) : ∃ m, Without D 0xcc#160 (Metadata.init m) (start D) := by
  refine ⟨⟨[], [], []⟩, Spec.Contracts.sent Contracts.Erc721MetadataContract.abi aliceDid, fun x hx => ?_, by unfold start; exact Eq.refl _⟩
  obtain ⟨y, hy, rfl⟩ := List.mem_map.mp hx
  simp only [aliceDid, List.mem_cons, List.not_mem_nil, or_false] at hy
  rcases hy with rfl | rfl | rfl <;> exact (by decide : (1#160 : Address) ≠ 0xcc#160)

attribute [local irreducible] start

set_option maxRecDepth 100000

/-- Alice wraps 7 for Bob. -/
def wrap7 : Step Metadata.State := .call alice 0#256 (message "depositFor(address,uint256[])" [.address bob, .uints [7#256]])

theorem wrap7_about (D : Decoder) : About keccak256 D [0#160, 1#160, 2#160] [7#256, 8#256] wrap7 :=
  C123_call_within (by decide) (by decide) (.depositFor bob [7#256]) 0#256 (NftBytes.short _ _ _) (by simp [abi, Names])
    (by simp [abi, tokensOf])

-- C123_answers, C123_depositable, C123_depositFor, C123_wrapped, C123_backed, C123_redeemable: over the metadata token, Alice wraps 7
-- for Bob, but cannot wrap 8, for which the wrapper is not approved; then Bob can redeem 7, and Alice cannot
example (D : Decoder) : ∃ w, deploy keccak256 0xcc#160 0xee#160 (start D) = some w ∧
    (∀ d w2, run (NftBytes.chain D) keccak256 D alice w 0#256
      (message "depositFor(address,uint256[])" [.address bob, .uints [8#256]]) ≠ .returned w2 d) ∧
    let w' := play (NftBytes.chain D) keccak256 D w [wrap7]
    owns (NftBytes.chain D) D alice w' 7#256 = some (values [.address bob]) ∧
    (∀ env, Spec.Contracts.answer (nft D) env w'.world "ownerOf(uint256)" [.uint256 7#256] = some (values [.address 0xcc#160])) ∧
    (∃ w2 d, run (NftBytes.chain D) keccak256 D bob w' 0#256
      (message "withdrawTo(address,uint256[])" [.address bob, .uints [7#256]]) = .returned w2 d) ∧
    ∀ w2 d, run (NftBytes.chain D) keccak256 D alice w' 0#256
      (message "withdrawTo(address,uint256[])" [.address alice, .uints [7#256]]) ≠ .returned w2 d := by
  obtain ⟨w, hd⟩ := C123_deploy keccak256 0xcc#160 0xee#160 (start D)
  have key := fun i (hi : i ∈ [7#256, 8#256]) => C123_depositable (u := fun m => m) sample_setting (by decide) (NftBytes.chain_hosts D)
    (by decide) (start_without D) hd [] (by rintro _ ⟨⟩) (by rintro _ ⟨⟩) (caller := alice) (asker := alice) (a := bob) (by decide)
    (by decide) (by decide) (by decide) (by decide) (by decide) (by decide) (fun _ => rfl) (ids := [i]) (by simpa using hi)
    (NftBytes.short _ _ _)
  have hs : w.world = start D := by unfold deploy at hd; injection hd with hd; exact hd ▸ rfl
  have ans := fun env i => NftBytes.token_answers D env (start D) alice 0xcc#160 i
  dsimp only [play, Spec.Outside.play, List.foldl] at key
  rw [hs] at key
  refine ⟨w, hd, fun d w2 hw => ?_, ?_⟩
  · obtain ⟨_, h⟩ := (key 8#256 (by simp)).1.mp ⟨w2, d, hw⟩
    obtain ⟨_, h⟩ := h ⟨alice, fun _ => none⟩ 8#256 (by simp)
    rw [(ans _ 8#256).2.1, (ans _ 8#256).2.2, start_eq] at h
    rcases h with h | h
    · injection h with h
      exact absurd (Proofs.Contracts.address_inj h) (show ¬ (ZERO : Address) = 0xcc#160 from by decide)
    · injection h with h
      exact absurd h (show ¬ values [.bool false] = values [.bool true] from by decide +kernel)
  · obtain ⟨w2, d, h⟩ := (key 7#256 (by simp)).1.mpr ⟨by simp, fun env i hi => by
      rcases List.mem_singleton.mp hi with rfl
      rw [(ans env 7#256).1, (ans env 7#256).2.1, start_eq]
      exact ⟨rfl, .inl rfl⟩⟩
    have p1 : play (NftBytes.chain D) keccak256 D w [wrap7] = w2 :=
      (play_call w [] _ _ _).trans (congrArg (Outcome.after (play (NftBytes.chain D) keccak256 D w [])) h)
    have o1 := ((key 7#256 (by simp)).2 w2 d h ⟨alice, fun _ => none⟩ 7#256 (by simp)).2
    have hp : Possible D 0xcc#160 0xee#160 (fun m => m) [wrap7] := by
      intro x hx
      rcases List.mem_singleton.mp hx with rfl
      exact ⟨by decide, by decide, by decide⟩
    have ha : ∀ x ∈ [wrap7], About keccak256 D [0#160, 1#160, 2#160] [7#256, 8#256] x := by simp [wrap7_about]
    rw [← p1] at o1
    intro w'
    refine ⟨o1, fun env => (C123_backed (u := fun m => m) sample_setting (by decide) (NftBytes.chain_hosts D) (by decide)
      (start_without D) hd [wrap7] hp ha (asker := alice) (by decide) (by decide) (id := 7#256) (by decide) env
      (by rw [o1]; simp)).1, ?_, fun w2 d hw => ?_⟩
    · exact (C123_redeemable (u := fun m => m) sample_setting (by decide) (NftBytes.chain_hosts D) (by decide)
        (start_without D) hd [wrap7] hp ha (caller := bob) (asker := alice) (a := bob) (by decide) (by decide) (by decide) (by decide)
        (by decide) (by decide) (fun _ => rfl) (ids := [7#256]) (by simp) (NftBytes.short _ _ _)).1.mpr
        ⟨by simp, fun id hid => ⟨bob, by rcases List.mem_singleton.mp hid with rfl; exact o1, .inl rfl⟩⟩
    · obtain ⟨o, ho, hm⟩ := ((C123_redeemable (u := fun m => m) sample_setting (by decide) (NftBytes.chain_hosts D) (by decide)
        (start_without D) hd [wrap7] hp ha (caller := alice) (asker := alice) (a := alice) (by decide) (by decide) (by decide) (by decide)
        (by decide) (by decide) (fun _ => rfl) (ids := [7#256]) (by simp) (NftBytes.short _ _ _)).1.mp ⟨w2, d, hw⟩).2 7#256 (by simp)
      have eo : bob = o := Proofs.Contracts.address_inj (Option.some.inj (o1.symm.trans ho))
      subst eo
      obtain ⟨_, _, _, _, _, _, _, k1, k2⟩ := (C123_depositFor (W := NftBytes.chain D) (D := D) sample_setting (by decide) hd [] (by simp)
        (caller := alice) (asker := alice) (a := bob) (by decide) (by decide) (by decide) (by decide) (by decide) (ids := [7#256]) (by simp)
        (NftBytes.short _ _ _)).2 _ _ h
      have k1 := k1 7#256 (by decide)
      have k2 := (k2 bob (by decide) alice (by decide)).trans (C123_start (W := NftBytes.chain D) (D := D) sample_setting (by decide) hd
        (asker := alice) (a := bob) (b := alice) (id := 7#256) (by decide) (by decide) (by decide) (by decide) (by decide)).2.2.2
      rw [← p1] at k1 k2
      rcases hm with hm | hm | hm
      · exact absurd hm (by decide)
      · have := hm.symm.trans k1
        rw [if_pos (by simp)] at this
        exact absurd (Proofs.Contracts.address_inj (Option.some.inj this)) (by decide)
      · exact absurd (bool_inj (Option.some.inj (k2.symm.trans hm))) (by decide)

/-- A chain without contracts. -/
def empty : World Nat where
  hasCode _ _ := false
  call _ _ _ _ := .reverted []
  look _ _ _ _ _ := none

/-- Bob's account is taken for the underlying token; it announces the token 8 that came from Alice. -/
def announce8 : Step Nat := .call bob 0#256 (message "onErc721Received(address,address,uint256,bytes)"
  [.address alice, .address alice, .uint256 8#256, .bytes []])
/-- Alice gives the wrapped token to Bob. -/
def give8 : Step Nat := .call alice 0#256 (message "transferFrom(address,address,uint256)" [.address alice, .address bob, .uint256 8#256])
/-- Bob unwraps it. -/
def unwrap8 : Step Nat := .call bob 0#256 (message "withdrawTo(address,uint256[])" [.address alice, .uints [8#256]])

theorem announce_short : (message "onErc721Received(address,address,uint256,bytes)"
    [.address alice, .address alice, .uint256 8#256, .bytes []]).length < 2 ^ 256 := by
  rw [Proofs.Contracts.message_length]; decide

-- C123_start, C123_onReceived, C123_transferFrom, C123_withdrawTo, C123_balances, C123_no_theft, C123_unwrapped
example (D : Decoder) : ∃ w, deploy keccak256 0xcc#160 bob (0 : Nat) = some w ∧
    (∀ x ∈ [announce8, give8, unwrap8], About keccak256 D [0#160, 1#160, 2#160] [7#256, 8#256] x) ∧
    owns empty D alice (play empty keccak256 D w [announce8]) 8#256 = some (values [.address alice]) ∧
    owns empty D alice (play empty keccak256 D w [announce8, give8]) 8#256 = some (values [.address bob]) ∧
    owns empty D alice (play empty keccak256 D w [announce8, give8]) 7#256 = none ∧
    ask empty D alice (play empty keccak256 D w [announce8, give8]) "balanceOf(address)" [.address bob] = some (values [.uint256 1#256]) ∧
    owns empty D alice (play empty keccak256 D w [announce8, give8, unwrap8]) 8#256 = none := by
  obtain ⟨w, hd⟩ := C123_deploy keccak256 0xcc#160 bob (0 : Nat)
  have a1 : About keccak256 D [0#160, 1#160, 2#160] [7#256, 8#256] announce8 :=
    C123_call_within (by decide) (by decide) (.onReceived alice alice 8#256 []) 0#256 announce_short (by simp [abi, Names])
      (by simp [abi, tokensOf])
  have a2 : About keccak256 D [0#160, 1#160, 2#160] [7#256, 8#256] give8 :=
    C123_call_within (by decide) (by decide) (.token (.transferFrom alice bob 8#256)) 0#256
      (Proofs.Contracts.words_lt _ _ (by simp [abi, Spec.Contracts.arg]) (by simp [abi])) (by simp [abi, Names]) (by simp [abi, tokensOf])
  have a3 : About keccak256 D [0#160, 1#160, 2#160] [7#256, 8#256] unwrap8 :=
    C123_call_within (by decide) (by decide) (.withdrawTo alice [8#256]) 0#256 (NftBytes.short _ _ _) (by simp [abi, Names])
      (by simp [abi, tokensOf])
  have st := fun id (hid : id ∈ [7#256, 8#256]) => (C123_start (W := empty) (D := D) sample_setting (by decide) hd
    (asker := alice) (a := bob) (b := alice) (id := id) (by decide) (by decide) (by decide) (by decide) hid).1
  refine ⟨w, hd, by simp [a1, a2, a3], ?_⟩
  obtain ⟨d1, d2⟩ := C123_onReceived (W := empty) (D := D) sample_setting (by decide) hd [] (by simp) (caller := bob) (asker := alice)
    (o := alice) (a := alice) (by decide) (by decide) (by decide) (by decide) (by decide) (by decide) (id := 8#256) (by decide) [] announce_short
  obtain ⟨w1, o1, _⟩ := d1 _ rfl (by decide) (st 8#256 (by decide)) (.inl ⟨rfl, rfl⟩)
  obtain ⟨_, _, _, _, _, _, q1, _⟩ := d2 _ _ o1
  have p1 : play empty keccak256 D w [announce8] = w1 := (play_call w [] _ _ _).trans (congrArg (Outcome.after (play empty keccak256 D w [])) o1)
  have b1 := q1 8#256 (by decide)
  have c1 := (q1 7#256 (by decide)).trans (if_neg (by decide))
  have c1 := c1.trans (st 7#256 (by decide))
  rw [if_pos rfl] at b1
  rw [← p1] at b1 c1
  obtain ⟨d1, d2⟩ := C123_transferFrom (W := empty) (D := D) sample_setting (by decide) hd [announce8] (by simp [a1]) (caller := alice)
    (asker := alice) (src := alice) (dst := bob) (by decide) (by decide) (by decide) (by decide) (by decide) (by decide) (id := 8#256)
    (by decide)
  obtain ⟨w2, o2⟩ := d1 (by decide) ⟨alice, b1, .inl rfl⟩ b1
  obtain ⟨_, _, _, _, _, _, q2, _⟩ := d2 _ _ o2
  have p2 : play empty keccak256 D w [announce8, give8] = w2 :=
    (play_call w [announce8] _ _ _).trans (congrArg (Outcome.after (play empty keccak256 D w [announce8])) o2)
  have b2 := q2 8#256 (by decide)
  have c2 := ((q2 7#256 (by decide)).trans (if_neg (by decide))).trans c1
  rw [if_pos rfl] at b2
  rw [← p2] at b2 c2
  obtain ⟨d1, d2⟩ := C123_withdrawTo (W := empty) (D := D) sample_setting (by decide) hd [announce8, give8] (by simp [a1, a2]) (caller := bob)
    (asker := alice) (a := alice) (by decide) (by decide) (by decide) (by decide) (by decide) (ids := [8#256]) (by simp)
    (NftBytes.short _ _ _)
  obtain ⟨w3, o3, _⟩ := d1 _ (by simp) (fun id hid => by rcases List.mem_singleton.mp hid with rfl; exact ⟨bob, b2, .inl rfl⟩)
    ⟨_, .inl ⟨rfl, rfl⟩, rfl⟩
  have q3 := (d2 _ _ o3).2.2.2.2.2.1 8#256 (by decide)
  have p3 : play empty keccak256 D w [announce8, give8, unwrap8] = w3 :=
    (play_call w [announce8, give8] _ _ _).trans (congrArg (Outcome.after (play empty keccak256 D w [announce8, give8])) o3)
  rw [if_pos (by simp), ← p3] at q3
  refine ⟨b1, b2, c2, ?_, q3⟩
  have := C123_balances (W := empty) (D := D) sample_setting (by decide) hd [announce8, give8] (by simp [a1, a2]) (by decide)
    (asker := alice) (a := bob) (by decide) (by decide) (by decide) (by decide)
  dsimp only at this
  rw [this, List.filter_cons, List.filter_cons, b2, c2]
  simp

/-- A chain whose contract at 0xee refuses everything without a reason. -/
def stern : World Nat where
  hasCode _ a := a = 0xee#160
  call _ _ _ _ := .reverted []
  look _ _ _ _ _ := none

-- C123_refused, C123_fixed
example (D : Decoder) : ∃ w, deploy keccak256 0xcc#160 0xee#160 (0 : Nat) = some w ∧
    ask stern D alice w "underlying()" [] = some (values [.address 0xee#160]) ∧
    run stern keccak256 D alice w 0#256 (message "depositFor(address,uint256[])" [.address bob, .uints [7#256]]) =
      .reverted (call "Erc721FailedOperation(address)" [0xee#256]) ∧
    run stern keccak256 D alice w 0#256 (message "onErc721Received(address,address,uint256,bytes)"
      [.address alice, .address alice, .uint256 8#256, .bytes []]) = .reverted (call "ERC721UnsupportedToken(address)" [1#256]) := by
  obtain ⟨w, hd⟩ := C123_deploy keccak256 0xcc#160 0xee#160 (0 : Nat)
  obtain ⟨k1, _, _⟩ := C123_refused (W := stern) (D := D) sample_setting (by decide) hd [] (by simp) (caller := alice) (asker := alice)
    (o := alice) (a := bob) (by decide) (by decide) (by decide) (by decide) (by decide) (by decide) (id := 7#256) (ids := []) (by simp) [] []
    (NftBytes.short _ _ _) (NftBytes.short _ _ _) (by rw [Proofs.Contracts.message_length]; decide) rfl
  obtain ⟨_, _, k3⟩ := C123_refused (W := stern) (D := D) sample_setting (by decide) hd [] (by simp) (caller := alice) (asker := alice)
    (o := alice) (a := alice) (by decide) (by decide) (by decide) (by decide) (by decide) (by decide) (id := 8#256) (ids := []) (by simp) [] []
    (NftBytes.short _ _ _) (NftBytes.short _ _ _) announce_short rfl
  exact ⟨w, hd, C123_fixed (W := stern) (D := D) sample_setting (by decide) hd [] (by simp) (by decide) (by decide), k1 rfl, k3 (by decide)⟩

end Verif.Props.NftWrapperDeployed
