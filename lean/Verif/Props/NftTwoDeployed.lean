import Verif.Proofs.NftTwoDeployed
/-!
# C128: the ERC-721 wrapper and the token it wraps, both as deployed, both as words of storage

`Token` is `examples/erc721-metadata` on words.  The other contract is `examples/erc721-wrapper` on words, and its calls go to the token
as bytes.  `S` are the accounts that take part, the wrapper among them, and `N` the tokens.
-/
namespace Verif.Props.NftTwoDeployed
open Verif Verif.Storage Verif.Outside Verif.Spec.NftTwoDeployed Verif.Spec.OnWords Verif.Proofs.NftTwoDeployed
open Verif.OnWords (Chained)
open Verif.Deployed (Utf8)
open Verif.Abi (Val Decoder Outcome)
open Verif.Erc721 (Event)
open Verif.Spec.Keccak (keccak256)
open Verif.Spec.Contracts (message values Says)
open Verif.Spec.Outside (Tx Step)
open Verif.Spec.NftBytes (nft newNfts nftsAfter Hosts Possible Runs Without Wraps)
open Verif.Spec.MultiDeployed (Names tokensOf)
open Verif.Proofs.TwoDeployed (Same same_of)
open Verif.Props.NftBytes (wrapper abi)
open Verif.Props.NftWrapperDeployed (C123_call_within)

/-- What `ownerOf` of the wrapper answers. -/
abbrev owns (D : Decoder) (U : Utf8) (self under asker : Address) (w : Chained Event Token) (id : U256) :=
  NftWrapperDeployed.owns (wordsWorld D U self under) D asker w id

/-- The answers of the wrapper say that the account may move the wrapped token. -/
abbrev May (D : Decoder) (U : Utf8) (self under asker : Address) (w : Chained Event Token) (caller : Address) (id : U256) : Prop :=
  NftWrapperDeployed.May (wordsWorld D U self under) D asker w caller id

/-- What the token answers. -/
abbrev tokenAsk (D : Decoder) (U : Utf8) (env : Contracts.Env) (w : Chained Event Token) :=
  Spec.Contracts.answer (Erc721UriDeployed.entry keccak256 D U) env w.world

/-- A transaction to the wrapper. -/
abbrev run (D : Decoder) (U : Utf8) (self under : Address) := NftWrapperDeployed.run (wordsWorld D U self under) keccak256 D

variable {n : Nat} {S : List Address} {N : List U256} {L : Nat} {m : Metadata.Erc721Metadata} {self under : Address}
  {w : Chained Event Token} {D : Decoder} {U : Utf8}

/-! ### The contracts with mappings -/

/-- A raw transaction as a step of a history of the contracts with mappings. -/
def plainStep (D : Decoder) (self under : Address) : Tx → Step Metadata.State
  | .contract c v i => .call c v i
  | .token c v i => .outside fun t => (nft D ⟨c, others self under⟩ t v i).after t

/-- The wrapper and the token with mappings after the same transactions. -/
abbrev past (D : Decoder) (m : Metadata.Erc721Metadata) (self under : Address) (txs : List Tx) : Nfts.State Metadata.State :=
  nftsAfter (plainWorld D self under) D (newNfts self under (Metadata.init m)) (txs.map (plainStep D self under))

/-- Both contracts agree with those with mappings. -/
def Joint (S : List Address) (N : List U256) (L : Nat) (w : Chained Event Token) (s : Nfts.State Metadata.State) : Prop :=
  ∃ s1, Proofs.NftWrapperDeployed.Agrees keccak256 S N w s1 ∧ Over (Agree S N L) s1 s

theorem about_steps {txs : List Tx} (hx : ∀ x ∈ txs, About D S N L self under x) :
    ∀ y ∈ txs.map (step D U self under), Spec.NftWrapperDeployed.About keccak256 D S N y := by
  intro y hy
  obtain ⟨x, hm, rfl⟩ := List.mem_map.mp hy
  have := hx x hm
  cases x with
  | contract c v b => exact this.1
  | token c v b => trivial

theorem possible {txs : List Tx} (hx : ∀ x ∈ txs, About D S N L self under x) :
    Possible D self under (fun m => m) (txs.map (plainStep D self under)) := by
  intro y hy
  obtain ⟨x, hm, rfl⟩ := List.mem_map.mp hy
  have := hx x hm
  cases x with
  | contract c v b => exact ⟨this.1.signed, this.2⟩
  | token c v b => exact fun t => ⟨[⟨⟨c, others self under⟩, v, b⟩], by simpa using this.2, rfl⟩

theorem runs {txs : List Tx} (hx : ∀ x ∈ txs, About D S N L self under x) :
    Runs (plainWorld D self under) D self under (fun m => m) (past D m self under txs) :=
  ⟨Metadata.init m, _, ⟨m, [], by simp, rfl⟩, possible hx, rfl⟩

theorem signed_steps {txs : List Tx} (hx : ∀ x ∈ txs, About D S N L self under x) :
    Spec.NftBytes.Signed (txs.map (step D U self under)) := NftWrapperDeployed.signed (about_steps (U := U) hx)

theorem over_play (h : Setting n S N L m self under w) : ∀ (txs : List Tx) {s : Nfts.State Token} {s' : Nfts.State Metadata.State}
    (_ : Over (Agree S N L) s s') (_ : Spec.Erc721.Reachable s.token) (_ : s.self_ = self) (_ : ∀ x ∈ txs, About D S N L self under x),
    Over (Agree S N L) (nftsAfter (wordsWorld D U self under) D s (txs.map (step D U self under)))
      (nftsAfter (plainWorld D self under) D s' (txs.map (plainStep D self under)))
  | [], _, _, hs, _, _, _ => hs
  | x :: l, s, s', hs, hr, e, hx => by
    have hk := NftBytes.kept_play (wordsWorld D U self under) D _
      (signed_steps (U := U) (txs := [x]) fun y hy => hx y (by rw [List.mem_singleton.mp hy]; exact List.mem_cons_self)) s hr
    refine over_play h l (s := nftsAfter (wordsWorld D U self under) D s [step D U self under x])
      (s' := nftsAfter (plainWorld D self under) D s' [plainStep D self under x]) ?_ (hk.inv hr) (hk.1.1.trans e)
      fun y hy => hx y (List.mem_cons_of_mem _ hy)
    have h1 := hx x List.mem_cons_self
    cases x with
    | contract c v b => exact (wrapper_step h hs e h1.1).after hs
    | token c v b =>
      obtain ⟨self', u, k, t⟩ := s
      obtain ⟨ht, t', rfl⟩ := hs
      exact over ((nft_same h ht h1.1).after ht)

theorem joint (h : Setting n S N L m self under w) {txs : List Tx} (hx : ∀ x ∈ txs, About D S N L self under x) :
    Joint S N L (play D U self under w txs) (past D m self under txs) := by
  obtain ⟨t, h1, h2⟩ := h.deployed
  obtain ⟨t', h3, h4⟩ := Proofs.Erc721UriDeployed.inv_deploy h.token h.zero h.name h.symbol h.base
  rw [h1] at h3
  cases h3
  exact ⟨_, NftWrapperDeployed.play_agree h.wrapper h.zero _ (NftWrapperDeployed.start_agree h.wrapper h.zero h2) (about_steps hx),
    over_play h txs (over h4) ⟨[], rfl⟩ rfl hx⟩

theorem joint_token {w : Chained Event Token} {s : Nfts.State Metadata.State} (hj : Joint S N L w s) : Agree S N L w.world s.world := by
  obtain ⟨s1, h1, h2, _⟩ := hj
  rw [NftWrapperDeployed.world_eq h1]
  exact h2

/-- One transaction to the wrapper. -/
theorem joint_step (h : Setting n S N L m self under w) {w' : Chained Event Token} {s : Nfts.State Metadata.State} (hj : Joint S N L w' s)
    (hs : s.self_ = self) {c : Address} {v : U256} {b : Bytes} (hx : Spec.NftWrapperDeployed.Within keccak256 D S N ⟨c, v, b⟩) :
    Same (Joint S N L) (run D U self under c w' v b) (wrapper (plainWorld D self under) D c s v b) := by
  obtain ⟨s1, h1, h2⟩ := hj
  have hs1 : s1.self_ = self := by
    obtain ⟨_, t', rfl⟩ := h2; exact hs
  have e1 := Proofs.NftWrapperDeployed.inv_run (tx := ⟨c, v, b⟩) h.wrapper h.zero (wordsWorld D U self under) D h1 hx
  have e2 := wrapper_step (D := D) (U := U) h h2 hs1 hx
  exact same_of (e1.1.trans e2.answer) ⟨_, e1.2, e2.after h2⟩

theorem past_fixed {txs : List Tx} (hx : ∀ x ∈ txs, About D S N L self under x) : (past D m self under txs).self_ = self :=
  (NftBytes.runs_reached (runs hx)).2.1

theorem returned (h : Setting n S N L m self under w) {w' w2 : Chained Event Token} {s : Nfts.State Metadata.State} (hj : Joint S N L w' s)
    (hs : s.self_ = self) {c : Address} {v : U256} {b d : Bytes} (hx : Spec.NftWrapperDeployed.Within keccak256 D S N ⟨c, v, b⟩)
    (ho : run D U self under c w' v b = .returned w2 d) :
    ∃ s2, wrapper (plainWorld D self under) D c s v b = .returned s2 d ∧ Joint S N L w2 s2 := by
  have k := joint_step (U := U) h hj hs hx
  rw [ho] at k
  revert k
  generalize wrapper (plainWorld D self under) D c s v b = y
  intro k
  cases k with
  | returned _ k => exact ⟨_, rfl, k⟩

theorem returns (h : Setting n S N L m self under w) {w' : Chained Event Token} {s s2 : Nfts.State Metadata.State} (hj : Joint S N L w' s)
    (hs : s.self_ = self) {c : Address} {v : U256} {b d : Bytes} (hx : Spec.NftWrapperDeployed.Within keccak256 D S N ⟨c, v, b⟩)
    (ho : wrapper (plainWorld D self under) D c s v b = .returned s2 d) :
    ∃ w2, run D U self under c w' v b = .returned w2 d ∧ Joint S N L w2 s2 := by
  have k := joint_step (U := U) h hj hs hx
  rw [ho] at k
  revert k
  generalize run D U self under c w' v b = y
  intro k
  cases k with
  | returned _ k => exact ⟨_, rfl, k⟩

/-- What `ownerOf` of the wrapper answers. -/
theorem owns_same (h : Setting n S N L m self under w) {w' : Chained Event Token} {s : Nfts.State Metadata.State} (hj : Joint S N L w' s)
    {asker : Address} (hc : asker ∈ S) (hz : asker ≠ ZERO) {id : U256} (hid : id ∈ N) :
    owns D U self under asker w' id =
      Spec.Contracts.answer (wrapper (plainWorld D self under) D) asker s "ownerOf(uint256)" [.uint256 id] := by
  obtain ⟨s1, h1, _, t', rfl⟩ := hj
  rw [(NftBytes.answers _ D asker _ ZERO ZERO id).2.1]
  exact (NftWrapperDeployed.asks h.wrapper h.zero h1 hc hz).2.2.1 id hid

/-- Who may move a wrapped token. -/
theorem may_same (h : Setting n S N L m self under w) {w' : Chained Event Token} {s : Nfts.State Metadata.State} (hj : Joint S N L w' s)
    (hg : Erc721.NoGhost s.token) {asker : Address} (hc : asker ∈ S) (hz : asker ≠ ZERO) {id : U256} (hid : id ∈ N) {caller : Address}
    (hk : caller ∈ S) (hn : caller ≠ ZERO) : May D U self under asker w' caller id ↔ Spec.Erc721.MayMove s.token caller id := by
  obtain ⟨s1, h1, _, t', rfl⟩ := hj
  exact NftWrapperDeployed.may_iff h.wrapper h.zero h1 hg hc hz hid hk hn

/-- What the token answers. -/
theorem token_same (h : Setting n S N L m self under w) {w' : Chained Event Token} {s : Nfts.State Metadata.State} (hj : Joint S N L w' s)
    {env : Contracts.Env} {a b : Address} {id : U256} (hc : env.caller ∈ S) (ha : a ∈ S) (hb : b ∈ S) (hid : id ∈ N) :
    tokenAsk D U env w' "ownerOf(uint256)" [.uint256 id] = Spec.Contracts.answer (nft D) env s.world "ownerOf(uint256)" [.uint256 id] ∧
    tokenAsk D U env w' "getApproved(uint256)" [.uint256 id] =
      Spec.Contracts.answer (nft D) env s.world "getApproved(uint256)" [.uint256 id] ∧
    tokenAsk D U env w' "isApprovedForAll(address,address)" [.address a, .address b] =
      Spec.Contracts.answer (nft D) env s.world "isApprovedForAll(address,address)" [.address a, .address b] := by
  obtain ⟨q1, q2, q3, _⟩ := Erc721UriDeployed.question_within (D := D) (L := L) hc ha hb hid
  have ht := joint_token hj
  exact ⟨(nft_same h ht q1).reply, (nft_same h ht q2).reply, (nft_same h ht q3).reply⟩

/-- **C128** Bytes in, bytes out, with nothing between but the words of two storages: after any transactions to either contract, a
transaction to either is answered with the same bytes as by the wrapper of C111 over the token of C103, and the events of both contracts
are the same. -/
theorem C128_answers (h : Setting n S N L m self under w) (txs : List Tx) (hx : ∀ x ∈ txs, About D S N L self under x) :
    let w' := play D U self under w txs
    let s := past D m self under txs
    (∀ c v i, Spec.NftWrapperDeployed.Within keccak256 D S N ⟨c, v, i⟩ →
      Spec.Deployed.answer (run D U self under c w' v i) =
        Spec.Deployed.answer (Nfts.run (plainWorld D self under) keccak256 D c s v i)) ∧
    (∀ env v i, Spec.UriDeployed.Within keccak256 D Router.erc721MetadataExample S N L ⟨env, v, i⟩ →
      Spec.Deployed.answer (Erc721UriDeployed.entry keccak256 D U env w'.world v i) = Spec.Deployed.answer (nft D env s.world v i)) ∧
    w'.log = s.token.log ∧ w'.world.log.filterMap Sum.getLeft? = s.world.erc721.log ∧
    w'.world.log.filterMap Sum.getRight? = s.world.uriStorage.updates := by
  intro w' s
  have hj : Joint S N L w' s := joint (U := U) h hx
  have ht := joint_token hj
  refine ⟨fun c v i hw => (joint_step h hj (past_fixed hx) hw).answer, fun env v i hw => (nft_same h ht hw).answer, ?_, ?_⟩
  · obtain ⟨s1, h1, _, t', e⟩ := hj
    rw [NftWrapperDeployed.log_eq h1, e]
  · obtain ⟨c, _, hr⟩ := ht
    exact ⟨by rw [hr.token]; rfl, hr.updates.symm⟩

/-- **C128** With bytes only: after any transactions to either contract, while the wrapper answers that somebody owns an id, the token
answers that the wrapper owns it, that nobody is approved for it, and that the wrapper has no operator. -/
theorem C128_backed (h : Setting n S N L m self under w) {txs : List Tx} (hx : ∀ x ∈ txs, About D S N L self under x) {asker : Address}
    (hc : asker ∈ S) (hz : asker ≠ ZERO) {env : Contracts.Env} (he : env.caller ∈ S) {id : U256} (hid : id ∈ N) :
    let w' := play D U self under w txs
    owns D U self under asker w' id ≠ none →
    tokenAsk D U env w' "ownerOf(uint256)" [.uint256 id] = some (values [.address self]) ∧
    tokenAsk D U env w' "getApproved(uint256)" [.uint256 id] = some (values [.address ZERO]) ∧
    ∀ p ∈ S, tokenAsk D U env w' "isApprovedForAll(address,address)" [.address self, .address p] = some (values [.bool false]) := by
  intro w' ho
  have hj : Joint S N L w' _ := joint (U := U) h hx
  rw [owns_same h hj hc hz hid] at ho
  obtain ⟨b, hb⟩ := Option.ne_none_iff_exists'.mp ho
  obtain ⟨k1, k2, k3⟩ := NftBytes.C111_backed (plain_hosts D self under) h.nonzero (runs hx) asker env id hb
  have q := fun p hp => token_same (D := D) (U := U) h hj (b := p) he h.mem hp hid
  exact ⟨(q self h.mem).1.trans k1, (q self h.mem).2.1.trans k2, fun p hp => (q p hp).2.2.trans (k3 p)⟩

theorem plain_code {a : Address} (ha : a ≠ self) (hu : a ≠ under) (t : Metadata.State) : (plainWorld D self under).hasCode t a = false := by
  show (others self under a).isSome = false
  unfold others
  rw [if_neg (by rintro (h | h) <;> contradiction)]
  rfl

/-- **C128** With bytes only: after any transactions to either contract, `withdrawTo` goes through exactly for distinct ids that the
sender may move according to the answers of the wrapper, if they go to an account that is not one of the two contracts; afterwards the
token answers that this account owns them, and they are no longer wrapped. -/
theorem C128_redeemable (h : Setting n S N L m self under w) {txs : List Tx} (hx : ∀ x ∈ txs, About D S N L self under x)
    {caller asker a : Address} (hcal : caller ∈ S) (hcz : caller ≠ ZERO) (hc : asker ∈ S) (hz : asker ≠ ZERO) (ha : a ∈ S)
    (haz : a ≠ ZERO) (has : a ≠ self) (hau : a ≠ under) {ids : List U256} (hids : ∀ id ∈ ids, id ∈ N)
    (hm : (message "withdrawTo(address,uint256[])" [.address a, .uints ids]).length < 2 ^ 256) :
    let w' := play D U self under w txs
    let out := run D U self under caller w' 0#256 (message "withdrawTo(address,uint256[])" [.address a, .uints ids])
    ((∃ w2 d, out = .returned w2 d) ↔ ids.Nodup ∧ ∀ id ∈ ids, May D U self under asker w' caller id) ∧
    ∀ w2 d, out = .returned w2 d → ∀ env : Contracts.Env, env.caller ∈ S → ∀ id ∈ ids,
      tokenAsk D U env w2 "ownerOf(uint256)" [.uint256 id] = some (values [.address a]) ∧ owns D U self under asker w2 id = none := by
  intro w' out
  have hj : Joint S N L w' _ := joint (U := U) h hx
  have hr := runs (m := m) hx
  have hf := past_fixed (m := m) hx
  have hg := (NftBytes.reached_inv (NftBytes.runs_reached hr).1).toNoGhost
  generalize past D m self under txs = s at hj hr hf hg
  have hw := C123_call_within (D := D) hcal hcz (.withdrawTo a ids) 0#256 hm (by simp [abi, Names, ha]) (by simpa [abi, tokensOf] using hids)
  obtain ⟨k1, k2⟩ := NftBytes.C111_redeemable (plain_hosts D self under) h.nonzero hr caller a hcz haz (plain_code has hau) ids hm
  refine ⟨⟨?_, ?_⟩, fun w2 d ho env he id hid => ?_⟩
  · rintro ⟨w2, d, ho⟩
    obtain ⟨s', h1, _⟩ := returned h hj hf hw ho
    obtain ⟨k3, k4⟩ := k1.mp ⟨s', d, h1⟩
    exact ⟨k3, fun id hid => (may_same h hj hg hc hz (hids id hid) hcal hcz).mpr (k4 id hid)⟩
  · rintro ⟨k3, k4⟩
    obtain ⟨s', d, h1⟩ := k1.mpr ⟨k3, fun id hid => (may_same h hj hg hc hz (hids id hid) hcal hcz).mp (k4 id hid)⟩
    obtain ⟨w2, h2, _⟩ := returns h hj hf hw h1
    exact ⟨w2, d, h2⟩
  · obtain ⟨s', h1, h2⟩ := returned h hj hf hw ho
    obtain ⟨k3, k4⟩ := k2 s' d h1 asker env id hid
    exact ⟨(token_same h h2 he h.mem h.mem (hids id hid)).1.trans k3, (owns_same h h2 hc hz (hids id hid)).trans k4⟩

/-- **C128** With bytes only: after any transactions to either contract, `depositFor` an account that is not one of the two contracts goes
through exactly for distinct ids of which the token answers that the sender owns them and that the wrapper is approved, by `approve` or as
operator; afterwards the token answers that the wrapper owns them, and the wrapper that the account does. -/
theorem C128_depositable (h : Setting n S N L m self under w) {txs : List Tx} (hx : ∀ x ∈ txs, About D S N L self under x)
    {caller asker a : Address} (hcal : caller ∈ S) (hcz : caller ≠ ZERO) (hcs : caller ≠ self) (hc : asker ∈ S) (hz : asker ≠ ZERO)
    (ha : a ∈ S) (haz : a ≠ ZERO) (has : a ≠ self) (hau : a ≠ under) {ids : List U256} (hids : ∀ id ∈ ids, id ∈ N)
    (hm : (message "depositFor(address,uint256[])" [.address a, .uints ids]).length < 2 ^ 256) {env : Contracts.Env} (he : env.caller ∈ S) :
    let w' := play D U self under w txs
    let out := run D U self under caller w' 0#256 (message "depositFor(address,uint256[])" [.address a, .uints ids])
    ((∃ w2 d, out = .returned w2 d) ↔ ids.Nodup ∧ ∀ id ∈ ids,
      tokenAsk D U env w' "ownerOf(uint256)" [.uint256 id] = some (values [.address caller]) ∧
      (tokenAsk D U env w' "getApproved(uint256)" [.uint256 id] = some (values [.address self]) ∨
       tokenAsk D U env w' "isApprovedForAll(address,address)" [.address caller, .address self] = some (values [.bool true]))) ∧
    ∀ w2 d, out = .returned w2 d → ∀ id ∈ ids,
      tokenAsk D U env w2 "ownerOf(uint256)" [.uint256 id] = some (values [.address self]) ∧
      owns D U self under asker w2 id = some (values [.address a]) := by
  intro w' out
  have hj : Joint S N L w' _ := joint (U := U) h hx
  have hr := runs (m := m) hx
  have hf := past_fixed (m := m) hx
  generalize past D m self under txs = s at hj hr hf
  have hw := C123_call_within (D := D) hcal hcz (.depositFor a ids) 0#256 hm (by simp [abi, Names, ha]) (by simpa [abi, tokensOf] using hids)
  obtain ⟨k1, k2⟩ := NftBytes.C111_depositable (plain_hosts D self under) h.nonzero hr caller a hcz hcs haz (plain_code has hau) ids hm
  have q := fun id hid => token_same (D := D) (U := U) h hj (env := env) he hcal h.mem (hids id hid)
  refine ⟨⟨?_, ?_⟩, fun w2 d ho id hid => ?_⟩
  · rintro ⟨w2, d, ho⟩
    obtain ⟨s', h1, _⟩ := returned h hj hf hw ho
    obtain ⟨k3, k4⟩ := k1.mp ⟨s', d, h1⟩
    refine ⟨k3, fun id hid => ?_⟩
    rw [(q id hid).1, (q id hid).2.1, (q id hid).2.2]
    exact k4 env id hid
  · rintro ⟨k3, k4⟩
    obtain ⟨s', d, h1⟩ := k1.mpr ⟨k3, fun env' id hid => by
      have := k4 id hid
      rw [(q id hid).1, (q id hid).2.1, (q id hid).2.2] at this
      obtain ⟨e1, e2, e3⟩ := NftBytes.token_answers D env s.world caller self id
      obtain ⟨f1, f2, f3⟩ := NftBytes.token_answers D env' s.world caller self id
      rw [e1, e2, e3] at this
      rw [f1, f2, f3]
      exact this⟩
    obtain ⟨w2, h2, _⟩ := returns h hj hf hw h1
    exact ⟨w2, d, h2⟩
  · obtain ⟨s', h1, h2⟩ := returned h hj hf hw ho
    obtain ⟨k3, k4⟩ := k2 s' d h1 asker env id hid
    exact ⟨(token_same h h2 he h.mem h.mem (hids id hid)).1.trans k3, (owns_same h h2 hc hz (hids id hid)).trans k4⟩

/-! ### How a token leaves the wrapper -/

section
open Verif.Wrapper721 (Held Keep keep_refl keep_trans keep_updated held_updated)
open Verif.Props.NftBytes (Sys)

variable {τ : Type} {W : World τ} {u : τ → Metadata.State}

theorem wraps_keep (H : Hosts W D self under u) (hz : self ≠ ZERO) {c a : Address} (ids : List U256) {v v' : Erc721.State} {t t' : τ}
    (hh : Held self (u t).erc721) (h : Wraps W D self under c a ids v t v' t') : Keep self (u t).erc721 (u t').erc721 := by
  induction ids generalizing v t with
  | nil => obtain ⟨_, rfl⟩ := h; exact keep_refl _ _
  | cons id ids ih =>
    obtain ⟨t1, u1, t2, h1, _, _, _, h5, h6⟩ := h
    obtain ⟨P, d, _, hp⟩ := NftBytes.obeys_asked H h1
    obtain ⟨_, _, _, hm, _⟩ := (NftToken.take_iff (env := ⟨self, P⟩) hz).mp hp
    have hm : (u t1).erc721 = Erc721.updated (u t).erc721 self id := by rw [hm]
    have k1 : Held self (u t1).erc721 := by rw [hm]; exact held_updated hh _ _
    have k2 : Keep self (u t).erc721 (u t1).erc721 := by rw [hm]; exact keep_updated fun _ => rfl
    obtain ⟨k3, k4⟩ := NftBytes.welcome_keeps H hz k1 h5
    exact keep_trans k2 (keep_trans k4 (ih k3 h6))

/-- A token that the wrapper has leaves it only in a call `withdrawTo`. -/
theorem released (H : Hosts W D self under u) (hz : self ≠ ZERO) {s : Nfts.State τ} (hr : Runs W D self under u s) {x : Step τ}
    (hp : Possible D self under u [x]) {id : U256} (hb : (u s.world).erc721.owners id = self)
    (ha : (u (nftsAfter W D s [x]).world).erc721.owners id ≠ self) :
    ∃ caller input dst ids, x = .call caller 0#256 input ∧ id ∈ ids ∧
      Says D input "withdrawTo(address,uint256[])" [.address dst, .uints ids] ∧ Spec.Erc721.MayMove s.token caller id ∧
      (u (nftsAfter W D s [x]).world).erc721.owners id = dst := by
  have k := NftBytes.runs_sys H hz hr
  obtain ⟨hr', f1, f2⟩ := NftBytes.runs_reached hr
  have hx := hp x List.mem_cons_self
  subst f1 f2
  cases x with
  | outside f => exact absurd ((NftToken.without_keeps hz k.held (hx s.world)).2 id hb) ha
  | call c v i =>
    have hc := hx.1
    change (u ((wrapper W D c s v i).after s).world).erc721.owners id ≠ _ at ha
    show ∃ caller input dst ids, _ ∧ _ ∧ _ ∧ _ ∧ (u ((wrapper W D c s v i).after s).world).erc721.owners id = dst
    rcases NftBytes.C111_no_other_effect W D c s v i with ⟨d, h⟩ | ⟨d, h⟩ | ⟨op, s', r, he, h, hv, hs⟩
    · rw [h] at ha; exact absurd hb ha
    · rw [h] at ha; exact absurd hb ha
    · rw [h] at ha ⊢
      change (u s'.world).erc721.owners id ≠ _ at ha
      show ∃ caller input dst ids, _ ∧ _ ∧ _ ∧ _ ∧ (u s'.world).erc721.owners id = dst
      subst hv
      have he := (Proofs.Outside.giving_eq_ok.mp he).1
      cases op with
      | depositFor a ids =>
        obtain ⟨v', t', h1, rfl⟩ := (NftBytes.depositFor_ok ids k.ghost).mp he
        exact absurd (wraps_keep H hz ids k.held h1 id hb) ha
      | withdrawTo a ids =>
        obtain ⟨v', t', h1, rfl⟩ := (NftBytes.withdrawTo_ok hc ids k.ghost).mp he
        have e := NftBytes.unwraps_under H hz ids h1 id
        have hi : id ∈ ids := by
          by_contra hi
          rw [if_neg hi] at e
          exact ha (e.trans hb)
        rw [if_pos hi] at e
        exact ⟨c, i, a, ids, rfl, hi, hs, ((NftBytes.unwraps_effect ids h1).2.1 id hi).1, e⟩
      | onReceived o a id' d => exact absurd (NftBytes.onReceived_ok.mp he).1.symm hx.2.2
      | token q =>
        rcases NftBytes.told_cases he with hw | ⟨o, src, dst, id', d, hw⟩
        · rw [hw] at ha; exact absurd hb ha
        · exact absurd ((NftBytes.welcome_keeps H hz k.held hw).2 id hb) ha

end

theorem play_snoc (D : Decoder) (self under : Address) (txs : List Tx) (x : Tx) :
    past D m self under (txs ++ [x]) = nftsAfter (plainWorld D self under) D (past D m self under txs) [plainStep D self under x] := by
  unfold past
  rw [List.map_append, List.map_singleton]
  exact List.foldl_append

/-- **C128** With bytes only: after any transactions to either contract, if the token answers that the wrapper owns an id, and after one
more transaction it does not, then this is a call `withdrawTo(dst, ids)` of the wrapper with the id, its sender may move the wrapped token
according to the answers of the wrapper before it, and unless `dst` is the zero address the token answers afterwards that `dst` owns the
id.  So nothing else, sent to either contract, takes a token out of the wrapper, and a token that was sent to the wrapper without being
wrapped stays there. -/
theorem C128_released (h : Setting n S N L m self under w) {txs : List Tx} {x : Tx}
    (hx : ∀ y ∈ txs ++ [x], About D S N L self under y) {asker : Address} (hc : asker ∈ S) (hz : asker ≠ ZERO) {env : Contracts.Env}
    (he : env.caller ∈ S) {id : U256} (hid : id ∈ N) :
    let w' := play D U self under w txs
    let w2 := play D U self under w (txs ++ [x])
    tokenAsk D U env w' "ownerOf(uint256)" [.uint256 id] = some (values [.address self]) →
    tokenAsk D U env w2 "ownerOf(uint256)" [.uint256 id] ≠ some (values [.address self]) →
    ∃ caller input dst ids, x = .contract caller 0#256 input ∧ id ∈ ids ∧
      Says D input "withdrawTo(address,uint256[])" [.address dst, .uints ids] ∧ May D U self under asker w' caller id ∧
      (dst ≠ ZERO → tokenAsk D U env w2 "ownerOf(uint256)" [.uint256 id] = some (values [.address dst])) := by
  intro w' w2 hb ha
  have hx1 : ∀ y ∈ txs, About D S N L self under y := fun y hy => hx y (List.mem_append_left _ hy)
  have hxx : About D S N L self under x := hx x (List.mem_append_right _ (by simp))
  have j1 : Joint S N L w' _ := joint (U := U) h hx1
  have j2 : Joint S N L w2 _ := joint (U := U) h hx
  rw [play_snoc] at j2
  have hr := runs (m := m) hx1
  have hg := (NftBytes.reached_inv (NftBytes.runs_reached hr).1).toNoGhost
  have hp := possible (D := D) (S := S) (N := N) (L := L) (self := self) (under := under) (txs := [x])
    fun y hy => by rw [List.mem_singleton.mp hy]; exact hxx
  rw [(token_same h j1 he h.mem h.mem hid).1, NftBytes.token_owner] at hb
  rw [(token_same h j2 he h.mem h.mem hid).1, ne_eq, NftBytes.token_owner] at ha
  rw [(token_same h j2 he h.mem h.mem hid).1]
  obtain ⟨caller, input, dst, ids, e, k1, k2, k3, k4⟩ := released (plain_hosts D self under) h.nonzero hr hp hb.1
    (fun e => ha ⟨e, h.nonzero⟩)
  cases x with
  | token c v b => cases e
  | contract c v b =>
    injection e with e1 e2 e3
    subst e1 e2 e3
    exact ⟨c, b, dst, ids, rfl, k1, k2, (may_same h j1 hg hc hz hid hxx.1.sender hxx.1.signed).mpr k3,
      fun h0 => (NftBytes.token_owner ..).mpr ⟨k4, h0⟩⟩

/-! ### The hypotheses are met -/

/-- The cells of three accounts and two tokens, in the wrapper. -/
def sampleCells : List (List Storage.Step) :=
  let A := [0#160, 1#160, 2#160]
  let N := [1#256, 2#256]
  N.map (Erc721Words.owner [.field "erc721"]) ++ (A.map (Erc721Words.balance [.field "erc721"]) ++ (N.map (Erc721Words.approved [.field "erc721"]) ++
    ((A.flatMap fun a => A.map (Erc721Words.operator [.field "erc721"] a)) ++ [NftWrapperDeployed.underlyingCell])))

theorem sample_cells {p : List Storage.Step} (h : Spec.NftWrapperDeployed.Cells [0#160, 1#160, 2#160] [1#256, 2#256] p) : p ∈ sampleCells := by
  unfold sampleCells
  dsimp only
  simp only [List.mem_append]
  rcases h with (⟨a, ha, rfl⟩ | ⟨a, ha, rfl⟩ | ⟨a, ha, rfl⟩ | ⟨a, ha, b, hb, rfl⟩) | rfl
  · exact .inl (List.mem_map_of_mem ha)
  · exact .inr (.inl (List.mem_map_of_mem ha))
  · exact .inr (.inr (.inl (List.mem_map_of_mem ha)))
  · exact .inr (.inr (.inr (.inl (List.mem_flatMap.mpr ⟨a, ha, List.mem_map_of_mem hb⟩))))
  · exact .inr (.inr (.inr (.inr (by simp [NftWrapperDeployed.underlyingCell]))))

theorem sample_apart : Apart keccak256 10 erc721WrapperExample
    (Spec.NftWrapperDeployed.Cells [0#160, 1#160, 2#160] [1#256, 2#256]) :=
  ⟨by decide, Proofs.Separate.separate sampleCells (Erc721UriDeployed.sampleTable.take 19) (fun _ => sample_cells)
    (fun e he => Erc721UriDeployed.table_ok e (List.mem_of_mem_take he)) (by decide +kernel) (by decide +kernel) (by decide +kernel)⟩

abbrev alice : Address := 1#160
abbrev me : Address := 2#160
abbrev token : Address := 3#160

/-- The wrapper is at 2 and the token at 3. -/
theorem sample_setting : ∃ w, Setting 10 [0#160, 1#160, 2#160] [1#256, 2#256] 2 ⟨['n'], ['s'], ['b']⟩ me token w := by
  have hs : ∀ c ∈ ['n', 's', 'b'], Spec.UriDeployed.Short 2 [c] := by unfold Spec.UriDeployed.Short; decide +kernel
  obtain ⟨t, h1, _⟩ := Proofs.Erc721UriDeployed.inv_deploy (m := ⟨['n'], ['s'], ['b']⟩) Erc721UriDeployed.sample_apart (by decide)
    (hs 'n' (by simp)) (hs 's' (by simp)) (hs 'b' (by simp))
  obtain ⟨w, h2⟩ := NftWrapperDeployed.C123_deploy keccak256 me token t
  exact ⟨w, by decide, by decide, by decide, by decide, hs 'n' (by simp), hs 's' (by simp), hs 'b' (by simp),
    Erc721UriDeployed.sample_apart, sample_apart, t, h1, h2⟩

/-- Alice mints the tokens 1 and 2 and approves the wrapper for 1. -/
def did : List Metadata.Call := [.mint alice 1#256, .mint alice 2#256, .user (.approve me 1#256)]

abbrev msg (op : Metadata.Call) : Bytes :=
  message (Contracts.Erc721MetadataContract.abi op).1 (Contracts.Erc721MetadataContract.abi op).2

def before : List Tx := (did.map msg).map (.token alice 0#256)

/-- Then Alice wraps 1. -/
def wraps : Tx := .contract alice 0#256 (message "depositFor(address,uint256[])" [.address alice, .uints [1#256]])

/-- Then Alice takes it back. -/
def unwraps : Tx := .contract alice 0#256 (message "withdrawTo(address,uint256[])" [.address alice, .uints [1#256]])

theorem did_short : ∀ op ∈ did, (msg op).length < 2 ^ 256 := by
  intro op hop
  simp only [did, List.mem_cons, List.not_mem_nil, or_false] at hop
  rcases hop with rfl | rfl | rfl <;>
    exact Proofs.Contracts.words_lt _ _ (by simp [Contracts.Erc721MetadataContract.abi, Spec.Contracts.arg])
      (by simp [Contracts.Erc721MetadataContract.abi])

theorem before_about (D : Decoder) : ∀ x ∈ before, About D [0#160, 1#160, 2#160] [1#256, 2#256] 2 me token x := by
  intro x hx
  obtain ⟨_, hb, rfl⟩ := List.mem_map.mp hx
  obtain ⟨op, hop, rfl⟩ := List.mem_map.mp hb
  have hl := did_short op hop
  refine ⟨?_, by decide⟩
  simp only [did, List.mem_cons, List.not_mem_nil, or_false] at hop
  rcases hop with rfl | rfl | rfl <;>
    exact Erc721UriDeployed.C118_erc721_metadata_call_within (env := ⟨alice, others me token⟩) _ _ hl (by decide)
      (by simp [Contracts.Erc721MetadataContract.abi, Names]) (by simp [Contracts.Erc721MetadataContract.abi, tokensOf])
      (by simp [Contracts.Erc721MetadataContract.abi])

theorem wraps_about (D : Decoder) : About D [0#160, 1#160, 2#160] [1#256, 2#256] 2 me token wraps :=
  ⟨C123_call_within (by decide) (by decide) (.depositFor alice [1#256]) 0#256 (NftBytes.short _ _ _) (by simp [abi, Names])
    (by simp [abi, tokensOf]), by decide, by decide⟩

theorem unwraps_about (D : Decoder) : About D [0#160, 1#160, 2#160] [1#256, 2#256] 2 me token unwraps :=
  ⟨C123_call_within (by decide) (by decide) (.withdrawTo alice [1#256]) 0#256 (NftBytes.short _ _ _) (by simp [abi, Names])
    (by simp [abi, tokensOf]), by decide, by decide⟩

theorem token_only (D : Decoder) (self under : Address) (l : List Bytes) (s : Nfts.State Metadata.State) :
    (nftsAfter (plainWorld D self under) D s ((l.map (Tx.token alice 0#256)).map (plainStep D self under))).world =
      Spec.Contracts.after (nft D) s.world (l.map fun b => ⟨⟨alice, others self under⟩, 0#256, b⟩) := by
  induction l generalizing s with
  | nil => rfl
  | cons b l ih => exact ih { s with world := (nft D ⟨alice, others self under⟩ s.world 0#256 b).after s.world }

theorem sent_eq (e : Contracts.Env) (l : List Metadata.Call) :
    Spec.Contracts.sent Contracts.Erc721MetadataContract.abi (l.map fun op => (e, op)) = (l.map msg).map fun b => ⟨e, 0#256, b⟩ := by
  unfold Spec.Contracts.sent
  rw [List.map_map, List.map_map]
  rfl

/-- The token with mappings after what Alice did. -/
theorem before_eq (D : Decoder) : (past D ⟨['n'], ['s'], ['b']⟩ me token before).world =
    Metadata.run (Metadata.init ⟨['n'], ['s'], ['b']⟩)
      ((did.map fun op => ((⟨alice, others me token⟩ : Contracts.Env), op)).map
        fun x => ⟨x.1.caller, Calls.receivers721 keccak256 D x.1.world, x.2⟩) := by
  unfold past before
  rw [token_only, ← sent_eq]
  refine Contracts.Erc721MetadataContract.C103_erc721_metadata_sends D _ _ fun x hx => ?_
  obtain ⟨op, hop, rfl⟩ := List.mem_map.mp hx
  exact did_short op hop

theorem play_contract {c : Address} {v : U256} {i : Bytes} (w : Chained Event Token) (l : List Tx) :
    play D U self under w (l ++ [.contract c v i]) =
      Outcome.after (play D U self under w l) (run D U self under c (play D U self under w l) v i) := by
  unfold play
  rw [List.map_append, List.map_singleton]
  exact NftWrapperDeployed.play_call w _ c v i

set_option maxRecDepth 100000 in
-- C128_answers, C128_depositable, C128_backed, C128_redeemable, C128_released: Alice can wrap 1 but not 2, for which the wrapper is not
-- approved; then the token answers that the wrapper owns 1, and Alice takes it back, and the token answers that they own it
example (D : Decoder) (U : Utf8) (env : Contracts.Env) (he : env.caller ∈ [0#160, 1#160, 2#160]) :
    ∃ w, Setting 10 [0#160, 1#160, 2#160] [1#256, 2#256] 2 ⟨['n'], ['s'], ['b']⟩ me token w ∧
    (∀ x ∈ before ++ [wraps] ++ [unwraps], About D [0#160, 1#160, 2#160] [1#256, 2#256] 2 me token x) ∧
    (∀ w2 d, run D U me token alice (play D U me token w before) 0#256
      (message "depositFor(address,uint256[])" [.address alice, .uints [2#256]]) ≠ .returned w2 d) ∧
    let w1 := play D U me token w (before ++ [wraps])
    owns D U me token alice w1 1#256 = some (values [.address alice]) ∧
    tokenAsk D U env w1 "ownerOf(uint256)" [.uint256 1#256] = some (values [.address me]) ∧
    let w2 := play D U me token w (before ++ [wraps] ++ [unwraps])
    owns D U me token alice w2 1#256 = none ∧
    tokenAsk D U env w2 "ownerOf(uint256)" [.uint256 1#256] = some (values [.address alice]) := by
  obtain ⟨w, h⟩ := sample_setting
  have hx := before_about D
  have hx1 : ∀ x ∈ before ++ [wraps], About D [0#160, 1#160, 2#160] [1#256, 2#256] 2 me token x :=
    List.forall_mem_append.mpr ⟨hx, by simp [wraps_about]⟩
  have hj := joint (U := U) h hx
  have key := fun i (hi : i ∈ [1#256, 2#256]) => C128_depositable (U := U) h hx (caller := alice) (asker := alice) (a := alice) (by decide)
    (by decide) (by decide) (by decide) (by decide) (by decide) (by decide) (by decide) (by decide) (ids := [i]) (by simpa using hi)
    (NftBytes.short _ _ _) he
  have q := fun i (hi : i ∈ [1#256, 2#256]) => token_same (D := D) (U := U) h hj (a := alice) (b := me) he (by decide) (by decide) hi
  have ans := fun i => NftBytes.token_answers D env (past D ⟨['n'], ['s'], ['b']⟩ me token before).world alice me i
  rw [before_eq] at ans
  refine ⟨w, h, List.forall_mem_append.mpr ⟨hx1, by simp [unwraps_about]⟩, fun w2 d hw => ?_, ?_⟩
  · obtain ⟨_, k⟩ := (key 2#256 (by simp)).1.mp ⟨w2, d, hw⟩
    obtain ⟨_, k⟩ := k 2#256 (by simp)
    rw [(q 2#256 (by simp)).2.1, (q 2#256 (by simp)).2.2, before_eq, (ans 2#256).2.1, (ans 2#256).2.2] at k
    rcases k with k | k
    · injection k with k
      exact absurd (Proofs.Contracts.address_inj k) (show ¬ (ZERO : Address) = me from by decide)
    · injection k with k
      exact absurd k (show ¬ values [.bool false] = values [.bool true] from by decide +kernel)
  · obtain ⟨w1, d, k⟩ := (key 1#256 (by simp)).1.mpr ⟨by simp, fun i hi => by
      rcases List.mem_singleton.mp hi with rfl
      rw [(q 1#256 (by simp)).1, (q 1#256 (by simp)).2.1, before_eq, (ans 1#256).1, (ans 1#256).2.1]
      exact ⟨rfl, .inl rfl⟩⟩
    obtain ⟨k1, k2⟩ := (key 1#256 (by simp)).2 w1 d k 1#256 (by simp)
    have p1 : play D U me token w (before ++ [wraps]) = w1 :=
      (play_contract w before).trans (congrArg (Outcome.after (play D U me token w before)) k)
    rw [← p1] at k1 k2
    obtain ⟨r1, r2⟩ := C128_redeemable (U := U) h hx1 (caller := alice) (asker := alice) (a := alice) (by decide) (by decide) (by decide)
      (by decide) (by decide) (by decide) (by decide) (by decide) (ids := [1#256]) (by simp) (NftBytes.short _ _ _)
    obtain ⟨w2, d2, r⟩ := r1.mpr ⟨by simp, fun id hid => ⟨alice, by rcases List.mem_singleton.mp hid with rfl; exact k2, .inl rfl⟩⟩
    have p2 : play D U me token w (before ++ [wraps] ++ [unwraps]) = w2 :=
      (play_contract w _).trans (congrArg (Outcome.after (play D U me token w (before ++ [wraps]))) r)
    obtain ⟨r3, r4⟩ := r2 w2 d2 r env he 1#256 (by simp)
    rw [← p2] at r3 r4
    exact ⟨k2, k1, r4, r3⟩

end Verif.Props.NftTwoDeployed
