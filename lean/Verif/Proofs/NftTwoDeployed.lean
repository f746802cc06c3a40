import Verif.Spec.NftTwoDeployed
import Verif.Proofs.TwoDeployed
import Verif.Props.UriDeployed
import Verif.Props.NftWrapperDeployed
/-! # The ERC-721 wrapper over a token on words does the same as over the token with mappings -/

namespace Verif.Proofs.NftTwoDeployed
open Verif Verif.Outside Verif.Abi Verif.Entry Verif.Spec.NftTwoDeployed Verif.Outside.Nfts
open Verif.Deployed (Utf8)
open Verif.Spec.Keccak (keccak256)
open Verif.Spec.UriDeployed (Within)
open Verif.Spec.MultiDeployed (Names tokensOf)
open Verif.Spec.NftBytes (nft Hosts)
open Verif.Spec.Contracts (message)
open Verif.Proofs.TwoDeployed (Both Same Res Rows Alike entry_same dispatch_same finish_same view_same send_same same_of)

section
variable {τ τ' : Type} {W : World τ} {W' : World τ'} {Q : τ → τ' → Prop} {Ok : Address → Bytes → Prop}

/-- The same wrapper over related worlds. -/
def Over (Q : τ → τ' → Prop) (s : State τ) (s' : State τ') : Prop := Q s.world s'.world ∧ ∃ t', s' = ⟨s.self_, s.underlying, s.token, t'⟩

theorem over {self u : Address} {k : Erc721.State} {t : τ} {t' : τ'} (h : Q t t') : Over Q ⟨self, u, k, t⟩ ⟨self, u, k, t'⟩ := ⟨h, _, rfl⟩

theorem forget_same {x : Outcome τ} {y : Outcome τ'} (h : Same Q x y) : forget x = forget y := by cases h <;> rfl

variable {K : Hash} {D : Decoder} {self : Address} {t : τ} {t' : τ'}

theorem receivers_same (h : Alike W W' Q Ok) (ht : Q t t')
    (hr : ∀ o src id d, Ok self ((Calls.Message.onERC721Received o src id d).bytes K)) :
    receivers W K D self t = receivers W' K D self t' := by
  unfold receivers Calls.receivers721
  funext a
  dsimp only
  rw [h.code t t' a ht]
  split
  · simp only [Option.map_some]
    congr 1
    funext o src id d
    rw [forget_same (h.call t t' a self _ ht (hr o src id d))]
  · rfl

theorem told_same (h : Alike W W' Q Ok) (ht : Q t t')
    (hr : ∀ o src id d, Ok self ((Calls.Message.onERC721Received o src id d).bytes K)) (o src dst : Address) (id : U256) (d : Bytes) :
    Q (told W K self t o src dst id d) (told W' K self t' o src dst id d) := by
  unfold told
  rw [h.code t t' dst ht]
  split
  · exact (h.call t t' dst self _ ht (hr o src id d)).after ht
  · exact ht

theorem request_same (h : Alike W W' Q Ok) (ht : Q t t') {m : Calls.Message} (hm : Ok self (m.bytes K)) (under : Address) :
    Both Q (request W K D t self under m) (request W' K D t' self under m) := by
  unfold request
  have hs := send_same h ht hm under
  revert hs
  generalize W.send t self under (m.bytes K) = x
  generalize W'.send t' self under (m.bytes K) = y
  intro hs
  cases hs with
  | reverted d => cases d <;> exact .error _
  | returned d hq =>
    dsimp only
    split
    · exact .ok hq
    · exact .error _

theorem mint_same (h : Alike W W' Q Ok) (ht : Q t t')
    (hr : ∀ o src id d, Ok self ((Calls.Message.onERC721Received o src id d).bytes K)) (under : Address) (k : Erc721.State)
    (c dst : Address) (id : U256) :
    Both (Over Q) (safeMint W K D ⟨self, under, k, t⟩ c dst id) (safeMint W' K D ⟨self, under, k, t'⟩ c dst id) := by
  unfold safeMint
  dsimp only
  refine Both.bind_same (by rw [receivers_same h ht hr]) fun u => ?_
  exact .ok (over (told_same h ht hr _ _ _ _ _))

theorem deposit_same (h : Alike W W' Q Ok) {c : Address} (a : Address)
    (hr : ∀ o src id d, Ok self ((Calls.Message.onERC721Received o src id d).bytes K)) (under : Address) : ∀ (ids : List U256)
    (_ : ∀ id ∈ ids, Ok self ((Calls.Message.transferFrom c self id).bytes K)) {s : State τ} {s' : State τ'} (_ : Over Q s s')
    (_ : self = s.self_) (_ : under = s.underlying),
    Both (Over Q) (depositFor W K D c a s ids) (depositFor W' K D c a s' ids)
  | [], _, _, _, hs, _, _ => .ok hs
  | id :: ids, hk, ⟨self', u, k, t⟩, s', hs, e1, e2 => by
    obtain ⟨ht, t', rfl⟩ := hs
    subst e1 e2
    unfold depositFor
    dsimp only
    refine Both.bind (request_same h ht (hk id List.mem_cons_self) _) fun t1 t1' h1 => ?_
    have hm := mint_same (D := D) h h1 hr under k c a id
    have e : ∀ s, safeMint W K D ⟨self, under, k, t1⟩ c a id = .ok s → self = s.self_ ∧ under = s.underlying := by
      intro s hs
      unfold safeMint at hs
      obtain ⟨v, _, h2⟩ := bind_eq_ok.mp hs
      injection h2 with h2
      subst h2
      exact ⟨rfl, rfl⟩
    revert hm e
    generalize safeMint W K D ⟨self, under, k, t1⟩ c a id = x
    generalize safeMint W' K D ⟨self, under, k, t1'⟩ c a id = y
    intro hm e
    cases hm with
    | error e => exact .error _
    | ok hq => exact deposit_same h a hr under ids (fun i hi => hk i (List.mem_cons_of_mem _ hi)) hq (e _ rfl).1 (e _ rfl).2

theorem withdraw_same (h : Alike W W' Q Ok) (c : Address) {a : Address} (under : Address) : ∀ (ids : List U256)
    (_ : ∀ id ∈ ids, Ok self ((Calls.Message.safeTransferFrom self a id []).bytes K)) {k : Erc721.State} {t : τ} {t' : τ'} (_ : Q t t'),
    Both (Over Q) (withdrawTo W K D c a ⟨self, under, k, t⟩ ids) (withdrawTo W' K D c a ⟨self, under, k, t'⟩ ids)
  | [], _, _, _, _, ht => .ok (over ht)
  | id :: ids, hk, k, t, t', ht => by
    unfold withdrawTo
    dsimp only
    refine Both.bind_same rfl fun r => ?_
    refine Both.bind (request_same h ht (hk id List.mem_cons_self) _) fun t1 t1' h1 => ?_
    exact withdraw_same h c under ids (fun i hi => hk i (List.mem_cons_of_mem _ hi)) h1

theorem token_same (h : Alike W W' Q Ok) (ht : Q t t')
    (hr : ∀ o src id d, Ok self ((Calls.Message.onERC721Received o src id d).bytes K)) (under : Address) (k : Erc721.State)
    (c : Address) (x : Wrapper721.TokenCall) :
    Both (Over Q) (tokenCall W K D ⟨self, under, k, t⟩ c x) (tokenCall W' K D ⟨self, under, k, t'⟩ c x) := by
  unfold tokenCall
  dsimp only
  refine Both.bind_same (by rw [receivers_same h ht hr]) fun u => ?_
  cases x <;> first | exact .ok (over (told_same h ht hr _ _ _ _ _)) | exact .ok (over ht)

theorem views_same {R : State τ → State τ' → Prop} {s : State τ} {s' : State τ'} (h : R s s') (u : Erc721.State) (args : List Val) :
    Rows R args (Contracts.erc721Views K s u) (Contracts.erc721Views K s' u) := by
  refine .cons ⟨rfl, rfl, ?_⟩ (.cons ⟨rfl, rfl, ?_⟩ (.cons ⟨rfl, rfl, ?_⟩ (.cons ⟨rfl, rfl, ?_⟩ .nil))) <;> dsimp only <;> split <;>
    first | exact .ok ⟨h, rfl⟩ | exact view_same h rfl | exact .error _

/-- The wrapper over related worlds. -/
theorem run_same (h : Alike W W' Q Ok) (K : Hash) (D : Decoder) {caller : Address} {s : State τ} {s' : State τ'} (hs : Over Q s s')
    (value : U256) (input : Bytes)
    (hr : ∀ o src id d, Ok s.self_ ((Calls.Message.onERC721Received o src id d).bytes K))
    (pull : ∀ args, Spec.OnWords.Arguments K D Router.erc721WrapperExample ⟨caller, value, input⟩ args → ∀ id ∈ tokensOf args,
      Ok s.self_ ((Calls.Message.transferFrom caller s.self_ id).bytes K))
    (push : ∀ args, Spec.OnWords.Arguments K D Router.erc721WrapperExample ⟨caller, value, input⟩ args → ∀ a, Names args a →
      ∀ id ∈ tokensOf args, Ok s.self_ ((Calls.Message.safeTransferFrom s.self_ a id []).bytes K)) :
    Same (Over Q) (run W K D caller s value input) (run W' K D caller s' value input) := by
  obtain ⟨self, u, k, t⟩ := s
  obtain ⟨ht, t', rfl⟩ := hs
  refine entry_same K D _ value input caller fun tp f args ha => ?_
  unfold handler
  refine dispatch_same tp f (List.rel_append ?_ (views_same (over ht) k args))
  refine .cons ⟨rfl, rfl, ?_⟩ (.cons ⟨rfl, rfl, ?_⟩ (.cons ⟨rfl, rfl, ?_⟩ (.cons ⟨rfl, rfl, ?_⟩ (.cons ⟨rfl, rfl, ?_⟩
    (.cons ⟨rfl, rfl, ?_⟩ (.cons ⟨rfl, rfl, ?_⟩ (.cons ⟨rfl, rfl, ?_⟩ (.cons ⟨rfl, rfl, ?_⟩ .nil)))))))) <;> dsimp only <;> split
  all_goals try exact .error _
  · exact .ok ⟨over ht, rfl⟩
  · refine finish_same (deposit_same h _ hr u _ (fun id hid => pull _ ha id ?_) (over ht) rfl rfl)
    exact hid
  · refine finish_same (withdraw_same h _ u _ (fun id hid => push _ ha _ (.inl (by simp)) id ?_) ht)
    exact hid
  · refine finish_same ?_
    unfold onReceived
    dsimp only
    split
    · exact .error _
    · exact mint_same h ht hr _ _ _ _ _
  all_goals exact finish_same (token_same h ht hr _ _ _ _)

end

/-! ### The token on words and the token with mappings -/

/-- The chain with the token with mappings. -/
def plainWorld (D : Decoder) (self under : Address) : World Metadata.State where
  hasCode _ a := (others self under a).isSome
  call t sender a b := if a = under then nft D ⟨sender, others self under⟩ t 0#256 b else .reverted []
  look _ _ _ _ _ := none

theorem plain_hosts (D : Decoder) (self under : Address) : Hosts (plainWorld D self under) D self under (fun m => m) where
  code _ := by
    show (others self under under).isSome = true
    unfold others
    rw [if_pos (.inl rfl)]
    rfl
  asked t b := by
    refine ⟨others self under, fun a => rfl, ?_⟩
    have e : (plainWorld D self under).call t self under b = nft D ⟨self, others self under⟩ t 0#256 b := if_pos rfl
    rw [e]
    cases h : nft D ⟨self, others self under⟩ t 0#256 b <;> rfl
  others t a b t' d ha h := by
    rw [show (plainWorld D self under).call t self a b = .reverted [] from if_neg ha] at h
    cases h

section
variable {n : Nat} {S : List Address} {N : List U256} {L : Nat} {m : Metadata.Erc721Metadata} {self under : Address}
  {w : OnWords.Chained Erc721.Event Token} {D : Decoder} {U : Utf8}

/-- The token on words agrees with the token with mappings. -/
abbrev Agree (S : List Address) (N : List U256) (L : Nat) : Token → Metadata.State → Prop := Proofs.Erc721UriDeployed.Agrees keccak256 S N L

theorem nft_same (h : Setting n S N L m self under w) {t : Token} {t' : Metadata.State} (ht : Agree S N L t t') {env : Contracts.Env}
    {v : U256} {b : Bytes} (hb : Within keccak256 D Router.erc721MetadataExample S N L ⟨env, v, b⟩) :
    Same (Agree S N L) (Erc721UriDeployed.entry keccak256 D U env t v b) (nft D env t' v b) :=
  have k := Proofs.Erc721UriDeployed.inv_step (tx := ⟨env, v, b⟩) h.token h.small h.zero D U ht hb
  same_of k.1 k.2

/-- The messages that are about the accounts and tokens that take part. -/
abbrev Fine (D : Decoder) (S : List Address) (N : List U256) (L : Nat) (self under c : Address) (b : Bytes) : Prop :=
  Within keccak256 D Router.erc721MetadataExample S N L ⟨⟨c, others self under⟩, 0#256, b⟩

theorem alike (h : Setting n S N L m self under w) :
    Alike (wordsWorld D U self under) (plainWorld D self under) (Agree S N L) (Fine D S N L self under) where
  code _ _ _ _ := rfl
  call t t' a c b ht hb := by
    show Same _ (if a = under then _ else _) (if a = under then _ else _)
    split
    · exact nft_same h ht hb
    · exact .reverted _
  look _ _ _ _ _ _ _ _ := rfl

set_option maxRecDepth 100000 in
theorem pulled_fine {c : Address} {id : U256} (hs : self ∈ S) (hc : c ∈ S) (hi : id ∈ N) :
    Fine D S N L self under self ((Calls.Message.transferFrom c self id).bytes keccak256) := by
  rw [show (Calls.Message.transferFrom c self id).bytes keccak256 =
    message "transferFrom(address,address,uint256)" [.address c, .address self, .uint256 id] from Proofs.Outside.bytes_message _]
  exact Props.UriDeployed.within Props.Contracts.Erc721MetadataContract.mem (by simp [Spec.Router.erc721MetadataExample]) rfl rfl
    (Proofs.Contracts.words_lt _ _ (by simp [Spec.Contracts.arg]) (by simp)) hs (by simp [Names, hs, hc]) (by simp [tokensOf, hi]) (by simp)

set_option maxRecDepth 100000 in
theorem pushed_fine {a : Address} {id : U256} (hs : self ∈ S) (ha : a ∈ S) (hi : id ∈ N) :
    Fine D S N L self under self ((Calls.Message.safeTransferFrom self a id []).bytes keccak256) := by
  rw [show (Calls.Message.safeTransferFrom self a id []).bytes keccak256 = message "safeTransferFrom(address,address,uint256,bytes)"
    [.address self, .address a, .uint256 id, .bytes []] from Proofs.Outside.bytes_message _]
  exact Props.UriDeployed.within Props.Contracts.Erc721MetadataContract.mem (by simp [Spec.Router.erc721MetadataExample]) rfl rfl
    (Props.NftToken.give_short _ _ _) hs (by simp [Names, hs, ha]) (by simp [tokensOf, hi]) (by simp)

set_option maxRecDepth 100000 in
theorem notified_fine (hs : self ∈ S) (o src : Address) (id : U256) (d : Bytes) :
    Fine D S N L self under self ((Calls.Message.onERC721Received o src id d).bytes keccak256) := by
  rw [show (Calls.Message.onERC721Received o src id d).bytes keccak256 = message "onERC721Received(address,address,uint256,bytes)"
    [.address o, .address src, .uint256 id, .bytes d] from Proofs.Outside.bytes_message _]
  have no : ∀ args, ¬ Spec.OnWords.Arguments keccak256 D Router.erc721MetadataExample ⟨(⟨self, others self under⟩ : Contracts.Env), 0#256,
      message "onERC721Received(address,address,uint256,bytes)" [.address o, .address src, .uint256 id, .bytes d]⟩ args := by
    rintro args ⟨t1, f1, h1, _⟩
    dsimp only at h1
    unfold message at h1
    rw [← Proofs.Entry.be4_selector, Proofs.Entry.selectorOf_be4,
      Props.Router.route_selector Props.Contracts.Erc721MetadataContract.mem (s := "onERC721Received(address,address,uint256,bytes)") (by decide +kernel)] at h1
    rw [show Props.Router.routeSig Router.erc721MetadataExample "onERC721Received(address,address,uint256,bytes)" = none from by decide +kernel] at h1
    cases h1
  exact ⟨⟨hs, fun args h => absurd h (no args), fun args h => absurd h (no args)⟩, fun args h => absurd h (no args)⟩

theorem wrapper_step (h : Setting n S N L m self under w) {s : State Token} {s' : State Metadata.State} (hs : Over (Agree S N L) s s')
    (hself : s.self_ = self) {c : Address} {v : U256} {b : Bytes} (hx : Spec.NftWrapperDeployed.Within keccak256 D S N ⟨c, v, b⟩) :
    Same (Over (Agree S N L)) (run (wordsWorld D U self under) keccak256 D c s v b) (run (plainWorld D self under) keccak256 D c s' v b) := by
  subst hself
  exact run_same (alike h) keccak256 D hs v b (notified_fine h.mem) (fun args ha id hi => pulled_fine h.mem hx.sender (hx.tokens args ha id hi))
    fun args ha a hn id hi => pushed_fine h.mem (hx.accounts args ha a hn) (hx.tokens args ha id hi)

end

end Verif.Proofs.NftTwoDeployed
