import Verif.Props.NftBytes
/-! # C111, continued: the ERC-721 wrapper over the token of `examples/erc721-metadata` -/
namespace Verif.Props.NftToken
open Verif Verif.Abi Verif.Outside Verif.Outside.Nfts Verif.Proofs.Contracts
open Verif.Wrapper721 (TokenCall Held Keep held_updated keep_refl keep_trans keep_updated uexec_keeps)
open Verif.Spec.Keccak (keccak256)
open Verif.Spec.Contracts Verif.Spec.NftBytes
open Verif.Spec.Outside (Step play)
open Verif.Proofs.Outside (giving_eq_ok)

open Verif.Props.Contracts.Erc721MetadataContract

theorem nft_eq (D : Decoder) : nft D = run D := rfl

/-- A transaction that `me` does not send. -/
theorem exec_keeps {me : Address} (hme : me ≠ ZERO) {m m' : Metadata.State} {tx : Metadata.Tx} (hc : tx.caller ≠ me)
    (hu : Held me m.erc721) (h : Metadata.exec m tx = .ok m') : Held me m'.erc721 ∧ Keep me m.erc721 m'.erc721 := by
  unfold Metadata.exec at h
  obtain ⟨c, R, k⟩ := tx
  cases k with
  | mint dst id =>
    obtain ⟨w, h1, h2⟩ := bind_eq_ok.mp h
    injection h2 with h2
    subst h2
    exact uexec_keeps hme hc hu (call := .mint dst id) h1
  | user k =>
    obtain ⟨w, h1, h2⟩ := bind_eq_ok.mp h
    injection h2 with h2
    subst h2
    exact uexec_keeps hme hc hu (call := .user k) h1
  | setTokenUri id uri =>
    cases h
    exact ⟨hu, keep_refl _ _⟩

theorem nft_keeps {me : Address} (hme : me ≠ ZERO) {D : Decoder} {env : Contracts.Env} {m : Metadata.State} (hc : env.caller ≠ me)
    (hu : Held me m.erc721) (v : U256) (i : Bytes) :
    Held me ((nft D env m v i).after m).erc721 ∧ Keep me m.erc721 ((nft D env m v i).after m).erc721 := by
  rw [nft_eq]
  rcases C103_erc721_metadata_no_other_effect D env m v i with ⟨d, h⟩ | ⟨d, h⟩ | ⟨op, s', r, he, h, _, _⟩
  · rw [h]; exact ⟨hu, keep_refl _ _⟩
  · rw [h]; exact ⟨hu, keep_refl _ _⟩
  · rw [h]; exact exec_keeps hme (tx := ⟨env.caller, _, op⟩) hc hu (giving_eq_ok.mp he).1

theorem without_keeps {me : Address} (hme : me ≠ ZERO) {D : Decoder} {m m' : Metadata.State} (hu : Held me m.erc721)
    (h : Without D me m m') : Held me m'.erc721 ∧ Keep me m.erc721 m'.erc721 := by
  obtain ⟨l, hl, rfl⟩ := h
  induction l generalizing m with
  | nil => exact ⟨hu, keep_refl _ _⟩
  | cons x l ih =>
    obtain ⟨h1, h2⟩ := nft_keeps hme (D := D) (env := x.env) (hl x List.mem_cons_self) hu x.value x.input
    obtain ⟨h3, h4⟩ := ih h1 (fun y hy => hl y (List.mem_cons_of_mem _ hy))
    exact ⟨h3, keep_trans h2 h4⟩

theorem sel_inj {s t : String} {b : Bytes} (hs : s ∈ Props.Router.table.map Prod.fst) (ht : t ∈ Props.Router.table.map Prod.fst)
    (h1 : Spec.Calls.sel s <+: b) (h2 : Spec.Calls.sel t <+: b) : s = t := by
  have key : ∀ {x}, Spec.Calls.sel x <+: b → selectorOf b = Spec.Router.selector x := by
    rintro x ⟨r, rfl⟩
    rw [← Proofs.Entry.be4_selector, Proofs.Entry.selectorOf_be4]
  exact Props.Router.selector_inj hs ht ((key h1).symm.trans (key h2))

theorem abi_table (op : Metadata.Call) :
    (abi op).1 ∈ Props.Router.table.map Prod.fst ∧ (abi op).1 ≠ "onERC721Received(address,address,uint256,bytes)" := by
  have all : ∀ s ∈ ["mint(address,uint256)", "transferFrom(address,address,uint256)", "safeTransferFrom(address,address,uint256)",
      "safeTransferFrom(address,address,uint256,bytes)", "approve(address,uint256)", "setApprovalForAll(address,bool)",
      "burn(uint256)", "setTokenURI(uint256,string)"],
      s ∈ Props.Router.table.map Prod.fst ∧ s ≠ "onERC721Received(address,address,uint256,bytes)" := by decide +kernel
  refine all _ ?_
  rcases op with _ | op | _
  rotate_left
  · cases op <;> simp [abi]
  all_goals simp [abi]

/-- The token does not answer `onERC721Received`. -/
theorem not_receiver (D : Decoder) (env : Contracts.Env) (m m' : Metadata.State) (v : U256) (i d : Bytes)
    (hi : Spec.Calls.sel "onERC721Received(address,address,uint256,bytes)" <+: i) (h : nft D env m v i = .returned m' d) :
    m' = m := by
  rw [nft_eq] at h
  rcases C103_erc721_metadata_no_other_effect D env m v i with ⟨d, h1⟩ | ⟨d, h1⟩ | ⟨op, s', r, he, h1, _, hs⟩
  · rw [h1] at h; cases h
  · rw [h1] at h; cases h; rfl
  · exact absurd (sel_inj (abi_table op).1 (by decide +kernel) hs.selector hi) (abi_table op).2

/-- What a message of an operation does to the token. -/
theorem nft_iff {D : Decoder} {env : Contracts.Env} {m m' : Metadata.State} {d : Bytes} (op : Metadata.Call)
    (hl : (message (abi op).1 (abi op).2).length < 2 ^ 256) :
    nft D env m 0#256 (message (abi op).1 (abi op).2) = .returned m' d ↔
      Metadata.exec m ⟨env.caller, Calls.receivers721 keccak256 D env.world, op⟩ = .ok m' ∧ d = values [] := by
  rw [nft_eq, C103_erc721_metadata_call D env m op hl, Vault.reply_iff]
  unfold exec
  constructor
  · rintro ⟨r, h, rfl⟩
    obtain ⟨h1, rfl⟩ := giving_eq_ok.mp h
    exact ⟨h1, rfl⟩
  · rintro ⟨h, rfl⟩
    exact ⟨_, giving_eq_ok.mpr ⟨h, rfl⟩, rfl⟩

/-- `transferFrom`, sent by an account that is not the zero address. -/
theorem take_iff {D : Decoder} {env : Contracts.Env} {m m' : Metadata.State} {d : Bytes} (hz : env.caller ≠ ZERO)
    {src dst : Address} {id : U256} :
    nft D env m 0#256 (message "transferFrom(address,address,uint256)" [.address src, .address dst, .uint256 id]) = .returned m' d ↔
      dst ≠ ZERO ∧ Erc721.isAuthorized m.erc721 (m.erc721.owners id) env.caller id = true ∧ m.erc721.owners id = src ∧
      m' = { m with erc721 := Erc721.updated m.erc721 dst id } ∧ d = values [] := by
  refine (nft_iff (.user (.transferFrom src dst id)) (words_lt _ _ (by simp [abi, arg]) (by simp [abi]))).trans ?_
  unfold Metadata.exec
  dsimp only
  rw [bind_eq_ok]
  unfold Erc721.exec
  rw [if_neg hz]
  constructor
  · rintro ⟨⟨u, h1, h2⟩, h3⟩
    obtain ⟨k1, k2, k3, rfl⟩ := Erc721.transferFrom_ok.mp h1
    injection h2 with h2
    exact ⟨k1, k2.resolve_left hz, k3, h2.symm, h3⟩
  · rintro ⟨k1, k2, k3, rfl, h3⟩
    exact ⟨⟨_, Erc721.transferFrom_ok.mpr ⟨k1, .inr k2, k3, rfl⟩, rfl⟩, h3⟩

theorem give_short (src dst : Address) (id : U256) : (message "safeTransferFrom(address,address,uint256,bytes)"
    [.address src, .address dst, .uint256 id, .bytes []]).length < 2 ^ 256 := by
  rw [message_length]
  simp [values, heads, tails, arg, Spec.Calls.tail, Spec.Revert.word]

/-- `safeTransferFrom`, sent by an account that is not the zero address. -/
theorem give_iff {D : Decoder} {env : Contracts.Env} {m m' : Metadata.State} {d : Bytes} (hz : env.caller ≠ ZERO)
    {src dst : Address} {id : U256} :
    nft D env m 0#256 (message "safeTransferFrom(address,address,uint256,bytes)"
        [.address src, .address dst, .uint256 id, .bytes []]) = .returned m' d ↔
      dst ≠ ZERO ∧ Erc721.isAuthorized m.erc721 (m.erc721.owners id) env.caller id = true ∧ m.erc721.owners id = src ∧
      Erc721.checkOnReceived (Calls.receivers721 keccak256 D env.world) env.caller src dst id [] = .ok () ∧
      m' = { m with erc721 := Erc721.updated m.erc721 dst id } ∧ d = values [] := by
  refine (nft_iff (.user (.safeTransferFromWithData src dst id [])) (give_short _ _ _)).trans ?_
  unfold Metadata.exec
  dsimp only
  rw [bind_eq_ok]
  unfold Erc721.exec
  rw [if_neg hz]
  constructor
  · rintro ⟨⟨u, h1, h2⟩, h3⟩
    obtain ⟨h1, h4⟩ := Erc721.then_check_ok.mp h1
    obtain ⟨k1, k2, k3, rfl⟩ := Erc721.transferFrom_ok.mp h1
    injection h2 with h2
    exact ⟨k1, k2.resolve_left hz, k3, h4, h2.symm, h3⟩
  · rintro ⟨k1, k2, k3, h4, rfl, h3⟩
    exact ⟨⟨_, Erc721.then_check_ok.mpr ⟨Erc721.transferFrom_ok.mpr ⟨k1, .inr k2, k3, rfl⟩, h4⟩, rfl⟩, h3⟩

end Verif.Props.NftToken

namespace Verif.Props.NftBytes
open Verif Verif.Abi Verif.Outside Verif.Outside.Nfts Verif.Proofs.Contracts
open Verif.Wrapper721 (TokenCall Held Keep held_updated keep_refl keep_trans keep_updated noGhost_updated)
open Verif.Spec.Keccak (keccak256)
open Verif.Spec.Contracts Verif.Spec.NftBytes
open Verif.Spec.Outside (Step play)
open Verif.Proofs.Outside (giving_eq_ok)
open Verif.Props.NftToken

variable {τ : Type} {W : World τ} {D : Decoder} {self_ under : Address} {u : τ → Metadata.State}

/-- What holds of the wrapped token `v` on the chain `t`. -/
structure Sys (u : τ → Metadata.State) (self_ : Address) (v : Erc721.State) (t : τ) : Prop where
  ghost : Erc721.NoGhost v
  held : Held self_ (u t).erc721
  backed : ∀ id, v.owners id ≠ ZERO → (u t).erc721.owners id = self_

theorem Sys.keep {v v' : Erc721.State} {t t' : τ} (h : Sys u self_ v t) (hg : Erc721.NoGhost v')
    (hk : Held self_ (u t').erc721 ∧ Keep self_ (u t).erc721 (u t').erc721)
    (hv : ∀ id, v'.owners id ≠ ZERO → v.owners id ≠ ZERO) : Sys u self_ v' t' :=
  ⟨hg, hk.1, fun id h0 => hk.2 id (h.backed id (hv id h0))⟩

theorem welcome_keeps (H : Hosts W D self_ under u) (hz : self_ ≠ ZERO) {t t' : τ} (hu : Held self_ (u t).erc721)
    {o src dst : Address} {id : U256} {d : Bytes} (h : Welcomes W D t self_ o src dst id d t') :
    Held self_ (u t').erc721 ∧ Keep self_ (u t).erc721 (u t').erc721 := by
  rcases h with ⟨_, rfl⟩ | ⟨_, out, h, _⟩
  · exact ⟨hu, keep_refl _ _⟩
  · by_cases e : dst = under
    · subst e
      have hp : Spec.Calls.sel "onERC721Received(address,address,uint256,bytes)" <+:
          message "onERC721Received(address,address,uint256,bytes)" [.address o, .address src, .uint256 id, .bytes d] :=
        ⟨_, rfl⟩
      generalize message "onERC721Received(address,address,uint256,bytes)" _ = b at *
      obtain ⟨P, _, hP⟩ := H.asked t b
      rw [h] at hP
      rw [not_receiver _ _ _ _ _ _ _ hp hP]
      exact ⟨hu, keep_refl _ _⟩
    · exact without_keeps hz hu (H.others t dst _ t' out e h)

theorem obeys_asked (H : Hosts W D self_ under u) {t t' : τ} {b : Bytes} (h : Obeys W D t self_ under b t') :
    ∃ (P : Contracts.Programs) (d : Bytes), (∀ a, (P a).isSome = W.hasCode t a) ∧
      nft D ⟨self_, P⟩ (u t) 0#256 b = .returned (u t') d := by
  rcases h with ⟨h, _⟩ | ⟨_, d, h, _⟩
  · rw [H.code] at h; cases h
  · obtain ⟨P, hP, h1⟩ := H.asked t b
    rw [h] at h1
    exact ⟨P, d, hP, h1⟩

theorem wraps_sys (H : Hosts W D self_ under u) (hz : self_ ≠ ZERO) {c a : Address} (ids : List U256) {v v' : Erc721.State}
    {t t' : τ} (hs : Sys u self_ v t) (h : Wraps W D self_ under c a ids v t v' t') : Sys u self_ v' t' := by
  induction ids generalizing v t with
  | nil => obtain ⟨rfl, rfl⟩ := h; exact hs
  | cons id ids ih =>
    obtain ⟨t1, u1, t2, h1, h2, h3, h4, h5, h6⟩ := h
    obtain ⟨P, d, _, hp⟩ := obeys_asked H h1
    obtain ⟨_, _, _, hm, _⟩ := (take_iff (env := ⟨self_, P⟩) hz).mp hp
    have hm : (u t1).erc721 = Erc721.updated (u t).erc721 self_ id := by rw [hm]
    have k1 : Held self_ (u t1).erc721 := by rw [hm]; exact held_updated hs.held _ _
    have k2 : Keep self_ (u t).erc721 (u t1).erc721 := by rw [hm]; exact keep_updated fun _ => rfl
    have k3 : (u t1).erc721.owners id = self_ := by rw [hm]; exact upd_same _ _ _
    have e := (moved_iff hs.ghost (.inr h2)).mpr h4
    have hg : Erc721.NoGhost u1 := by rw [e]; exact noGhost_updated hs.ghost _ _
    have k4 : Sys u self_ u1 t1 := ⟨hg, k1, fun i hi => by
      rw [h4.owners] at hi
      by_cases e : i = id
      · rw [e]; exact k3
      · rw [if_neg e] at hi; exact k2 i (hs.backed i hi)⟩
    exact ih (k4.keep hg (welcome_keeps H hz k1 h5) fun _ h => h) h6

theorem unwraps_sys (H : Hosts W D self_ under u) (hz : self_ ≠ ZERO) {c a : Address} (ids : List U256)
    {v v' : Erc721.State} {t t' : τ} (hs : Sys u self_ v t) (h : Unwraps W D self_ under c a ids v t v' t') :
    Sys u self_ v' t' := by
  induction ids generalizing v t with
  | nil => obtain ⟨rfl, rfl⟩ := h; exact hs
  | cons id ids ih =>
    obtain ⟨t1, u1, h1, h2, h3, h4⟩ := h
    obtain ⟨P, d, _, hp⟩ := obeys_asked H h3
    obtain ⟨_, _, _, _, hm, _⟩ := (give_iff (env := ⟨self_, P⟩) hz).mp hp
    have hm : (u t1).erc721 = Erc721.updated (u t).erc721 a id := by rw [hm]
    have k1 : Held self_ (u t1).erc721 := by rw [hm]; exact held_updated hs.held _ _
    have e := (moved_iff hs.ghost (.inl (mayMove_owned h1))).mpr h2
    have hg : Erc721.NoGhost u1 := by rw [e]; exact noGhost_updated hs.ghost _ _
    refine ih ⟨hg, k1, fun i hi => ?_⟩ h4
    rw [h2.owners] at hi
    by_cases e : i = id
    · rw [if_pos e] at hi; exact absurd rfl hi
    · rw [if_neg e] at hi
      rw [hm]
      show upd _ id a i = _
      rw [upd_ne _ _ e]
      exact hs.backed i hi

theorem told_cases {s s' : State τ} {c : Address} {k : TokenCall} (h : tokenCall W keccak256 D s c k = .ok s') :
    s'.world = s.world ∨ ∃ o src dst id d, Welcomes W D s.world s.self_ o src dst id d s'.world := by
  unfold tokenCall at h
  obtain ⟨v, h1, h2⟩ := bind_eq_ok.mp h
  injection h2 with h2
  subst h2
  cases k with
  | safeTransferFrom src dst id =>
    exact .inr ⟨_, _, _, _, _, welcomed.mp ⟨(Erc721.then_check_ok.mp (lift_ok.mp h1)).2, rfl⟩⟩
  | safeTransferFromWithData src dst id d =>
    exact .inr ⟨_, _, _, _, _, welcomed.mp ⟨(Erc721.then_check_ok.mp (lift_ok.mp h1)).2, rfl⟩⟩
  | _ => exact .inl rfl

theorem act_sys {s s' : State τ} {c : Address} {op : Op} (H : Hosts W D s.self_ s.underlying u) (hz : s.self_ ≠ ZERO)
    (hc : c ≠ ZERO ∧ c ≠ s.underlying) (hs : Sys u s.self_ s.token s.world) (h : act W D c s op = .ok s') :
    Sys u s'.self_ s'.token s'.world := by
  cases op with
  | depositFor a ids =>
    obtain ⟨v', t', h1, rfl⟩ := (depositFor_ok ids hs.ghost).mp h
    exact wraps_sys H hz ids hs h1
  | withdrawTo a ids =>
    obtain ⟨v', t', h1, rfl⟩ := (withdrawTo_ok hc.1 ids hs.ghost).mp h
    exact unwraps_sys H hz ids hs h1
  | onReceived o a id d => exact absurd (onReceived_ok.mp h).1.symm hc.2
  | token k =>
    have hw := told_cases h
    obtain ⟨v', t, h1, rfl⟩ := tokenCall_ok h
    have hg : Erc721.NoGhost v' := by
      rcases hk : k with _ | _ | _ | _ | _ <;> subst hk
      · obtain ⟨_, _, _, rfl⟩ := Erc721.transferFrom_ok.mp h1; exact noGhost_updated hs.ghost _ _
      · obtain ⟨_, _, _, rfl⟩ := Erc721.transferFrom_ok.mp (Erc721.then_check_ok.mp h1).1; exact noGhost_updated hs.ghost _ _
      · obtain ⟨_, _, _, rfl⟩ := Erc721.transferFrom_ok.mp (Erc721.then_check_ok.mp h1).1; exact noGhost_updated hs.ghost _ _
      · rename_i p id
        obtain ⟨h0, _, rfl⟩ := (Erc721.approve_ok hc.1).mp h1
        refine ⟨fun i hi => ?_, hs.ghost.oper, hs.ghost.toZero⟩
        show upd s.token.tokenApprovals id p i = ZERO
        by_cases e : i = id
        · subst e; exact absurd hi h0
        · rw [upd_ne _ _ e]; exact hs.ghost.appr i hi
      · rename_i p b
        obtain ⟨h0, rfl⟩ := Erc721.setApprovalForAll_ok.mp h1
        refine ⟨hs.ghost.appr, fun q => ?_, fun o => ?_⟩
        · show upd2 s.token.operatorApprovals c p b ZERO q = false
          rw [upd2_apply, if_neg (fun e => hc.1 e.1.symm)]; exact hs.ghost.oper q
        · show upd2 s.token.operatorApprovals c p b o ZERO = false
          rw [upd2_apply, if_neg (fun e => h0 e.2.symm)]; exact hs.ghost.toZero o
    refine hs.keep hg ?_ fun id h0 e => h0 ((token_owners hc.1 hs.ghost h1 id).mp e)
    rcases hw with hw | ⟨o, src, dst, id, d, hw⟩
    · have hw : t = s.world := hw
      rw [hw]; exact ⟨hs.held, keep_refl _ _⟩
    · exact welcome_keeps H hz hs.held hw

theorem possible_signed {l : List (Step τ)} (h : Possible D self_ under u l) : Signed l :=
  fun _ _ _ hm => (h _ hm).1

theorem play_sys (l : List (Step τ)) {s : State τ} (H : Hosts W D s.self_ s.underlying u) (hz : s.self_ ≠ ZERO)
    (hs : Sys u s.self_ s.token s.world) (hl : Possible D s.self_ s.underlying u l) :
    Sys u s.self_ (nftsAfter W D s l).token (nftsAfter W D s l).world := by
  induction l generalizing s with
  | nil => exact hs
  | cons x l ih =>
    have hl' : Possible D s.self_ s.underlying u l := fun y hy => hl y (List.mem_cons_of_mem _ hy)
    have hx := hl x List.mem_cons_self
    cases x with
    | outside f =>
      exact ih (s := { s with world := f s.world }) H hz
        (hs.keep hs.ghost (without_keeps hz hs.held (hx s.world)) fun _ h => h) hl'
    | call c v i =>
      show Sys u s.self_ (nftsAfter W D ((wrapper W D c s v i).after s) l).token
        (nftsAfter W D ((wrapper W D c s v i).after s) l).world
      rcases C111_no_other_effect W D c s v i with ⟨d, h⟩ | ⟨d, h⟩ | ⟨op, s', r, he, h, hv, _⟩
      · rw [h]; exact ih H hz hs hl'
      · rw [h]; exact ih H hz hs hl'
      · rw [h]
        have he := (giving_eq_ok.mp he).1
        have hk := (kept_act hx.1 hs.ghost he).1
        have k := act_sys H hz ⟨hx.1, hx.2.2⟩ hs he
        show Sys u s.self_ (nftsAfter W D s' l).token (nftsAfter W D s' l).world
        rw [← hk.1]
        exact ih (s := s') (by rw [hk.1, hk.2]; exact H) (by rw [hk.1]; exact hz) k (by rw [hk.1, hk.2]; exact hl')

theorem asked_obeys (H : Hosts W D self_ under u) {t : τ} {b : Bytes} {m : Metadata.State}
    (h : ∀ P : Contracts.Programs, (∀ a, (P a).isSome = W.hasCode t a) → nft D ⟨self_, P⟩ (u t) 0#256 b = .returned m (values [])) :
    ∃ t1, u t1 = m ∧ Obeys W D t self_ under b t1 := by
  obtain ⟨P, hP, h1⟩ := H.asked t b
  rw [h P hP] at h1
  cases hc : W.call t self_ under b with
  | reverted d => rw [hc] at h1; cases h1
  | returned t1 d =>
    rw [hc] at h1
    injection h1 with h1 h2
    refine ⟨t1, h1.symm, .inr ⟨H.code t, d, hc, ?_⟩⟩
    have := D.complete [] (by simp [encode, headsTails])
    rw [← h2]
    show (D.read [] (encode [])).isSome = true
    rw [show D.read [] (encode []) = some [] from this]
    rfl

theorem authorized_other {v v' : Erc721.State} {i : U256} {a b : Address} (h1 : v'.tokenApprovals i = v.tokenApprovals i)
    (h2 : v'.operatorApprovals = v.operatorApprovals) :
    Erc721.isAuthorized v' a b i = Erc721.isAuthorized v a b i := by
  unfold Erc721.isAuthorized Erc721.isApprovedForAll Erc721.getApprovedInternal
  rw [h1, h2]

theorem updated_owners (v : Erc721.State) (dst : Address) (id i : U256) :
    (Erc721.updated v dst id).owners i = if i = id then dst else v.owners i := by
  show upd v.owners id dst i = _
  by_cases e : i = id
  · rw [e, upd_same, if_pos rfl]
  · rw [upd_ne _ _ e, if_neg e]

theorem updated_approvals (v : Erc721.State) (dst : Address) {id i : U256} (h : i ≠ id) :
    (Erc721.updated v dst id).tokenApprovals i = v.tokenApprovals i := by
  show (if v.owners id ≠ ZERO then upd v.tokenApprovals id ZERO else v.tokenApprovals) i = _
  split
  · rw [upd_ne _ _ h]
  · rfl

/-- What unwrapping does to the underlying token. -/
theorem unwraps_under (H : Hosts W D self_ under u) (hz : self_ ≠ ZERO) {c a : Address} (ids : List U256)
    {v v' : Erc721.State} {t t' : τ} (h : Unwraps W D self_ under c a ids v t v' t') (i : U256) :
    (u t').erc721.owners i = if i ∈ ids then a else (u t).erc721.owners i := by
  induction ids generalizing v t with
  | nil => obtain ⟨rfl, rfl⟩ := h; simp
  | cons id ids ih =>
    obtain ⟨t1, u1, h1, h2, h3, h4⟩ := h
    obtain ⟨P, d, _, hp⟩ := obeys_asked H h3
    obtain ⟨_, _, _, _, hm, _⟩ := (give_iff (env := ⟨self_, P⟩) hz).mp hp
    have hm : (u t1).erc721 = Erc721.updated (u t).erc721 a id := by rw [hm]
    rw [ih h4, hm, updated_owners]
    by_cases e : i ∈ ids <;> by_cases e' : i = id <;> simp [e, e']

/-- When unwrapping for an account without code succeeds. -/
theorem unwraps_iff (H : Hosts W D self_ under u) (hz : self_ ≠ ZERO) {c a : Address} (hc : c ≠ ZERO) (ha : a ≠ ZERO)
    (hn : ∀ t, W.hasCode t a = false) (ids : List U256) {v : Erc721.State} {t : τ} (hs : Sys u self_ v t) :
    (∃ v' t', Unwraps W D self_ under c a ids v t v' t') ↔ ids.Nodup ∧ ∀ id ∈ ids, Spec.Erc721.MayMove v c id := by
  constructor
  · rintro ⟨v', t', h⟩
    obtain ⟨_, k1, k2⟩ := unwraps_effect ids h
    exact ⟨k2, fun id h => (k1 id h).1⟩
  · rintro ⟨hd, hm⟩
    induction ids generalizing v t with
    | nil => exact ⟨v, t, rfl, rfl⟩
    | cons id ids ih =>
      have hi := hm id List.mem_cons_self
      have hb := hs.backed id (mayMove_owned hi)
      have m := (moved_iff (u' := Erc721.updated v ZERO id) hs.ghost (.inl (mayMove_owned hi))).mp rfl
      obtain ⟨t1, h1, h2⟩ := asked_obeys H (t := t) (b := message "safeTransferFrom(address,address,uint256,bytes)"
        [.address self_, .address a, .uint256 id, .bytes []])
        (m := { u t with erc721 := Erc721.updated (u t).erc721 a id }) (by
          intro P hP
          refine (give_iff (env := ⟨self_, P⟩) hz).mpr ⟨ha, ?_, hb, ?_, rfl, rfl⟩
          · rw [hb]
            show Erc721.isAuthorized (u t).erc721 self_ self_ id = true
            unfold Erc721.isAuthorized
            simp [hz]
          · have : P a = none := by
              have := hP a
              rw [hn] at this
              cases h : P a with
              | none => rfl
              | some x => rw [h] at this; cases this
            show Erc721.checkOnReceived (Calls.receivers721 keccak256 D P) _ _ _ _ _ = _
            unfold Erc721.checkOnReceived Calls.receivers721
            rw [this]
            rfl)
      have hs1 : Sys u self_ (Erc721.updated v ZERO id) t1 :=
        unwraps_sys H hz [id] hs (c := c) (a := a) ⟨t1, _, hi, m, h2, rfl, rfl⟩
      obtain ⟨v', t', h3⟩ := ih hs1 (List.nodup_cons.mp hd).2 fun i h => by
        have hne : i ≠ id := fun e => (List.nodup_cons.mp hd).1 (e ▸ h)
        have := hm i (List.mem_cons_of_mem _ h)
        rw [← Erc721.authorized_iff hs.ghost hc] at this
        rw [← Erc721.authorized_iff hs1.ghost hc, updated_owners, if_neg hne,
          authorized_other (updated_approvals v ZERO hne) rfl]
        exact this
      exact ⟨v', t', t1, _, hi, m, h2, h3⟩

/-- When wrapping for an account without code succeeds, and what it does to the underlying token. -/
theorem wraps_iff (H : Hosts W D self_ under u) (hz : self_ ≠ ZERO) {c a : Address} (hc : c ≠ self_) (ha : a ≠ ZERO)
    (hn : ∀ t, W.hasCode t a = false) (ids : List U256) {v : Erc721.State} {t : τ} (hs : Sys u self_ v t) :
    (∃ v' t', Wraps W D self_ under c a ids v t v' t') ↔ ids.Nodup ∧ ∀ id ∈ ids,
      (u t).erc721.owners id = c ∧ Erc721.isAuthorized (u t).erc721 c self_ id = true := by
  constructor
  · rintro ⟨v', t', h⟩
    refine ⟨(wraps_effect ids h).2.2, ?_⟩
    induction ids generalizing v t with
    | nil => simp
    | cons id ids ih =>
      have hnd := (wraps_effect _ h).2.2
      obtain ⟨t1, u1, t2, h1, h2, h3, h4, h5, h6⟩ := h
      have hs1 : Sys u self_ u1 t2 := wraps_sys H hz [id] hs (c := c) (a := a) ⟨t1, _, t2, h1, h2, h3, h4, h5, rfl, rfl⟩
      obtain ⟨P, d, _, hp⟩ := obeys_asked H h1
      obtain ⟨_, hau, ho, hm, _⟩ := (take_iff (env := ⟨self_, P⟩) hz).mp hp
      have hm : (u t1).erc721 = Erc721.updated (u t).erc721 self_ id := by rw [hm]
      have ht : t2 = t1 := by
        rcases h5 with ⟨_, e⟩ | ⟨e, _⟩
        · exact e
        · rw [hn] at e; cases e
      subst ht
      intro i hi
      rcases List.mem_cons.mp hi with rfl | hi
      · rw [ho] at hau; exact ⟨ho, hau⟩
      · have hne : i ≠ id := fun e => (List.nodup_cons.mp hnd).1 (e ▸ hi)
        have := ih hs1 h6 i hi
        rw [hm, updated_owners, if_neg hne, authorized_other (updated_approvals _ _ hne) rfl] at this
        exact this
  · rintro ⟨hd, hm⟩
    induction ids generalizing v t with
    | nil => exact ⟨v, t, rfl, rfl⟩
    | cons id ids ih =>
      obtain ⟨ho, hau⟩ := hm id List.mem_cons_self
      have hfree : v.owners id = ZERO := by
        by_contra h
        exact hc (ho.symm.trans (hs.backed id h))
      have m := (moved_iff (u' := Erc721.updated v a id) hs.ghost (.inr ha)).mp rfl
      obtain ⟨t1, h1, h2⟩ := asked_obeys H (t := t) (b := message "transferFrom(address,address,uint256)"
        [.address c, .address self_, .uint256 id])
        (m := { u t with erc721 := Erc721.updated (u t).erc721 self_ id }) (by
          intro P hP
          refine (take_iff (env := ⟨self_, P⟩) hz).mpr ⟨hz, ?_, ho, rfl, rfl⟩
          rw [ho]; exact hau)
      have hs1 : Sys u self_ (Erc721.updated v a id) t1 :=
        wraps_sys H hz [id] hs (c := c) (a := a) ⟨t1, _, t1, h2, ha, hfree, m, .inl ⟨hn t1, rfl⟩, rfl, rfl⟩
      obtain ⟨v', t', h3⟩ := ih hs1 (List.nodup_cons.mp hd).2 fun i h => by
        have hne : i ≠ id := fun e => (List.nodup_cons.mp hd).1 (e ▸ h)
        rw [h1]
        show (Erc721.updated (u t).erc721 self_ id).owners i = c ∧
          Erc721.isAuthorized (Erc721.updated (u t).erc721 self_ id) c self_ i = true
        rw [updated_owners, if_neg hne, authorized_other (updated_approvals _ _ hne) rfl]
        exact hm i (List.mem_cons_of_mem _ h)
      exact ⟨v', t', t1, _, t1, h2, ha, hfree, m, .inl ⟨hn t1, rfl⟩, h3⟩

theorem start_sys (hz : self_ ≠ ZERO) {t : τ} (h : ∃ m, Without D self_ (Metadata.init m) (u t)) :
    Sys u self_ (newNfts self_ under t).token (newNfts self_ under t).world := by
  obtain ⟨m, h⟩ := h
  have hg : Erc721.NoGhost Erc721.init := ⟨fun _ _ => rfl, fun _ => rfl, fun _ => rfl⟩
  have hh : Held self_ (Metadata.init m).erc721 := ⟨hg, fun _ _ => rfl, fun _ => rfl⟩
  exact ⟨hg, (without_keeps hz hh h).1, fun id h => absurd rfl h⟩

theorem runs_sys (H : Hosts W D self_ under u) (hz : self_ ≠ ZERO) {s : State τ} (h : Runs W D self_ under u s) :
    Sys u self_ s.token s.world := by
  obtain ⟨t, l, h0, hl, rfl⟩ := h
  exact play_sys l (s := newNfts self_ under t) H hz (start_sys hz h0) hl

theorem runs_reached {s : State τ} (h : Runs W D self_ under u s) : NftsReached W D s ∧ s.self_ = self_ ∧ s.underlying = under := by
  obtain ⟨t, l, _, hl, rfl⟩ := h
  have hs := possible_signed hl
  refine ⟨⟨_, _, _, l, hs, rfl⟩, ?_⟩
  exact C111_fixed W D l hs (s := newNfts self_ under t) ⟨self_, under, t, [], (by rintro _ _ _ ⟨⟩), rfl⟩

theorem token_answers (D : Decoder) (env : Contracts.Env) (m : Metadata.State) (a b : Address) (i : U256) :
    answer (nft D) env m "ownerOf(uint256)" [.uint256 i] =
      (if m.erc721.owners i = ZERO then none else some (values [.address (m.erc721.owners i)])) ∧
    answer (nft D) env m "getApproved(uint256)" [.uint256 i] =
      (if m.erc721.owners i = ZERO then none else some (values [.address (m.erc721.tokenApprovals i)])) ∧
    answer (nft D) env m "isApprovedForAll(address,address)" [.address a, .address b] =
      some (values [.bool (m.erc721.operatorApprovals a b)]) := by
  obtain ⟨_, h2, h3, h4, _⟩ := Contracts.Erc721MetadataContract.C103_erc721_metadata_views D env m a b i 0#32
  rw [nft_eq]
  unfold answer
  rw [h2, h3, h4]
  refine ⟨?_, ?_, rfl⟩ <;> split <;> rfl

theorem token_owner (D : Decoder) (env : Contracts.Env) (m : Metadata.State) (a : Address) (i : U256) :
    answer (nft D) env m "ownerOf(uint256)" [.uint256 i] = some (values [.address a]) ↔ m.erc721.owners i = a ∧ a ≠ ZERO := by
  rw [(token_answers D env m 0#160 0#160 i).1]
  by_cases h : m.erc721.owners i = ZERO
  · rw [if_pos h]
    constructor
    · intro h; cases h
    · rintro ⟨rfl, h1⟩; exact absurd h h1
  · rw [if_neg h]
    constructor
    · intro e
      injection e with e
      have := address_inj e
      exact ⟨this, this ▸ h⟩
    · rintro ⟨rfl, _⟩; rfl

/-- **C111** Over the token of `examples/erc721-metadata`, on any chain and after any history: while the wrapper says that somebody
owns an id, the token says that the wrapper owns it, that nobody is approved for it, and that the wrapper has no operator. -/
theorem C111_backed (H : Hosts W D self_ under u) (hz : self_ ≠ ZERO) {s : State τ} (hr : Runs W D self_ under u s)
    (asker : Address) (env : Contracts.Env) (id : U256) {b : Bytes}
    (h : answer (wrapper W D) asker s "ownerOf(uint256)" [.uint256 id] = some b) :
    answer (nft D) env (u s.world) "ownerOf(uint256)" [.uint256 id] = some (values [.address self_]) ∧
    answer (nft D) env (u s.world) "getApproved(uint256)" [.uint256 id] = some (values [.address ZERO]) ∧
    ∀ p, answer (nft D) env (u s.world) "isApprovedForAll(address,address)" [.address self_, .address p] =
      some (values [.bool false]) := by
  have k := runs_sys H hz hr
  have h0 : s.token.owners id ≠ ZERO := by
    intro e
    rw [owner_none.mpr e] at h
    cases h
  have hb := k.backed id h0
  refine ⟨(token_owner ..).mpr ⟨hb, hz⟩, ?_, fun p => ?_⟩
  · rw [(token_answers D env (u s.world) ZERO ZERO id).2.1, hb, if_neg hz, k.held.appr' id hb]
  · rw [(token_answers D env (u s.world) self_ p id).2.2, k.held.oper' p]

/-- **C111** Then `withdrawTo` succeeds exactly for distinct ids that the sender may move, if they go to an account without code;
afterwards the token says that this account owns them, and they are no longer wrapped. -/
theorem C111_redeemable (H : Hosts W D self_ under u) (hz : self_ ≠ ZERO) {s : State τ} (hr : Runs W D self_ under u s)
    (caller account : Address) (hc : caller ≠ ZERO) (ha : account ≠ ZERO) (hn : ∀ t, W.hasCode t account = false) (ids : List U256)
    (hl : (message "withdrawTo(address,uint256[])" [.address account, .uints ids]).length < 2 ^ 256) :
    ((∃ s' data, wrapper W D caller s 0#256 (message "withdrawTo(address,uint256[])" [.address account, .uints ids]) =
        .returned s' data) ↔ ids.Nodup ∧ ∀ id ∈ ids, Spec.Erc721.MayMove s.token caller id) ∧
    ∀ s' data, wrapper W D caller s 0#256 (message "withdrawTo(address,uint256[])" [.address account, .uints ids]) =
        .returned s' data → ∀ asker env, ∀ id ∈ ids,
      answer (nft D) env (u s'.world) "ownerOf(uint256)" [.uint256 id] = some (values [.address account]) ∧
      answer (wrapper W D) asker s' "ownerOf(uint256)" [.uint256 id] = none := by
  have k := runs_sys H hz hr
  obtain ⟨h1, rfl, rfl⟩ := runs_reached hr
  refine ⟨?_, fun s' data h asker env id hi => ?_⟩
  · rw [← unwraps_iff H hz hc ha hn ids k]
    constructor
    · rintro ⟨s', data, h⟩
      obtain ⟨v, t, h, _⟩ := (C111_withdrawTo W D caller hc h1 account ids s' data hl).mp h
      exact ⟨v, t, h⟩
    · rintro ⟨v, t, h⟩
      exact ⟨_, _, (C111_withdrawTo W D caller hc h1 account ids _ _ hl).mpr ⟨v, t, h, rfl, rfl⟩⟩
  · obtain ⟨v, t, g, rfl, _⟩ := (C111_withdrawTo W D caller hc h1 account ids s' data hl).mp h
    refine ⟨(token_owner ..).mpr ⟨?_, ha⟩, owner_none.mpr ?_⟩
    · exact (unwraps_under H hz ids g id).trans (if_pos hi)
    · exact ((unwraps_effect ids g).1 id).trans (if_pos hi)

/-- **C111** And `depositFor` an account without code succeeds exactly for distinct ids that the sender owns and for which the wrapper
is approved, by `approve` or as operator; afterwards the token says that the wrapper owns them, and the wrapper that the account does. -/
theorem C111_depositable (H : Hosts W D self_ under u) (hz : self_ ≠ ZERO) {s : State τ} (hr : Runs W D self_ under u s)
    (caller account : Address) (hc : caller ≠ ZERO) (hself : caller ≠ self_) (ha : account ≠ ZERO)
    (hn : ∀ t, W.hasCode t account = false) (ids : List U256)
    (hl : (message "depositFor(address,uint256[])" [.address account, .uints ids]).length < 2 ^ 256) :
    ((∃ s' data, wrapper W D caller s 0#256 (message "depositFor(address,uint256[])" [.address account, .uints ids]) =
        .returned s' data) ↔ ids.Nodup ∧ ∀ env, ∀ id ∈ ids,
      answer (nft D) env (u s.world) "ownerOf(uint256)" [.uint256 id] = some (values [.address caller]) ∧
      (answer (nft D) env (u s.world) "getApproved(uint256)" [.uint256 id] = some (values [.address self_]) ∨
       answer (nft D) env (u s.world) "isApprovedForAll(address,address)" [.address caller, .address self_] =
         some (values [.bool true]))) ∧
    ∀ s' data, wrapper W D caller s 0#256 (message "depositFor(address,uint256[])" [.address account, .uints ids]) =
        .returned s' data → ∀ asker env, ∀ id ∈ ids,
      answer (nft D) env (u s'.world) "ownerOf(uint256)" [.uint256 id] = some (values [.address self_]) ∧
      answer (wrapper W D) asker s' "ownerOf(uint256)" [.uint256 id] = some (values [.address account]) := by
  have k := runs_sys H hz hr
  obtain ⟨h1, rfl, rfl⟩ := runs_reached hr
  refine ⟨?_, fun s' data h asker env id hi => ?_⟩
  · have key : ∀ env : Contracts.Env, ∀ id, ((u s.world).erc721.owners id = caller ∧
        Erc721.isAuthorized (u s.world).erc721 caller s.self_ id = true ↔
      answer (nft D) env (u s.world) "ownerOf(uint256)" [.uint256 id] = some (values [.address caller]) ∧
      (answer (nft D) env (u s.world) "getApproved(uint256)" [.uint256 id] = some (values [.address s.self_]) ∨
       answer (nft D) env (u s.world) "isApprovedForAll(address,address)" [.address caller, .address s.self_] =
         some (values [.bool true]))) := by
      intro env id
      rw [token_owner, (token_answers D env (u s.world) caller s.self_ id).2.1,
        (token_answers D env (u s.world) caller s.self_ id).2.2]
      refine ⟨fun ⟨e, h⟩ => ⟨⟨e, hc⟩, ?_⟩, fun ⟨⟨e, _⟩, h⟩ => ⟨e, ?_⟩⟩
      · rw [e, if_neg hc]
        unfold Erc721.isAuthorized Erc721.isApprovedForAll Erc721.getApprovedInternal at h
        simp only [hz, hself, ne_eq, not_false_eq_true, decide_true, decide_false, Bool.false_or, Bool.true_and, Bool.or_eq_true,
          decide_eq_true_eq] at h
        rcases h with h | h
        · rw [h]; exact .inr rfl
        · rw [h]; exact .inl rfl
      · rw [e, if_neg hc] at h
        unfold Erc721.isAuthorized Erc721.isApprovedForAll Erc721.getApprovedInternal
        simp only [hz, hself, ne_eq, not_false_eq_true, decide_true, decide_false, Bool.false_or, Bool.true_and, Bool.or_eq_true,
          decide_eq_true_eq]
        rcases h with h | h
        · injection h with h
          exact .inr (address_inj h)
        · injection h with h
          cases hb : (u s.world).erc721.operatorApprovals caller s.self_ with
          | true => exact .inl rfl
          | false => rw [hb] at h; exact absurd h (by decide +kernel)
    have E : (ids.Nodup ∧ ∀ env, ∀ id ∈ ids,
        answer (nft D) env (u s.world) "ownerOf(uint256)" [.uint256 id] = some (values [.address caller]) ∧
        (answer (nft D) env (u s.world) "getApproved(uint256)" [.uint256 id] = some (values [.address s.self_]) ∨
         answer (nft D) env (u s.world) "isApprovedForAll(address,address)" [.address caller, .address s.self_] =
           some (values [.bool true]))) ↔ ids.Nodup ∧ ∀ id ∈ ids, (u s.world).erc721.owners id = caller ∧
        Erc721.isAuthorized (u s.world).erc721 caller s.self_ id = true :=
      ⟨fun h => ⟨h.1, fun id hi => (key ⟨caller, fun _ => none⟩ id).mpr (h.2 _ id hi)⟩,
       fun h => ⟨h.1, fun env id hi => (key env id).mp (h.2 id hi)⟩⟩
    rw [E, ← wraps_iff H hz hself ha hn ids k]
    constructor
    · rintro ⟨s', data, h⟩
      obtain ⟨v, t, h, _⟩ := (C111_depositFor W D caller h1 account ids s' data hl).mp h
      exact ⟨v, t, h⟩
    · rintro ⟨v, t, h⟩
      exact ⟨_, _, (C111_depositFor W D caller h1 account ids _ _ hl).mpr ⟨v, t, h, rfl, rfl⟩⟩
  · obtain ⟨v, t, g, rfl, _⟩ := (C111_depositFor W D caller h1 account ids s' data hl).mp h
    have hv : v.owners id = account := ((wraps_effect ids g).1 id).trans (if_pos hi)
    refine ⟨(token_owner ..).mpr ⟨?_, hz⟩, owner_some.mpr ⟨hv, ha⟩⟩
    exact (wraps_sys H hz ids k g).backed id (by rw [hv]; exact ha)

/-! ### A chain with the token at 0xee and the wrapper at 0xcc -/

/-- No other contract exists, and these refuse whatever the token sends them. -/
def them : Contracts.Programs := fun a => if a = 0xee#160 ∨ a = 0xcc#160 then some fun _ => .reverted [] else none

def chain (D : Decoder) : World Metadata.State where
  hasCode _ a := (them a).isSome
  call m sender a b := if a = 0xee#160 then nft D ⟨sender, them⟩ m 0#256 b else .reverted []
  look _ _ _ _ _ := none

theorem chain_hosts (D : Decoder) : Hosts (chain D) D 0xcc#160 0xee#160 (fun m => m) where
  code _ := rfl
  asked t b := by
    refine ⟨them, fun a => rfl, ?_⟩
    have e : (chain D).call t 0xcc#160 0xee#160 b = nft D ⟨0xcc#160, them⟩ t 0#256 b := by
      show (if (0xee#160 : Address) = 0xee#160 then nft D ⟨0xcc#160, them⟩ t 0#256 b else .reverted []) = _
      rw [if_pos rfl]
    rw [e]
    cases h : nft D ⟨0xcc#160, them⟩ t 0#256 b <;> rfl
  others t a b t' d ha h := by
    rw [show (chain D).call t 0xcc#160 a b = .reverted [] from if_neg ha] at h
    cases h

/-- Alice, 0xa1, has the tokens 7 and 8 and approves the wrapper for 7. -/
def alice : Contracts.Env := ⟨0xa1#160, fun _ => none⟩

def aliceDid : List (Contracts.Env × Metadata.Call) :=
  [(alice, .mint 0xa1#160 7#256), (alice, .mint 0xa1#160 8#256), (alice, .user (.approve 0xcc#160 7#256))]

def start (D : Decoder) : Metadata.State :=
  after (nft D) (Metadata.init ⟨[], [], []⟩) (sent Contracts.Erc721MetadataContract.abi aliceDid)

theorem start_eq (D : Decoder) : start D = Metadata.run (Metadata.init ⟨[], [], []⟩)
    (aliceDid.map fun x => ⟨x.1.caller, Calls.receivers721 keccak256 D x.1.world, x.2⟩) := by
  refine Contracts.Erc721MetadataContract.C103_erc721_metadata_sends D _ aliceDid fun x hx => ?_
  simp only [aliceDid, List.mem_cons, List.not_mem_nil, or_false] at hx
  rcases hx with rfl | rfl | rfl <;>
    exact words_lt _ _ (by simp [Contracts.Erc721MetadataContract.abi, arg]) (by simp [Contracts.Erc721MetadataContract.abi])

theorem start_without (D : Decoder) : ∃ m, Without D 0xcc#160 (Metadata.init m) (start D) := by
  refine ⟨⟨[], [], []⟩, sent Contracts.Erc721MetadataContract.abi aliceDid, fun x hx => ?_, by unfold start; exact Eq.refl _⟩
  obtain ⟨y, hy, rfl⟩ := List.mem_map.mp hx
  simp only [aliceDid, List.mem_cons, List.not_mem_nil, or_false] at hy
  rcases hy with rfl | rfl | rfl <;> exact (by decide : (0xa1#160 : Address) ≠ 0xcc#160)

attribute [local irreducible] start

theorem start_runs (D : Decoder) : Runs (chain D) D 0xcc#160 0xee#160 (fun m => m) (newNfts 0xcc#160 0xee#160 (start D)) :=
  ⟨start D, [], start_without D, (by rintro _ ⟨⟩), Eq.refl _⟩

set_option maxRecDepth 100000

theorem short (sig : String) (a : Address) (id : U256) : (message sig [.address a, .uints [id]]).length < 2 ^ 256 := by
  rw [message_length]
  simp [values, heads, tails, arg, Spec.Calls.array, Spec.Revert.word]

theorem after_one (W : World τ) (D : Decoder) (s : State τ) (c : Address) (v : U256) (b : Bytes) :
    nftsAfter W D s [.call c v b] = (wrapper W D c s v b).after s := rfl

/-- Alice wraps 7 for Bob, 0xb2. -/
def wrapped (D : Decoder) : State Metadata.State :=
  nftsAfter (chain D) D (newNfts 0xcc#160 0xee#160 (start D))
    [.call 0xa1#160 0#256 (message "depositFor(address,uint256[])" [.address 0xb2#160, .uints [7#256]])]

theorem wrapped_runs (D : Decoder) : Runs (chain D) D 0xcc#160 0xee#160 (fun m => m) (wrapped D) := by
  refine ⟨start D, _, start_without D, ?_, by unfold wrapped; exact Eq.refl _⟩
  intro x hx
  rcases List.mem_singleton.mp hx with rfl
  exact ⟨by decide, by decide, by decide⟩

attribute [local irreducible] wrapped

/-- `C111_depositable` allows it, but not for 8. -/
theorem bob_has (D : Decoder) :
    Moved Erc721.init (wrapped D).token 7#256 0xb2#160 ∧
    (∀ asker, answer (wrapper (chain D) D) asker (wrapped D) "ownerOf(uint256)" [.uint256 7#256] = some (values [.address 0xb2#160])) ∧
    ¬ ∃ s' data, wrapper (chain D) D 0xa1#160 (newNfts 0xcc#160 0xee#160 (start D)) 0#256
      (message "depositFor(address,uint256[])" [.address 0xb2#160, .uints [8#256]]) = .returned s' data := by
  have key := fun i => C111_depositable (chain_hosts D) (by decide) (start_runs D) 0xa1#160 0xb2#160 (by decide) (by decide) (by decide)
    (fun _ => rfl) [i] (short _ _ _)
  have ans := fun env i => token_answers D env (start D) 0xa1#160 0xcc#160 i
  rw [← and_assoc]
  constructor
  · obtain ⟨s', d, h⟩ := (key 7#256).1.mpr ⟨by simp, fun env i hi => by
      rcases List.mem_singleton.mp hi with rfl
      show answer (nft D) env (start D) _ _ = _ ∧ (answer (nft D) env (start D) _ _ = _ ∨ _)
      rw [(ans env 7#256).1, (ans env 7#256).2.1, start_eq]
      exact ⟨rfl, .inl rfl⟩⟩
    have e : wrapped D = s' := by
      unfold wrapped
      show (wrapper (chain D) D 0xa1#160 (newNfts 0xcc#160 0xee#160 (start D)) 0#256
        (message "depositFor(address,uint256[])" [.address 0xb2#160, .uints [7#256]])).after _ = s'
      rw [h]
      rfl
    rw [e]
    refine ⟨?_, fun asker => ((key 7#256).2 s' d h asker alice 7#256 (by simp)).2⟩
    obtain ⟨v, t, ⟨_, u1, _, _, _, _, hm, _, rfl, _⟩, rfl, _⟩ :=
      (C111_depositFor (chain D) D 0xa1#160 (runs_reached (start_runs D)).1 0xb2#160 [7#256] s' d (short _ _ _)).mp h
    exact hm
  · intro h
    obtain ⟨_, h⟩ := (key 8#256).1.mp h
    obtain ⟨_, h⟩ := h alice 8#256 (by simp)
    have h : answer (nft D) alice (start D) _ _ = _ ∨ answer (nft D) alice (start D) _ _ = _ := h
    rw [(ans alice 8#256).2.1, (ans alice 8#256).2.2, start_eq] at h
    rcases h with h | h
    · injection h with h
      exact absurd (address_inj h) (show ¬ (ZERO : Address) = 0xcc#160 from by decide)
    · injection h with h
      exact absurd h (show ¬ values [.bool false] = values [.bool true] from by decide +kernel)

/-- So the hypotheses of `C111_backed` are met: the token says that the wrapper has 7. -/
example (D : Decoder) (env : Contracts.Env) :
    answer (nft D) env (wrapped D).world "ownerOf(uint256)" [.uint256 7#256] = some (values [.address 0xcc#160]) :=
  (C111_backed (chain_hosts D) (by decide) (wrapped_runs D) 0xa1#160 env 7#256 ((bob_has D).2.1 _)).1

/-- And by `C111_redeemable` Bob can unwrap it, for Carol, 0xc3; Alice cannot. -/
example (D : Decoder) (c : Address) (hc : c = 0xb2#160 ∨ c = 0xa1#160) :
    (∃ s' data, wrapper (chain D) D c (wrapped D) 0#256
      (message "withdrawTo(address,uint256[])" [.address 0xc3#160, .uints [7#256]]) = .returned s' data) ↔ c = 0xb2#160 := by
  have h0 : c ≠ ZERO := by rcases hc with rfl | rfl <;> decide
  refine (C111_redeemable (chain_hosts D) (by decide) (wrapped_runs D) c 0xc3#160 h0 (by decide)
    (fun _ => rfl) [7#256] (short _ _ _)).1.trans ?_
  have hm := (bob_has D).1
  have ho : (wrapped D).token.owners 7#256 = 0xb2#160 := hm.owners _
  have hg := (runs_sys (chain_hosts D) (by decide) (wrapped_runs D)).ghost
  constructor
  · rintro ⟨_, h⟩
    have h := (Erc721.authorized_iff hg h0).mpr (h 7#256 (by simp))
    rcases hc with rfl | rfl
    · rfl
    · rw [ho] at h
      unfold Erc721.isAuthorized Erc721.isApprovedForAll Erc721.getApprovedInternal at h
      rw [hm.operators, hm.approvals 7#256] at h
      exact absurd h (by decide)
  · rintro rfl
    refine ⟨by simp, fun i hi => ?_⟩
    rcases List.mem_singleton.mp hi with rfl
    rw [← Erc721.authorized_iff hg h0, ho]
    unfold Erc721.isAuthorized
    simp [h0]

/-- The hypotheses of `C111_wrapped` are met by Alice's deposit. -/
example (D : Decoder) (asker : Address) : ∃ caller input, (Step.call 0xa1#160 0#256
      (message "depositFor(address,uint256[])" [.address 0xb2#160, .uints [7#256]]) : Step Metadata.State) = .call caller 0#256 input ∧
      ((∃ ids t t', 7#256 ∈ ids ∧ Says D input "depositFor(address,uint256[])" [.address 0xb2#160, .uints ids] ∧
        Obeys (chain D) D t 0xcc#160 0xee#160
          (message "transferFrom(address,address,uint256)" [.address caller, .address 0xcc#160, .uint256 7#256]) t') ∨
      (caller = 0xee#160 ∧ ∃ o d, Says D input "onErc721Received(address,address,uint256,bytes)"
        [.address o, .address 0xb2#160, .uint256 7#256, .bytes d])) := by
  refine C111_wrapped (chain D) D (runs_reached (start_runs D)).1 _ ?_ asker 0xb2#160 7#256 (owner_none.mpr rfl) ?_
  · intro c v i h
    rcases List.mem_singleton.mp h with h
    injection h with h
    rw [h]; decide
  · have := (bob_has D).2.1 asker
    unfold wrapped at this
    exact this

/-- The hypotheses of `C111_unwrapped` and `C111_no_theft` are met by Bob's withdrawal. -/
example (D : Decoder) (asker : Address) :
    answer (wrapper (chain D) D) asker (wrapped D) "ownerOf(uint256)" [.uint256 7#256] = some (values [.address 0xb2#160]) ∧
    answer (wrapper (chain D) D) asker (nftsAfter (chain D) D (wrapped D) [.call 0xb2#160 0#256
      (message "withdrawTo(address,uint256[])" [.address 0xc3#160, .uints [7#256]])]) "ownerOf(uint256)" [.uint256 7#256] = none := by
  refine ⟨(bob_has D).2.1 asker, ?_⟩
  have hm := (bob_has D).1
  have ho : (wrapped D).token.owners 7#256 = 0xb2#160 := hm.owners _
  have hg := (runs_sys (chain_hosts D) (by decide) (wrapped_runs D)).ghost
  have key := C111_redeemable (chain_hosts D) (by decide) (wrapped_runs D) 0xb2#160 0xc3#160 (by decide) (by decide)
    (fun _ => rfl) [7#256] (short _ _ _)
  obtain ⟨s', d, h⟩ := key.1.mpr ⟨by simp, fun i hi => by
    rcases List.mem_singleton.mp hi with rfl
    rw [← Erc721.authorized_iff hg (by decide), ho]
    unfold Erc721.isAuthorized
    simp [ZERO]⟩
  have e : nftsAfter (chain D) D (wrapped D) [.call 0xb2#160 0#256
      (message "withdrawTo(address,uint256[])" [.address 0xc3#160, .uints [7#256]])] = s' := by
    rw [after_one, h, Outcome.after]
  rw [e]
  exact (key.2 s' d h asker alice 7#256 (by simp)).2

/-- `C111_nothing_there` with a chain on which there is no contract: anybody, here 0xd4, wraps 7 for themselves. -/
example (D : Decoder) : ∃ u, Moved Erc721.init u 7#256 0xd4#160 ∧
    wrapper ⟨fun _ _ => false, fun t _ _ _ => .returned t [], fun _ _ _ _ _ => none⟩ D 0xd4#160 (newNfts 0xcc#160 0xee#160 ()) 0#256
      (message "depositFor(address,uint256[])" [.address 0xd4#160, .uints [7#256]]) =
      .returned { newNfts 0xcc#160 0xee#160 () with token := u } (values [.bool true]) :=
  C111_nothing_there _ D 0xd4#160 (s := newNfts 0xcc#160 0xee#160 ()) ⟨_, _, _, [], (by rintro _ _ _ ⟨⟩), rfl⟩ 0xd4#160 7#256 rfl rfl
    (by decide) rfl

/-- `C111_onReceived` when the underlying token reports 7 from Alice: it is wrapped for Alice. -/
example (D : Decoder) : ∃ s' data, wrapper (chain D) D 0xee#160 (newNfts 0xcc#160 0xee#160 (start D)) 0#256
    (message "onErc721Received(address,address,uint256,bytes)" [.address 0xa1#160, .address 0xa1#160, .uint256 7#256, .bytes []]) =
      .returned s' data :=
  ⟨_, _, (C111_onReceived (chain D) D 0xee#160 (runs_reached (start_runs D)).1 0xa1#160 0xa1#160 7#256 [] _ _
    (by rw [message_length]; simp [values, heads, tails, arg, Spec.Calls.tail, Spec.Revert.word])).mpr
    ⟨_, _, rfl, by decide, rfl, (moved_iff ⟨fun _ _ => rfl, fun _ => rfl, fun _ => rfl⟩ (.inr (by decide))).mp rfl,
      .inl ⟨rfl, rfl⟩, rfl, rfl⟩⟩

end Verif.Props.NftBytes
