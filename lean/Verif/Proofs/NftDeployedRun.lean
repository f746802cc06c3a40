import Verif.Spec.NftDeployed
import Verif.Proofs.NftDeployed
/-! # Lemmas: the cells that the enumerable ERC-721 example uses, and its histories -/

namespace Verif.Proofs.NftDeployed
open Verif Verif.Storage Verif.Spec.Storage Verif.Spec.Constructors Verif.Spec.StoragePrograms Verif.Spec.NftDeployed
open Verif.Props.StoragePrograms (SameOutcome onCells_bind uses_bind uses_ite)
open Verif.Proofs.Deployed (Table UsedBy used_bind used_of_uses uses_mono onCells_lift programs_run)
open Verif.Proofs.Erc721Words (Sim SimT unit look)
open Verif.NftDeployed (Ev Code token owned ownedIndex all allAt allIndex pausedCell inner program)
open Verif.Enumerable (Err Inv)
open Verif.Abi (Val Decoder Outcome)

/-! ## What holds of the states of a history -/

/-- The state of a history among the accounts `S` with the numbers `N`. -/
structure Good (cap : Nat) (S : List Address) (N : List U256) (s : Enumerable.State) : Prop where
  inv : Inv cap s
  owners : ∀ id ∈ N, s.erc721.owners id ∈ S
  outside : ∀ id, id ∉ N → s.erc721.owners id = ZERO
  values : ∀ a i, s.lists.ownedTokens a i ∈ N
  places : ∀ id, (s.lists.ownedTokensIndex id).toNat ≤ N.length

theorem count_le {ι : Type} [Fintype ι] [DecidableEq ι] {P : ι → Prop} [DecidablePred P] {T : List ι}
    (h : ∀ i, P i → i ∈ T) : (∑ i, if P i then 1 else 0) ≤ T.length := by
  rw [← Finset.card_filter]
  refine le_trans (Finset.card_le_card (t := T.toFinset) fun i hi => ?_) (List.toFinset_card_le T)
  rw [List.mem_toFinset]
  exact h i (Finset.mem_filter.mp hi).2

theorem cnt_le {own : U256 → Address} {N : List U256} (h : ∀ id, id ∉ N → own id = ZERO) {a : Address} (ha : a ≠ ZERO) :
    Erc721.cnt own a ≤ N.length :=
  count_le fun i hi => by
    by_contra hn
    exact ha (hi.symm.trans (h i hn))

section
variable {cap : Nat} {S : List Address} {N : List U256} {s : Enumerable.State}

theorem upd_outside {own : U256 → Address} (h : ∀ id, id ∉ N → own id = ZERO) {id : U256} (hid : id ∈ N) (dst : Address) :
    ∀ i, i ∉ N → upd own id dst i = ZERO := by
  intro i hi
  rw [upd_ne _ _ (show i ≠ id from fun e => hi (e ▸ hid))]
  exact h i hi

theorem upd_owners {own : U256 → Address} (h : ∀ id ∈ N, own id ∈ S) {id : U256} {dst : Address} (hd : dst ∈ S) :
    ∀ i ∈ N, upd own id dst i ∈ S := by
  intro i hi
  by_cases e : i = id
  · subst e; rw [upd_same]; exact hd
  · rw [upd_ne _ _ e]; exact h i hi

/-- The balance of an account after the token is moved. -/
theorem balance_le (h : Good cap S N s) {caller : Address} (hc : caller ≠ ZERO) {id : U256} (hid : id ∈ N) {dst : Address}
    (hx : s.erc721.owners id ≠ ZERO ∨ dst ≠ ZERO) {a : Address} (ha : a ≠ ZERO) :
    ((Erc721.updated s.erc721 dst id).balances a).toNat ≤ N.length := by
  have hb := Enumerable.base_updated (dst := dst) (id := id) hc h.inv.base hx
  rw [hb.count a ha, BitVec.toNat_ofNat]
  exact le_trans (Nat.mod_le _ _) (cnt_le (upd_outside h.outside hid dst) ha)

/-- The place of the token that an account receives. -/
theorem place_le (hN : N.length < 2 ^ 256) (h : Good cap S N s) {caller : Address} (hc : caller ≠ ZERO) {id : U256} (hid : id ∈ N)
    {dst : Address} (hd : dst ≠ ZERO) : ((Erc721.updated s.erc721 dst id).balances dst - 1#256).toNat ≤ N.length := by
  have hb := Enumerable.base_updated (dst := dst) (id := id) hc h.inv.base (.inr hd)
  have h1 := cnt_le (upd_outside h.outside hid dst) hd
  have h2 : 0 < Erc721.cnt (upd s.erc721.owners id dst) dst := Erc721.cnt_pos (id := id) (upd_same _ _ _)
  have e : (Erc721.updated s.erc721 dst id).balances dst = BitVec.ofNat 256 (Erc721.cnt (upd s.erc721.owners id dst) dst) := hb.count dst hd
  rw [e]
  generalize Erc721.cnt (upd s.erc721.owners id dst) dst = k at h1 h2
  have o1 : (1#256).toNat = 1 := rfl
  have e2 : (BitVec.ofNat 256 k).toNat = k := by rw [BitVec.toNat_ofNat, Nat.mod_eq_of_lt (by omega)]
  rw [BitVec.toNat_sub, e2, o1]
  omega

theorem nodup_of_AE {own : U256 → Address} {al : List U256} {ai : U256 → U256} (h : Enumerable.AE own al ai) : al.Nodup := by
  rw [List.nodup_iff_getElem?_ne_getElem?]
  intro i j hij hj e
  obtain ⟨x, hx⟩ : ∃ x, al[j]? = some x := ⟨al[j], List.getElem?_eq_getElem hj⟩
  have := (h.slot j x hx).2
  have := (h.slot i x (e.trans hx)).2
  omega

theorem listed (h : Good cap S N s) : ∀ x ∈ s.lists.allTokens, x ∈ N ∧ s.erc721.owners x ≠ ZERO := by
  intro x hx
  obtain ⟨i, hi⟩ := List.mem_iff_getElem?.mp hx
  have h1 := (h.inv.ae.slot i x hi).1
  exact ⟨by by_contra hn; exact h1 (h.outside x hn), h1⟩

theorem length_le (h : Good cap S N s) : s.lists.allTokens.length ≤ N.length :=
  ((nodup_of_AE h.inv.ae).subperm fun x hx => (listed h x hx).1).length_le

theorem length_lt (h : Good cap S N s) {id : U256} (hid : id ∈ N) (ho : s.erc721.owners id = ZERO) :
    s.lists.allTokens.length < N.length := by
  have hn : (id :: s.lists.allTokens).Nodup :=
    List.nodup_cons.mpr ⟨fun hm => (listed h id hm).2 ho, nodup_of_AE h.inv.ae⟩
  have := (hn.subperm (l₂ := N) fun x hx => by
    rcases List.mem_cons.mp hx with rfl | hx
    · exact hid
    · exact (listed h x hx).1).length_le
  simpa using this

theorem good_init (h0 : ZERO ∈ S) (h1 : 0#256 ∈ N) : Good cap S N Enumerable.init :=
  ⟨Enumerable.inv_init cap, fun _ _ => h0, fun _ _ => rfl, fun _ _ => h1, fun _ => Nat.zero_le _⟩

theorem upd2_mem {f : Address → U256 → U256} (h : ∀ a i, f a i ∈ N) {b : Address} {j v : U256} (hv : v ∈ N) : ∀ a i, upd2 f b j v a i ∈ N := by
  intro a i
  unfold upd2
  split
  · exact hv
  · exact h a i

theorem upd_le {f : U256 → U256} {n : Nat} (h : ∀ i, (f i).toNat ≤ n) {j v : U256} (hv : v.toNat ≤ n) : ∀ i, (upd f j v i).toNat ≤ n := by
  intro i
  unfold upd
  split
  · exact hv
  · exact h i

/-- The accounts of a call are in `S` and its tokens in `N`. -/
def Named (S : List Address) (N : List U256) : Enumerable.Call → Prop
  | .burn id => id ∈ N
  | .mint dst id => dst ∈ S ∧ id ∈ N
  | .safeMint dst id _ => dst ∈ S ∧ id ∈ N
  | .transferFrom src dst id => src ∈ S ∧ dst ∈ S ∧ id ∈ N
  | .safeTransferFrom src dst id => src ∈ S ∧ dst ∈ S ∧ id ∈ N
  | .safeTransferFromWithData src dst id _ => src ∈ S ∧ dst ∈ S ∧ id ∈ N
  | .approve dst id => dst ∈ S ∧ id ∈ N
  | .setApprovalForAll op _ => op ∈ S
  | .pause => True
  | .unpause => True

theorem good_mint (hcap : cap < 2 ^ 256) (hN : N.length < 2 ^ 256) (h : Good cap S N s) {s' : Enumerable.State} {caller dst : Address}
    {id : U256} (hc : caller ≠ ZERO) (hd' : dst ∈ S) (hid : id ∈ N) {f : Except Erc721.Err Erc721.State}
    (hf : ∀ t, f = .ok t → Erc721.mint s.erc721 dst id = .ok t) (he : Enumerable.mintVia cap s f dst id = .ok s') : Good cap S N s' := by
  obtain ⟨h1, _, h3⟩ := Enumerable.mintVia_effect hcap hc h.inv hf he
  unfold Enumerable.mintVia at he
  simp only [bind_eq_ok, Enumerable.lift_ok, Enumerable.liftP_ok, except_pure, Except.ok.injEq, Enumerable.addToAll_ok,
    Enumerable.addToOwner_ok] at he
  obtain ⟨_, _, t, ht, l1, ⟨hlen, rfl⟩, l2, ⟨hd, rfl⟩, rfl⟩ := he
  obtain ⟨_, ho, rfl⟩ := Erc721.mint_ok.mp (hf t ht)
  exact ⟨h1, upd_owners h.owners hd', upd_outside h.outside hid dst, upd2_mem h.values hid,
    upd_le h.places (place_le hN h hc hid hd)⟩

theorem relisted (hz : 0#256 ∈ N) (h : Good cap S N s) {id : U256} {src : Address} {b : U256} :
    (∀ a i, upd2 (if s.lists.ownedTokensIndex id ≠ b then
          upd2 s.lists.ownedTokens src (s.lists.ownedTokensIndex id) (s.lists.ownedTokens src b)
          else s.lists.ownedTokens) src b 0#256 a i ∈ N) ∧
    ∀ i, (upd (if s.lists.ownedTokensIndex id ≠ b then
          upd s.lists.ownedTokensIndex (s.lists.ownedTokens src b) (s.lists.ownedTokensIndex id)
          else s.lists.ownedTokensIndex) id 0#256 i).toNat ≤ N.length := by
  constructor
  · refine upd2_mem ?_ hz
    split
    · exact upd2_mem h.values (h.values _ _)
    · exact h.values
  · refine upd_le ?_ (Nat.zero_le _)
    split
    · exact upd_le h.places (h.places _)
    · exact h.places

theorem good_transfer (hcap : cap < 2 ^ 256) (hN : N.length < 2 ^ 256) (hz : 0#256 ∈ N) (h : Good cap S N s) {s' : Enumerable.State}
    {caller src dst : Address} {id : U256} (hc : caller ≠ ZERO) (hd' : dst ∈ S) (hid : id ∈ N) {f : Except Erc721.Err Erc721.State}
    (hf : ∀ t, f = .ok t → Erc721.transferFrom s.erc721 caller src dst id = .ok t)
    (he : Enumerable.transferVia s f dst id = .ok s') : Good cap S N s' := by
  obtain ⟨h1, _, h3, _⟩ := Enumerable.transferVia_effect hcap hc h.inv hf he
  unfold Enumerable.transferVia Enumerable.relist at he
  simp only [bind_eq_ok, Enumerable.lift_ok, Enumerable.liftP_ok, except_pure, Except.ok.injEq, Enumerable.ownerOf_ok,
    Enumerable.removeFromOwner_ok, Enumerable.addToOwner_ok] at he
  obtain ⟨_, _, o, ⟨rfl, ho⟩, t, ht, l2, ⟨l1, ⟨_, rfl⟩, hd, rfl⟩, rfl⟩ := he
  obtain ⟨_, _, hsrc, rfl⟩ := Erc721.transferFrom_ok.mp (hf t ht)
  obtain ⟨r1, r2⟩ := relisted hz h (id := id) (src := s.erc721.owners id) (b := (Erc721.updated s.erc721 dst id).balances (s.erc721.owners id))
  exact ⟨h1, upd_owners h.owners hd', upd_outside h.outside hid dst, upd2_mem r1 hid,
    upd_le r2 (place_le hN h hc hid hd)⟩

theorem good_burn (hcap : cap < 2 ^ 256) (h0 : ZERO ∈ S) (hz : 0#256 ∈ N) (h : Good cap S N s) {s' : Enumerable.State}
    {caller : Address} {id : U256} (hc : caller ≠ ZERO) (hid : id ∈ N) (he : Enumerable.burn s caller id = .ok s') :
    Good cap S N s' := by
  obtain ⟨h1, _, h3⟩ := Enumerable.burn_effect hcap hc h.inv he
  unfold Enumerable.burn at he
  simp only [bind_eq_ok, Enumerable.lift_ok, Enumerable.liftP_ok, except_pure, Except.ok.injEq, Enumerable.ownerOf_ok,
    Enumerable.removeFromOwner_ok, Enumerable.removeFromAll_ok] at he
  obtain ⟨_, _, o, ⟨rfl, ho⟩, t, ht, l1, ⟨_, rfl⟩, l2, ⟨lt, hlt, _, rfl⟩, rfl⟩ := he
  obtain ⟨_, rfl⟩ := Erc721.burn_ok.mp ht
  obtain ⟨r1, r2⟩ := relisted hz h (id := id) (src := s.erc721.owners id) (b := (Erc721.updated s.erc721 ZERO id).balances (s.erc721.owners id))
  exact ⟨h1, upd_owners h.owners h0, upd_outside h.outside hid ZERO, r1, r2⟩

theorem good_exec (hcap : cap < 2 ^ 256) (hN : N.length < 2 ^ 256) (h0 : ZERO ∈ S) (hz : 0#256 ∈ N) (h : Good cap S N s)
    {s' : Enumerable.State} {tx : Enumerable.Tx} (hn : Named S N tx.call) (he : Enumerable.exec cap s tx = .ok s') :
    Good cap S N s' := by
  have hi := (Enumerable.exec_inv hcap h.inv he).1
  obtain ⟨caller, R, call⟩ := tx
  unfold Enumerable.exec at he
  dsimp only at he hn
  by_cases hc : caller = ZERO
  · simp [hc] at he
  rw [if_neg hc] at he
  cases call with
  | burn id => exact good_burn hcap h0 hz h hc hn he
  | mint dst id => exact good_mint hcap hN h hc hn.1 hn.2 (fun t ht => ht) he
  | safeMint dst id data => exact good_mint hcap hN h hc hn.1 hn.2 (fun t ht => (Erc721.then_check_ok.mp ht).1) he
  | transferFrom src dst id => exact good_transfer hcap hN hz h hc hn.2.1 hn.2.2 (fun t ht => ht) he
  | safeTransferFrom src dst id =>
    exact good_transfer hcap hN hz h hc hn.2.1 hn.2.2 (fun t ht => (Erc721.then_check_ok.mp ht).1) he
  | safeTransferFromWithData src dst id data =>
    exact good_transfer hcap hN hz h hc hn.2.1 hn.2.2 (fun t ht => (Erc721.then_check_ok.mp ht).1) he
  | approve dst id =>
    simp only [bind_eq_ok, Enumerable.lift_ok, except_pure, Except.ok.injEq] at he
    obtain ⟨t, ht, rfl⟩ := he
    obtain ⟨k1, k2, rfl⟩ := (Erc721.approve_ok hc).mp ht
    exact ⟨hi, h.owners, h.outside, h.values, h.places⟩
  | setApprovalForAll op b =>
    simp only [bind_eq_ok, Enumerable.lift_ok, except_pure, Except.ok.injEq] at he
    obtain ⟨t, ht, rfl⟩ := he
    obtain ⟨k1, rfl⟩ := Erc721.setApprovalForAll_ok.mp ht
    exact ⟨hi, h.owners, h.outside, h.values, h.places⟩
  | pause =>
    simp only [bind_eq_ok, Enumerable.liftP_ok, except_pure, Except.ok.injEq] at he
    obtain ⟨p, _, rfl⟩ := he
    exact ⟨hi, h.owners, h.outside, h.values, h.places⟩
  | unpause =>
    simp only [bind_eq_ok, Enumerable.liftP_ok, except_pure, Except.ok.injEq] at he
    obtain ⟨p, _, rfl⟩ := he
    exact ⟨hi, h.owners, h.outside, h.values, h.places⟩

/-! ## The cells that are used -/

variable {w : List Step → Nat} {c : Table} {log : List Ev} {α β : Type}

theorem sim_ok {m : Code α} {f : Enumerable.State → Except Err (α × Enumerable.State)} (h : Sim w view m f) {r : α × Table × List Ev}
    (hr : onCells w m c = .ok r) : f (view c log) = .ok (r.1, view r.2.1 (log ++ r.2.2)) := by
  rw [h c log, hr]
  rfl

theorem look_ok {σ E : Type} {f : σ → Except E α} {s s' : σ} {a : α} (h : look f s = .ok (a, s')) : f s = .ok a ∧ s' = s := by
  unfold look at h
  cases hf : f s with
  | error e => rw [hf] at h; cases h
  | ok b => rw [hf] at h; cases h; exact ⟨rfl, rfl⟩

theorem unit_ok {σ E : Type} {f : σ → Except E σ} {s s' : σ} {a : Unit} (h : unit f s = .ok (a, s')) : f s = .ok s' := by
  unfold unit at h
  cases hf : f s with
  | error e => rw [hf] at h; cases h
  | ok b => rw [hf] at h; cases h; rfl

theorem inside_ok {f : Erc721.State → Except Erc721.Err (α × Erc721.State)} {s s' : Enumerable.State} {a : α}
    (h : inside f s = .ok (a, s')) : ∃ t, f s.erc721 = .ok (a, t) ∧ s' = { s with erc721 := t } := by
  unfold inside at h
  cases hf : f s.erc721 with
  | error e => rw [hf] at h; cases h
  | ok b => rw [hf] at h; cases h; exact ⟨b.2, rfl, rfl⟩

theorem used_mono {E V : Type} {P Q : List Step → Prop} (hs : ∀ p, P p → Q p) : ∀ (m : Prog E V α) {c : Table} (_ : UsedBy w P m c), UsedBy w Q m c
  | .ret _, _, _ => trivial
  | .fail _, _, _ => trivial
  | .get _ k, _, h => ⟨hs _ h.1, used_mono hs (k _) h.2⟩
  | .set _ _ k, _, h => ⟨hs _ h.1, used_mono hs k h.2⟩
  | .emit _ k, _, h => used_mono hs k h

theorem used_lift {E V E' V' : Type} {P : List Step → Prop} {fe : E → E'} {fv : V → V'} : ∀ (m : Prog E V α) {c : Table} (_ : UsedBy w P m c),
    UsedBy w P (m.lift fe fv) c
  | .ret _, _, _ => trivial
  | .fail _, _, _ => trivial
  | .get _ k, _, h => ⟨h.1, used_lift (k _) h.2⟩
  | .set _ _ k, _, h => ⟨h.1, used_lift k h.2⟩
  | .emit _ k, _, h => used_lift k h

theorem used_inner {m : Erc721Words.Code α} (h : UsedBy w (Spec.Erc721Words.Cells token S N) m c) : UsedBy w (Cells S N) (inner m) c :=
  used_lift m (used_mono (fun _ => Or.inl) m h)

theorem used_whenNotPaused : UsedBy w (Cells S N) NftDeployed.whenNotPaused c :=
  used_of_uses _ _ ⟨.inr (.inl rfl), fun _ => uses_ite trivial trivial⟩

theorem used_whenPaused : UsedBy w (Cells S N) NftDeployed.whenPaused c :=
  used_of_uses _ _ ⟨.inr (.inl rfl), fun _ => uses_ite trivial trivial⟩

theorem used_balance {a : Address} (ha : a ∈ S) : UsedBy w (Cells S N) (inner (Erc721Words.balanceOf token a)) c :=
  used_inner (used_of_uses _ _ (uses_ite trivial ⟨.inr (.inl ⟨a, ha, rfl⟩), fun _ => trivial⟩))

theorem cell_owned {a : Address} (ha : a ∈ S) {i : U256} (hi : i.toNat ≤ N.length) : Cells S N (owned a i) :=
  .inr (.inr (.inl ⟨a, ha, i, .inl hi, rfl⟩))

theorem cell_ownedIndex {id : U256} (h : id ∈ N) : Cells S N (ownedIndex id) := .inr (.inr (.inr (.inl ⟨id, h, rfl⟩)))

theorem cell_all : Cells S N all := .inr (.inr (.inr (.inr (.inl rfl))))

theorem cell_allAt {i : Nat} (h : i < N.length) : Cells S N (allAt i) := .inr (.inr (.inr (.inr (.inr (.inl ⟨i, h, rfl⟩)))))

theorem cell_allIndex {id : U256} (h : id ∈ N) : Cells S N (allIndex id) := .inr (.inr (.inr (.inr (.inr (.inr ⟨id, h, rfl⟩)))))

theorem used_addToOwner {dst : Address} (hd : dst ∈ S) {id : U256} (hid : id ∈ N)
    (hb : dst ≠ ZERO → ((view c log).erc721.balances dst - 1#256).toNat ≤ N.length) : UsedBy w (Cells S N) (NftDeployed.addToOwner dst id) c := by
  unfold NftDeployed.addToOwner Erc721Words.balanceOf
  by_cases hz : dst = ZERO
  · rw [if_pos hz]; trivial
  · rw [if_neg hz]
    exact ⟨.inl (.inr (.inl ⟨dst, hd, rfl⟩)), cell_owned hd (hb hz), cell_ownedIndex hid, trivial⟩

theorem used_removeFromOwner {src : Address} (hs : src ∈ S) {id : U256} (hid : id ∈ N)
    (hb : src ≠ ZERO → ((view c log).erc721.balances src).toNat ≤ N.length) (hv : ∀ a i, (view c log).lists.ownedTokens a i ∈ N)
    (hp : ∀ id, ((view c log).lists.ownedTokensIndex id).toNat ≤ N.length) :
    UsedBy w (Cells S N) (NftDeployed.removeFromOwner src id) c := by
  unfold NftDeployed.removeFromOwner Erc721Words.balanceOf
  by_cases hz : src = ZERO
  · rw [if_pos hz]; trivial
  · rw [if_neg hz]
    refine ⟨.inl (.inr (.inl ⟨src, hs, rfl⟩)), cell_ownedIndex hid, ?_⟩
    dsimp only
    have h1 : Cells S N (owned src (c (Erc721Words.balance token src))) := cell_owned hs (hb hz)
    split
    · exact ⟨h1, cell_owned hs (hp id), cell_ownedIndex (hv src _), cell_ownedIndex hid, h1, trivial⟩
    · exact ⟨cell_ownedIndex hid, h1, trivial⟩

theorem used_addToAll {id : U256} (hid : id ∈ N) (hl : (view c log).lists.allTokens.length < N.length) :
    UsedBy w (Cells S N) (NftDeployed.addToAll cap id) c := by
  have e : (view c log).lists.allTokens.length = (c all).toNat := by simp [view, lists]
  unfold NftDeployed.addToAll
  refine ⟨cell_all, cell_allIndex hid, ?_⟩
  split
  · exact ⟨cell_allAt (by omega), cell_all, trivial⟩
  · trivial

theorem used_removeFromAll {id : U256} (hid : id ∈ N) (hl : (view c log).lists.allTokens.length ≤ N.length)
    (hm : ∀ x ∈ (view c log).lists.allTokens, x ∈ N) : UsedBy w (Cells S N) (NftDeployed.removeFromAll id) c := by
  have e : (view c log).lists.allTokens.length = (c all).toNat := by simp [view, lists]
  unfold NftDeployed.removeFromAll
  refine ⟨cell_all, ?_⟩
  dsimp only
  split
  · trivial
  · next h0 =>
    have hpos : 0 < (c all).toNat := by
      rcases Nat.eq_zero_or_pos (c all).toNat with e | e
      · exact absurd (BitVec.eq_of_toNat_eq e) h0
      · exact e
    have hlast : c (allAt ((c all).toNat - 1)) ∈ N :=
      hm _ (List.mem_map.mpr ⟨(c all).toNat - 1, List.mem_range.mpr (by omega), rfl⟩)
    refine ⟨cell_allIndex hid, cell_allAt (by omega), ?_⟩
    dsimp only
    split
    · exact ⟨cell_allAt (by omega), cell_allIndex hlast, cell_allIndex hid, cell_all, cell_allAt (by omega), trivial⟩
    · trivial

theorem relist_erc721 {f : Enumerable.Lists → Erc721.State → Except Err Enumerable.Lists} {s s' : Enumerable.State} {a : Unit}
    (h : relist f s = .ok (a, s')) : ∃ l, f s.lists s.erc721 = .ok l ∧ s' = { s with lists := l } := by
  unfold relist at h
  cases hf : f s.lists s.erc721 with
  | error e => rw [hf] at h; cases h
  | ok l => rw [hf] at h; cases h; exact ⟨l, rfl, rfl⟩

theorem used_mintVia (hw : Sizes w) (hcap : cap < 2 ^ 256) (hN : N.length < 2 ^ 256) (h : Good cap S N (view c log)) {caller dst : Address}
    {id : U256} (hc : caller ≠ ZERO) (hd : dst ∈ S) (hid : id ∈ N) {m : Erc721Words.Code Unit}
    {f : Erc721.State → Except Erc721.Err Erc721.State} (hu : Uses Under m) (hm : SimT w token m (unit f))
    (hf : ∀ s t, f s = .ok t → Erc721.mint s dst id = .ok t)
    (hc' : ∀ c' log', view c' log' = view c log → UsedBy w (Spec.Erc721Words.Cells token S N) m c') :
    UsedBy w (Cells S N) (NftDeployed.mintVia cap m dst id) c := by
  refine used_bind used_whenNotPaused fun r1 e1 => ?_
  obtain ⟨_, v1⟩ := look_ok (sim_ok (log := log) sim_whenNotPaused e1)
  refine used_bind (used_inner (hc' _ _ v1)) fun r2 e2 => ?_
  obtain ⟨t, ht, v2⟩ := inside_ok (sim_ok (log := log ++ r1.2.2) (sim_inner hu hm) e2)
  obtain ⟨hd0, ho, rfl⟩ := Erc721.mint_ok.mp (hf _ _ (unit_ok ht))
  rw [v1] at v2 ho
  refine used_bind (used_addToAll (log := log ++ r1.2.2 ++ r2.2.2) hid ?_) fun r3 e3 => ?_
  · rw [v2]
    exact length_lt (s := view c log) h hid ho
  obtain ⟨l, _, v3⟩ := relist_erc721 (sim_ok (log := log ++ r1.2.2 ++ r2.2.2) (sim_addToAll hw hcap id) e3)
  refine used_addToOwner (log := log ++ r1.2.2 ++ r2.2.2 ++ r3.2.2) hd hid fun hz => ?_
  rw [v3, v2]
  exact place_le hN h hc hid hz

theorem used_transferVia (hw : Sizes w) (hN : N.length < 2 ^ 256) (h : Good cap S N (view c log)) {caller src dst : Address}
    {id : U256} (hc : caller ≠ ZERO) (hd : dst ∈ S) (hid : id ∈ N) {m : Erc721Words.Code Unit}
    {f : Erc721.State → Except Erc721.Err Erc721.State} (hu : Uses Under m) (hm : SimT w token m (unit f))
    (hf : ∀ s t, f s = .ok t → Erc721.transferFrom s caller src dst id = .ok t)
    (hc' : ∀ c' log', view c' log' = view c log → UsedBy w (Spec.Erc721Words.Cells token S N) m c') :
    UsedBy w (Cells S N) (NftDeployed.transferVia m dst id) c := by
  refine used_bind used_whenNotPaused fun r1 e1 => ?_
  obtain ⟨_, v1⟩ := look_ok (sim_ok (log := log) sim_whenNotPaused e1)
  refine used_bind (used_inner (Proofs.Erc721Words.used_owned hid)) fun r2 e2 => ?_
  obtain ⟨t, ht, v2⟩ := inside_ok (sim_ok (log := log ++ r1.2.2) (sim_inner (under_owned id) (Proofs.Erc721Words.sim_owned id)) e2)
  obtain ⟨ho, rfl⟩ := look_ok ht
  rw [v1] at v2 ho
  have v2 : view r2.2.1 (log ++ r1.2.2 ++ r2.2.2) = view c log := v2
  obtain ⟨ho, hz⟩ := Enumerable.ownerOf_ok.mp ho
  refine used_bind (used_inner (hc' _ _ v2)) fun r3 e3 => ?_
  obtain ⟨t, ht, v3⟩ := inside_ok (sim_ok (log := log ++ r1.2.2 ++ r2.2.2) (sim_inner hu hm) e3)
  obtain ⟨hd0, _, _, rfl⟩ := Erc721.transferFrom_ok.mp (hf _ _ (unit_ok ht))
  rw [v2] at v3
  refine used_bind (used_removeFromOwner (log := log ++ r1.2.2 ++ r2.2.2 ++ r3.2.2) (ho ▸ h.owners id hid) hid ?_ ?_ ?_) fun r4 e4 => ?_
  · intro hz
    rw [v3]
    exact balance_le h hc hid (.inr hd0) hz
  · rw [v3]; exact h.values
  · rw [v3]; exact h.places
  obtain ⟨l, _, v4⟩ := relist_erc721 (sim_ok (log := log ++ r1.2.2 ++ r2.2.2 ++ r3.2.2) (sim_removeFromOwner hw r2.1 id) e4)
  refine used_addToOwner (log := log ++ r1.2.2 ++ r2.2.2 ++ r3.2.2 ++ r4.2.2) hd hid fun hz => ?_
  rw [v4, v3]
  exact place_le hN h hc hid hz

theorem used_burn (hw : Sizes w) (h : Good cap S N (view c log)) (h0 : ZERO ∈ S) {caller : Address}
    {id : U256} (hc : caller ≠ ZERO) (hcS : caller ∈ S) (hid : id ∈ N) : UsedBy w (Cells S N) (NftDeployed.burn caller id) c := by
  refine used_bind used_whenNotPaused fun r1 e1 => ?_
  obtain ⟨_, v1⟩ := look_ok (sim_ok (log := log) sim_whenNotPaused e1)
  refine used_bind (used_inner (Proofs.Erc721Words.used_owned hid)) fun r2 e2 => ?_
  obtain ⟨t, ht, v2⟩ := inside_ok (sim_ok (log := log ++ r1.2.2) (sim_inner (under_owned id) (Proofs.Erc721Words.sim_owned id)) e2)
  obtain ⟨ho, rfl⟩ := look_ok ht
  rw [v1] at v2 ho
  have v2 : view r2.2.1 (log ++ r1.2.2 ++ r2.2.2) = view c log := v2
  obtain ⟨ho, hz⟩ := Enumerable.ownerOf_ok.mp ho
  have how : (view r2.2.1 (log ++ r1.2.2 ++ r2.2.2)).erc721.owners id ∈ S := by rw [v2]; exact h.owners id hid
  refine used_bind (used_inner (used_bind (Proofs.Erc721Words.used_update h0 hcS hid how) fun _ _ => trivial)) fun r3 e3 => ?_
  obtain ⟨t, ht, v3⟩ := inside_ok (sim_ok (log := log ++ r1.2.2 ++ r2.2.2)
    (sim_inner (under_burn caller id) (Proofs.Erc721Words.sim_burn hw.token caller id)) e3)
  obtain ⟨_, rfl⟩ := Erc721.burn_ok.mp (unit_ok ht)
  rw [v2] at v3
  refine used_bind (used_removeFromOwner (log := log ++ r1.2.2 ++ r2.2.2 ++ r3.2.2) (ho ▸ h.owners id hid) hid ?_ ?_ ?_) fun r4 e4 => ?_
  · intro hz'
    rw [v3]
    exact balance_le h hc hid (.inl (by rw [ho]; exact hz)) hz'
  · rw [v3]; exact h.values
  · rw [v3]; exact h.places
  obtain ⟨l, hl, v4⟩ := relist_erc721 (sim_ok (log := log ++ r1.2.2 ++ r2.2.2 ++ r3.2.2) (sim_removeFromOwner hw r2.1 id) e4)
  obtain ⟨_, rfl⟩ := Enumerable.removeFromOwner_ok.mp hl
  refine used_removeFromAll (log := log ++ r1.2.2 ++ r2.2.2 ++ r3.2.2 ++ r4.2.2) hid ?_ ?_
  · rw [v4, v3]; exact length_le (s := view c log) h
  · rw [v4, v3]; exact fun x hx => (listed (s := view c log) h x hx).1

theorem used_code (hw : Sizes w) (hcap : cap < 2 ^ 256) (hN : N.length < 2 ^ 256) (h0 : ZERO ∈ S) (h : Good cap S N (view c log))
    (R : Erc721.Receivers) {caller : Address} (hcS : caller ∈ S) {call : Enumerable.Call} (hn : Named S N call) :
    UsedBy w (Cells S N) (NftDeployed.code cap R caller call) c := by
  have how : ∀ id ∈ N, ∀ c' log', view c' log' = view c log → (c' (Erc721Words.owner token id)).setWidth 160 ∈ S := by
    intro id hid c' log' e
    have : (view c' log').erc721.owners id ∈ S := by rw [e]; exact h.owners id hid
    exact this
  have ht : ∀ src dst id data, SimT w token (Erc721Words.safeTransferFromWithData token R caller src dst id data)
      (unit fun s => Erc721.safeTransferFromWithData R s caller src dst id data) := fun src dst id data =>
    Proofs.Erc721Words.sim_then (Proofs.Erc721Words.sim_transferFrom hw.token caller src dst id) R caller src dst id data
  have ut : ∀ src dst id data, Uses Under (Erc721Words.safeTransferFromWithData token R caller src dst id data) := fun src dst id data =>
    uses_bind (under_transferFrom _ _ _ _) fun _ => under_received ..
  unfold NftDeployed.code
  by_cases hc : caller = ZERO
  · rw [if_pos hc]; trivial
  rw [if_neg hc]
  cases call with
  | burn id => exact used_burn hw h h0 hc hcS hn
  | mint dst id =>
    exact used_mintVia hw hcap hN h hc hn.1 hn.2 (under_mint dst id) (Proofs.Erc721Words.sim_mint hw.token dst id) (fun _ _ h => h)
      fun c' log' e => Proofs.Erc721Words.used_mint h0 hn.1 hn.2 (how id hn.2 c' log' e)
  | safeMint dst id data =>
    exact used_mintVia hw hcap hN h hc hn.1 hn.2 (uses_bind (under_mint dst id) fun _ => under_received ..)
      (Proofs.Erc721Words.sim_then (Proofs.Erc721Words.sim_mint hw.token dst id) R caller ZERO dst id data)
      (fun _ _ h => (Erc721.then_check_ok.mp h).1)
      fun c' log' e => used_bind (Proofs.Erc721Words.used_mint h0 hn.1 hn.2 (how id hn.2 c' log' e))
        fun _ _ => used_of_uses _ _ (Proofs.Erc721Words.uses_received ..)
  | transferFrom src dst id =>
    exact used_transferVia hw hN h hc hn.2.1 hn.2.2 (under_transferFrom _ _ _ _)
      (Proofs.Erc721Words.sim_transferFrom hw.token caller src dst id) (fun _ _ h => h)
      fun c' log' e => Proofs.Erc721Words.used_transferFrom hn.2.1 hcS hn.2.2 (how id hn.2.2 c' log' e)
  | safeTransferFrom src dst id =>
    exact used_transferVia hw hN h hc hn.2.1 hn.2.2 (ut src dst id []) (ht src dst id []) (fun _ _ h => (Erc721.then_check_ok.mp h).1)
      fun c' log' e => used_bind (Proofs.Erc721Words.used_transferFrom hn.2.1 hcS hn.2.2 (how id hn.2.2 c' log' e))
        fun _ _ => used_of_uses _ _ (Proofs.Erc721Words.uses_received ..)
  | safeTransferFromWithData src dst id data =>
    exact used_transferVia hw hN h hc hn.2.1 hn.2.2 (ut src dst id data) (ht src dst id data) (fun _ _ h => (Erc721.then_check_ok.mp h).1)
      fun c' log' e => used_bind (Proofs.Erc721Words.used_transferFrom hn.2.1 hcS hn.2.2 (how id hn.2.2 c' log' e))
        fun _ _ => used_of_uses _ _ (Proofs.Erc721Words.uses_received ..)
  | approve dst id => exact used_inner (Proofs.Erc721Words.used_approve hcS hn.2 (how id hn.2 c log rfl))
  | setApprovalForAll op b =>
    exact used_inner (used_of_uses _ _ (uses_ite trivial ⟨.inr (.inr (.inr ⟨caller, hcS, op, hn, rfl⟩)), trivial⟩))
  | pause => exact used_bind used_whenNotPaused fun _ _ => ⟨.inr (.inl rfl), trivial⟩
  | unpause => exact used_bind used_whenPaused fun _ _ => ⟨.inr (.inl rfl), trivial⟩

/-! ## The functions -/

/-- The program does what the function does, and uses the cells only. -/
def Row (w : List Step → Nat) (cap : Nat) (S : List Address) (N : List U256) (c : Table) (log : List Ev)
    (m : Prog (Option Bytes) Ev (List Val)) (x : Except (Option Bytes) (Enumerable.State × List Val)) : Prop :=
  UsedBy w (Cells S N) m c ∧ match onCells w m c, x with
    | .error e, .error e' => e = e'
    | .ok r, .ok y => y.2 = r.1 ∧ y.1 = view r.2.1 (log ++ r.2.2) ∧ Good cap S N y.1
    | _, _ => False

theorem row_fail : Row w cap S N c log (.fail none) (.error none) := ⟨trivial, rfl⟩

theorem row_ret (h : Good cap S N (view c log)) (r : List Val) : Row w cap S N c log (.ret r) (.ok (view c log, r)) :=
  ⟨trivial, rfl, (congrArg (view c) (List.append_nil log)).symm, h⟩

theorem row_get (h : Good cap S N (view c log)) {p : List Step} (hp : Cells S N p) (g : U256 → List Val) :
    Row w cap S N c log (.get p fun v => .ret (g v)) (.ok (view c log, g (c p))) :=
  ⟨⟨hp, trivial⟩, rfl, (congrArg (view c) (List.append_nil log)).symm, h⟩

theorem row_sim (K : Hash) {m : Code α} {g : Enumerable.State → Except Err (α × Enumerable.State)} (hs : Sim w view m g)
    (hu : UsedBy w (Cells S N) m c) (hg : ∀ a s', g (view c log) = .ok (a, s') → Good cap S N s') (f : α → List Val) :
    Row w cap S N c log (NftDeployed.finish K f m) (match g (view c log) with
      | .error e => .error ((Revert.erc721Example e).data K)
      | .ok r => .ok (r.2, f r.1)) := by
  refine ⟨used_bind (used_lift m hu) fun _ _ => trivial, ?_⟩
  have h1 := hs c log
  have e : onCells w (NftDeployed.finish K f m) c = match onCells w m c with
      | .error e => .error ((Revert.erc721Example e).data K)
      | .ok r => .ok (f r.1, r.2.1, r.2.2) := by
    unfold NftDeployed.finish
    rw [onCells_bind, onCells_lift]
    cases onCells w m c with
    | error e => rfl
    | ok r =>
      show Except.ok (f r.1, r.2.1, r.2.2.map id ++ []) = _
      rw [List.map_id, List.append_nil]
  rw [e]
  cases hm : onCells w m c with
  | error e =>
    rw [hm] at h1
    rw [show g (view c log) = .error e from h1]
  | ok r =>
    rw [hm] at h1
    have h1 : g (view c log) = .ok (r.1, view r.2.1 (log ++ r.2.2)) := h1
    have h2 := hg _ _ h1
    rw [h1]
    exact ⟨rfl, rfl, h2⟩

theorem row_call (hw : Sizes w) (hcap : cap < 2 ^ 256) (hN : N.length < 2 ^ 256) (h0 : ZERO ∈ S) (hz : 0#256 ∈ N)
    (h : Good cap S N (view c log)) (K : Hash) (R : Erc721.Receivers) {caller : Address} (hcS : caller ∈ S) {call : Enumerable.Call}
    (hn : Named S N call) :
    Row w cap S N c log (NftDeployed.finish K (fun _ => []) (NftDeployed.code cap R caller call))
      (Entry.finish K Revert.erc721Example [] (Enumerable.exec cap (view c log) ⟨caller, R, call⟩)) := by
  have hr := row_sim K (sim_code hw hcap R caller call) (used_code hw hcap hN h0 h R hcS hn)
    (fun _ _ e => good_exec hcap hN h0 hz h hn (unit_ok e)) (fun _ => [])
  revert hr
  unfold unit
  dsimp only
  cases Enumerable.exec cap (view c log) ⟨caller, R, call⟩ <;> exact fun h => h

theorem row_look (h : Good cap S N (view c log)) (K : Hash) {m : Code α} {g : Enumerable.State → Except Err α} (hs : Sim w view m (look g))
    (hu : UsedBy w (Cells S N) m c) (f : α → Val) :
    Row w cap S N c log (NftDeployed.finish K (fun a => [f a]) m)
      (Contracts.view K Revert.erc721Example (view c log) (Contracts.one f (g (view c log)))) := by
  have hr := row_sim K hs hu (fun _ _ e => (look_ok e).2 ▸ h) (fun a => [f a])
  revert hr
  unfold look
  cases g (view c log) <;> exact fun h => h

theorem row_inner (h : Good cap S N (view c log)) (K : Hash) {m : Erc721Words.Code α} {g : Erc721.State → Except Erc721.Err α}
    (hs : SimT w token m (look g)) (hi : Uses Under m) (hu : UsedBy w (Spec.Erc721Words.Cells token S N) m c) (f : α → Val) :
    Row w cap S N c log (NftDeployed.finish K (fun a => [f a]) (inner m))
      (Contracts.view K Revert.erc721 (view c log) (Contracts.one f (g (view c log).erc721))) := by
  have hr := row_sim K (sim_inner hi hs) (used_inner hu)
    (fun _ _ e => by obtain ⟨t, ht, rfl⟩ := inside_ok e; obtain ⟨_, rfl⟩ := look_ok ht; exact h) (fun a => [f a])
  revert hr
  unfold inside look
  cases g (view c log).erc721 <;> exact fun h => h

theorem sim_ownedAt (a : Address) (i : U256) :
    Sim w view (NftDeployed.tokenOfOwnerByIndex a i) (look fun s => Enumerable.tokenOfOwnerByIndex s.lists a i) := by
  intro c log
  unfold NftDeployed.tokenOfOwnerByIndex look Enumerable.tokenOfOwnerByIndex
  dsimp only
  rw [show (view c log).lists.ownedTokens a i = c (owned a i) from rfl]
  by_cases e : c (owned a i) = 0#256
  · rw [if_pos e, onCells, if_pos e]; rfl
  · rw [if_neg e, onCells, if_neg e]
    show Except.ok (_, view c log) = Except.ok (_, view c (log ++ []))
    rw [List.append_nil]

theorem sim_at (i : U256) : Sim w view (NftDeployed.tokenByIndex i) (look fun s => Enumerable.tokenByIndex s.lists i) := by
  intro c log
  have hl : (view c log).lists.allTokens = (List.range (c all).toNat).map fun i => c (allAt i) := rfl
  unfold NftDeployed.tokenByIndex look Enumerable.tokenByIndex
  dsimp only
  rw [hl, onCells]
  by_cases e : i.toNat < (c all).toNat
  · rw [if_pos e, List.getElem?_map, List.getElem?_range e]
    show Except.ok (_, view c log) = Except.ok (_, view c (log ++ []))
    rw [List.append_nil]
  · rw [if_neg e, List.getElem?_eq_none (by simpa using e)]
    rfl

theorem used_at (h : Good cap S N (view c log)) (i : U256) : UsedBy w (Cells S N) (NftDeployed.tokenByIndex i) c := by
  have hl : (view c log).lists.allTokens.length = (c all).toNat := by simp [view, lists]
  have := length_le h
  unfold NftDeployed.tokenByIndex
  refine ⟨cell_all, ?_⟩
  dsimp only
  split
  · exact ⟨cell_allAt (by omega), trivial⟩
  · trivial

theorem dispatch_row {t f : String} {args : List Val} {l : List (String × String × (List Val → Prog (Option Bytes) Ev (List Val)))}
    {l' : List (String × String × (List Val → Except (Option Bytes) (Enumerable.State × List Val)))}
    (h : List.Forall₂ (fun r r' => r.1 = r'.1 ∧ r.2.1 = r'.2.1 ∧ Row w cap S N c log (r.2.2 args) (r'.2.2 args)) l l') :
    Row w cap S N c log (NftDeployed.dispatch t f args l) (Entry.dispatch t f args l') := by
  unfold NftDeployed.dispatch Entry.dispatch
  induction h with
  | nil => exact row_fail
  | cons h _ ih =>
    obtain ⟨h1, h2, h3⟩ := h
    rw [List.find?_cons, List.find?_cons, h1, h2]
    cases decide (_ = t) && decide (_ = f) with
    | true => exact h3
    | false => exact ih

/-- A function that takes these arguments and no others. -/
syntax "arguments" term : tactic
macro_rules
  | `(tactic| arguments $t) => `(tactic| (
      dsimp only
      split
      · exact $t
      · next h =>
        split
        · first | exact absurd rfl h | exact absurd rfl (h _) | exact absurd rfl (h _ _) | exact absurd rfl (h _ _ _) | exact absurd rfl (h _ _ _ _)
        · exact row_fail))

theorem row_program (hw : Sizes w) (hcap : cap < 2 ^ 256) (hN : N.length < 2 ^ 256) (h0 : ZERO ∈ S) (hz : 0#256 ∈ N)
    (h : Good cap S N (view c log)) (K : Hash) (D : Decoder) (env : Contracts.Env) (hc : env.caller ∈ S) (t f : String) {args : List Val}
    (ha : ∀ a, Val.address a ∈ args → a ∈ S) (hv : ∀ v, Val.uint256 v ∈ args → v ∈ N) :
    Row w cap S N c log (program K D cap env t f args) (Contracts.erc721 K D cap env t f args (view c log)) := by
  unfold program Contracts.erc721
  refine dispatch_row
    (.cons ⟨rfl, rfl, ?_⟩ (.cons ⟨rfl, rfl, ?_⟩ (.cons ⟨rfl, rfl, ?_⟩ (.cons ⟨rfl, rfl, ?_⟩ (.cons ⟨rfl, rfl, ?_⟩ (.cons ⟨rfl, rfl, ?_⟩ (.cons ⟨rfl, rfl, ?_⟩ (.cons ⟨rfl, rfl, ?_⟩ (.cons ⟨rfl, rfl, ?_⟩ (.cons ⟨rfl, rfl, ?_⟩ (.cons ⟨rfl, rfl, ?_⟩ (.cons ⟨rfl, rfl, ?_⟩ (.cons ⟨rfl, rfl, ?_⟩ (.cons ⟨rfl, rfl, ?_⟩ (.cons ⟨rfl, rfl, ?_⟩ (.cons ⟨rfl, rfl, ?_⟩ (.cons ⟨rfl, rfl, ?_⟩ (.cons ⟨rfl, rfl, ?_⟩ (.cons ⟨rfl, rfl, ?_⟩ .nil)))))))))))))))))))
  · arguments row_call hw hcap hN h0 hz h K _ hc (by simp_all [Named])
  · arguments row_call hw hcap hN h0 hz h K _ hc (by simp_all [Named])
  · arguments row_call hw hcap hN h0 hz h K _ hc (by simp_all [Named])
  · arguments row_call hw hcap hN h0 hz h K _ hc (by simp_all [Named])
  · arguments row_call hw hcap hN h0 hz h K _ hc (by simp_all [Named])
  · arguments row_call hw hcap hN h0 hz h K _ hc (by simp_all [Named])
  · arguments row_ret h _
  · arguments row_call hw hcap hN h0 hz h K _ hc trivial
  · arguments row_call hw hcap hN h0 hz h K _ hc trivial
  · arguments row_call hw hcap hN h0 hz h K _ hc (by simp_all [Named])
  · arguments row_call hw hcap hN h0 hz h K _ hc (by simp_all [Named])
  · arguments row_look h K (sim_ownedAt _ _)
      ⟨.inr (.inr (.inl ⟨_, ha _ (by simp), _, .inr (hv _ (by simp)), rfl⟩)), by dsimp only; split <;> trivial⟩ _
  · have e : Enumerable.totalSupply (view c log).lists = c all := by simp [Enumerable.totalSupply, view, lists]
    rw [e]
    arguments row_get h cell_all (fun v => [.uint256 v])
  · arguments row_look h K (sim_at _) (used_at h _) _
  · arguments row_get h (.inr (.inl rfl)) (fun v => [.bool (decide (v ≠ 0#256))])
  · arguments row_inner h K (Proofs.Erc721Words.sim_balance _) (under_balance _)
      (used_of_uses _ _ (uses_ite trivial ⟨.inr (.inl ⟨_, ha _ (by simp), rfl⟩), fun _ => trivial⟩)) _
  · arguments row_inner h K (Proofs.Erc721Words.sim_owned _) (under_owned _) (Proofs.Erc721Words.used_owned (hv _ (by simp))) _
  · arguments row_inner h K (Proofs.Erc721Words.sim_getApproved _) (under_getApproved _)
      (used_bind (Proofs.Erc721Words.used_owned (hv _ (by simp))) fun _ _ => ⟨.inr (.inr (.inl ⟨_, hv _ (by simp), rfl⟩)), trivial⟩) _
  · arguments row_inner h K (g := fun s => .ok (s.operatorApprovals _ _)) (Proofs.Erc721Words.sim_operator _ _) (under_approvedForAll _ _)
      ⟨.inr (.inr (.inr ⟨_, ha _ (by simp), _, ha _ (by simp), rfl⟩)), trivial⟩ _

end

/-! ## The contract -/

open Verif.Spec.Deployed (answer)
open Verif.Spec.Contracts (Raw after)

/-- The words and the state agree on everything the accounts can see. -/
def Inv' (K : Hash) (cap : Nat) (S : List Address) (N : List U256) (w : NftDeployed.State) (s : Enumerable.State) : Prop :=
  Good cap S N s ∧ ∃ c, Agree K erc721Example (Cells S N) w.words c ∧ view c w.log = s

theorem sizes (K : Hash) : Sizes (widthAt K erc721Example) :=
  ⟨Proofs.Erc721Words.sizes (b := none) (d := 0) rfl, fun _ _ => rfl, fun _ => rfl, rfl, fun _ => rfl, fun _ => rfl, rfl⟩

/-- The contract with independent mappings and lists. -/
def model (K : Hash) (D : Decoder) (cap : Nat) (env : Contracts.Env) (s : Enumerable.State) (value : U256) (input : Bytes) :
    Outcome Enumerable.State := Abi.entry K D Router.erc721Example (Contracts.erc721 K D cap env) s value input

section
variable {K : Hash} {n cap : Nat} {S : List Address} {N : List U256}

theorem inv_step (h : Setting K n cap S N) (D : Decoder) {w : NftDeployed.State} {s : Enumerable.State} (hi : Inv' K cap S N w s)
    {tx : Raw Contracts.Env} (hx : Within K D S N tx) :
    answer (NftDeployed.entry K D cap tx.env w tx.value tx.input) = answer (model K D cap tx.env s tx.value tx.input) ∧
    Inv' K cap S N ((NftDeployed.entry K D cap tx.env w tx.value tx.input).after w)
      ((model K D cap tx.env s tx.value tx.input).after s) := by
  unfold NftDeployed.entry model Abi.entry
  split
  · exact ⟨rfl, hi⟩
  split
  · exact ⟨rfl, hi⟩
  cases hr : Router.erc721Example.route K (Abi.selectorOf tx.input) with
  | none => exact ⟨rfl, hi⟩
  | some r =>
    obtain ⟨t, f⟩ := r
    dsimp only
    cases hd : D.read (Abi.flat f.args) (tx.input.drop 4) with
    | none => exact ⟨rfl, hi⟩
    | some args =>
      dsimp only
      obtain ⟨hg, c, hag, hv⟩ := hi
      obtain ⟨hu, hrow⟩ := row_program (log := w.log) (sizes K) h.vector h.length h.zero h.token (hv ▸ hg) K D tx.env hx.sender t f.rustName
        (hx.addresses args ⟨t, f, hr, hd⟩) (hx.numbers args ⟨t, f, hr, hd⟩)
      have hrun := programs_run h.bound (t := erc721Example) (by decide) h.separate _ hu hag
      rw [hv] at hrow
      unfold NftDeployed.onWords
      revert hrow hrun
      cases (program K D cap tx.env t f.rustName args).onWords K erc721Example w.words with
      | error e =>
        cases onCells (widthAt K erc721Example) (program K D cap tx.env t f.rustName args) c with
        | ok r => exact fun _ h => h.elim
        | error e' =>
          cases Contracts.erc721 K D cap tx.env t f.rustName args s with
          | ok y => exact fun h _ => h.elim
          | error e'' =>
            intro h h'
            cases h
            cases h'
            exact ⟨rfl, hg, c, hag, hv⟩
      | ok r =>
        cases onCells (widthAt K erc721Example) (program K D cap tx.env t f.rustName args) c with
        | error e => exact fun _ h => h.elim
        | ok r' =>
          cases Contracts.erc721 K D cap tx.env t f.rustName args s with
          | error e => exact fun h _ => h.elim
          | ok y =>
            rintro ⟨e1, e2, e3⟩ ⟨e4, e5, e6⟩
            obtain ⟨y1, y2⟩ := y
            refine ⟨?_, e3, r'.2.1, e6, ?_⟩
            · show Except.ok (Abi.encode r.1) = Except.ok (Abi.encode y2)
              rw [e4, ← e1]
            · show view r'.2.1 (w.log ++ r.2.2) = y1
              rw [e5]
              exact e2.symm

theorem inv_run (h : Setting K n cap S N) (D : Decoder) : ∀ (txs : List (Raw Contracts.Env)) {w : NftDeployed.State}
    {s : Enumerable.State} (_ : Inv' K cap S N w s) (_ : ∀ tx ∈ txs, Within K D S N tx),
    Inv' K cap S N (after (NftDeployed.entry K D cap) w txs) (after (model K D cap) s txs)
  | [], _, _, h, _ => h
  | tx :: txs, _, _, hi, hx =>
    inv_run h D txs (inv_step h D hi (hx tx List.mem_cons_self)).2 fun tx' h' => hx tx' (List.mem_cons_of_mem _ h')

theorem deployed (K : Hash) : NftDeployed.deploy K = some { words := Constructors.fresh, log := [] } := by
  have e : ∀ l : Loc, Storage.write K Constructors.fresh l 0#256 = Constructors.fresh := by
    intro l
    funext a
    unfold Storage.write upd Constructors.fresh
    split <;> simp
  unfold NftDeployed.deploy Constructors.erc721Init
  rw [Option.bind_some]
  have h := Props.Constructors.C99_erc721 K
  unfold Constructors.erc721Init at h
  rw [Option.bind_some] at h
  rw [h]
  show (some (Storage.write K Constructors.fresh _ 0#256)).map _ = _
  rw [e]
  rfl

theorem inv_deploy (h : Setting K n cap S N) : Inv' K cap S N { words := Constructors.fresh, log := [] } Enumerable.init := by
  refine ⟨good_init h.zero h.token, fun _ => 0#256, fun p _ l _ => ?_, rfl⟩
  unfold Storage.read Constructors.fresh
  simp

end
end Verif.Proofs.NftDeployed
