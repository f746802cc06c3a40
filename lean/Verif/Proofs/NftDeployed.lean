import Verif.Model.NftDeployed
import Verif.Proofs.Erc721Words
import Verif.Props.Erc721Words
import Verif.Props.ContractsErc721
/-! # Lemmas: the enumerable ERC-721 example on a table of cells -/

namespace Verif.Proofs.NftDeployed
open Verif Verif.Storage Verif.Spec.Storage Verif.Spec.Constructors Verif.Spec.StoragePrograms
open Verif.Props.StoragePrograms (SameOutcome onCells_bind uses_bind uses_ite key_inj)
open Verif.Proofs.Deployed (Table UsedBy used_bind used_of_uses uses_mono uses_lift onCells_lift onCells_frame programs_run)
open Verif.Proofs.Erc721Words (Sim SimT sim_ret sim_fail sim_bind sim_ite unit look)
open Verif.NftDeployed (Ev Code token owned ownedIndex all allAt allIndex pausedCell inner)
open Verif.Enumerable (Err)

/-- The events of the token. -/
def tokenLog (l : List Ev) : List Erc721.Event := l.filterMap fun | .token e => some e | _ => none
/-- The events of the pausable part. -/
def pausableLog (l : List Ev) : List Pausable.Event := l.filterMap fun | .pausable e => some e | _ => none

theorem tokenLog_append (a b : List Ev) : tokenLog (a ++ b) = tokenLog a ++ tokenLog b := List.filterMap_append
theorem pausableLog_append (a b : List Ev) : pausableLog (a ++ b) = pausableLog a ++ pausableLog b := List.filterMap_append
theorem tokenLog_token (l : List Erc721.Event) : tokenLog (l.map .token) = l := by
  induction l with
  | nil => rfl
  | cons a l ih => exact congrArg (a :: ·) ih
theorem pausableLog_token (l : List Erc721.Event) : pausableLog (l.map .token) = [] := by
  induction l with
  | nil => rfl
  | cons a l ih => exact ih

/-- The enumeration a table stands for. -/
def lists (c : Table) : Enumerable.Lists :=
  { ownedTokens := fun a i => c (owned a i), ownedTokensIndex := fun id => c (ownedIndex id),
    allTokens := (List.range (c all).toNat).map fun i => c (allAt i), allTokensIndex := fun id => c (allIndex id) }

/-- The state a table stands for. -/
def view (c : Table) (log : List Ev) : Enumerable.State :=
  { erc721 := Erc721Words.view token c (tokenLog log), lists := lists c,
    pausable := { paused := decide (c pausedCell ≠ 0#256), log := pausableLog log } }

/-- The sizes of the cells. -/
structure Sizes (w : List Step → Nat) : Prop where
  token : Erc721Words.Sizes w token
  owned : ∀ a i, w (owned a i) = 32
  ownedIndex : ∀ id, w (ownedIndex id) = 32
  all : w all = 32
  allAt : ∀ i, w (allAt i) = 32
  allIndex : ∀ id, w (allIndex id) = 32
  paused : w pausedCell = 1

/-- A cell of the token. -/
def Under (p : List Step) : Prop := ∃ q, p = Step.field "erc721" :: q

theorem view_under {c c' : Table} (h : ∀ p, Under p → c' p = c p) (log : List Erc721.Event) :
    Erc721Words.view token c' log = Erc721Words.view token c log := by
  unfold Erc721Words.view
  have h1 := funext fun id => congrArg (BitVec.setWidth 160) (h (Erc721Words.owner token id) ⟨_, rfl⟩)
  have h2 := funext fun a => h (Erc721Words.balance token a) ⟨_, rfl⟩
  have h3 := funext fun id => congrArg (BitVec.setWidth 160) (h (Erc721Words.approved token id) ⟨_, rfl⟩)
  have h4 := funext fun a => funext fun b =>
    congrArg (fun v => decide (v ≠ 0#256)) (h (Erc721Words.operator token a b) ⟨_, rfl⟩)
  rw [h1, h2, h3, h4]

theorem lists_frame {c c' : Table} (h : ∀ p, ¬ Under p → c' p = c p) : lists c' = lists c := by
  unfold lists
  have h1 := funext fun a => funext fun i => h (owned a i) (by rintro ⟨q, hq⟩; simp [owned] at hq)
  have h2 := funext fun id => h (ownedIndex id) (by rintro ⟨q, hq⟩; simp [ownedIndex] at hq)
  have h3 := h all (by rintro ⟨q, hq⟩; simp [all] at hq)
  have h4 := funext fun i => h (allAt i) (by rintro ⟨q, hq⟩; simp [allAt] at hq)
  have h5 := funext fun id => h (allIndex id) (by rintro ⟨q, hq⟩; simp [allIndex] at hq)
  rw [h1, h2, h3, h4, h5]

/-- A function of the token, on the whole state. -/
def inside {α : Type} (f : Erc721.State → Except Erc721.Err (α × Erc721.State)) (s : Enumerable.State) :
    Except Err (α × Enumerable.State) :=
  match f s.erc721 with
  | .error e => .error (.erc721 e)
  | .ok r => .ok (r.1, { s with erc721 := r.2 })

section
variable {w : List Step → Nat} {α : Type}

theorem sim_inner {m : Erc721Words.Code α} {f : Erc721.State → Except Erc721.Err (α × Erc721.State)} (hu : Uses Under m)
    (h : SimT w token m f) : Sim w view (inner m) (inside f) := by
  intro c log
  have h1 := h c (tokenLog log)
  unfold inner inside
  rw [onCells_lift]
  show (match f (Erc721Words.view token c (tokenLog log)) with | .error e => _ | .ok r => _) = _
  rw [h1]
  cases hm : onCells w m c with
  | error e => rfl
  | ok r =>
    have hf : ∀ p, ¬ Under p → r.2.1 p = c p := fun p hp => onCells_frame _ hu hm hp
    show Except.ok (r.1, _) = Except.ok (r.1, _)
    unfold view
    rw [tokenLog_append, pausableLog_append, tokenLog_token, pausableLog_token, List.append_nil, lists_frame hf,
      hf pausedCell (by rintro ⟨q, hq⟩; simp [pausedCell] at hq)]

/-! ## Only the cells of the token -/

theorem under_owned (id : U256) : Uses Under (Erc721Words.requireOwned token id) :=
  ⟨⟨_, rfl⟩, fun _ => uses_ite trivial trivial⟩

theorem under_balance (a : Address) : Uses Under (Erc721Words.balanceOf token a) := uses_ite trivial ⟨⟨_, rfl⟩, fun _ => trivial⟩

theorem under_approvedForAll (a b : Address) : Uses Under (Erc721Words.isApprovedForAll token a b) := ⟨⟨_, rfl⟩, fun _ => trivial⟩

theorem under_getApproved (id : U256) : Uses Under (Erc721Words.getApproved token id) :=
  uses_bind (under_owned id) fun _ => ⟨⟨_, rfl⟩, fun _ => trivial⟩

theorem under_check (o op : Address) (id : U256) : Uses Under (Erc721Words.checkAuthorized token o op id) :=
  uses_bind (uses_ite trivial (uses_ite trivial (uses_bind (under_approvedForAll _ _) fun _ =>
    uses_ite trivial ⟨⟨_, rfl⟩, fun _ => trivial⟩))) fun _ => uses_ite trivial (uses_ite trivial trivial)

theorem under_approve (dst : Address) (id : U256) (auth : Address) (b : Bool) :
    Uses Under (Erc721Words.approveInternal token dst id auth b) := by
  have hs : Uses (E := Erc721.Err) (V := Erc721.Event) Under
    (.set (Erc721Words.approved token id) (dst.setWidth 256) (.ret ())) := ⟨⟨_, rfl⟩, trivial⟩
  unfold Erc721Words.approveInternal
  dsimp only
  exact uses_ite (uses_bind (under_owned id) fun o => uses_bind (uses_ite (uses_bind (under_approvedForAll _ _) fun _ =>
    uses_ite trivial trivial) trivial) fun _ => uses_ite hs hs) hs

theorem under_update (dst : Address) (id : U256) (auth : Address) : Uses Under (Erc721Words.update token dst id auth) := by
  have hc : ∀ a f, Uses Under (Erc721Words.change token a f) := fun a f => ⟨⟨_, rfl⟩, fun _ => ⟨⟨_, rfl⟩, trivial⟩⟩
  refine uses_bind ⟨⟨_, rfl⟩, fun _ => trivial⟩ fun src => uses_bind (uses_ite (under_check _ _ _) trivial) fun _ =>
    uses_bind (uses_ite (uses_bind (under_approve _ _ _ _) fun _ => hc _ _) trivial) fun _ =>
    uses_bind (uses_ite (hc _ _) trivial) fun _ => ⟨⟨_, rfl⟩, trivial⟩

theorem under_received (R : Erc721.Receivers) (op src dst : Address) (id : U256) (data : Bytes) :
    Uses Under (Erc721Words.received R op src dst id data) := by
  unfold Erc721Words.received
  split <;> trivial

theorem under_transferFrom (caller src dst : Address) (id : U256) : Uses Under (Erc721Words.transferFrom token caller src dst id) :=
  uses_ite trivial (uses_bind (under_update _ _ _) fun _ => uses_ite trivial trivial)

theorem under_mint (dst : Address) (id : U256) : Uses Under (Erc721Words.mint token dst id) :=
  uses_ite trivial (uses_bind (under_update _ _ _) fun _ => uses_ite trivial trivial)

theorem under_burn (caller : Address) (id : U256) : Uses Under (Erc721Words.burn token caller id) :=
  uses_bind (under_update _ _ _) fun _ => trivial

theorem under_setAll (o op : Address) (b : Bool) : Uses Under (Erc721Words.setApprovalForAll token o op b) :=
  uses_ite trivial ⟨⟨_, rfl⟩, trivial⟩

/-! ## Writing a cell -/

theorem view_other {c : Table} {p : List Step} {v : U256} {log : List Ev} (hu : ¬ Under p) (hp : p ≠ pausedCell) :
    view (upd c p v) log = { view c log with lists := lists (upd c p v) } := by
  unfold view
  rw [view_under (c := c) (c' := upd c p v) (fun q hq => upd_ne _ _ (by rintro rfl; exact hu hq)), upd_ne _ _ (Ne.symm hp)]

theorem lists_owned (c : Table) (a : Address) (i v : U256) :
    lists (upd c (owned a i) v) = { lists c with ownedTokens := upd2 (lists c).ownedTokens a i v } := by
  unfold lists
  have h1 : (fun b j => upd c (owned a i) v (owned b j)) = upd2 (fun b j => c (owned b j)) a i v := by
    funext b j
    unfold upd2
    by_cases e : b = a ∧ j = i
    · rw [e.1, e.2, upd_same]; simp
    · have : owned b j ≠ owned a i := by
        intro h
        simp only [owned, List.cons.injEq, Step.key.injEq, and_true, true_and] at h
        exact e ⟨key_inj h.1, h.2⟩
      rw [upd_ne _ _ this]
      dsimp only
      split <;> simp_all
  rw [h1, funext fun id => upd_ne c v (show ownedIndex id ≠ owned a i by simp [ownedIndex, owned]),
    upd_ne c v (show all ≠ owned a i by simp [all, owned]),
    funext fun k => upd_ne c v (show allAt k ≠ owned a i by simp [allAt, owned]),
    funext fun id => upd_ne c v (show allIndex id ≠ owned a i by simp [allIndex, owned])]

theorem lists_ownedIndex (c : Table) (i v : U256) :
    lists (upd c (ownedIndex i) v) = { lists c with ownedTokensIndex := upd (lists c).ownedTokensIndex i v } := by
  unfold lists
  have h1 : (fun j => upd c (ownedIndex i) v (ownedIndex j)) = upd (fun j => c (ownedIndex j)) i v := by
    funext j
    by_cases e : j = i
    · rw [e, upd_same, upd_same]
    · rw [upd_ne _ _ e, upd_ne _ _ (show ownedIndex j ≠ ownedIndex i by simpa [ownedIndex] using e)]
  rw [h1, funext fun a => funext fun k => upd_ne c v (show owned a k ≠ ownedIndex i by simp [ownedIndex, owned]),
    upd_ne c v (show all ≠ ownedIndex i by simp [all, ownedIndex]),
    funext fun k => upd_ne c v (show allAt k ≠ ownedIndex i by simp [allAt, ownedIndex]),
    funext fun id => upd_ne c v (show allIndex id ≠ ownedIndex i by simp [allIndex, ownedIndex])]

theorem lists_allIndex (c : Table) (i v : U256) :
    lists (upd c (allIndex i) v) = { lists c with allTokensIndex := upd (lists c).allTokensIndex i v } := by
  unfold lists
  have h1 : (fun j => upd c (allIndex i) v (allIndex j)) = upd (fun j => c (allIndex j)) i v := by
    funext j
    by_cases e : j = i
    · rw [e, upd_same, upd_same]
    · rw [upd_ne _ _ e, upd_ne _ _ (show allIndex j ≠ allIndex i by simpa [allIndex] using e)]
  rw [h1, funext fun a => funext fun k => upd_ne c v (show owned a k ≠ allIndex i by simp [allIndex, owned]),
    upd_ne c v (show all ≠ allIndex i by simp [all, allIndex]),
    funext fun k => upd_ne c v (show allAt k ≠ allIndex i by simp [allAt, allIndex]),
    funext fun id => upd_ne c v (show ownedIndex id ≠ allIndex i by simp [allIndex, ownedIndex])]

theorem lists_allAt (c : Table) (i : Nat) (v : U256) :
    lists (upd c (allAt i) v) = { lists c with allTokens := (lists c).allTokens.set i v } := by
  unfold lists
  have h1 : ∀ n, ((List.range n).map fun j => upd c (allAt i) v (allAt j)) = ((List.range n).map fun j => c (allAt j)).set i v := by
    intro n
    refine List.ext_getElem (by simp) fun j h1 h2 => ?_
    rw [List.getElem_map, List.getElem_range, List.getElem_set, List.getElem_map, List.getElem_range]
    by_cases e : i = j
    · rw [if_pos e, e, upd_same]
    · rw [if_neg e, upd_ne _ _ (show allAt j ≠ allAt i by simpa [allAt] using Ne.symm e)]
  rw [upd_ne c v (show all ≠ allAt i by simp [all, allAt]), h1,
    funext fun a => funext fun k => upd_ne c v (show owned a k ≠ allAt i by simp [allAt, owned]),
    funext fun id => upd_ne c v (show allIndex id ≠ allAt i by simp [allAt, allIndex]),
    funext fun id => upd_ne c v (show ownedIndex id ≠ allAt i by simp [allAt, ownedIndex])]

theorem lists_all (c : Table) (v : U256) :
    lists (upd c all v) = { lists c with allTokens := (List.range v.toNat).map fun i => c (allAt i) } := by
  unfold lists
  rw [upd_same, funext fun k => upd_ne c v (show allAt k ≠ all by simp [all, allAt]),
    funext fun a => funext fun k => upd_ne c v (show owned a k ≠ all by simp [all, owned]),
    funext fun id => upd_ne c v (show allIndex id ≠ all by simp [all, allIndex]),
    funext fun id => upd_ne c v (show ownedIndex id ≠ all by simp [all, ownedIndex])]

theorem view_owned (c : Table) (log : List Ev) (a : Address) (i v : U256) : view (upd c (owned a i) v) log =
    { view c log with lists := { lists c with ownedTokens := upd2 (lists c).ownedTokens a i v } } := by
  rw [view_other (by rintro ⟨q, hq⟩; simp [owned] at hq) (by simp [owned, pausedCell]), lists_owned]

theorem view_ownedIndex (c : Table) (log : List Ev) (i v : U256) : view (upd c (ownedIndex i) v) log =
    { view c log with lists := { lists c with ownedTokensIndex := upd (lists c).ownedTokensIndex i v } } := by
  rw [view_other (by rintro ⟨q, hq⟩; simp [ownedIndex] at hq) (by simp [ownedIndex, pausedCell]), lists_ownedIndex]

theorem view_allIndex (c : Table) (log : List Ev) (i v : U256) : view (upd c (allIndex i) v) log =
    { view c log with lists := { lists c with allTokensIndex := upd (lists c).allTokensIndex i v } } := by
  rw [view_other (by rintro ⟨q, hq⟩; simp [allIndex] at hq) (by simp [allIndex, pausedCell]), lists_allIndex]

theorem view_allAt (c : Table) (log : List Ev) (i : Nat) (v : U256) : view (upd c (allAt i) v) log =
    { view c log with lists := { lists c with allTokens := (lists c).allTokens.set i v } } := by
  rw [view_other (by rintro ⟨q, hq⟩; simp [allAt] at hq) (by simp [allAt, pausedCell]), lists_allAt]

theorem view_all (c : Table) (log : List Ev) (v : U256) : view (upd c all v) log =
    { view c log with lists := { lists c with allTokens := (List.range v.toNat).map fun i => c (allAt i) } } := by
  rw [view_other (by rintro ⟨q, hq⟩; simp [all] at hq) (by simp [all, pausedCell]), lists_all]

theorem view_paused (c : Table) (log : List Ev) (v : U256) (e : Pausable.Event) :
    view (upd c pausedCell v) (log ++ [.pausable e]) =
    { view c log with pausable := { paused := decide (v ≠ 0#256), log := (view c log).pausable.log ++ [e] } } := by
  have h1 : ∀ p, p ≠ pausedCell → upd c pausedCell v p = c p := fun p hp => upd_ne _ _ hp
  unfold view
  rw [tokenLog_append, pausableLog_append, upd_same, show tokenLog [.pausable e] = [] from rfl, List.append_nil,
    view_under (c := c) (c' := upd c pausedCell v) (fun q hq => h1 q (by rintro rfl; obtain ⟨q, hq⟩ := hq; simp [pausedCell] at hq))]
  have : lists (upd c pausedCell v) = lists c := by
    unfold lists
    rw [h1 all (by simp [all, pausedCell]), funext fun k => h1 (allAt k) (by simp [allAt, pausedCell]),
      funext fun a => funext fun k => h1 (owned a k) (by simp [owned, pausedCell]),
      funext fun k => h1 (allIndex k) (by simp [allIndex, pausedCell]),
      funext fun k => h1 (ownedIndex k) (by simp [ownedIndex, pausedCell])]
  rw [this]
  rfl

/-! ## The enumeration -/

/-- A change of the lists that looks at the token. -/
def relist (f : Enumerable.Lists → Erc721.State → Except Err Enumerable.Lists) (s : Enumerable.State) : Except Err (Unit × Enumerable.State) :=
  (f s.lists s.erc721).map fun l => ((), { s with lists := l })

theorem mask32 (v : U256) : v &&& mask 32 = v := Proofs.Erc721Words.mask32 v

theorem sim_addToOwner (hw : Sizes w) (dst : Address) (id : U256) :
    Sim w view (NftDeployed.addToOwner dst id) (relist fun l t => Enumerable.addToOwner l dst id t) := by
  intro c log
  unfold NftDeployed.addToOwner relist Enumerable.addToOwner Erc721.balanceOf Erc721Words.balanceOf
  by_cases hz : dst = ZERO
  · simp only [if_pos hz]
    rfl
  · simp only [if_neg hz]
    have e1 : (view c log).erc721.balances dst = c (Erc721Words.balance token dst) := rfl
    rw [e1]
    generalize Erc721Words.balance token dst = pb
    show Except.ok _ = Except.ok ((), view (upd (upd c (owned dst (c pb - 1#256)) (id &&& mask (w (owned dst (c pb - 1#256)))))
        (ownedIndex id) ((c pb - 1#256) &&& mask (w (ownedIndex id)))) (log ++ []))
    rw [hw.owned, hw.ownedIndex, mask32, mask32, List.append_nil, view_ownedIndex, view_owned, lists_owned]
    rfl

theorem sim_addToAll (hw : Sizes w) {cap : Nat} (hcap : cap < 2 ^ 256) (id : U256) :
    Sim w view (NftDeployed.addToAll cap id) (relist fun l _ => Enumerable.addToAll cap l id) := by
  intro c log
  have hl : (lists c).allTokens.length = (c all).toNat := by simp [lists]
  have hs : Enumerable.totalSupply (lists c) = c all := by
    unfold Enumerable.totalSupply
    rw [hl, BitVec.ofNat_toNat, BitVec.setWidth_eq]
  unfold NftDeployed.addToAll relist Enumerable.addToAll
  rw [onCells, onCells]
  show Except.map _ (if (lists c).allTokens.length < cap then _ else _) = _
  rw [hl]
  by_cases h : (c all).toNat < cap
  · rw [if_pos h, if_pos h]
    show Except.ok _ = Except.ok ((), view (upd (upd (upd c (allIndex id) (c all &&& mask (w (allIndex id)))) (allAt (c all).toNat)
      (id &&& mask (w (allAt (c all).toNat)))) all ((c all + 1#256) &&& mask (w all))) (log ++ []))
    rw [hw.all, hw.allAt, hw.allIndex, mask32, mask32, mask32, List.append_nil, view_all, view_allAt, view_allIndex, lists_allAt,
      lists_allIndex, show Enumerable.totalSupply (view c log).lists = c all from hs]
    have e : (c all + 1#256).toNat = (c all).toNat + 1 := by
      rw [BitVec.toNat_add]
      exact Nat.mod_eq_of_lt (by have : (1#256).toNat = 1 := rfl; omega)
    rw [e, List.range_succ, List.map_append, List.map_singleton, upd_same]
    have e2 : ((List.range (c all).toNat).map fun i => upd (upd c (allIndex id) (c all)) (allAt (c all).toNat) id (allAt i)) =
        (lists c).allTokens := by
      refine List.map_congr_left fun i hi => ?_
      have hi := List.mem_range.mp hi
      rw [upd_ne _ _ (show allAt i ≠ allAt (c all).toNat by simp [allAt]; omega),
        upd_ne _ _ (show allAt i ≠ allIndex id by simp [allAt, allIndex])]
    rw [e2]
    rfl
  · rw [if_neg h, if_neg h]
    rfl

theorem sim_removeFromOwner (hw : Sizes w) (src : Address) (id : U256) :
    Sim w view (NftDeployed.removeFromOwner src id) (relist fun l t => Enumerable.removeFromOwner l src id t) := by
  intro c log
  unfold NftDeployed.removeFromOwner relist Enumerable.removeFromOwner Erc721.balanceOf Erc721Words.balanceOf
  by_cases hz : src = ZERO
  · simp only [if_pos hz]
    rfl
  · simp only [if_neg hz]
    have e1 : (view c log).erc721.balances src = c (Erc721Words.balance token src) := rfl
    rw [e1]
    generalize Erc721Words.balance token src = pb
    simp only [Enumerable.lift, bind, Except.bind, pure, Except.pure, Except.map]
    change _ = Except.map _ (onCells w (if c (ownedIndex id) ≠ c pb then _ else _) c)
    by_cases hi : c (ownedIndex id) ≠ c pb
    · rw [if_pos hi]
      have hi' : (view c log).lists.ownedTokensIndex id ≠ c pb := hi
      simp only [if_pos hi']
      show _ = Except.ok ((), view (upd (upd (upd (upd c (owned src (c (ownedIndex id))) (c (owned src (c pb)) &&& mask (w (owned src (c (ownedIndex id))))))
        (ownedIndex (c (owned src (c pb)))) (c (ownedIndex id) &&& mask (w (ownedIndex (c (owned src (c pb))))))) (ownedIndex id) (0#256 &&& mask (w (ownedIndex id))))
        (owned src (c pb)) (0#256 &&& mask (w (owned src (c pb))))) (log ++ []))
      rw [hw.owned, hw.owned, hw.ownedIndex, hw.ownedIndex, mask32, mask32, mask32, List.append_nil, view_owned, view_ownedIndex,
        view_ownedIndex, view_owned]
      simp only [lists_ownedIndex, lists_owned]
      rfl
    · rw [if_neg hi]
      have hi' : ¬ (view c log).lists.ownedTokensIndex id ≠ c pb := hi
      simp only [if_neg hi']
      show _ = Except.ok ((), view (upd (upd c (ownedIndex id) (0#256 &&& mask (w (ownedIndex id))))
        (owned src (c pb)) (0#256 &&& mask (w (owned src (c pb))))) (log ++ []))
      rw [hw.owned, hw.ownedIndex, mask32, List.append_nil, view_owned, view_ownedIndex, lists_ownedIndex]
      rfl

theorem sim_removeFromAll (hw : Sizes w) (id : U256) :
    Sim w view (NftDeployed.removeFromAll id) (relist fun l _ => Enumerable.removeFromAll l id) := by
  intro c log
  have hl : (lists c).allTokens.length = (c all).toNat := by simp [lists]
  unfold NftDeployed.removeFromAll relist Enumerable.removeFromAll
  rw [onCells]
  dsimp only
  show Except.map _ (orPanic Err.panic ((lists c).allTokens[(lists c).allTokens.length - 1]?) >>= _) = _
  rw [hl]
  by_cases h0 : c all = 0#256
  · rw [if_pos h0]
    have : (lists c).allTokens = [] := by simp [lists, h0]
    rw [this]
    rfl
  · rw [if_neg h0]
    have hpos : 0 < (c all).toNat := by
      rcases Nat.eq_zero_or_pos (c all).toNat with e | e
      · exact absurd (BitVec.eq_of_toNat_eq e) h0
      · exact e
    have hg : (lists c).allTokens[(c all).toNat - 1]? = some (c (allAt ((c all).toNat - 1))) := by
      unfold lists
      dsimp only
      rw [List.getElem?_map, List.getElem?_range (by omega)]
      rfl
    rw [hg, onCells, onCells]
    show Except.map _ (if ¬ (c (allIndex id)).toNat < (lists c).allTokens.length then _ else _) = _
    rw [hl]
    by_cases hi : (c (allIndex id)).toNat < (c all).toNat
    · rw [if_neg (not_not.mpr hi), if_pos hi]
      show Except.ok _ = Except.ok ((), view (upd (upd (upd (upd (upd c (allAt (c (allIndex id)).toNat) (c (allAt ((c all).toNat - 1)) &&& mask (w (allAt (c (allIndex id)).toNat))))
        (allIndex (c (allAt ((c all).toNat - 1)))) (c (allIndex id) &&& mask (w (allIndex (c (allAt ((c all).toNat - 1)))))))
        (allIndex id) (0#256 &&& mask (w (allIndex id)))) all ((c all - 1#256) &&& mask (w all)))
        (allAt ((c all).toNat - 1)) (0#256 &&& mask (w (allAt ((c all).toNat - 1))))) (log ++ []))
      rw [hw.all, hw.allAt, hw.allAt, hw.allIndex, hw.allIndex, mask32, mask32, mask32, mask32, List.append_nil, view_allAt, view_all,
        view_allIndex, view_allIndex, view_allAt]
      simp only [lists_all, lists_allIndex, lists_allAt]
      have e : (c all - 1#256).toNat = (c all).toNat - 1 := by
        rw [BitVec.toNat_sub]
        have : (1#256).toNat = 1 := rfl
        have := (c all).isLt
        omega
      have e2 : ((List.range (c all - 1#256).toNat).map fun i => upd (upd (upd c (allAt (c (allIndex id)).toNat) (c (allAt ((c all).toNat - 1))))
          (allIndex (c (allAt ((c all).toNat - 1)))) (c (allIndex id))) (allIndex id) 0#256 (allAt i)) =
          ((lists c).allTokens.set (c (allIndex id)).toNat (c (allAt ((c all).toNat - 1)))).dropLast := by
        rw [e]
        have h2 := congrArg Enumerable.Lists.allTokens (lists_allAt c (c (allIndex id)).toNat (c (allAt ((c all).toNat - 1))))
        dsimp only at h2
        rw [← h2]
        unfold lists
        dsimp only
        rw [upd_ne _ _ (show all ≠ allAt (c (allIndex id)).toNat by simp [all, allAt])]
        refine List.ext_getElem (by simp) fun j h1 h2 => ?_
        rw [List.getElem_dropLast, List.getElem_map, List.getElem_map, List.getElem_range, List.getElem_range,
          upd_ne _ _ (show allAt j ≠ allIndex id by simp [allAt, allIndex]),
          upd_ne _ _ (show allAt j ≠ allIndex _ by simp [allAt, allIndex])]
      rw [e2, List.set_eq_of_length_le (l := (((lists c).allTokens.set (c (allIndex id)).toNat (c (allAt ((c all).toNat - 1)))).dropLast)) (by simp [hl])]
      rfl
    · rw [if_pos hi, if_neg hi]
      rfl

/-! ## The functions of the contract -/

theorem sim_whenNotPaused : Sim w view NftDeployed.whenNotPaused
    (look fun s => Enumerable.liftP (Pausable.whenNotPaused s.pausable)) := by
  intro c log
  have hp : (view c log).pausable.paused = decide (c pausedCell ≠ 0#256) := rfl
  unfold NftDeployed.whenNotPaused look Pausable.whenNotPaused
  dsimp only
  rw [onCells, hp]
  by_cases h : c pausedCell ≠ 0#256
  · simp only [if_pos h, decide_eq_true h]
    rfl
  · simp only [if_neg h, decide_eq_false h]
    show _ = Except.ok ((), view c (log ++ []))
    rw [List.append_nil]
    rfl

theorem sim_whenPaused : Sim w view NftDeployed.whenPaused
    (look fun s => Enumerable.liftP (Pausable.whenPaused s.pausable)) := by
  intro c log
  have hp : (view c log).pausable.paused = decide (c pausedCell ≠ 0#256) := rfl
  unfold NftDeployed.whenPaused look Pausable.whenPaused
  dsimp only
  rw [onCells, hp]
  by_cases h : c pausedCell ≠ 0#256
  · simp only [if_pos h, decide_eq_true h]
    show _ = Except.ok ((), view c (log ++ []))
    rw [List.append_nil]
    rfl
  · simp only [if_neg h, decide_eq_false h]
    rfl

theorem sim_store (hw : Sizes w) (v : U256) (hv : v = 0#256 ∨ v = 1#256) (e : Pausable.Event) :
    Sim w view (.set pausedCell v (.emit (.pausable e) (.ret ()))) fun s =>
      (.ok ((), { s with pausable := { paused := decide (v ≠ 0#256), log := s.pausable.log ++ [e] } }) : Except Err _) := by
  intro c log
  show _ = Except.ok ((), view (upd c pausedCell (v &&& mask (w pausedCell))) (log ++ [_]))
  have : v &&& mask 1 = v := by rcases hv with rfl | rfl <;> decide +kernel
  rw [hw.paused, this, view_paused]

/-- The part of the token, then the lists. -/
theorem sim_mintVia (hw : Sizes w) {cap : Nat} (hcap : cap < 2 ^ 256) {m : Erc721Words.Code Unit}
    {f : Erc721.State → Except Erc721.Err Erc721.State} (hu : Uses Under m) (hm : SimT w token m (unit f)) (dst : Address) (id : U256) :
    Sim w view (NftDeployed.mintVia cap m dst id) (unit fun s => Enumerable.mintVia cap s (f s.erc721) dst id) := by
  have h := sim_bind (sim_whenNotPaused (w := w)) fun _ => sim_bind (sim_inner hu hm) fun _ =>
    sim_bind (sim_addToAll hw hcap id) fun _ => sim_addToOwner hw dst id
  intro c log
  refine Eq.trans ?_ (h c log)
  generalize view c log = s
  unfold unit look inside Enumerable.mintVia relist
  dsimp only
  cases Enumerable.liftP (Pausable.whenNotPaused s.pausable) with
  | error e => rfl
  | ok _ =>
    cases hf : f s.erc721 with
    | error e => simp only [hf, Except.map, bind, Except.bind, Enumerable.lift]
    | ok t =>
      simp only [hf, Except.map, bind, Except.bind, Enumerable.lift]
      cases Enumerable.addToAll cap s.lists id with
      | error e => rfl
      | ok l =>
        dsimp only
        cases Enumerable.addToOwner l dst id t <;> rfl

theorem sim_transferVia (hw : Sizes w) {m : Erc721Words.Code Unit}
    {f : Erc721.State → Except Erc721.Err Erc721.State} (hu : Uses Under m) (hm : SimT w token m (unit f)) (dst : Address) (id : U256) :
    Sim w view (NftDeployed.transferVia m dst id) (unit fun s => Enumerable.transferVia s (f s.erc721) dst id) := by
  have h := sim_bind (sim_whenNotPaused (w := w)) fun _ => sim_bind (sim_inner (under_owned id) (Proofs.Erc721Words.sim_owned id)) fun o =>
    sim_bind (sim_inner hu hm) fun _ =>
    sim_bind (sim_removeFromOwner hw o id) fun _ => sim_addToOwner hw dst id
  intro c log
  refine Eq.trans ?_ (h c log)
  generalize view c log = s
  unfold unit look inside Enumerable.transferVia Enumerable.relist relist Erc721.ownerOf
  dsimp only
  cases Enumerable.liftP (Pausable.whenNotPaused s.pausable) with
  | error e => rfl
  | ok _ =>
    cases ho : Erc721.requireOwned s.erc721 id with
    | error e => simp only [ho, Except.map, bind, Except.bind, Enumerable.lift]
    | ok o =>
      cases hf : f s.erc721 with
      | error e => simp only [ho, hf, Except.map, bind, Except.bind, Enumerable.lift]
      | ok t =>
        simp only [ho, hf, Except.map, bind, Except.bind, Enumerable.lift]
        cases Enumerable.removeFromOwner s.lists o id t with
        | error e => rfl
        | ok l =>
          dsimp only
          cases Enumerable.addToOwner l dst id t <;> rfl

theorem sim_burn (hw : Sizes w) (caller : Address) (id : U256) :
    Sim w view (NftDeployed.burn caller id) (unit fun s => Enumerable.burn s caller id) := by
  have h := sim_bind (sim_whenNotPaused (w := w)) fun _ => sim_bind (sim_inner (under_owned id) (Proofs.Erc721Words.sim_owned id)) fun o =>
    sim_bind (sim_inner (under_burn caller id) (Proofs.Erc721Words.sim_burn hw.token caller id)) fun _ =>
    sim_bind (sim_removeFromOwner hw o id) fun _ => sim_removeFromAll hw id
  intro c log
  refine Eq.trans ?_ (h c log)
  generalize view c log = s
  unfold unit look inside Enumerable.burn relist Erc721.ownerOf
  dsimp only
  cases Enumerable.liftP (Pausable.whenNotPaused s.pausable) with
  | error e => rfl
  | ok _ =>
    cases ho : Erc721.requireOwned s.erc721 id with
    | error e => simp only [ho, Except.map, bind, Except.bind, Enumerable.lift]
    | ok o =>
      cases hf : Erc721.burn s.erc721 caller id with
      | error e => simp only [ho, hf, Except.map, bind, Except.bind, Enumerable.lift]
      | ok t =>
        simp only [ho, hf, Except.map, bind, Except.bind, Enumerable.lift]
        cases Enumerable.removeFromOwner s.lists o id t with
        | error e => rfl
        | ok l =>
          dsimp only
          cases Enumerable.removeFromAll l id <;> rfl

theorem sim_of_inner {m : Erc721Words.Code Unit} {f : Erc721.State → Except Erc721.Err Erc721.State} (hu : Uses Under m)
    (hm : SimT w token m (unit f)) :
    Sim w view (inner m) (unit fun s => do return { s with erc721 := (← Enumerable.lift (f s.erc721)) }) := by
  have h := sim_inner hu hm
  intro c log
  refine Eq.trans ?_ (h c log)
  generalize view c log = s
  unfold inside unit
  dsimp only
  cases f s.erc721 <;> rfl

theorem sim_code (hw : Sizes w) {cap : Nat} (hcap : cap < 2 ^ 256) (R : Erc721.Receivers) (caller : Address) (call : Enumerable.Call) :
    Sim w view (NftDeployed.code cap R caller call) (unit fun s => Enumerable.exec cap s ⟨caller, R, call⟩) := by
  have ht : ∀ src dst id data, SimT w token (Erc721Words.safeTransferFromWithData token R caller src dst id data)
      (unit fun s => Erc721.safeTransferFromWithData R s caller src dst id data) := fun src dst id data =>
    Proofs.Erc721Words.sim_then (Proofs.Erc721Words.sim_transferFrom hw.token caller src dst id) R caller src dst id data
  have ut : ∀ src dst id data, Uses Under (Erc721Words.safeTransferFromWithData token R caller src dst id data) := fun src dst id data =>
    uses_bind (under_transferFrom _ _ _ _) fun _ => under_received ..
  unfold NftDeployed.code Enumerable.exec
  dsimp only
  by_cases hz : caller = ZERO
  · simp only [if_pos hz]
    exact sim_fail _
  · simp only [if_neg hz]
    cases call with
    | burn id => exact sim_burn hw caller id
    | mint dst id => exact sim_mintVia hw hcap (under_mint dst id) (Proofs.Erc721Words.sim_mint hw.token dst id) dst id
    | safeMint dst id data =>
      exact sim_mintVia hw hcap (uses_bind (under_mint dst id) fun _ => under_received ..)
        (Proofs.Erc721Words.sim_then (Proofs.Erc721Words.sim_mint hw.token dst id) R caller ZERO dst id data) dst id
    | transferFrom src dst id =>
      exact sim_transferVia hw (under_transferFrom _ _ _ _) (Proofs.Erc721Words.sim_transferFrom hw.token caller src dst id) dst id
    | safeTransferFrom src dst id => exact sim_transferVia hw (ut src dst id []) (ht src dst id []) dst id
    | safeTransferFromWithData src dst id data => exact sim_transferVia hw (ut src dst id data) (ht src dst id data) dst id
    | approve dst id => exact sim_of_inner (under_approve _ _ _ _) (Proofs.Erc721Words.sim_approve hw.token dst id caller true)
    | setApprovalForAll op b => exact sim_of_inner (under_setAll _ _ _) (Proofs.Erc721Words.sim_setAll hw.token caller op b)
    | pause =>
      have h := sim_bind (sim_whenNotPaused (w := w)) fun _ => sim_store hw 1#256 (.inr rfl) (.paused caller)
      intro c log
      refine Eq.trans ?_ (h c log)
      generalize view c log = s
      unfold unit look Pausable.pause
      dsimp only
      cases Pausable.whenNotPaused s.pausable <;> rfl
    | unpause =>
      have h := sim_bind (sim_whenPaused (w := w)) fun _ => sim_store hw 0#256 (.inl rfl) (.unpaused caller)
      intro c log
      refine Eq.trans ?_ (h c log)
      generalize view c log = s
      unfold unit look Pausable.unpause
      dsimp only
      cases Pausable.whenPaused s.pausable <;> rfl

end
end Verif.Proofs.NftDeployed
