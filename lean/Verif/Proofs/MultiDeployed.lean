import Verif.Proofs.MultiWords
import Verif.Props.Constructors
/-! # Lemmas: the multi-token contracts on storage words -/

namespace Verif.Proofs.Erc1155SupplyWords
open Verif Verif.Storage Verif.Erc1155Supply Verif.Spec.StoragePrograms Verif.Spec.MultiDeployed
open Verif.Erc1155SupplyWords (base total totalAll add adds subs)
open Verif.Props.StoragePrograms (uses_bind uses_ite)
open Verif.Proofs.Deployed (Table onCells_frame uses_mono)
open Verif.Proofs.Erc721Words (Sim unit look sim_bind sim_ite sim_fail sim_ret mask32)
open Verif.Proofs.OnWords (sim_congr sim_gate Under)
open Verif.Erc1155 (Err Event Receivers)
open Verif.Erc1155Words (Code)

variable {w : List Step → Nat} {root : List Step}

/-- The state a table stands for. -/
def view (root : List Step) (c : Table) (log : List Event) : Erc1155Supply.State :=
  ⟨Erc1155Words.view (base root) c log, fun id => c (total root id), c (totalAll root)⟩

/-- The sizes of the cells. -/
structure Sizes (w : List Step → Nat) (root : List Step) : Prop where
  base : Erc1155Words.Sizes w (base root)
  total : ∀ id, w (total root id) = 32
  all : w (totalAll root) = 32

theorem sim_part {α : Type} {m : Code α} {f : Erc1155.State → Except Err (α × Erc1155.State)} {F : Erc1155Supply.State → Except Err (α × Erc1155Supply.State)}
    (h : Sim w (Erc1155Words.view (base root)) m f) (hu : Uses (Under (base root)) m)
    (hF : ∀ s, F s = (f s.erc1155).map fun r => (r.1, { s with erc1155 := r.2 })) : Sim w (view root) m F := by
  intro c log
  rw [hF]
  show Except.map _ (f (Erc1155Words.view (base root) c log)) = _
  rw [h c log]
  cases hm : onCells w m c with
  | error e => rfl
  | ok r =>
    have e1 : ∀ id, r.2.1 (total root id) = c (total root id) := fun id =>
      onCells_frame m hu hm (by simp [Under, base, Erc1155SupplyWords.total])
    have e2 : r.2.1 (totalAll root) = c (totalAll root) := onCells_frame m hu hm (by simp [Under, base, totalAll])
    show Except.ok (r.1, (⟨_, _, _⟩ : Erc1155Supply.State)) = Except.ok (r.1, ⟨_, fun id => r.2.1 (total root id), r.2.1 (totalAll root)⟩)
    rw [e2, funext e1]
    rfl

theorem base_frame {p : List Step} (hp : ¬ Under (base root) p) (c : Table) (v : U256) (log : List Event) :
    Erc1155Words.view (base root) (upd c p v) log = Erc1155Words.view (base root) c log := by
  have e : ∀ q, upd c p v (base root ++ q) = c (base root ++ q) := fun q => upd_ne _ _ fun h => hp ⟨q, h⟩
  unfold Erc1155Words.view Erc1155Words.balance Erc1155Words.operator
  simp only [e]

theorem view_total (c : Table) (log : List Event) (id v : U256) :
    view root (upd c (total root id) v) log = { view root c log with totalSupply := upd (view root c log).totalSupply id v } := by
  unfold view
  rw [base_frame (by simp [Under, base, Erc1155SupplyWords.total])]
  congr 1
  · funext i
    by_cases e : i = id
    · subst e; rw [upd_same, upd_same]
    · rw [upd_ne _ _ e, upd_ne _ _ (by simpa [Erc1155SupplyWords.total] using e)]
  · rw [upd_ne _ _ (by simp [Erc1155SupplyWords.total, totalAll])]

theorem view_all (c : Table) (log : List Event) (v : U256) :
    view root (upd c (totalAll root) v) log = { view root c log with totalSupplyAll := v } := by
  unfold view
  rw [base_frame (by simp [Under, base, totalAll])]
  congr 1
  · funext i
    rw [upd_ne _ _ (by simp [Erc1155SupplyWords.total, totalAll])]
  · rw [upd_same]

theorem sim_add (hw : Sizes w root) (id v : U256) :
    Sim w (view root) (add (total root id) v) (unit fun s => (orPanic Err.panic (checkedAdd (s.totalSupply id) v)).map fun t =>
      { s with totalSupply := upd s.totalSupply id t }) := by
  intro c log
  show Except.map _ (Except.map _ (orPanic Err.panic (checkedAdd (c (total root id)) v))) = Except.map _ (onCells w (match checkedAdd (c (total root id)) v with | some b => _ | none => _) c)
  cases checkedAdd (c (total root id)) v with
  | none => rfl
  | some b =>
    show _ = Except.ok ((), view root (upd c _ (_ &&& mask (w (total root id)))) (log ++ []))
    rw [hw.total, mask32, view_total, List.append_nil]
    rfl

theorem sim_addAll (hw : Sizes w root) (v : U256) :
    Sim w (view root) (add (totalAll root) v) (unit fun s => (orPanic Err.panic (checkedAdd s.totalSupplyAll v)).map fun t =>
      { s with totalSupplyAll := t }) := by
  intro c log
  show Except.map _ (Except.map _ (orPanic Err.panic (checkedAdd (c (totalAll root)) v))) = Except.map _ (onCells w (match checkedAdd (c (totalAll root)) v with | some b => _ | none => _) c)
  cases checkedAdd (c (totalAll root)) v with
  | none => rfl
  | some b =>
    show _ = Except.ok ((), view root (upd c _ (_ &&& mask (w (totalAll root)))) (log ++ []))
    rw [hw.all, mask32, view_all, List.append_nil]
    rfl

theorem sim_sub (hw : Sizes w root) (id v : U256) :
    Sim w (view root) (Erc1155SupplyWords.sub (total root id) v)
      (unit fun s => .ok { s with totalSupply := upd s.totalSupply id (s.totalSupply id - v) }) := by
  intro c log
  show _ = Except.ok ((), view root (upd c _ (_ &&& mask (w (total root id)))) (log ++ []))
  rw [hw.total, mask32, view_total, List.append_nil]
  rfl

theorem sim_subAll (hw : Sizes w root) (v : U256) :
    Sim w (view root) (Erc1155SupplyWords.sub (totalAll root) v)
      (unit fun s => .ok { s with totalSupplyAll := s.totalSupplyAll - v }) := by
  intro c log
  show _ = Except.ok ((), view root (upd c _ (_ &&& mask (w (totalAll root)))) (log ++ []))
  rw [hw.all, mask32, view_all, List.append_nil]
  rfl

theorem sim_adds (hw : Sizes w root) : ∀ ps : List (U256 × U256),
    Sim w (view root) (adds root ps) (unit fun s => (addSupplies s.totalSupply ps).map fun f => { s with totalSupply := f })
  | [] => sim_ret ()
  | p :: ps => sim_congr (sim_bind (sim_add hw p.1 p.2) fun _ => sim_adds hw ps) fun s => by
      unfold unit
      show _ = Except.map _ (Except.map _ (orPanic Err.panic (checkedAdd (s.totalSupply p.1) p.2) >>= fun t => addSupplies (upd s.totalSupply p.1 t) ps))
      dsimp only
      cases orPanic Err.panic (checkedAdd (s.totalSupply p.1) p.2) <;> rfl

theorem sim_subs (hw : Sizes w root) : ∀ ps : List (U256 × U256),
    Sim w (view root) (subs root ps) (unit fun s => .ok { s with totalSupply := subSupplies s.totalSupply ps })
  | [] => sim_ret ()
  | p :: ps => sim_congr (sim_bind (sim_sub hw p.1 p.2) fun _ => sim_subs hw ps) fun _ => rfl

theorem under_update {op src dst : Address} {ids vs : List U256} :
    Uses (Under (base root)) (Erc1155Words.update (base root) op src dst ids vs) :=
  Erc1155Words.uses_update Erc1155Words.under_moves

theorem sim_update (hw : Sizes w root) (op src dst : Address) (ids vs : List U256) :
    Sim w (view root) (Erc1155SupplyWords.update root op src dst ids vs) (unit fun s => Erc1155Supply.update s op src dst ids vs) := by
  refine sim_congr (sim_bind (sim_part (Erc1155Words.sim_update hw.base op src dst ids vs) under_update fun _ => rfl) fun _ =>
    sim_bind (sim_ite (P := src = ZERO) (sim_bind (sim_adds hw (ids.zip vs)) fun _ => sim_addAll hw (wrappingSum vs)) (sim_ret ())) fun _ =>
    sim_ite (P := dst = ZERO) (sim_bind (sim_subs hw (ids.zip vs)) fun _ => sim_subAll hw (wrappingSum vs)) (sim_ret ())) fun s => ?_
  unfold unit Erc1155Supply.update
  dsimp only
  cases Erc1155.update s.erc1155 op src dst ids vs with
  | error e => rfl
  | ok t =>
    by_cases h : src = ZERO
    · simp only [if_pos h, Except.map, bind, Except.bind, pure, Except.pure]
      cases addSupplies s.totalSupply (ids.zip vs) with
      | error e => rfl
      | ok f =>
        dsimp only
        cases orPanic Err.panic (checkedAdd s.totalSupplyAll (wrappingSum vs)) with
        | error e => rfl
        | ok all =>
          dsimp only
          by_cases h' : dst = ZERO
          · simp only [if_pos h']
          · simp only [if_neg h']
    · simp only [if_neg h, Except.map, bind, Except.bind, pure, Except.pure]
      by_cases h' : dst = ZERO
      · simp only [if_pos h']
      · simp only [if_neg h']

theorem sim_accepted (hw : Sizes w root) (R : Receivers) (op src dst : Address) (ids vs : List U256) (data : Bytes) :
    Sim w (view root) (Erc1155SupplyWords.updateAccepted root R op src dst ids vs data)
      (unit fun s => updateWithAcceptanceCheck R s op src dst ids vs data) :=
  sim_congr (sim_bind (sim_update hw op src dst ids vs) fun _ => Erc1155Words.sim_received R op src dst ids vs data) fun s => by
    unfold look unit updateWithAcceptanceCheck
    dsimp only
    cases Erc1155Supply.update s op src dst ids vs with
    | error e => rfl
    | ok s' =>
      by_cases h : dst ≠ ZERO
      · simp only [if_pos h]
        show Except.map _ (Erc1155.checkOnReceived R dst _) = Except.map _ (Erc1155.checkOnReceived R dst _ >>= _)
        cases Erc1155.checkOnReceived R dst (Erc1155.receiverData op src ids vs data) <;> rfl
      · simp only [if_neg h]; rfl

theorem sim_mint (hw : Sizes w root) (R : Receivers) (caller dst : Address) (ids vs : List U256) (data : Bytes) :
    Sim w (view root) (Erc1155SupplyWords.doMint root R caller dst ids vs data)
      (unit fun s => Erc1155Supply.doMint R s caller dst ids vs data) :=
  sim_congr (sim_ite (P := dst = ZERO) (sim_fail _) (sim_accepted hw R caller ZERO dst ids vs data)) fun s => by
    unfold unit Erc1155Supply.doMint
    dsimp only
    split <;> rfl

theorem sim_burn (hw : Sizes w root) (R : Receivers) (caller src : Address) (ids vs : List U256) :
    Sim w (view root) (Erc1155SupplyWords.doBurn root R caller src ids vs)
      (unit fun s => Erc1155Supply.doBurn R s caller src ids vs) :=
  sim_congr (sim_ite (P := src = ZERO) (sim_fail _) (sim_accepted hw R caller src ZERO ids vs [])) fun s => by
    unfold unit Erc1155Supply.doBurn
    dsimp only
    split <;> rfl

theorem sim_transfer (hw : Sizes w root) (R : Receivers) (caller src dst : Address) (ids vs : List U256) (data : Bytes) :
    Sim w (view root) (Erc1155SupplyWords.doTransfer root R caller src dst ids vs data)
      (unit fun s => doSafeTransferFrom R s caller src dst ids vs data) :=
  sim_congr (sim_ite (P := dst = ZERO) (sim_fail _) (sim_ite (P := src = ZERO) (sim_fail _)
    (sim_accepted hw R caller src dst ids vs data))) fun s => by
    unfold unit doSafeTransferFrom
    dsimp only
    split
    · rfl
    · split <;> rfl

theorem sim_authorize (caller src : Address) :
    Sim w (view root) (Erc1155Words.authorize (base root) caller src) (look fun s => Erc1155.authorizeTransfer s.erc1155 caller src) :=
  sim_part (Erc1155Words.sim_authorize caller src) (Erc1155Words.uses_authorize ⟨_, rfl⟩) fun s => by
    unfold look
    dsimp only
    cases Erc1155.authorizeTransfer s.erc1155 caller src <;> rfl

theorem sim_code (hw : Sizes w root) (R : Receivers) (caller : Address) (call : Call) :
    Sim w (view root) (Erc1155SupplyWords.code root R caller call) (unit fun s => Erc1155Supply.exec s ⟨caller, R, call⟩) := by
  have g : ∀ {src : Address} {m : Code Unit} {f F : Erc1155Supply.State → Except Err Erc1155Supply.State}
      (_ : Sim w (view root) m (unit f)) (_ : ∀ s, F s = Erc1155.authorizeTransfer s.erc1155 caller src >>= fun _ => f s),
      Sim w (view root) ((Erc1155Words.authorize (base root) caller src).bind fun _ => m) (unit F) := by
    intro src m f F h e
    refine sim_congr (sim_gate (sim_authorize caller src) h) fun s => ?_
    unfold unit
    rw [e]
    cases Erc1155.authorizeTransfer s.erc1155 caller src <;> rfl
  cases call with
  | safeTransferFrom src dst id v data => exact g (sim_transfer hw R caller src dst [id] [v] data) fun _ => rfl
  | safeBatchTransferFrom src dst ids vs data => exact g (sim_transfer hw R caller src dst ids vs data) fun _ => rfl
  | setApprovalForAll op b =>
    refine sim_part (Erc1155Words.sim_approval hw.base caller op b) (Erc1155Words.uses_approval ⟨_, rfl⟩) fun s => ?_
    show unit (fun s => Erc1155.setApprovalForAll s.erc1155 caller op b >>= _) s = _
    unfold unit
    dsimp only
    cases Erc1155.setApprovalForAll s.erc1155 caller op b <;> rfl
  | mint dst id v data => exact sim_mint hw R caller dst [id] [v] data
  | mintBatch dst ids vs data => exact sim_mint hw R caller dst ids vs data
  | burn src id v => exact sim_burn hw R caller src [id] [v]
  | burnBatch src ids vs => exact sim_burn hw R caller src ids vs

/-! ### The cells in use -/

/-- The cells that accounts of `S` and tokens of `N` can reach. -/
def Cells (root : List Step) (S : List Address) (N : List U256) (p : List Step) : Prop :=
  Holdings (base root) S N p ∨ (∃ id ∈ N, p = total root id) ∨ p = totalAll root

section
variable {S : List Address} {N : List U256}

theorem uses_adds : ∀ {ps : List (U256 × U256)} (_ : ∀ p ∈ ps, p.1 ∈ N), Uses (Cells root S N) (adds root ps)
  | [], _ => trivial
  | p :: ps, h => by
    have hp : Cells root S N (total root p.1) := .inr (.inl ⟨_, h p List.mem_cons_self, rfl⟩)
    refine uses_bind ⟨hp, fun t => ?_⟩ fun _ => uses_adds fun p hp => h p (List.mem_cons_of_mem _ hp)
    dsimp only
    split
    · exact ⟨hp, trivial⟩
    · trivial

theorem uses_subs : ∀ {ps : List (U256 × U256)} (_ : ∀ p ∈ ps, p.1 ∈ N), Uses (Cells root S N) (subs root ps)
  | [], _ => trivial
  | p :: ps, h => by
    have hp : Cells root S N (total root p.1) := .inr (.inl ⟨_, h p List.mem_cons_self, rfl⟩)
    exact uses_bind ⟨hp, fun _ => ⟨hp, trivial⟩⟩ fun _ => uses_subs fun p hp => h p (List.mem_cons_of_mem _ hp)

theorem uses_accepted {R : Receivers} {op src dst : Address} {ids vs : List U256} {data : Bytes} (hs : src = ZERO ∨ src ∈ S)
    (hd : dst = ZERO ∨ dst ∈ S) (hi : ∀ id ∈ ids, id ∈ N) :
    Uses (Cells root S N) (Erc1155SupplyWords.updateAccepted root R op src dst ids vs data) := by
  have ha : Cells root S N (totalAll root) := .inr (.inr rfl)
  have hz : ∀ p ∈ ids.zip vs, p.1 ∈ N := fun p hp => hi _ (List.of_mem_zip hp).1
  refine uses_bind (uses_bind (uses_mono (fun _ => .inl) _ (Erc1155Words.uses_update (Erc1155Words.moves hs hd hi))) fun _ =>
    uses_bind (uses_ite (uses_bind (uses_adds hz) fun _ => ⟨ha, fun t => ?_⟩) trivial) fun _ =>
    uses_ite (uses_bind (uses_subs hz) fun _ => ⟨ha, fun _ => ⟨ha, trivial⟩⟩) trivial) fun _ => Erc1155Words.uses_received
  dsimp only
  split
  · exact ⟨ha, trivial⟩
  · trivial

/-- The accounts and the tokens of a call. -/
def Named (S : List Address) (N : List U256) : Call → Prop
  | .safeTransferFrom src dst id _ _ => src ∈ S ∧ dst ∈ S ∧ id ∈ N
  | .safeBatchTransferFrom src dst ids _ _ => src ∈ S ∧ dst ∈ S ∧ ∀ id ∈ ids, id ∈ N
  | .setApprovalForAll op _ => op ∈ S
  | .mint dst id _ _ => dst ∈ S ∧ id ∈ N
  | .mintBatch dst ids _ _ => dst ∈ S ∧ ∀ id ∈ ids, id ∈ N
  | .burn src id _ => src ∈ S ∧ id ∈ N
  | .burnBatch src ids _ => src ∈ S ∧ ∀ id ∈ ids, id ∈ N

theorem uses_code {R : Receivers} {caller : Address} (hc : caller ∈ S) {call : Call} (h : Named S N call) :
    Uses (Cells root S N) (Erc1155SupplyWords.code root R caller call) := by
  have z : (ZERO : Address) = ZERO ∨ (ZERO : Address) ∈ S := .inl rfl
  have one : ∀ {id : U256}, id ∈ N → ∀ i ∈ [id], i ∈ N := fun h i hi => by rw [List.mem_singleton.mp hi]; exact h
  have auth : ∀ {src : Address}, src ∈ S → Uses (Cells root S N) (Erc1155Words.authorize (base root) caller src) := fun h =>
    Erc1155Words.uses_authorize (.inl (.inr ⟨_, h, _, hc, rfl⟩))
  cases call with
  | safeTransferFrom src dst id v data =>
    exact uses_bind (auth h.1) fun _ => uses_ite trivial (uses_ite trivial (uses_accepted (.inr h.1) (.inr h.2.1) (one h.2.2)))
  | safeBatchTransferFrom src dst ids vs data =>
    exact uses_bind (auth h.1) fun _ => uses_ite trivial (uses_ite trivial (uses_accepted (.inr h.1) (.inr h.2.1) h.2.2))
  | setApprovalForAll op b => exact Erc1155Words.uses_approval (.inl (.inr ⟨_, hc, _, h, rfl⟩))
  | mint dst id v data => exact uses_ite trivial (uses_accepted z (.inr h.1) (one h.2))
  | mintBatch dst ids vs data => exact uses_ite trivial (uses_accepted z (.inr h.1) h.2)
  | burn src id v => exact uses_ite trivial (uses_accepted (.inr h.1) z (one h.2))
  | burnBatch src ids vs => exact uses_ite trivial (uses_accepted (.inr h.1) z h.2)

end
end Verif.Proofs.Erc1155SupplyWords

namespace Verif.Proofs.MultiDeployed
open Verif Verif.Storage Verif.Spec.StoragePrograms Verif.Spec.MultiDeployed Verif.Proofs.OnWords
open Verif.Proofs.Deployed (Table used_of_uses uses_mono)
open Verif.Proofs.Erc721Words (Sim unit look)
open Verif.Abi (Val)
open Verif.Erc1155 (Err Event)

variable {V σ : Type} {w : List Step → Nat} {C : List Step → Prop} {view : Table → List V → σ} {Good : σ → Prop} {c : Table} {log : List V}

/-- A function whose answer is known without the storage. -/
theorem fits_ret (h : Good (view c log)) (l : List Val) : Fits w C view Good c log (.ret l) (.ok (view c log, l)) :=
  ⟨trivial, rfl, (congrArg (view c) (List.append_nil log)).symm, h⟩

/-- The views of the token. -/
theorem fits_views {K : Hash} {root : List Step} {S : List Address} {N : List U256} {get : σ → Erc1155.State} {fv : Event → V} {t : String}
    (h : Good (view c log)) (hC : ∀ p, Holdings root S N p → C p)
    (hb : ∀ id a, (get (view c log)).balances id a = c (Erc1155Words.balance root id a))
    (ho : ∀ a b, (get (view c log)).operatorApprovals a b = decide (c (Erc1155Words.operator root a b) ≠ 0#256))
    (hs : ∀ as ids, Sim w view ((Erc1155Words.balanceOfBatch root as ids).lift id fv) (look fun s => Erc1155.balanceOfBatch (get s) as ids))
    {args : List Val} (ha : ∀ a, Names args a → a ∈ S) (hn : ∀ id ∈ tokensOf args, id ∈ N) :
    List.Forall₂ (fun (r : OnWords.Row V) (r' : Contracts.Row σ) =>
      r.1 = r'.1 ∧ r.2.1 = r'.2.1 ∧ Fits w C view Good c log (r.2.2 args) (r'.2.2 args))
      (MultiWords.views K root fv t) (Contracts.erc1155Views K t (view c log) (get (view c log))) := by
  have batch : ∀ (as : List Address) (ids : List U256) (_ : ∀ a ∈ as, a ∈ S) (_ : ∀ id ∈ ids, id ∈ N),
      Fits w C view Good c log
        (OnWords.finish K Revert.erc1155 (fun l => [.uints l]) ((Erc1155Words.balanceOfBatch root as ids).lift id fv))
        (Contracts.view K Revert.erc1155 (view c log) (Contracts.one .uints (Erc1155.balanceOfBatch (get (view c log)) as ids))) := by
    intro as ids h1 h2
    have hr := fits_sim (w := w) (C := C) (c := c) (log := log) (Good := Good) K Revert.erc1155 (hs as ids)
      (used_lift _ (used_of_uses _ _ (Erc1155Words.uses_batch fun id hi a hx => hC _ (.inl ⟨id, h2 _ hi, a, h1 _ hx, rfl⟩))))
      (fun _ _ e => (look_ok e).2 ▸ h) (fun l => [.uints l])
    revert hr
    unfold look
    dsimp only
    cases Erc1155.balanceOfBatch (get (view c log)) as ids <;> exact fun h => h
  refine .cons ⟨rfl, rfl, ?_⟩ (.cons ⟨rfl, rfl, ?_⟩ (.cons ⟨rfl, rfl, ?_⟩ .nil))
  · dsimp only
    split
    · next a id =>
      dsimp only
      rw [show Erc1155.balanceOf (get (view c log)) a id = _ from hb id a]
      exact fits_get h (hC _ (.inl ⟨_, hn _ (by simp [tokensOf]), _, ha _ (.inl (by simp)), rfl⟩)) (fun v => [.uint256 v])
    · next h =>
      split
      · exact absurd rfl (h _ _)
      · exact fits_fail
  · takes batch _ _ (fun a hx => ha a (.inr ⟨_, by simp, hx⟩)) (fun id hi => hn id (by simpa [tokensOf] using hi))
  · dsimp only
    split
    · next a b =>
      dsimp only
      rw [show Erc1155.isApprovedForAll (get (view c log)) a b = _ from ho a b]
      exact fits_get h (hC _ (.inr ⟨_, ha _ (.inl (by simp)), _, ha _ (.inl (by simp)), rfl⟩)) (fun v => [.bool (decide (v ≠ 0#256))])
    · next h =>
      split
      · exact absurd rfl (h _ _)
      · exact fits_fail

end Verif.Proofs.MultiDeployed

namespace Verif.Proofs.Erc1155Deployed
open Verif Verif.Storage Verif.Erc1155Example Verif.Erc1155Deployed Verif.Spec.Erc1155Deployed Verif.Spec.StoragePrograms
open Verif.Spec.MultiDeployed Verif.Proofs.MultiDeployed
open Verif.Proofs.OnWords
open Verif.Proofs.Deployed (Table used_of_uses uses_mono uses_lift)
open Verif.Props.StoragePrograms (uses_bind)
open Verif.Proofs.Erc721Words (Sim unit look)
open Verif.Abi (Val Decoder Outcome)
open Verif.Spec.Deployed (answer)
open Verif.Spec.OnWords (Apart)
open Verif.Spec.Contracts (Raw after)
open Verif.Contracts (Env)

/-- The state a table stands for. -/
abbrev view := both State.mk (Erc1155Words.view tokens) (PausableWords.view gate)

theorem frame {c c' : Table} (h : ∀ p, ¬ Under tokens p → c' p = c p) (log : List Pausable.Event) :
    PausableWords.view gate c' log = PausableWords.view gate c log := by
  unfold PausableWords.view
  rw [h _ (by simp [Under, tokens, PausableWords.flag, gate])]

theorem frame' {c c' : Table} (h : ∀ p, ¬ Under gate p → c' p = c p) (log : List Erc1155.Event) :
    Erc1155Words.view tokens c' log = Erc1155Words.view tokens c log :=
  Erc1155Words.view_frame (fun q => by simp [tokens, gate]) h log

/-- The sizes of the cells. -/
structure Sizes (w : List Step → Nat) : Prop where
  tokens : Erc1155Words.Sizes w tokens
  gate : w (PausableWords.flag gate) = 1

section
variable {w : List Step → Nat}

theorem sim_inner (hw : Sizes w) (R : Erc1155.Receivers) (caller : Address) (c : Erc1155.UserCall ⊕ Erc1155.AdminCall) :
    Sim w view (inner R caller c) (unit fun s => do return { s with erc1155 := (← lift (Erc1155.exec s.erc1155 ⟨caller, R, c⟩)) }) :=
  sim_left (Erc1155Words.sim_code hw.tokens R caller c) (Erc1155Words.under_code R caller c) (fun _ _ h => frame h) fun a b => by
    unfold unit
    dsimp only
    cases Erc1155.exec a ⟨caller, R, c⟩ <;> rfl

theorem sim_not : Sim w view ((PausableWords.whenNotPaused gate).lift .pausable .inr)
    (look fun s => liftP (Pausable.whenNotPaused s.pausable)) :=
  sim_right PausableWords.sim_not (uses_mono (fun _ => PausableWords.under) _ PausableWords.uses_not) (fun _ _ h => frame' h) fun a b => by
    unfold look
    dsimp only
    cases Pausable.whenNotPaused b <;> rfl

theorem sim_gated (hw : Sizes w) (R : Erc1155.Receivers) (caller : Address) (c : Erc1155.UserCall ⊕ Erc1155.AdminCall) :
    Sim w view (Erc1155Deployed.gated R caller c) (unit fun s => Erc1155Example.gated s (Erc1155.exec s.erc1155 ⟨caller, R, c⟩)) :=
  sim_congr (sim_gate sim_not (sim_inner hw R caller c)) fun s => by
    unfold unit Erc1155Example.gated
    dsimp only
    cases liftP (Pausable.whenNotPaused s.pausable) <;> rfl

theorem sim_pause (hw : Sizes w) (caller : Address) (c : Pausable.Call) :
    Sim w view ((PausableWords.code gate caller c).lift .pausable .inr)
      (unit fun s => do return { s with pausable := (← liftP (Pausable.exec s.pausable (caller, c))) }) :=
  sim_right (PausableWords.sim_code hw.gate caller c) (uses_mono (fun _ => PausableWords.under) _ (PausableWords.uses_code caller c))
    (fun _ _ h => frame' h) fun a b => by
    unfold unit
    dsimp only
    cases Pausable.exec b (caller, c) <;> rfl

theorem sim_code (hw : Sizes w) (R : Erc1155.Receivers) (caller : Address) (call : Call) :
    Sim w view (code R caller call) (unit fun s => exec s ⟨caller, R, call⟩) := by
  cases call with
  | mint dst id v data => exact sim_gated hw R caller _
  | mintBatch dst ids vs data => exact sim_gated hw R caller _
  | burn a id v => exact sim_gated hw R caller _
  | burnBatch a ids vs => exact sim_gated hw R caller _
  | safeTransferFrom src dst id v data => exact sim_gated hw R caller _
  | safeBatchTransferFrom src dst ids vs data => exact sim_gated hw R caller _
  | setApprovalForAll op b => exact sim_inner hw R caller _
  | pause => exact sim_pause hw caller .pause
  | unpause => exact sim_pause hw caller .unpause

/-- The accounts and the tokens of a call. -/
def Named (S : List Address) (N : List U256) : Call → Prop
  | .mint dst id v data => Erc1155Words.Named S N (.inr (.mint dst id v data))
  | .mintBatch dst ids vs data => Erc1155Words.Named S N (.inr (.mintBatch dst ids vs data))
  | .burn a id v => Erc1155Words.Named S N (.inl (.burn a id v))
  | .burnBatch a ids vs => Erc1155Words.Named S N (.inl (.burnBatch a ids vs))
  | .safeTransferFrom src dst id v data => Erc1155Words.Named S N (.inl (.safeTransferFrom src dst id v data))
  | .safeBatchTransferFrom src dst ids vs data => Erc1155Words.Named S N (.inl (.safeBatchTransferFrom src dst ids vs data))
  | .setApprovalForAll op b => Erc1155Words.Named S N (.inl (.setApprovalForAll op b))
  | .pause => True
  | .unpause => True

section
variable {S : List Address} {N : List U256}

theorem uses_inner {R : Erc1155.Receivers} {caller : Address} (hc : caller ∈ S) {c : Erc1155.UserCall ⊕ Erc1155.AdminCall}
    (h : Erc1155Words.Named S N c) : Uses (Cells S N) (inner R caller c) :=
  uses_lift _ (uses_mono (fun _ => .inl) _ (Erc1155Words.uses_code hc h))

theorem uses_gated {R : Erc1155.Receivers} {caller : Address} (hc : caller ∈ S) {c : Erc1155.UserCall ⊕ Erc1155.AdminCall}
    (h : Erc1155Words.Named S N c) : Uses (Cells S N) (Erc1155Deployed.gated R caller c) :=
  uses_bind (uses_lift _ (uses_mono (fun _ => .inr) _ PausableWords.uses_not)) fun _ => uses_inner hc h

theorem uses_code {R : Erc1155.Receivers} {caller : Address} (hc : caller ∈ S) {call : Call} (h : Named S N call) :
    Uses (Cells S N) (code R caller call) := by
  cases call with
  | setApprovalForAll op b => exact uses_inner hc h
  | pause => exact uses_lift _ (uses_mono (fun _ => .inr) _ (PausableWords.uses_code caller .pause))
  | unpause => exact uses_lift _ (uses_mono (fun _ => .inr) _ (PausableWords.uses_code caller .unpause))
  | _ => exact uses_gated hc h

theorem sim_batch (as : List Address) (ids : List U256) :
    Sim w view ((Erc1155Words.balanceOfBatch tokens as ids).lift id .inl) (look fun s => Erc1155.balanceOfBatch s.erc1155 as ids) :=
  sim_left (Erc1155Words.sim_batch as ids) (Erc1155Words.uses_batch fun _ _ _ _ => ⟨_, rfl⟩) (fun _ _ h => frame h) fun a b => by
    unfold look
    dsimp only
    cases Erc1155.balanceOfBatch a as ids <;> rfl

theorem fits (hw : Sizes w) {c : Table} {log : List Ev} (K : Hash) (D : Decoder) {env : Env} (hc : env.caller ∈ S) (t f : String)
    {args : List Val} (ha : ∀ a, Names args a → a ∈ S) (hn : ∀ id ∈ tokensOf args, id ∈ N) :
    Fits w (Cells S N) view (fun _ => True) c log (program K D env t f args) (Contracts.erc1155 K D env t f args (view c log)) := by
  have r : ∀ {call : Call} (_ : Named S N call) (r : List Val), Fits w (Cells S N) view (fun _ => True) c log
      (OnWords.finish K Contracts.erc1155Reply (fun _ => r) (code (Calls.receivers1155 K D env.world) env.caller call))
      (Entry.finish K Contracts.erc1155Reply r (exec (view c log) ⟨env.caller, Calls.receivers1155 K D env.world, call⟩)) := fun hn r =>
    fits_call K _ (sim_code hw _ _ _) (used_of_uses _ _ (uses_code hc hn)) (fun _ _ => trivial) r
  have v := fits_views (K := K) (w := w) (C := Cells S N) (Good := fun _ => True) (view := view) (c := c) (log := log) (get := State.erc1155)
    (root := tokens) (fv := Sum.inl) (t := "Erc1155") trivial (fun _ => .inl) (fun _ _ => rfl) (fun _ _ => rfl) sim_batch ha hn
  have a1 : ∀ {a : Address}, Val.address a ∈ args → a ∈ S := fun h => ha _ (.inl h)
  unfold program Contracts.erc1155
  refine fits_table (.cons ⟨rfl, rfl, ?_⟩ (.cons ⟨rfl, rfl, ?_⟩ (.cons ⟨rfl, rfl, ?_⟩ (.cons ⟨rfl, rfl, ?_⟩ (.cons ⟨rfl, rfl, ?_⟩
    (.cons ⟨rfl, rfl, ?_⟩ (.cons ⟨rfl, rfl, ?_⟩ (.cons ⟨rfl, rfl, ?_⟩ (.cons ⟨rfl, rfl, ?_⟩ (.cons ⟨rfl, rfl, ?_⟩ (.cons ⟨rfl, rfl, ?_⟩ v)))))))))))
  · takes r (call := .mint _ _ _ _) ⟨a1 (by simp), hn _ (by simp [tokensOf])⟩ _
  · takes r (call := .mintBatch _ _ _ _) ⟨a1 (by simp), fun i hi => hn i (by simpa [tokensOf] using hi)⟩ _
  · takes r (call := .burn _ _ _) ⟨a1 (by simp), hn _ (by simp [tokensOf])⟩ _
  · takes r (call := .burnBatch _ _ _) ⟨a1 (by simp), fun i hi => hn i (by simpa [tokensOf] using hi)⟩ _
  · takes r (call := .safeTransferFrom _ _ _ _ _) ⟨a1 (by simp), a1 (by simp), hn _ (by simp [tokensOf])⟩ _
  · takes r (call := .safeBatchTransferFrom _ _ _ _ _) ⟨a1 (by simp), a1 (by simp), fun i hi => hn i (by simpa [tokensOf] using hi)⟩ _
  · takes fits_ret trivial _
  · takes r (call := .pause) trivial _
  · takes r (call := .unpause) trivial _
  · takes r (call := .setApprovalForAll _ _) (a1 (by simp)) _
  · takes fits_get trivial (.inr rfl) (fun v => [.bool (decide (v ≠ 0#256))])

end
end

theorem sizes (K : Hash) : Sizes (widthAt K erc1155Example) := ⟨⟨fun _ _ => rfl, fun _ _ => rfl⟩, rfl⟩

/-- The contract with independent mappings. -/
def model (K : Hash) (D : Decoder) (env : Env) (s : State) (value : U256) (input : Bytes) : Outcome State :=
  Abi.entry K D Router.erc1155Example (Contracts.erc1155 K D env) s value input

section
variable {K : Hash} {n : Nat} {S : List Address} {N : List U256}

/-- The words and the state agree. -/
abbrev Agrees (K : Hash) (S : List Address) (N : List U256) := Inv K erc1155Example (Cells S N) view fun _ => True

theorem inv_step (h : Apart K n erc1155Example (Cells S N)) (D : Decoder) {w : OnWords.State Ev} {s : State} (hi : Agrees K S N w s)
    {tx : Raw Env} (hx : Within K D Router.erc1155Example S N tx) :
    answer (entry K D tx.env w tx.value tx.input) = answer (model K D tx.env s tx.value tx.input) ∧
    Agrees K S N ((entry K D tx.env w tx.value tx.input).after w) ((model K D tx.env s tx.value tx.input).after s) :=
  step (by decide) h D Router.erc1155Example hi tx.value tx.input fun u f args hr hd _ _ _ =>
    fits (sizes K) K D hx.sender u f.rustName (hx.accounts args ⟨u, f, hr, hd⟩) (hx.tokens args ⟨u, f, hr, hd⟩)

theorem inv_run (h : Apart K n erc1155Example (Cells S N)) (D : Decoder) (txs : List (Raw Env)) {w : OnWords.State Ev} {s : State}
    (hi : Agrees K S N w s) (hx : ∀ tx ∈ txs, Within K D Router.erc1155Example S N tx) :
    Agrees K S N (after (entry K D) w txs) (after (model K D) s txs) :=
  steps (run := entry K D) (run' := model K D) (I := Agrees K S N) (ok := Within K D Router.erc1155Example S N)
    (fun _ _ _ hi hx => (inv_step h D hi hx).2) txs hi hx

theorem inv_deploy (h : Apart K n erc1155Example (Cells S N)) {w : OnWords.State Ev} (hd : deploy K = some w) : Agrees K S N w init := by
  have hz := Props.Constructors.C99_erc1155 K
  unfold deploy at hd
  obtain ⟨ws, h1, h2⟩ := Option.bind_eq_some_iff.mp hd
  obtain ⟨st, h3, rfl⟩ := Option.map_eq_some_iff.mp h2
  rw [h1, Option.bind_some, h3] at hz
  obtain ⟨st', h4, h5⟩ := assign_one (t := erc1155Example) (by decide) h (p := PausableWords.flag gate) (.inr rfl) 0#256
  have hz : some st = some st' := hz.trans h4
  have hz := Option.some.inj hz
  subst hz
  refine ⟨trivial, _, h5, ?_⟩
  have e0 : upd (fun _ => 0#256) (PausableWords.flag gate) (0#256 &&& mask (widthAt K erc1155Example (PausableWords.flag gate))) =
      fun _ => 0#256 := by
    funext p
    rw [BitVec.zero_and]
    unfold upd
    split <;> rfl
  rw [e0]
  rfl

theorem deploys : ∃ w, deploy K = some w := ⟨_, rfl⟩

end
end Verif.Proofs.Erc1155Deployed

namespace Verif.Proofs.Erc1155SupplyDeployed
open Verif Verif.Storage Verif.Erc1155Supply Verif.Erc1155SupplyDeployed Verif.Spec.Erc1155SupplyDeployed Verif.Spec.StoragePrograms
open Verif.Spec.MultiDeployed Verif.Proofs.MultiDeployed
open Verif.Proofs.OnWords
open Verif.Proofs.Deployed (Table used_of_uses uses_mono uses_lift onCells_lift onCells_frame)
open Verif.Props.StoragePrograms (key_inj)
open Verif.Proofs.Erc721Words (Sim unit look)
open Verif.Abi (Val Decoder Outcome)
open Verif.Spec.Deployed (answer)
open Verif.Spec.OnWords (Apart)
open Verif.Spec.Contracts (Raw after)
open Verif.Contracts (Env)
open Verif.Erc1155 (Event)

/-- The state a table stands for. -/
abbrev view := Erc1155SupplyWords.view root

section
variable {w : List Step → Nat} {S : List Address} {N : List U256}

theorem sim_batch (as : List Address) (ids : List U256) :
    Sim w view ((Erc1155Words.balanceOfBatch (Erc1155SupplyWords.base root) as ids).lift id id)
      (look fun s => Erc1155.balanceOfBatch s.erc1155 as ids) := by
  intro c log
  have h := Erc1155SupplyWords.sim_part (w := w) (root := root) (F := look fun s => Erc1155.balanceOfBatch s.erc1155 as ids)
    (Erc1155Words.sim_batch as ids) (Erc1155Words.uses_batch fun _ _ _ _ => ⟨_, rfl⟩)
    (fun s => by unfold look; dsimp only; cases Erc1155.balanceOfBatch s.erc1155 as ids <;> rfl) c log
  rw [h, onCells_lift]
  cases onCells w (Erc1155Words.balanceOfBatch (Erc1155SupplyWords.base root) as ids) c with
  | error e => rfl
  | ok r =>
    show _ = Except.ok (r.1, view r.2.1 (log ++ r.2.2.map id))
    rw [List.map_id]
    rfl

/-- Accounts that do not take part hold nothing. -/
def Good (S : List Address) (s : State) : Prop := ∀ id a, a ∉ S → s.erc1155.balances id a = 0#256

theorem outside {id : U256} {a : Address} (ha : a ∉ S) : ¬ Cells S N (Erc1155Words.balance (Erc1155SupplyWords.base root) id a) := by
  rintro ((⟨i, _, b, hb, h⟩ | ⟨x, _, y, _, h⟩) | ⟨i, _, h⟩ | h)
  · have h := List.append_cancel_left (as := Erc1155SupplyWords.base root) h
    simp only [List.cons.injEq, Step.key.injEq, and_true, true_and] at h
    exact ha (key_inj h.2 ▸ hb)
  · have h := List.append_cancel_left (as := Erc1155SupplyWords.base root) h
    simp at h
  · simp [Erc1155Words.balance, Erc1155SupplyWords.base, root] at h
  · simp [Erc1155Words.balance, Erc1155SupplyWords.base, root] at h

theorem good_code (hw : Erc1155SupplyWords.Sizes w root) {c : Table} {log : List Event} (h : Good S (view c log)) {R : Erc1155.Receivers}
    {caller : Address} (hc : caller ∈ S) {call : Call} (hn : Erc1155SupplyWords.Named S N call) {s' : State}
    (he : exec (view c log) ⟨caller, R, call⟩ = .ok s') : Good S s' := by
  have h1 := Erc1155SupplyWords.sim_code hw R caller call c log
  have hu : Uses (Cells S N) (Erc1155SupplyWords.code root R caller call) :=
    Erc1155SupplyWords.uses_code (root := root) (N := N) hc hn
  unfold unit at h1
  dsimp only at h1
  rw [he] at h1
  cases hm : onCells w (Erc1155SupplyWords.code root R caller call) c with
  | error e => rw [hm] at h1; cases h1
  | ok r =>
    rw [hm] at h1
    have h1 : s' = view r.2.1 (log ++ r.2.2) := congrArg Prod.snd (Except.ok.inj h1)
    subst h1
    intro id a ha
    exact (onCells_frame _ hu hm (outside ha)).trans (h id a ha)

theorem fits (hw : Erc1155SupplyWords.Sizes w root) {c : Table} {log : List Event} (h : Good S (view c log)) (K : Hash) (D : Decoder) {env : Env}
    (hc : env.caller ∈ S) (t f : String) {args : List Val} (ha : ∀ a, Names args a → a ∈ S) (hn : ∀ id ∈ tokensOf args, id ∈ N) :
    Fits w (Cells S N) view (Good S) c log (program K D env t f args) (Contracts.erc1155Supply K D env t f args (view c log)) := by
  have r : ∀ {call : Call} (_ : Erc1155SupplyWords.Named S N call) (r : List Val), Fits w (Cells S N) view (Good S) c log
      (OnWords.finish K Revert.erc1155 (fun _ => r) (Erc1155SupplyWords.code root (Calls.receivers1155 K D env.world) env.caller call))
      (Entry.finish K Revert.erc1155 r (exec (view c log) ⟨env.caller, Calls.receivers1155 K D env.world, call⟩)) := fun hn r =>
    fits_call K _ (Erc1155SupplyWords.sim_code hw _ _ _)
      (used_of_uses _ _ (uses_mono (fun _ h => h) _ (Erc1155SupplyWords.uses_code hc hn))) (fun _ e => good_code hw h hc hn e) r
  have v := fits_views (K := K) (w := w) (C := Cells S N) (Good := Good S) (view := view) (c := c) (log := log) (get := State.erc1155)
    (root := Erc1155SupplyWords.base root) (fv := id) (t := "Erc1155Supply") h (fun _ => .inl) (fun _ _ => rfl) (fun _ _ => rfl)
    sim_batch ha hn
  have a1 : ∀ {a : Address}, Val.address a ∈ args → a ∈ S := fun h => ha _ (.inl h)
  unfold program Contracts.erc1155Supply
  refine fits_table (.cons ⟨rfl, rfl, ?_⟩ (.cons ⟨rfl, rfl, ?_⟩ (.cons ⟨rfl, rfl, ?_⟩ (.cons ⟨rfl, rfl, ?_⟩ (.cons ⟨rfl, rfl, ?_⟩
    (.cons ⟨rfl, rfl, ?_⟩ (.cons ⟨rfl, rfl, ?_⟩ (.cons ⟨rfl, rfl, ?_⟩ (.cons ⟨rfl, rfl, ?_⟩ (.cons ⟨rfl, rfl, ?_⟩ (.cons ⟨rfl, rfl, ?_⟩ v)))))))))))
  · takes fits_get h (.inr (.inl ⟨_, hn _ (by simp [tokensOf]), rfl⟩)) (fun v => [.uint256 v])
  · takes fits_get h (.inr (.inr rfl)) (fun v => [.uint256 v])
  · takes fits_get h (.inr (.inl ⟨_, hn _ (by simp [tokensOf]), rfl⟩)) (fun v => [.bool (decide (0#256 < v))])
  · takes r (call := .mint _ _ _ _) ⟨a1 (by simp), hn _ (by simp [tokensOf])⟩ _
  · takes r (call := .mintBatch _ _ _ _) ⟨a1 (by simp), fun i hi => hn i (by simpa [tokensOf] using hi)⟩ _
  · takes r (call := .burn _ _ _) ⟨a1 (by simp), hn _ (by simp [tokensOf])⟩ _
  · takes r (call := .burnBatch _ _ _) ⟨a1 (by simp), fun i hi => hn i (by simpa [tokensOf] using hi)⟩ _
  · takes fits_ret h _
  · takes r (call := .setApprovalForAll _ _) (a1 (by simp)) _
  · takes r (call := .safeTransferFrom _ _ _ _ _) ⟨a1 (by simp), a1 (by simp), hn _ (by simp [tokensOf])⟩ _
  · takes r (call := .safeBatchTransferFrom _ _ _ _ _) ⟨a1 (by simp), a1 (by simp), fun i hi => hn i (by simpa [tokensOf] using hi)⟩ _

end

theorem sizes (K : Hash) : Erc1155SupplyWords.Sizes (widthAt K erc1155SupplyExample) root :=
  ⟨⟨fun _ _ => rfl, fun _ _ => rfl⟩, fun _ => rfl, rfl⟩

/-- The contract with independent mappings. -/
def model (K : Hash) (D : Decoder) (env : Env) (s : State) (value : U256) (input : Bytes) : Outcome State :=
  Abi.entry K D Router.erc1155SupplyExample (Contracts.erc1155Supply K D env) s value input

section
variable {K : Hash} {n : Nat} {S : List Address} {N : List U256}

/-- The words and the state agree. -/
abbrev Agrees (K : Hash) (S : List Address) (N : List U256) := Inv K erc1155SupplyExample (Cells S N) view (Good S)

theorem inv_step (h : Apart K n erc1155SupplyExample (Cells S N)) (D : Decoder) {w : OnWords.State Event} {s : State} (hi : Agrees K S N w s)
    {tx : Raw Env} (hx : Within K D Router.erc1155SupplyExample S N tx) :
    answer (entry K D tx.env w tx.value tx.input) = answer (model K D tx.env s tx.value tx.input) ∧
    Agrees K S N ((entry K D tx.env w tx.value tx.input).after w) ((model K D tx.env s tx.value tx.input).after s) :=
  step (by decide) h D Router.erc1155SupplyExample hi tx.value tx.input fun u f args hr hd _ _ hg =>
    fits (sizes K) hg K D hx.sender u f.rustName (hx.accounts args ⟨u, f, hr, hd⟩) (hx.tokens args ⟨u, f, hr, hd⟩)

theorem inv_run (h : Apart K n erc1155SupplyExample (Cells S N)) (D : Decoder) (txs : List (Raw Env)) {w : OnWords.State Event} {s : State}
    (hi : Agrees K S N w s) (hx : ∀ tx ∈ txs, Within K D Router.erc1155SupplyExample S N tx) :
    Agrees K S N (after (entry K D) w txs) (after (model K D) s txs) :=
  steps (run := entry K D) (run' := model K D) (I := Agrees K S N) (ok := Within K D Router.erc1155SupplyExample S N)
    (fun _ _ _ hi hx => (inv_step h D hi hx).2) txs hi hx

theorem inv_deploy : Agrees K S N deployed Erc1155Supply.init :=
  ⟨fun _ _ _ => rfl, _, fresh_agree K _ _, rfl⟩

end
end Verif.Proofs.Erc1155SupplyDeployed
