import Verif.Proofs.Erc1155
/-! # Lemmas about the ERC-1155 supply extension -/

namespace Verif.Erc1155Supply
open Verif.Erc1155 (Err Receivers ok_flip checkedAdd_some ofNat_toNat256 Funds batched moved)
open Verif.Spec.Erc1155 (demand bal supply Accepts)
open Verif.Spec.Erc1155Supply

theorem addSupplies_ok (ps : List (U256 × U256)) : ∀ {f g : U256 → U256},
    addSupplies f ps = .ok g ↔ (∀ id, (f id).toNat + demand ps id < 2 ^ 256) ∧
      g = fun id => f id + BitVec.ofNat 256 (demand ps id) := by
  induction ps with
  | nil =>
    intro f g
    rw [addSupplies, ok_flip]
    simp only [demand, Nat.add_zero, BitVec.add_zero]
    exact ⟨fun h => ⟨fun id => (f id).isLt, h⟩, fun h => h.2⟩
  | cons p ps ih =>
    intro f g
    rw [addSupplies, bind_eq_ok]
    constructor
    · rintro ⟨t, h1, h2⟩
      cases hc : checkedAdd (f p.1) p.2 with
      | none => rw [hc] at h1; simp at h1
      | some t' =>
        rw [hc] at h1
        simp only [orPanic_some, Except.ok.injEq] at h1
        subst h1
        obtain ⟨c1, rfl⟩ := checkedAdd_some.mp hc
        obtain ⟨a1, rfl⟩ := ih.mp h2
        refine ⟨fun id => ?_, ?_⟩
        · have := a1 id
          rw [demand]
          by_cases e : p.1 = id
          · subst e
            rw [upd_same, toNat_add_of_lt c1] at this
            rw [if_pos rfl]; omega
          · rw [upd_ne _ _ (fun h => e h.symm)] at this
            rw [if_neg e]; omega
        · funext id
          rw [demand]
          by_cases e : p.1 = id
          · subst e
            rw [upd_same, if_pos rfl, BitVec.ofNat_add, BitVec.ofNat_toNat, BitVec.setWidth_eq, BitVec.add_assoc]
          · rw [upd_ne _ _ (fun h => e h.symm), if_neg e, Nat.zero_add]
    · rintro ⟨a1, rfl⟩
      have c1 : (f p.1).toNat + p.2.toNat < 2 ^ 256 := by
        have := a1 p.1; rw [demand, if_pos rfl] at this; omega
      refine ⟨f p.1 + p.2, by rw [checkedAdd_some.mpr ⟨c1, rfl⟩, orPanic_some], ih.mpr ⟨fun id => ?_, ?_⟩⟩
      · have := a1 id
        rw [demand] at this
        by_cases e : p.1 = id
        · subst e
          rw [upd_same, toNat_add_of_lt c1]
          rw [if_pos rfl] at this; omega
        · rw [upd_ne _ _ (fun h => e h.symm)]
          rw [if_neg e] at this; omega
      · funext id
        rw [demand]
        by_cases e : p.1 = id
        · subst e
          rw [upd_same, if_pos rfl, BitVec.ofNat_add, BitVec.ofNat_toNat, BitVec.setWidth_eq, BitVec.add_assoc]
        · rw [upd_ne _ _ (fun h => e h.symm), if_neg e, Nat.zero_add]

theorem subSupplies_eq (ps : List (U256 × U256)) : ∀ (f : U256 → U256),
    subSupplies f ps = fun id => f id - BitVec.ofNat 256 (demand ps id) := by
  induction ps with
  | nil => intro f; funext id; simp [subSupplies, demand]
  | cons p ps ih =>
    intro f
    rw [subSupplies, ih]
    funext id
    rw [demand]
    by_cases e : p.1 = id
    · subst e
      rw [upd_same, if_pos rfl, BitVec.ofNat_add, BitVec.ofNat_toNat, BitVec.setWidth_eq, BitVec.sub_sub]
    · rw [upd_ne _ _ (fun h => e h.symm), if_neg e, Nat.zero_add]

/-- Sum of a list of words as a number. -/
def total (vs : List U256) : Nat := (vs.map (·.toNat)).sum

theorem foldl_add (vs : List U256) : ∀ a : U256, vs.foldl (· + ·) a = a + BitVec.ofNat 256 (total vs) := by
  induction vs with
  | nil => intro a; simp [total]
  | cons v vs ih =>
    intro a
    rw [List.foldl_cons, ih]
    have : total (v :: vs) = v.toNat + total vs := by simp [total]
    rw [this, BitVec.ofNat_add, BitVec.ofNat_toNat, BitVec.setWidth_eq, BitVec.add_assoc]

theorem wrappingSum_eq (vs : List U256) : wrappingSum vs = BitVec.ofNat 256 (total vs) := by
  unfold wrappingSum
  rw [foldl_add, BitVec.zero_add]

/-- Sum over ids of what a batch moves. -/
theorem sum_demand (ps : List (U256 × U256)) : ∑ id, demand ps id = (ps.map (·.2.toNat)).sum := by
  induction ps with
  | nil => simp only [demand, List.map_nil, List.sum_nil]; exact Finset.sum_eq_zero fun _ _ => rfl
  | cons p ps ih =>
    simp only [demand, List.map_cons, List.sum_cons]
    rw [Finset.sum_add_distrib, ih, Finset.sum_ite_eq]
    simp only [Finset.mem_univ, if_true]

theorem sum_demand_zip {ids vs : List U256} (h : ids.length = vs.length) :
    ∑ id, demand (ids.zip vs) id = total vs := by
  rw [sum_demand]
  unfold total
  have : (ids.zip vs).map (·.2.toNat) = ((ids.zip vs).map (·.2)).map (·.toNat) := by
    rw [List.map_map]; rfl
  rw [this, show (ids.zip vs).map (·.2) = vs from List.map_snd_zip (Nat.le_of_eq h.symm)]

/-- The three kinds of balance change. -/
theorem update_mint {s s' : State} {op dst : Address} {ids vs : List U256} (h0 : dst ≠ ZERO) :
    update s op ZERO dst ids vs = .ok s' ↔ ∃ t, Erc1155.update s.erc1155 op ZERO dst ids vs = .ok t ∧
      (∀ id, (s.totalSupply id).toNat + demand (ids.zip vs) id < 2 ^ 256) ∧
      s.totalSupplyAll.toNat + (wrappingSum vs).toNat < 2 ^ 256 ∧
      s' = { erc1155 := t, totalSupply := fun id => s.totalSupply id + BitVec.ofNat 256 (demand (ids.zip vs) id)
             totalSupplyAll := s.totalSupplyAll + wrappingSum vs } := by
  unfold update
  rw [bind_eq_ok]
  constructor
  · rintro ⟨t, h1, h2⟩
    dsimp only at h2
    rw [if_pos rfl, bind_eq_ok] at h2
    obtain ⟨f, h2, h3⟩ := h2
    obtain ⟨a1, rfl⟩ := (addSupplies_ok _).mp h2
    rw [bind_eq_ok] at h3
    obtain ⟨all, h3, h4⟩ := h3
    cases hc : checkedAdd s.totalSupplyAll (wrappingSum vs) with
    | none => rw [hc] at h3; simp at h3
    | some all' =>
      rw [hc] at h3
      simp only [orPanic_some, Except.ok.injEq] at h3
      subst h3
      obtain ⟨c1, rfl⟩ := checkedAdd_some.mp hc
      simp only [except_pure, except_bind_ok, if_neg h0] at h4
      injection h4 with h4
      exact ⟨t, h1, a1, c1, h4.symm⟩
  · rintro ⟨t, h1, h2, h3, rfl⟩
    refine ⟨t, h1, ?_⟩
    dsimp only
    rw [if_pos rfl, (addSupplies_ok _).mpr ⟨h2, rfl⟩, except_bind_ok, checkedAdd_some.mpr ⟨h3, rfl⟩, orPanic_some,
      except_bind_ok]
    simp only [except_pure, except_bind_ok, if_neg h0]

theorem update_burn {s s' : State} {op src : Address} {ids vs : List U256} (h0 : src ≠ ZERO) :
    update s op src ZERO ids vs = .ok s' ↔ ∃ t, Erc1155.update s.erc1155 op src ZERO ids vs = .ok t ∧
      s' = { erc1155 := t, totalSupply := fun id => s.totalSupply id - BitVec.ofNat 256 (demand (ids.zip vs) id)
             totalSupplyAll := s.totalSupplyAll - wrappingSum vs } := by
  unfold update
  rw [bind_eq_ok]
  constructor
  · rintro ⟨t, h1, h2⟩
    dsimp only at h2
    rw [if_neg h0] at h2
    simp only [except_pure, except_bind_ok, if_true, subSupplies_eq] at h2
    injection h2 with h2
    exact ⟨t, h1, h2.symm⟩
  · rintro ⟨t, h1, rfl⟩
    refine ⟨t, h1, ?_⟩
    dsimp only
    rw [if_neg h0]
    simp only [except_pure, except_bind_ok, if_true, subSupplies_eq]

theorem update_transfer {s s' : State} {op src dst : Address} {ids vs : List U256} (h0 : src ≠ ZERO)
    (h1 : dst ≠ ZERO) :
    update s op src dst ids vs = .ok s' ↔ ∃ t, Erc1155.update s.erc1155 op src dst ids vs = .ok t ∧
      s' = { s with erc1155 := t } := by
  unfold update
  rw [bind_eq_ok]
  constructor
  · rintro ⟨t, h2, h3⟩
    dsimp only at h3
    rw [if_neg h0] at h3
    simp only [except_pure, except_bind_ok, if_neg h1] at h3
    injection h3 with h3
    exact ⟨t, h2, h3.symm⟩
  · rintro ⟨t, h2, rfl⟩
    refine ⟨t, h2, ?_⟩
    dsimp only
    rw [if_neg h0]
    simp only [except_pure, except_bind_ok, if_neg h1]

/-- The acceptance check does not touch the state. -/
theorem updateCheck_ok {R : Receivers} {s s' : State} {op src dst : Address} {ids vs : List U256} {data : Bytes}
    : updateWithAcceptanceCheck R s op src dst ids vs data = .ok s' ↔
      update s op src dst ids vs = .ok s' ∧ (dst ≠ ZERO →
        Erc1155.checkOnReceived R dst (Erc1155.receiverData op src ids vs data) = .ok ()) := by
  unfold updateWithAcceptanceCheck
  rw [bind_eq_ok]
  constructor
  · rintro ⟨s1, h1, h2⟩
    by_cases hd : dst = ZERO
    · rw [if_neg (not_not.mpr hd)] at h2
      injection h2 with h2
      subst h2
      exact ⟨h1, fun e => absurd hd e⟩
    · rw [if_pos hd, bind_eq_ok] at h2
      obtain ⟨_, h2, h3⟩ := h2
      injection h3 with h3
      subst h3
      exact ⟨h1, fun _ => h2⟩
  · rintro ⟨h1, h2⟩
    refine ⟨s', h1, ?_⟩
    by_cases hd : dst = ZERO
    · rw [if_neg (not_not.mpr hd)]; rfl
    · rw [if_pos hd, h2 hd]; rfl

/-- The same call on the plain token. -/
def Call.base : Call → Erc1155.UserCall ⊕ Erc1155.AdminCall
  | .safeTransferFrom src dst id v data => .inl (.safeTransferFrom src dst id v data)
  | .safeBatchTransferFrom src dst ids vs data => .inl (.safeBatchTransferFrom src dst ids vs data)
  | .setApprovalForAll op b => .inl (.setApprovalForAll op b)
  | .mint dst id v data => .inr (.mint dst id v data)
  | .mintBatch dst ids vs data => .inr (.mintBatch dst ids vs data)
  | .burn src id v => .inr (.burn src id v)
  | .burnBatch src ids vs => .inr (.burnBatch src ids vs)

/-- What any successful transaction did. -/
inductive Effect (s : State) (vs : List Nat) : State → Prop
  | none (t : Erc1155.State) (hb : ∀ id, supply t id = supply s.erc1155 id) :
      Effect s vs { s with erc1155 := t }
  | mint (t : Erc1155.State) (d : U256 → Nat) (n : Nat) (hn : n = vs.sum) (hd : ∑ id, d id = n)
      (hb : ∀ id, supply t id = supply s.erc1155 id + d id)
      (h1 : ∀ id, (s.totalSupply id).toNat + d id < 2 ^ 256)
      (h2 : s.totalSupplyAll.toNat + (BitVec.ofNat 256 n).toNat < 2 ^ 256) :
      Effect s vs { erc1155 := t, totalSupply := fun id => s.totalSupply id + BitVec.ofNat 256 (d id)
                    totalSupplyAll := s.totalSupplyAll + BitVec.ofNat 256 n }
  | burn (t : Erc1155.State) (d : U256 → Nat) (n : Nat) (hd : ∑ id, d id = n)
      (hb : ∀ id, supply t id + d id = supply s.erc1155 id) :
      Effect s vs { erc1155 := t, totalSupply := fun id => s.totalSupply id - BitVec.ofNat 256 (d id)
                    totalSupplyAll := s.totalSupplyAll - BitVec.ofNat 256 n }

theorem supply_after {t t' : Erc1155.State} {op src dst : Address} {ids vs : List U256} (h0 : src ≠ ZERO ∨ dst ≠ ZERO)
    (h : Erc1155.update t op src dst ids vs = .ok t') (id : U256) :
    ids.length = vs.length ∧
    supply t' id + (if dst = ZERO then demand (ids.zip vs) id else 0) =
      supply t id + (if src = ZERO then demand (ids.zip vs) id else 0) := by
  obtain ⟨hl, hf, rfl⟩ := (Erc1155.update_ok h0).mp h
  rw [Erc1155.supply_log]
  exact ⟨hl, Erc1155.supply_batched h0 hf id⟩

theorem doMint_effect {R : Receivers} {s s' : State} {op dst : Address} {ids vs : List U256} {data : Bytes}
    (h : doMint R s op dst ids vs data = .ok s') :
    Effect s (vs.map (·.toNat)) s' ∧ Erc1155.doMint R s.erc1155 op dst ids vs data = .ok s'.erc1155 := by
  unfold doMint at h
  unfold Erc1155.doMint
  by_cases h1 : dst = ZERO
  · rw [if_pos h1] at h; simp at h
  rw [if_neg h1] at h ⊢
  simp only [except_pure, except_bind_ok] at h ⊢
  obtain ⟨h2, h3⟩ := updateCheck_ok.mp h
  obtain ⟨t, a1, a2, a3, rfl⟩ := (update_mint h1).mp h2
  have sa := supply_after (Or.inr h1) a1
  have hl := (sa 0#256).1
  constructor
  · rw [wrappingSum_eq] at a3 ⊢
    exact Effect.mint t (demand (ids.zip vs)) (total vs) rfl (sum_demand_zip hl)
      (fun id => by have := (sa id).2; rw [if_neg h1, if_pos rfl, Nat.add_zero] at this; rw [this]) a2 a3
  · unfold Erc1155.updateWithAcceptanceCheck
    rw [a1, except_bind_ok, if_pos h1, h3 h1]
    rfl

theorem doBurn_effect {R : Receivers} {s s' : State} {op src : Address} {ids vs : List U256} {ws : List Nat}
    (h : doBurn R s op src ids vs = .ok s') :
    Effect s ws s' ∧ Erc1155.doBurn R s.erc1155 op src ids vs = .ok s'.erc1155 := by
  unfold doBurn at h
  unfold Erc1155.doBurn
  by_cases h1 : src = ZERO
  · rw [if_pos h1] at h; simp at h
  rw [if_neg h1] at h ⊢
  simp only [except_pure, except_bind_ok] at h ⊢
  obtain ⟨h2, h3⟩ := updateCheck_ok.mp h
  obtain ⟨t, a1, rfl⟩ := (update_burn h1).mp h2
  have sa := supply_after (Or.inl h1) a1
  have hl := (sa 0#256).1
  constructor
  · rw [wrappingSum_eq]
    exact Effect.burn t (demand (ids.zip vs)) (total vs) (sum_demand_zip hl)
      (fun id => by have := (sa id).2; rw [if_pos rfl, if_neg h1, Nat.add_zero] at this; rw [this])
  · unfold Erc1155.updateWithAcceptanceCheck
    rw [a1, except_bind_ok, if_neg (not_not.mpr rfl)]
    rfl

theorem doTransfer_effect {R : Receivers} {s s' : State} {op src dst : Address} {ids vs : List U256} {data : Bytes}
    {ws : List Nat} (h : doSafeTransferFrom R s op src dst ids vs data = .ok s') :
    Effect s ws s' ∧ Erc1155.doSafeTransferFrom R s.erc1155 op src dst ids vs data = .ok s'.erc1155 := by
  unfold doSafeTransferFrom at h
  unfold Erc1155.doSafeTransferFrom
  by_cases h1 : dst = ZERO
  · rw [if_pos h1] at h; simp at h
  by_cases h2 : src = ZERO
  · rw [if_neg h1, if_pos h2] at h; simp at h
  rw [if_neg h1, if_neg h2] at h ⊢
  simp only [except_pure, except_bind_ok] at h ⊢
  obtain ⟨h3, h4⟩ := updateCheck_ok.mp h
  obtain ⟨t, a1, rfl⟩ := (update_transfer h2 h1).mp h3
  have sa := supply_after (Or.inr h1) a1
  constructor
  · exact Effect.none t (fun id => by have := (sa id).2; rw [if_neg h1, if_neg h2, Nat.add_zero, Nat.add_zero] at this; rw [this])
  · unfold Erc1155.updateWithAcceptanceCheck
    rw [a1, except_bind_ok, if_pos h1, h4 h1]
    rfl

theorem auth_then {t : Erc1155.State} {s' : State} {caller src : Address} {x : Except Err State} :
    (do Erc1155.authorizeTransfer t caller src; x) = .ok s' ↔
      Spec.Erc1155.MayMove t caller src ∧ x = .ok s' := by
  rw [bind_eq_ok]
  constructor
  · rintro ⟨u, h1, h2⟩; exact ⟨Erc1155.authorizeTransfer_ok.mp h1, h2⟩
  · rintro ⟨h1, h2⟩; exact ⟨(), Erc1155.authorizeTransfer_ok.mpr h1, h2⟩

theorem exec_effect {s s' : State} {tx : Tx} (h : exec s tx = .ok s') :
    Effect s (mintValues tx.call) s' ∧
      Erc1155.exec s.erc1155 ⟨tx.caller, tx.receivers, tx.call.base⟩ = .ok s'.erc1155 := by
  obtain ⟨caller, R, call⟩ := tx
  unfold exec at h
  unfold Erc1155.exec
  dsimp only at h ⊢
  cases call with
  | safeTransferFrom src dst id v data =>
    obtain ⟨ha, h⟩ := auth_then.mp h
    obtain ⟨h1, h2⟩ := doTransfer_effect h
    exact ⟨h1, Erc1155.auth_then.mpr ⟨ha, h2⟩⟩
  | safeBatchTransferFrom src dst ids vs data =>
    obtain ⟨ha, h⟩ := auth_then.mp h
    obtain ⟨h1, h2⟩ := doTransfer_effect h
    exact ⟨h1, Erc1155.auth_then.mpr ⟨ha, h2⟩⟩
  | setApprovalForAll op b =>
    rw [bind_eq_ok] at h
    obtain ⟨t, h1, h2⟩ := h
    injection h2 with h2
    subst h2
    refine ⟨?_, h1⟩
    obtain ⟨_, rfl⟩ := Erc1155.setApprovalForAll_ok.mp h1
    exact Effect.none _ (fun id => rfl)
  | mint dst id v data =>
    obtain ⟨h1, h2⟩ := doMint_effect h
    exact ⟨h1, h2⟩
  | mintBatch dst ids vs data =>
    obtain ⟨h1, h2⟩ := doMint_effect h
    exact ⟨h1, h2⟩
  | burn src id v =>
    obtain ⟨h1, h2⟩ := doBurn_effect h
    exact ⟨h1, h2⟩
  | burnBatch src ids vs =>
    obtain ⟨h1, h2⟩ := doBurn_effect h
    exact ⟨h1, h2⟩

/-- Per-id totals are right, and the aggregate is right up to multiples of `2^256`. -/
structure Inv (s : State) : Prop where
  tot : ∀ id, (s.totalSupply id).toNat = supply s.erc1155 id
  all : s.totalSupplyAll = BitVec.ofNat 256 (sumOfSupplies s)

theorem sum_add {f g : U256 → Nat} {d : U256 → Nat} (h : ∀ id, g id = f id + d id) :
    ∑ id, g id = (∑ id, f id) + ∑ id, d id := by
  rw [← Finset.sum_add_distrib]
  exact Finset.sum_congr rfl fun id _ => h id

theorem mint_total {f : U256 → U256} {d : U256 → Nat} (h : ∀ id, (f id).toNat + d id < 2 ^ 256) (id : U256) :
    (f id + BitVec.ofNat 256 (d id)).toNat = (f id).toNat + d id := by
  have e : (BitVec.ofNat 256 (d id)).toNat = d id := ofNat_toNat256 (by have := h id; omega)
  rw [toNat_add_of_lt (by rw [e]; exact h id), e]

theorem burn_total {f : U256 → U256} {d : U256 → Nat} (h : ∀ id, d id ≤ (f id).toNat) (id : U256) :
    (f id - BitVec.ofNat 256 (d id)).toNat = (f id).toNat - d id := by
  have e : (BitVec.ofNat 256 (d id)).toNat = d id := ofNat_toNat256 (by have := h id; have := (f id).isLt; omega)
  rw [toNat_sub_of_ge (by rw [e]; exact h id), e]

theorem inv_effect {s s' : State} {vs : List Nat} (hs : Inv s) (h : Effect s vs s') : Inv s' := by
  cases h with
  | none t hb => exact ⟨fun id => by rw [hb]; exact hs.tot id, hs.all⟩
  | mint t d n hn hd hb h1 h2 =>
    refine ⟨fun id => ?_, ?_⟩
    · dsimp only; rw [mint_total h1, hb, hs.tot]
    · unfold sumOfSupplies totalSupplyOf
      dsimp only
      rw [sum_add (f := fun id => (s.totalSupply id).toNat) (mint_total h1), hd, BitVec.ofNat_add, hs.all]
      rfl
  | burn t d n hd hb =>
    have hle : ∀ id, d id ≤ (s.totalSupply id).toNat := fun id => by
      rw [hs.tot, ← hb]; omega
    refine ⟨fun id => ?_, ?_⟩
    · dsimp only; rw [burn_total hle, hs.tot, ← hb]; omega
    · unfold sumOfSupplies totalSupplyOf
      dsimp only
      have e : ∑ id, (s.totalSupply id).toNat =
          (∑ id, (s.totalSupply id - BitVec.ofNat 256 (d id)).toNat) + ∑ id, d id :=
        sum_add (fun id => by rw [burn_total hle]; have := hle id; omega)
      rw [hs.all]
      unfold sumOfSupplies totalSupplyOf
      rw [e, hd, BitVec.ofNat_add, BitVec.add_sub_cancel]

theorem inv_init : Inv init := by
  refine ⟨fun id => (Erc1155.supply_init id).symm, ?_⟩
  have : sumOfSupplies init = 0 := by
    unfold sumOfSupplies
    exact Finset.sum_eq_zero fun _ _ => rfl
  rw [this]
  rfl

theorem reachable_inv {s : State} (h : Reachable s) : Inv s := by
  obtain ⟨txs, rfl⟩ := h
  exact run_invariant (exec := exec) (Inv := Inv) (fun _ _ _ hs h => inv_effect hs (exec_effect h).1) txs _ inv_init

/-- The aggregate is exactly right. -/
def Exact (s : State) : Prop := s.totalSupplyAll.toNat = sumOfSupplies s

theorem exact_effect {s s' : State} {vs : List Nat} (hs : Inv s) (he : Exact s) (h : Effect s vs s')
    (hfit : vs.sum < 2 ^ 256) : Exact s' := by
  unfold Exact at *
  cases h with
  | none t hb => exact he
  | mint t d n hn hd hb h1 h2 =>
    unfold sumOfSupplies totalSupplyOf at *
    dsimp only
    rw [sum_add (f := fun id => (s.totalSupply id).toNat) (mint_total h1), hd, toNat_add_of_lt h2, he,
      ofNat_toNat256 (by omega)]
  | burn t d n hd hb =>
    have hle : ∀ id, d id ≤ (s.totalSupply id).toNat := fun id => by
      rw [hs.tot, ← hb]; omega
    unfold sumOfSupplies totalSupplyOf at *
    dsimp only
    have e : ∑ id, (s.totalSupply id).toNat =
        (∑ id, (s.totalSupply id - BitVec.ofNat 256 (d id)).toNat) + ∑ id, d id :=
      sum_add (fun id => by rw [burn_total hle]; have := hle id; omega)
    have hlt := s.totalSupplyAll.isLt
    have e' : (BitVec.ofNat 256 n).toNat = n := ofNat_toNat256 (by omega)
    rw [toNat_sub_of_ge (by rw [e']; omega), e']
    omega

theorem exact_run (txs : List Tx) (h : BatchesFit txs) : Exact (run init txs) ∧ Inv (run init txs) := by
  have : ∀ (txs : List Tx) (s : State), BatchesFit txs → Exact s → Inv s →
      Exact (run s txs) ∧ Inv (run s txs) := by
    intro txs
    induction txs with
    | nil => intro s _ h1 h2; exact ⟨h1, h2⟩
    | cons tx txs ih =>
      intro s hf h1 h2
      unfold run at ih ⊢
      rw [runOf_cons]
      have hf' : BatchesFit txs := fun t ht => hf t (List.mem_cons_of_mem _ ht)
      cases hx : exec s tx with
      | error e => rw [stepOf_error hx]; exact ih s hf' h1 h2
      | ok s' =>
        rw [stepOf_ok hx]
        have he := (exec_effect hx).1
        exact ih s' hf' (exact_effect h2 h1 he (hf tx (by simp))) (inv_effect h2 he)
  refine this txs init h ?_ inv_init
  unfold Exact
  have : sumOfSupplies init = 0 := by
    unfold sumOfSupplies
    exact Finset.sum_eq_zero fun _ _ => rfl
  rw [this]
  rfl

end Verif.Erc1155Supply
