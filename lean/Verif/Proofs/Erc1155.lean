import Verif.Spec.Erc1155
/-! # Lemmas about ERC-1155 -/

namespace Verif.Erc1155
open Verif.Spec.Erc1155

theorem ok_flip {ε α : Type} {a b : α} : (Except.ok a : Except ε α) = .ok b ↔ b = a := by
  constructor
  · intro h; injection h with h; exact h.symm
  · rintro rfl; rfl

theorem checkedAdd_some {n : Nat} {a b c : BitVec n} :
    checkedAdd a b = some c ↔ a.toNat + b.toNat < 2 ^ n ∧ c = a + b := by
  rw [checkedAdd_eq_some]
  constructor
  · rintro ⟨h1, h2⟩
    exact ⟨h1, BitVec.eq_of_toNat_eq (by rw [toNat_add_of_lt h1, h2])⟩
  · rintro ⟨h1, rfl⟩
    exact ⟨h1, toNat_add_of_lt h1⟩

theorem demand_append (ps qs : List (U256 × U256)) (id : U256) :
    demand (ps ++ qs) id = demand ps id + demand qs id := by
  induction ps with
  | nil => simp [demand]
  | cons p ps ih => simp only [List.cons_append, demand, ih]; omega

/-- State after moving `ps` from `src` to a different `dst`. -/
def moved (s : State) (src dst : Address) (ps : List (U256 × U256)) : State :=
  { s with balances := fun id a =>
      if a = src ∧ src ≠ ZERO then s.balances id a - BitVec.ofNat 256 (demand ps id)
      else if a = dst ∧ dst ≠ ZERO then s.balances id a + BitVec.ofNat 256 (demand ps id)
      else s.balances id a }

theorem moved_nil (s : State) (src dst : Address) : moved s src dst [] = s := by
  unfold moved
  have : (fun (id : U256) (a : Address) =>
      if a = src ∧ src ≠ ZERO then s.balances id a - BitVec.ofNat 256 (demand [] id)
      else if a = dst ∧ dst ≠ ZERO then s.balances id a + BitVec.ofNat 256 (demand [] id)
      else s.balances id a) = s.balances := by
    funext id a
    simp [demand]
  rw [this]

theorem moved_moved (s : State) (src dst : Address) (ps qs : List (U256 × U256)) :
    moved (moved s src dst ps) src dst qs = moved s src dst (ps ++ qs) := by
  unfold moved
  dsimp only
  congr 1
  funext id a
  rw [demand_append, BitVec.ofNat_add]
  by_cases h1 : a = src ∧ src ≠ ZERO
  · simp only [if_pos h1, BitVec.sub_sub]
  · by_cases h2 : a = dst ∧ dst ≠ ZERO
    · simp only [if_neg h1, if_pos h2, BitVec.add_assoc]
    · simp only [if_neg h1, if_neg h2]

theorem ofNat_toNat256 {n : Nat} (h : n < 2 ^ 256) : (BitVec.ofNat 256 n).toNat = n := by
  rw [BitVec.toNat_ofNat, Nat.mod_eq_of_lt h]

theorem bal_lt (s : State) (a : Address) (id : U256) : bal s a id < 2 ^ 256 := (balanceOf s a id).isLt

theorem bal_moved_src {s : State} {src dst : Address} {ps : List (U256 × U256)} {id : U256} (h0 : src ≠ ZERO)
    (h : demand ps id ≤ bal s src id) : bal (moved s src dst ps) src id = bal s src id - demand ps id := by
  have hlt := bal_lt s src id
  unfold bal balanceOf at h hlt ⊢
  unfold moved
  dsimp only
  rw [if_pos ⟨rfl, h0⟩]
  have e := ofNat_toNat256 (n := demand ps id) (by omega)
  rw [toNat_sub_of_ge (by rw [e]; exact h), e]

theorem bal_moved_dst {s : State} {src dst : Address} {ps : List (U256 × U256)} {id : U256} (h0 : dst ≠ ZERO)
    (hne : src ≠ dst) (h : bal s dst id + demand ps id < 2 ^ 256) :
    bal (moved s src dst ps) dst id = bal s dst id + demand ps id := by
  unfold bal balanceOf at h ⊢
  unfold moved
  dsimp only
  rw [if_neg (fun e => hne e.1.symm), if_pos ⟨rfl, h0⟩]
  have e := ofNat_toNat256 (n := demand ps id) (by omega)
  rw [toNat_add_of_lt (by rw [e]; exact h), e]

theorem bal_moved_other {s : State} {src dst a : Address} {ps : List (U256 × U256)} {id : U256}
    (h1 : a = src → src = ZERO) (h2 : a = dst → dst = ZERO) :
    bal (moved s src dst ps) a id = bal s a id := by
  unfold bal balanceOf moved
  dsimp only
  rw [if_neg (fun e => e.2 (h1 e.1)), if_neg (fun e => e.2 (h2 e.1))]

theorem doUpdate_ok {s s' : State} {src dst : Address} {id v : U256} (hne : src ≠ dst) :
    doUpdate s src dst id v = .ok s' ↔
      (src ≠ ZERO → v.toNat ≤ bal s src id) ∧ (dst ≠ ZERO → bal s dst id + v.toNat < 2 ^ 256) ∧
        s' = moved s src dst [(id, v)] := by
  have key1 : ∀ (h1 : src ≠ ZERO), moved s src dst [(id, v)] =
      if dst ≠ ZERO then { s with
        balances := upd2 (upd2 s.balances id src (s.balances id src - v)) id dst (s.balances id dst + v) }
      else { s with balances := upd2 s.balances id src (s.balances id src - v) } := by
    intro h1
    unfold moved
    by_cases h2 : dst = ZERO
    · rw [if_neg (not_not.mpr h2)]
      congr 1
      funext i a
      rw [upd2_apply]
      by_cases hi : id = i
      · subst hi
        by_cases ha : a = src
        · subst ha; simp [h1, demand]
        · simp [ha, h2]
      · have hi' : ¬ i = id := fun e => hi e.symm
        simp [hi, hi', demand]
    · rw [if_pos h2]
      congr 1
      funext i a
      rw [upd2_apply, upd2_apply]
      by_cases hi : id = i
      · subst hi
        by_cases ha : a = src
        · subst ha; simp [h1, demand, hne]
        · by_cases hd : a = dst
          · subst hd; simp [h2, demand, ha]
          · simp [ha, hd]
      · have hi' : ¬ i = id := fun e => hi e.symm
        simp [hi, hi', demand]
  have key0 : ∀ (h1 : src = ZERO), moved s src dst [(id, v)] =
      if dst ≠ ZERO then { s with balances := upd2 s.balances id dst (s.balances id dst + v) } else s := by
    intro h1
    unfold moved
    by_cases h2 : dst = ZERO
    · exact absurd (h1.trans h2.symm) hne
    · rw [if_pos h2]
      congr 1
      funext i a
      rw [upd2_apply]
      by_cases hi : id = i
      · subst hi
        by_cases hd : a = dst
        · subst hd; simp [h2, demand, h1]
        · simp [hd, h1]
      · have hi' : ¬ i = id := fun e => hi e.symm
        simp [hi, hi', demand]
  unfold doUpdate
  by_cases h1 : src = ZERO
  · rw [if_neg (not_not.mpr h1), key0 h1]
    simp only [except_pure, except_bind_ok]
    by_cases h2 : dst = ZERO
    · exact absurd (h1.trans h2.symm) hne
    · rw [if_pos h2, if_pos h2, bind_eq_ok]
      constructor
      · rintro ⟨b, hb, h⟩
        cases hc : checkedAdd (s.balances id dst) v with
        | none => rw [hc] at hb; simp at hb
        | some b' =>
          rw [hc] at hb
          simp only [orPanic_some, Except.ok.injEq] at hb
          subst hb
          obtain ⟨hc1, hc2⟩ := checkedAdd_some.mp hc
          injection h with h
          refine ⟨fun e => absurd h1 e, fun _ => hc1, ?_⟩
          rw [← h, hc2]
      · rintro ⟨_, hb, rfl⟩
        refine ⟨s.balances id dst + v, ?_, rfl⟩
        rw [show checkedAdd (s.balances id dst) v = some (s.balances id dst + v) from
          checkedAdd_some.mpr ⟨hb h2, rfl⟩, orPanic_some]
  · rw [if_pos h1, key1 h1]
    have hbal : balanceOf s src id < v ↔ ¬ v.toNat ≤ bal s src id := by
      unfold bal; rw [BitVec.lt_def]; omega
    by_cases hb : balanceOf s src id < v
    · simp only [hb, if_true, except_throw, except_bind_error]
      constructor
      · intro h; injection h
      · rintro ⟨h, _⟩; exact absurd (h h1) (hbal.mp hb)
    · have hb' : v.toNat ≤ bal s src id := by by_contra h; exact hb (hbal.mpr h)
      simp only [hb, if_false, except_pure, except_bind_ok]
      by_cases h2 : dst = ZERO
      · rw [if_neg (not_not.mpr h2), if_neg (not_not.mpr h2)]
        rw [ok_flip]
        exact ⟨fun h => ⟨fun _ => hb', fun e => absurd h2 e, h⟩, fun h => h.2.2⟩
      · rw [if_pos h2, if_pos h2, bind_eq_ok]
        have hd : upd2 s.balances id src (s.balances id src - v) id dst = s.balances id dst := by
          rw [upd2_apply, if_neg (fun e => hne e.2.symm)]
        rw [hd]
        constructor
        · rintro ⟨b, hbb, h⟩
          cases hc : checkedAdd (s.balances id dst) v with
          | none => rw [hc] at hbb; simp at hbb
          | some b' =>
            rw [hc] at hbb
            simp only [orPanic_some, Except.ok.injEq] at hbb
            subst hbb
            obtain ⟨hc1, hc2⟩ := checkedAdd_some.mp hc
            injection h with h
            refine ⟨fun _ => hb', fun _ => hc1, ?_⟩
            rw [← h, hc2]
        · rintro ⟨_, hbb, rfl⟩
          refine ⟨s.balances id dst + v, ?_, rfl⟩
          rw [show checkedAdd (s.balances id dst) v = some (s.balances id dst + v) from
          checkedAdd_some.mpr ⟨hbb h2, rfl⟩, orPanic_some]

/-- The loop, between two different accounts. -/
theorem doUpdates_ok {src dst : Address} (hne : src ≠ dst) (ps : List (U256 × U256)) :
    ∀ {s s' : State}, doUpdates s src dst ps = .ok s' ↔
      (src ≠ ZERO → ∀ id, demand ps id ≤ bal s src id) ∧
      (dst ≠ ZERO → ∀ id, bal s dst id + demand ps id < 2 ^ 256) ∧ s' = moved s src dst ps := by
  induction ps with
  | nil =>
    intro s s'
    rw [doUpdates, moved_nil, ok_flip]
    simp only [demand, Nat.zero_le, Nat.add_zero, implies_true, true_and]
    exact ⟨fun h => ⟨fun _ id => bal_lt _ _ _, h⟩, fun h => h.2⟩
  | cons p ps ih =>
    intro s s'
    rw [doUpdates, bind_eq_ok]
    have d1 : ∀ id, demand [p] id = if p.1 = id then p.2.toNat else 0 := fun id => by simp [demand]
    have dc : ∀ id, demand (p :: ps) id = demand [p] id + demand ps id := fun id => by
      rw [← demand_append]; rfl
    constructor
    · rintro ⟨s1, h1, h2⟩
      obtain ⟨a1, a2, rfl⟩ := (doUpdate_ok hne).mp h1
      obtain ⟨b1, b2, rfl⟩ := ih.mp h2
      refine ⟨fun h0 id => ?_, fun h0 id => ?_, ?_⟩
      · have c1 : demand [p] id ≤ bal s src id := by
          rw [d1]; split
          · rename_i e; rw [← e]; exact a1 h0
          · omega
        have := b1 h0 id
        rw [bal_moved_src h0 c1] at this
        rw [dc]; omega
      · have c1 : bal s dst id + demand [p] id < 2 ^ 256 := by
          rw [d1]; split
          · rename_i e; rw [← e]; exact a2 h0
          · exact bal_lt _ _ _
        have := b2 h0 id
        rw [bal_moved_dst h0 hne c1] at this
        rw [dc]; omega
      · rw [moved_moved]; rfl
    · rintro ⟨a1, a2, rfl⟩
      refine ⟨moved s src dst [p], (doUpdate_ok hne).mpr ⟨fun h0 => ?_, fun h0 => ?_, rfl⟩,
        ih.mpr ⟨fun h0 id => ?_, fun h0 id => ?_, ?_⟩⟩
      · have := a1 h0 p.1; rw [dc, d1, if_pos rfl] at this; omega
      · have := a2 h0 p.1; rw [dc, d1, if_pos rfl] at this; omega
      · have := a1 h0 id; rw [dc] at this
        rw [bal_moved_src h0 (by omega)]; omega
      · have := a2 h0 id; rw [dc] at this
        rw [bal_moved_dst h0 hne (by omega)]; omega
      · rw [moved_moved]; rfl

theorem doUpdate_self {s s' : State} {a : Address} {id v : U256} (h0 : a ≠ ZERO) :
    doUpdate s a a id v = .ok s' ↔ v.toNat ≤ bal s a id ∧ s' = s := by
  have hbal : balanceOf s a id < v ↔ ¬ v.toNat ≤ bal s a id := by
    unfold bal; rw [BitVec.lt_def]; omega
  unfold doUpdate
  rw [if_pos h0]
  by_cases hb : balanceOf s a id < v
  · simp only [hb, if_true, except_throw, except_bind_error]
    constructor
    · intro h; injection h
    · rintro ⟨h, _⟩; exact absurd h (hbal.mp hb)
  · have hb' : v.toNat ≤ bal s a id := by by_contra h; exact hb (hbal.mpr h)
    simp only [hb, if_false, except_pure, except_bind_ok]
    rw [if_pos h0, upd2_same]
    have hs : (s.balances id a - v).toNat = bal s a id - v.toNat := toNat_sub_of_ge hb'
    have hlt := bal_lt s a id
    have hc : checkedAdd (s.balances id a - v) v = some (s.balances id a) := by
      rw [checkedAdd_some]
      refine ⟨by rw [hs]; omega, ?_⟩
      rw [BitVec.sub_add_cancel]
    rw [hc, orPanic_some, except_bind_ok, ok_flip]
    have : upd2 (upd2 s.balances id a (s.balances id a - v)) id a (s.balances id a) = s.balances := by
      funext i b
      rw [upd2_apply, upd2_apply]
      by_cases h : i = id ∧ b = a
      · rw [if_pos h, h.1, h.2]
      · rw [if_neg h, if_neg h]
    rw [this]
    exact ⟨fun h => ⟨hb', h⟩, fun h => h.2⟩

theorem doUpdates_self {a : Address} (h0 : a ≠ ZERO) (ps : List (U256 × U256)) :
    ∀ {s s' : State}, doUpdates s a a ps = .ok s' ↔ (∀ p ∈ ps, p.2.toNat ≤ bal s a p.1) ∧ s' = s := by
  induction ps with
  | nil => intro s s'; rw [doUpdates, ok_flip]; simp
  | cons p ps ih =>
    intro s s'
    rw [doUpdates, bind_eq_ok]
    constructor
    · rintro ⟨s1, h1, h2⟩
      obtain ⟨a1, rfl⟩ := (doUpdate_self h0).mp h1
      obtain ⟨a2, rfl⟩ := ih.mp h2
      refine ⟨fun q hq => ?_, rfl⟩
      rcases List.mem_cons.mp hq with rfl | hq
      · exact a1
      · exact a2 q hq
    · rintro ⟨a1, rfl⟩
      exact ⟨s', (doUpdate_self h0).mpr ⟨a1 p (by simp), rfl⟩,
        ih.mpr ⟨fun q hq => a1 q (by simp [hq]), rfl⟩⟩

/-! ## `_update` and the acceptance check -/

/-- The condition on balances for a batch. -/
def Funds (s : State) (src dst : Address) (ps : List (U256 × U256)) : Prop :=
  if src = dst then ∀ p ∈ ps, p.2.toNat ≤ bal s src p.1
  else (src ≠ ZERO → ∀ id, demand ps id ≤ bal s src id) ∧
    (dst ≠ ZERO → ∀ id, bal s dst id + demand ps id < 2 ^ 256)

/-- The state after a batch: balances. -/
def batched (s : State) (src dst : Address) (ps : List (U256 × U256)) : State :=
  if src = dst then s else moved s src dst ps

theorem doUpdates_iff {s s' : State} {src dst : Address} {ps : List (U256 × U256)}
    (h0 : src ≠ ZERO ∨ dst ≠ ZERO) :
    doUpdates s src dst ps = .ok s' ↔ Funds s src dst ps ∧ s' = batched s src dst ps := by
  unfold Funds batched
  by_cases h : src = dst
  · subst h
    rw [if_pos rfl, if_pos rfl]
    exact doUpdates_self (h0.elim id id) ps
  · rw [if_neg h, if_neg h, doUpdates_ok h, and_assoc]

theorem requireEqualLength_ok {α β : Type} {xs : List α} {ys : List β} :
    requireEqualLength xs ys = .ok () ↔ xs.length = ys.length := by
  unfold requireEqualLength
  by_cases h : xs.length = ys.length <;> simp [h]

theorem update_ok {s s' : State} {op src dst : Address} {ids vs : List U256} (h0 : src ≠ ZERO ∨ dst ≠ ZERO) :
    update s op src dst ids vs = .ok s' ↔ ids.length = vs.length ∧ Funds s src dst (ids.zip vs) ∧
      s' = { batched s src dst (ids.zip vs) with log := s.log ++ [updateEvent op src dst ids vs] } := by
  have hlog : (batched s src dst (ids.zip vs)).log = s.log := by
    unfold batched moved; split <;> rfl
  unfold update
  rw [bind_eq_ok]
  constructor
  · rintro ⟨u, h1, h2⟩
    rw [bind_eq_ok] at h2
    obtain ⟨s1, h2, h3⟩ := h2
    obtain ⟨a1, rfl⟩ := (doUpdates_iff h0).mp h2
    injection h3 with h3
    rw [hlog] at h3
    exact ⟨requireEqualLength_ok.mp h1, a1, h3.symm⟩
  · rintro ⟨h1, h2, rfl⟩
    refine ⟨(), requireEqualLength_ok.mpr h1, ?_⟩
    rw [bind_eq_ok]
    exact ⟨_, (doUpdates_iff h0).mpr ⟨h2, rfl⟩, by rw [hlog]; rfl⟩

theorem checkOnReceived_ok {R : Receivers} {dst : Address} {d : BitVec 32 × Notice} :
    checkOnReceived R dst d = .ok () ↔ Accepts R dst d.1 d.2 := by
  unfold checkOnReceived Accepts
  cases hR : R dst with
  | none => simp
  | some f =>
    dsimp only
    cases hf : f d.2 with
    | selector sel =>
      dsimp only
      by_cases h : sel = d.1
      · simp [h, hf]
      · simp [h, hf]
    | revert reason => dsimp only; by_cases h : reason = [] <;> simp [h, hf]
    | failure => simp [hf]

theorem updateCheck_ok {R : Receivers} {s s' : State} {op src dst : Address} {ids vs : List U256} {data : Bytes}
    (h0 : src ≠ ZERO ∨ dst ≠ ZERO) :
    updateWithAcceptanceCheck R s op src dst ids vs data = .ok s' ↔
      ids.length = vs.length ∧ Funds s src dst (ids.zip vs) ∧
      (dst ≠ ZERO → Accepts R dst (receiverData op src ids vs data).1 (receiverData op src ids vs data).2) ∧
      s' = { batched s src dst (ids.zip vs) with log := s.log ++ [updateEvent op src dst ids vs] } := by
  unfold updateWithAcceptanceCheck
  rw [bind_eq_ok]
  constructor
  · rintro ⟨s1, h1, h2⟩
    obtain ⟨a1, a2, rfl⟩ := (update_ok h0).mp h1
    by_cases hd : dst = ZERO
    · rw [if_neg (not_not.mpr hd)] at h2
      injection h2 with h2
      exact ⟨a1, a2, fun e => absurd hd e, h2.symm⟩
    · rw [if_pos hd, bind_eq_ok] at h2
      obtain ⟨_, h2, h3⟩ := h2
      injection h3 with h3
      exact ⟨a1, a2, fun _ => checkOnReceived_ok.mp h2, h3.symm⟩
  · rintro ⟨a1, a2, a3, rfl⟩
    refine ⟨_, (update_ok h0).mpr ⟨a1, a2, rfl⟩, ?_⟩
    by_cases hd : dst = ZERO
    · rw [if_neg (not_not.mpr hd)]; rfl
    · rw [if_pos hd, bind_eq_ok]
      exact ⟨(), checkOnReceived_ok.mpr (a3 hd), rfl⟩

theorem authorizeTransfer_ok {s : State} {caller src : Address} :
    authorizeTransfer s caller src = .ok () ↔ MayMove s caller src := by
  unfold authorizeTransfer MayMove
  by_cases h : src = caller
  · subst h; simp
  · have h' : ¬ caller = src := fun e => h e.symm
    cases hb : isApprovedForAll s src caller <;> simp [h, h']

theorem doSafeTransferFrom_ok {R : Receivers} {s s' : State} {op src dst : Address} {ids vs : List U256} {data : Bytes} :
    doSafeTransferFrom R s op src dst ids vs data = .ok s' ↔ dst ≠ ZERO ∧ src ≠ ZERO ∧
      ids.length = vs.length ∧ Funds s src dst (ids.zip vs) ∧
      Accepts R dst (receiverData op src ids vs data).1 (receiverData op src ids vs data).2 ∧
      s' = { batched s src dst (ids.zip vs) with log := s.log ++ [updateEvent op src dst ids vs] } := by
  unfold doSafeTransferFrom
  by_cases h1 : dst = ZERO
  · rw [if_pos h1]; simp [h1]
  by_cases h2 : src = ZERO
  · rw [if_neg h1, if_pos h2]; simp [h2]
  rw [if_neg h1, if_neg h2]
  simp only [except_pure, except_bind_ok]
  rw [updateCheck_ok (Or.inl h2)]
  constructor
  · rintro ⟨a1, a2, a3, a4⟩; exact ⟨h1, h2, a1, a2, a3 h1, a4⟩
  · rintro ⟨_, _, a1, a2, a3, a4⟩; exact ⟨a1, a2, fun _ => a3, a4⟩

theorem doMint_ok {R : Receivers} {s s' : State} {op dst : Address} {ids vs : List U256} {data : Bytes} :
    doMint R s op dst ids vs data = .ok s' ↔ dst ≠ ZERO ∧
      ids.length = vs.length ∧ (∀ id, bal s dst id + demand (ids.zip vs) id < 2 ^ 256) ∧
      Accepts R dst (receiverData op ZERO ids vs data).1 (receiverData op ZERO ids vs data).2 ∧
      s' = { moved s ZERO dst (ids.zip vs) with log := s.log ++ [updateEvent op ZERO dst ids vs] } := by
  unfold doMint
  by_cases h1 : dst = ZERO
  · rw [if_pos h1]; simp [h1]
  have hne : ¬ ZERO = dst := fun e => h1 e.symm
  rw [if_neg h1]
  simp only [except_pure, except_bind_ok]
  rw [updateCheck_ok (Or.inr h1)]
  unfold Funds batched
  rw [if_neg hne, if_neg hne]
  constructor
  · rintro ⟨a1, a2, a3, a4⟩; exact ⟨h1, a1, a2.2 h1, a3 h1, a4⟩
  · rintro ⟨_, a1, a2, a3, a4⟩; exact ⟨a1, ⟨fun e => absurd rfl e, fun _ => a2⟩, fun _ => a3, a4⟩

theorem doBurn_ok {R : Receivers} {s s' : State} {op src : Address} {ids vs : List U256} :
    doBurn R s op src ids vs = .ok s' ↔ src ≠ ZERO ∧
      ids.length = vs.length ∧ (∀ id, demand (ids.zip vs) id ≤ bal s src id) ∧
      s' = { moved s src ZERO (ids.zip vs) with log := s.log ++ [updateEvent op src ZERO ids vs] } := by
  unfold doBurn
  by_cases h1 : src = ZERO
  · rw [if_pos h1]; simp [h1]
  rw [if_neg h1]
  simp only [except_pure, except_bind_ok]
  rw [updateCheck_ok (Or.inl h1)]
  unfold Funds batched
  rw [if_neg h1, if_neg h1]
  constructor
  · rintro ⟨a1, a2, a3, a4⟩; exact ⟨h1, a1, a2.1 h1, a4⟩
  · rintro ⟨_, a1, a2, a4⟩; exact ⟨a1, ⟨fun _ => a2, fun e => absurd rfl e⟩, fun e => absurd rfl e, a4⟩

/-- What any successful transaction did: nothing to balances (an approval), or one batch. -/
inductive Effect (s : State) : State → Prop
  | approve (o p : Address) (b : Bool) : Effect s
      { s with operatorApprovals := upd2 s.operatorApprovals o p b, log := s.log ++ [.approvalForAll o p b] }
  | move (op src dst : Address) (ids vs : List U256) (h0 : src ≠ ZERO ∨ dst ≠ ZERO)
      (hl : ids.length = vs.length) (hf : Funds s src dst (ids.zip vs)) : Effect s
      { batched s src dst (ids.zip vs) with log := s.log ++ [updateEvent op src dst ids vs] }

theorem effect_transfer {R : Receivers} {s s' : State} {op src dst : Address} {ids vs : List U256} {data : Bytes}
    (h : doSafeTransferFrom R s op src dst ids vs data = .ok s') : Effect s s' := by
  obtain ⟨h1, _, h3, h4, _, rfl⟩ := doSafeTransferFrom_ok.mp h
  exact .move op src dst ids vs (Or.inr h1) h3 h4

theorem effect_mint {R : Receivers} {s s' : State} {op dst : Address} {ids vs : List U256} {data : Bytes}
    (h : doMint R s op dst ids vs data = .ok s') : Effect s s' := by
  obtain ⟨h1, h2, h3, _, rfl⟩ := doMint_ok.mp h
  have hne : ¬ ZERO = dst := fun e => h1 e.symm
  have := Effect.move (s := s) op ZERO dst ids vs (Or.inr h1) h2
    (by unfold Funds; rw [if_neg hne]; exact ⟨fun e => absurd rfl e, fun _ => h3⟩)
  unfold batched at this
  rwa [if_neg hne] at this

theorem effect_burn {R : Receivers} {s s' : State} {op src : Address} {ids vs : List U256}
    (h : doBurn R s op src ids vs = .ok s') : Effect s s' := by
  obtain ⟨h1, h2, h3, rfl⟩ := doBurn_ok.mp h
  have := Effect.move (s := s) op src ZERO ids vs (Or.inl h1) h2
    (by unfold Funds; rw [if_neg h1]; exact ⟨fun _ => h3, fun e => absurd rfl e⟩)
  unfold batched at this
  rwa [if_neg h1] at this

theorem setApprovalForAll_ok {s s' : State} {caller p : Address} {b : Bool} :
    setApprovalForAll s caller p b = .ok s' ↔ p ≠ ZERO ∧ s' =
      { s with operatorApprovals := upd2 s.operatorApprovals caller p b
               log := s.log ++ [.approvalForAll caller p b] } := by
  unfold setApprovalForAll
  by_cases h : p = ZERO
  · simp [h]
  · rw [if_neg h, ok_flip]; simp [h]

theorem auth_then {s s' : State} {caller src : Address} {x : Except Err State} :
    (do authorizeTransfer s caller src; x) = .ok s' ↔ MayMove s caller src ∧ x = .ok s' := by
  rw [bind_eq_ok]
  constructor
  · rintro ⟨u, h1, h2⟩; exact ⟨authorizeTransfer_ok.mp h1, h2⟩
  · rintro ⟨h1, h2⟩; exact ⟨(), authorizeTransfer_ok.mpr h1, h2⟩

theorem exec_effect {s s' : State} {tx : Tx} (h : exec s tx = .ok s') : Effect s s' := by
  unfold exec at h
  obtain ⟨caller, R, call⟩ := tx
  dsimp only at h
  cases call with
  | inl c =>
    cases c with
    | safeTransferFrom src dst id v data => exact effect_transfer (auth_then.mp h).2
    | safeBatchTransferFrom src dst ids vs data => exact effect_transfer (auth_then.mp h).2
    | setApprovalForAll op b => obtain ⟨_, rfl⟩ := setApprovalForAll_ok.mp h; exact .approve _ _ _
    | burn a id v => exact effect_burn (auth_then.mp h).2
    | burnBatch a ids vs => exact effect_burn (auth_then.mp h).2
  | inr c =>
    cases c with
    | mint dst id v data => exact effect_mint h
    | mintBatch dst ids vs data => exact effect_mint h
    | burn src id v => exact effect_burn h
    | burnBatch src ids vs => exact effect_burn h

/-! ## The invariant -/

theorem in_event (op src dst a : Address) (ids vs : List U256) (h : ids.length = vs.length) (id : U256) :
    Event.in_ a id (updateEvent op src dst ids vs) = if dst = a then demand (ids.zip vs) id else 0 := by
  unfold updateEvent
  split <;> rfl

theorem out_event (op src dst a : Address) (ids vs : List U256) (h : ids.length = vs.length) (id : U256) :
    Event.out a id (updateEvent op src dst ids vs) = if src = a then demand (ids.zip vs) id else 0 := by
  unfold updateEvent
  split <;> rfl

/-- The log accounts for every balance, and nobody's balance is zero. -/
structure Inv (s : State) : Prop where
  zero : ∀ id, bal s ZERO id = 0
  books : ∀ a id, a ≠ ZERO → bal s a id + sent s.log a id = received s.log a id

theorem received_snoc (l : List Event) (e : Event) (a : Address) (id : U256) :
    received (l ++ [e]) a id = received l a id + Event.in_ a id e := by simp [received]
theorem sent_snoc (l : List Event) (e : Event) (a : Address) (id : U256) :
    sent (l ++ [e]) a id = sent l a id + Event.out a id e := by simp [sent]

theorem bal_log (s : State) (l : List Event) (a : Address) (id : U256) : bal { s with log := l } a id = bal s a id :=
  rfl

theorem inv_effect {s s' : State} (hs : Inv s) (h : Effect s s') : Inv s' := by
  cases h with
  | approve o p b =>
    refine ⟨hs.zero, fun a id ha => ?_⟩
    dsimp only
    rw [sent_snoc, received_snoc]
    exact hs.books a id ha
  | move op src dst ids vs h0 hl hf =>
    unfold batched Funds at *
    by_cases e : src = dst
    · subst e
      rw [if_pos rfl] at hf ⊢
      refine ⟨hs.zero, fun a id ha => ?_⟩
      dsimp only
      rw [sent_snoc, received_snoc, in_event _ _ _ _ _ _ hl, out_event _ _ _ _ _ _ hl, bal_log]
      have := hs.books a id ha
      omega
    · rw [if_neg e] at hf ⊢
      refine ⟨fun id => ?_, fun a id ha => ?_⟩
      · rw [bal_log, bal_moved_other (fun h => h.symm) (fun h => h.symm)]; exact hs.zero id
      · dsimp only
        rw [sent_snoc, received_snoc, in_event _ _ _ _ _ _ hl, out_event _ _ _ _ _ _ hl, bal_log]
        have := hs.books a id ha
        by_cases h1 : src = a
        · subst h1
          have hne : ¬ dst = src := fun h => e h.symm
          have hle := hf.1 ha id
          rw [bal_moved_src ha hle, if_pos rfl, if_neg hne]
          omega
        · by_cases h2 : dst = a
          · subst h2
            have hle := hf.2 ha id
            rw [bal_moved_dst ha e hle, if_pos rfl, if_neg h1]
            omega
          · rw [bal_moved_other (fun h => absurd h.symm h1) (fun h => absurd h.symm h2), if_neg h1, if_neg h2]
            omega

theorem inv_init : Inv init := ⟨fun _ => rfl, fun _ _ _ => rfl⟩

theorem reachable_inv {s : State} (h : Reachable s) : Inv s := by
  obtain ⟨txs, rfl⟩ := h
  exact run_invariant (exec := exec) (Inv := Inv) (fun _ _ _ hs h => inv_effect hs (exec_effect h)) txs _ inv_init

/-! ## Sums -/

theorem sum_change {f g : Address → Nat} {src dst : Address} (hne : src ≠ dst) {d : Nat}
    (hs : g src + d = f src) (hd : g dst = f dst + d) (ho : ∀ a, a ≠ src → a ≠ dst → g a = f a) :
    ∑ a, g a = ∑ a, f a := by
  have h1 := sum_upd_add f src (g src)
  have h2 := sum_upd_add (upd f src (g src)) dst (g dst)
  have h3 : upd (upd f src (g src)) dst (g dst) = g := by
    funext a
    rw [upd_apply]
    by_cases h : a = dst
    · rw [if_pos h, h]
    · rw [if_neg h, upd_apply]
      by_cases h' : a = src
      · rw [if_pos h', h']
      · rw [if_neg h']; exact (ho a h' h).symm
  rw [h3] at h2
  have h4 : upd f src (g src) dst = f dst := upd_ne _ _ (fun h => hne h.symm)
  rw [h4] at h2
  omega

theorem sum_up {f g : Address → Nat} {dst : Address} {d : Nat}
    (hd : g dst = f dst + d) (ho : ∀ a, a ≠ dst → g a = f a) : ∑ a, g a = (∑ a, f a) + d := by
  have h2 := sum_upd_add f dst (g dst)
  have h3 : upd f dst (g dst) = g := by
    funext a
    rw [upd_apply]
    by_cases h : a = dst
    · rw [if_pos h, h]
    · rw [if_neg h]; exact (ho a h).symm
  rw [h3] at h2
  omega

/-- How the total of an id changes in a batch. -/
theorem supply_batched {s : State} {src dst : Address} {ps : List (U256 × U256)} (h0 : src ≠ ZERO ∨ dst ≠ ZERO)
    (hf : Funds s src dst ps) (id : U256) :
    supply (batched s src dst ps) id + (if dst = ZERO then demand ps id else 0) =
      supply s id + (if src = ZERO then demand ps id else 0) := by
  unfold batched Funds at *
  by_cases e : src = dst
  · subst e
    have h1 : src ≠ ZERO := h0.elim (fun h => h) (fun h => h)
    rw [if_pos rfl, if_neg h1]
  · rw [if_neg e] at hf ⊢
    unfold supply
    by_cases h1 : src = ZERO
    · have h2 : dst ≠ ZERO := fun h => e (h1.trans h.symm)
      rw [if_neg h2, if_pos h1]
      have := sum_up (f := fun a => bal s a id) (g := fun a => bal (moved s src dst ps) a id) (dst := dst)
        (bal_moved_dst h2 e (hf.2 h2 id))
        (fun a ha => bal_moved_other (fun _ => h1) (fun h => absurd h ha))
      rw [this, Nat.add_zero]
    · by_cases h2 : dst = ZERO
      · rw [if_pos h2, if_neg h1]
        have hle := hf.1 h1 id
        have := (sum_up (f := fun a => bal (moved s src dst ps) a id) (g := fun a => bal s a id) (dst := src)
          (d := demand ps id)
          (by
            show bal s src id = bal (moved s src dst ps) src id + demand ps id
            rw [bal_moved_src h1 hle]; omega)
          (fun a ha => (bal_moved_other (fun h => absurd h ha) (fun _ => h2)).symm)).symm
        rw [this, Nat.add_zero]
      · rw [if_neg h2, if_neg h1, Nat.add_zero, Nat.add_zero]
        have hle := hf.1 h1 id
        have := sum_change (f := fun a => bal s a id) (g := fun a => bal (moved s src dst ps) a id) e
          (d := demand ps id)
          (by
            show bal (moved s src dst ps) src id + demand ps id = bal s src id
            rw [bal_moved_src h1 hle]; omega)
          (bal_moved_dst h2 e (hf.2 h2 id))
          (fun a ha hb => bal_moved_other (fun h => absurd h ha) (fun h => absurd h hb))
        rw [this]

theorem supply_log (s : State) (l : List Event) (id : U256) : supply { s with log := l } id = supply s id := rfl

theorem supply_books {s s' : State} (h : Effect s s') (hs : ∀ id, supply s id + burned s.log id = minted s.log id) :
    ∀ id, supply s' id + burned s'.log id = minted s'.log id := by
  intro id
  have h0 := hs id
  unfold burned minted at *
  cases h with
  | approve o p b =>
    dsimp only
    rw [sent_snoc, received_snoc]
    exact h0
  | move op src dst ids vs hz hl hf =>
    dsimp only
    rw [sent_snoc, received_snoc, in_event _ _ _ _ _ _ hl, out_event _ _ _ _ _ _ hl, supply_log]
    have := supply_batched hz hf id
    omega

theorem supply_init (id : U256) : supply init id = 0 := by
  unfold supply
  apply Finset.sum_eq_zero
  intro a _
  rfl

end Verif.Erc1155
