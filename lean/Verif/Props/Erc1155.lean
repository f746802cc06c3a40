import Verif.Proofs.Erc1155Supply
/-! # C55-C59: ERC-1155 and its supply extension -/

namespace Verif.Erc1155.Props
open Verif.Erc1155
open Verif.Spec.Erc1155

/-! ## Bridges between the specification and the lemmas -/

theorem accepted_iff {R : Receivers} {op src dst : Address} {ids vs : List U256} {data : Bytes}
    (hl : ids.length = vs.length) :
    Accepts R dst (receiverData op src ids vs data).1 (receiverData op src ids vs data).2 ↔
      Accepted R op src dst ids vs data := by
  unfold Accepted
  match ids, vs, hl with
  | [], [], _ => simp [receiverData, BATCH_SELECTOR]
  | [id], [v], _ => simp [receiverData, SINGLE_SELECTOR]
  | _ :: _ :: _, _ :: _ :: _, _ => simp [receiverData, BATCH_SELECTOR]

theorem isEvent_updateEvent (op src dst : Address) {ids vs : List U256} (hl : ids.length = vs.length) :
    IsEvent op src dst ids vs (updateEvent op src dst ids vs) := by
  unfold IsEvent
  match ids, vs, hl with
  | [], [], _ => simp [updateEvent]
  | [id], [v], _ => simp [updateEvent]
  | _ :: _ :: _, _ :: _ :: _, _ => simp [updateEvent]

theorem covered_iff {s : State} {src dst : Address} {ps : List (U256 × U256)} (h1 : src ≠ ZERO) (h2 : dst ≠ ZERO) :
    Funds s src dst ps ↔ Covered s src dst ps := by
  unfold Funds Covered
  by_cases e : src = dst
  · rw [if_pos e, if_pos e]
  · rw [if_neg e, if_neg e]
    exact ⟨fun h id => ⟨h.1 h1 id, h.2 h2 id⟩, fun h => ⟨fun _ id => (h id).1, fun _ id => (h id).2⟩⟩

theorem moved_spec {s : State} {op src dst : Address} {ids vs : List U256} (h0 : src ≠ ZERO ∨ dst ≠ ZERO)
    (hl : ids.length = vs.length) (hf : Funds s src dst (ids.zip vs)) :
    Moved s { batched s src dst (ids.zip vs) with log := s.log ++ [updateEvent op src dst ids vs] }
      op src dst ids vs := by
  refine ⟨fun a id => ?_, fun a b => ?_, ⟨_, isEvent_updateEvent op src dst hl, rfl⟩⟩
  · rw [bal_log]
    unfold batched Funds at *
    by_cases e : src = dst
    · subst e; rw [if_pos rfl]
    · rw [if_neg e] at hf ⊢
      by_cases hs : a = src
      · subst hs
        rw [if_neg (fun h => e h.1 : ¬ (a = dst ∧ a ≠ ZERO))]
        by_cases hz : a = ZERO
        · rw [if_neg (fun h => h.2 hz), bal_moved_other (fun _ => hz) (fun h => absurd h e)]
        · rw [if_pos ⟨rfl, hz⟩, bal_moved_src hz (hf.1 hz id)]
          have := hf.1 hz id
          omega
      · rw [if_neg (fun h => hs h.1)]
        by_cases hd : a = dst
        · subst hd
          by_cases hz : a = ZERO
          · rw [if_neg (fun h => h.2 hz), bal_moved_other (fun h => absurd h hs) (fun _ => hz)]
          · rw [if_pos ⟨rfl, hz⟩, bal_moved_dst hz e (hf.2 hz id)]
            omega
        · rw [if_neg (fun h => hd h.1), bal_moved_other (fun h => absurd h hs) (fun h => absurd h hd)]
  · unfold isApprovedForAll batched moved
    split <;> rfl

/-! ## Concrete states -/

def alice : Address := 0xA#160
def bob : Address := 0xB#160
def carol : Address := 0xC#160
def R0 : Receivers := fun _ => none

/-- Alice holds 10 of id 1 and 5 of id 2, and Carol is Alice's operator. -/
def s1 : State := run init
  [⟨alice, R0, .inr (.mintBatch alice [1#256, 2#256] [10#256, 5#256] [])⟩,
   ⟨alice, R0, .inl (.setApprovalForAll carol true)⟩]

theorem s1_reachable : Reachable s1 := ⟨_, rfl⟩

/-! ## C55 -/

/-- **C55.** In every reachable state, for each id the sum of all balances, plus everything burned,
equals everything minted. -/
theorem C55_supply_is_minted_minus_burned {s : State} (h : Reachable s) (id : U256) :
    (∑ a, (balanceOf s a id).toNat) + burned s.log id = minted s.log id := by
  obtain ⟨txs, rfl⟩ := h
  have := run_invariant (exec := exec) (Inv := fun s => ∀ id, supply s id + burned s.log id = minted s.log id)
    (fun _ _ _ hs h => supply_books (exec_effect h) hs) txs init
    (fun id => by rw [supply_init]; rfl) id
  exact this

/-- **C55.** In every reachable state each account's balance of each id is what the event log says it
received less what the log says it gave away; the zero address has none. -/
theorem C55_balance_matches_log {s : State} (h : Reachable s) (a : Address) (id : U256) :
    (a ≠ ZERO → (balanceOf s a id).toNat + sent s.log a id = received s.log a id) ∧
    balanceOf s ZERO id = 0#256 := by
  have hi := reachable_inv h
  exact ⟨hi.books a id, BitVec.eq_of_toNat_eq (hi.zero id)⟩

/-- **C55.** A transfer, single or batch, with any ids repeated, leaves every id's sum of balances as it was. -/
theorem C55_transfer_conserves {R : Receivers} {s s' : State} {caller src dst : Address} {ids vs : List U256}
    {data : Bytes} (h : safeBatchTransferFrom R s caller src dst ids vs data = .ok s') (id : U256) :
    ∑ a, (balanceOf s' a id).toNat = ∑ a, (balanceOf s a id).toNat := by
  obtain ⟨h1, h2, h3, h4, _, rfl⟩ := doSafeTransferFrom_ok.mp (auth_then.mp h).2
  have := supply_batched (Or.inr h1) h4 id
  rw [if_neg h1, if_neg h2, Nat.add_zero, Nat.add_zero, ← supply_log _ (s.log ++ [updateEvent caller src dst ids vs])] at this
  exact this

/-- **C55.** The same for a single transfer. -/
theorem C55_single_transfer_conserves {R : Receivers} {s s' : State} {caller src dst : Address} {i v : U256}
    {data : Bytes} (h : safeTransferFrom R s caller src dst i v data = .ok s') (id : U256) :
    ∑ a, (balanceOf s' a id).toNat = ∑ a, (balanceOf s a id).toNat :=
  C55_transfer_conserves (R := R) (caller := caller) (src := src) (dst := dst) (ids := [i]) (vs := [v]) (data := data) h id

/-- The sequence of single transfers listed in a batch, all to accounts without code. -/
def singles (s : State) (caller src dst : Address) : List (U256 × U256) → Except Err State
  | [] => .ok s
  | p :: ps => do
    let s' ← safeTransferFrom (fun _ => none) s caller src dst p.1 p.2 []
    singles s' caller src dst ps

theorem mayMove_of_moved {s s' : State} {op src dst : Address} {ids vs : List U256} {caller a : Address}
    (h : Moved s s' op src dst ids vs) : MayMove s' caller a ↔ MayMove s caller a := by
  unfold MayMove; rw [h.approvals]

theorem bal_eq_of_toNat {s s' : State} (h : ∀ a id, bal s' a id = bal s a id) : s'.balances = s.balances := by
  funext id a
  exact BitVec.eq_of_toNat_eq (h a id)

theorem singles_iff {caller src dst : Address} (h1 : src ≠ ZERO) (h2 : dst ≠ ZERO) (ps : List (U256 × U256)) :
    ∀ {s s' : State}, MayMove s caller src → ((∃ t, singles s caller src dst ps = .ok t ∧ t.balances = s'.balances) ↔
      Funds s src dst ps ∧ s'.balances = (batched s src dst ps).balances) := by
  induction ps with
  | nil =>
    intro s s' hm
    have hf : Funds s src dst [] := by
      unfold Funds
      split
      · simp
      · exact ⟨fun _ _ => Nat.zero_le _, fun _ id => by simp only [demand, Nat.add_zero]; exact bal_lt s dst id⟩
    have hb : batched s src dst [] = s := by
      unfold batched; split
      · rfl
      · exact moved_nil s src dst
    rw [hb]
    constructor
    · rintro ⟨t, ht, e⟩
      injection ht with ht
      subst ht
      exact ⟨hf, e.symm⟩
    · rintro ⟨_, e⟩
      exact ⟨s, rfl, e.symm⟩
  | cons p ps ih =>
    intro s s' hm
    have hcons : ∀ u : State, (doUpdates s src dst (p :: ps) = .ok u ↔
        ∃ m, doUpdate s src dst p.1 p.2 = .ok m ∧ doUpdates m src dst ps = .ok u) := by
      intro u; rw [doUpdates, bind_eq_ok]
    have hfirst : ∀ m, doUpdate s src dst p.1 p.2 = .ok m ↔ Funds s src dst [p] ∧ m = batched s src dst [p] := by
      intro m
      rw [← doUpdates_iff (Or.inl h1), doUpdates, bind_eq_ok]
      constructor
      · intro h; exact ⟨m, h, rfl⟩
      · rintro ⟨m', h, h'⟩
        injection h' with h'
        subst h'; exact h
    constructor
    · rintro ⟨t, ht, e⟩
      rw [singles, bind_eq_ok] at ht
      obtain ⟨m, hm1, hm2⟩ := ht
      obtain ⟨_, _, hl, hf, _, rfl⟩ := doSafeTransferFrom_ok.mp (auth_then.mp hm1).2
      have hmv := moved_spec (op := caller) (Or.inl h1) hl hf
      have := (ih (s' := s') ((mayMove_of_moved hmv).mpr hm)).mp ⟨t, hm2, e⟩
      obtain ⟨f2, e2⟩ := this
      have hu := (hcons (batched (batched s src dst [p]) src dst ps)).mpr
        ⟨batched s src dst [p], (hfirst _).mpr ⟨hf, rfl⟩, (doUpdates_iff (Or.inl h1)).mpr ⟨f2, rfl⟩⟩
      obtain ⟨f3, e3⟩ := (doUpdates_iff (Or.inl h1)).mp hu
      refine ⟨f3, ?_⟩
      rw [← e3, e2]
      have key : ∀ (x y : State), x.balances = y.balances →
          (batched x src dst ps).balances = (batched y src dst ps).balances := by
        intro x y hxy
        unfold batched moved
        split
        · exact hxy
        · simp only [hxy]
      exact key _ _ rfl
    · rintro ⟨hf, e⟩
      have hu := (doUpdates_iff (Or.inl h1)).mpr (⟨hf, rfl⟩ : Funds s src dst (p :: ps) ∧ _ = batched s src dst (p :: ps))
      obtain ⟨m, hm1, hm2⟩ := (hcons _).mp hu
      obtain ⟨f1, rfl⟩ := (hfirst _).mp hm1
      obtain ⟨f2, e2⟩ := (doUpdates_iff (Or.inl h1)).mp hm2
      have hl : [p.1].length = [p.2].length := rfl
      have hmv := moved_spec (op := caller) (Or.inl h1) hl f1
      have f2' : Funds { batched s src dst ([p.1].zip [p.2]) with log := s.log ++ [updateEvent caller src dst [p.1] [p.2]] } src dst ps := f2
      obtain ⟨t, ht, et⟩ := (ih (s' := batched s src dst (p :: ps)) ((mayMove_of_moved hmv).mpr hm)).mpr ⟨f2', by
        rw [e2]
        have key : ∀ (x y : State), x.balances = y.balances →
            (batched x src dst ps).balances = (batched y src dst ps).balances := by
          intro x y hxy
          unfold batched moved
          split
          · exact hxy
          · simp only [hxy]
        exact key _ _ rfl⟩
      refine ⟨t, ?_, by rw [et, e]⟩
      rw [singles, bind_eq_ok]
      refine ⟨_, auth_then.mpr ⟨hm, doSafeTransferFrom_ok.mpr ⟨h2, h1, hl, f1, ?_, rfl⟩⟩, ht⟩
      intro f hf'
      simp at hf'

/-- **C55.** A batch transfer of parallel lists (to an account without code) does to the balances what
the single transfers listed do one after the other — with any repetitions of ids, and including
whether it succeeds. -/
theorem C55_batch_is_sequence (s : State) (caller src dst : Address) (ps : List (U256 × U256)) (hne : ps ≠ [])
    (B : U256 → Address → U256) :
    (∃ t, safeBatchTransferFrom (fun _ => none) s caller src dst (ps.map (·.1)) (ps.map (·.2)) [] = .ok t ∧ t.balances = B) ↔
    (∃ t, singles s caller src dst ps = .ok t ∧ t.balances = B) := by
  have hz : (ps.map (·.1)).zip (ps.map (·.2)) = ps := (List.zip_of_prod rfl rfl).symm
  have hacc : ∀ x y, Accepts (fun _ => none) dst x y := fun _ _ f hf => by simp at hf
  have hb : ∀ x : State, ({ x with log := s.log ++ [updateEvent caller src dst (ps.map (·.1)) (ps.map (·.2))] } : State).balances
    = x.balances := fun _ => rfl
  constructor
  · rintro ⟨t, ht, rfl⟩
    obtain ⟨hm, ht⟩ := auth_then.mp ht
    obtain ⟨h2, h1, _, hf, _, rfl⟩ := doSafeTransferFrom_ok.mp ht
    rw [hz] at hf ⊢
    exact (singles_iff h1 h2 ps hm).mpr ⟨hf, rfl⟩
  · rintro ⟨t, ht, rfl⟩
    obtain ⟨p, qs, rfl⟩ := List.exists_cons_of_ne_nil hne
    have ht0 := ht
    rw [singles, bind_eq_ok] at ht0
    obtain ⟨m, hm1, _⟩ := ht0
    obtain ⟨hm, hm1⟩ := auth_then.mp hm1
    obtain ⟨h2, h1, _⟩ := doSafeTransferFrom_ok.mp hm1
    obtain ⟨hf, e⟩ := (singles_iff h1 h2 (p :: qs) hm (s' := t)).mp ⟨t, ht, rfl⟩
    refine ⟨_, auth_then.mpr ⟨hm, doSafeTransferFrom_ok.mpr ⟨h2, h1, by simp, by rw [hz]; exact hf, hacc _ _, rfl⟩⟩, ?_⟩
    rw [hb, hz, e]

/-- **C55.** Minting adds exactly the minted amounts of each id to the receiver; it needs a non-zero
receiver that accepts, lists of equal length, and room. -/
theorem C55_mint (R : Receivers) (s : State) (caller dst : Address) (ids vs : List U256) (data : Bytes) :
    ((∃ s', doMint R s caller dst ids vs data = .ok s') ↔
      dst ≠ ZERO ∧ ids.length = vs.length ∧
      (∀ id, (balanceOf s dst id).toNat + demand (ids.zip vs) id < 2 ^ 256) ∧
      Accepted R caller ZERO dst ids vs data) ∧
    ∀ s', doMint R s caller dst ids vs data = .ok s' → Moved s s' caller ZERO dst ids vs := by
  constructor
  · constructor
    · rintro ⟨s', h⟩
      obtain ⟨a, b, c, d, _⟩ := doMint_ok.mp h
      exact ⟨a, b, c, (accepted_iff b).mp d⟩
    · rintro ⟨a, b, c, d⟩
      exact ⟨_, doMint_ok.mpr ⟨a, b, c, (accepted_iff b).mpr d, rfl⟩⟩
  · intro s' h
    obtain ⟨a, b, c, _, rfl⟩ := doMint_ok.mp h
    have hne : ¬ ZERO = dst := fun e => a e.symm
    have := moved_spec (s := s) (op := caller) (Or.inr a : ZERO ≠ ZERO ∨ dst ≠ ZERO) b
      (by unfold Funds; rw [if_neg hne]; exact ⟨fun e => absurd rfl e, fun _ => c⟩)
    unfold batched at this
    rwa [if_neg hne] at this

/-- **C55.** Burning takes exactly the amounts listed away; it needs a non-zero account, lists of
equal length, and enough of every id. -/
theorem C55_burn (R : Receivers) (s : State) (caller src : Address) (ids vs : List U256) :
    ((∃ s', doBurn R s caller src ids vs = .ok s') ↔
      src ≠ ZERO ∧ ids.length = vs.length ∧ (∀ id, demand (ids.zip vs) id ≤ (balanceOf s src id).toNat)) ∧
    ∀ s', doBurn R s caller src ids vs = .ok s' → Moved s s' caller src ZERO ids vs := by
  constructor
  · constructor
    · rintro ⟨s', h⟩
      obtain ⟨a, b, c, _⟩ := doBurn_ok.mp h
      exact ⟨a, b, c⟩
    · rintro ⟨a, b, c⟩
      exact ⟨_, doBurn_ok.mpr ⟨a, b, c, rfl⟩⟩
  · intro s' h
    obtain ⟨a, b, c, rfl⟩ := doBurn_ok.mp h
    have := moved_spec (s := s) (op := caller) (Or.inl a : src ≠ ZERO ∨ ZERO ≠ ZERO) b
      (by unfold Funds; rw [if_neg a]; exact ⟨fun _ => c, fun e => absurd rfl e⟩)
    unfold batched at this
    rwa [if_neg a] at this

/-! Concrete: a batch with a repeated id. -/
example : ((safeBatchTransferFrom R0 s1 carol alice bob [1#256, 2#256, 1#256] [3#256, 5#256, 4#256] []).toOption.map
    fun t => [balanceOf t alice 1#256, balanceOf t alice 2#256, balanceOf t bob 1#256, balanceOf t bob 2#256])
    = some [3#256, 0#256, 7#256, 5#256] := by decide +kernel
example : ((singles s1 carol alice bob [(1#256, 3#256), (2#256, 5#256), (1#256, 4#256)]).toOption.map
    fun t => [balanceOf t alice 1#256, balanceOf t alice 2#256, balanceOf t bob 1#256, balanceOf t bob 2#256])
    = some [3#256, 0#256, 7#256, 5#256] := by decide +kernel
example : (safeBatchTransferFrom R0 s1 carol alice bob [1#256, 1#256] [6#256, 6#256] []).toOption.isNone = true := by
  decide +kernel
example : minted s1.log 1#256 = 10 ∧ burned s1.log 1#256 = 0 := by decide +kernel

/-! ## C56 -/

/-- **C56.** Transfers and burns succeed only for the holder or an approved operator of the holder. -/
theorem C56_authorised {R : Receivers} {s s' : State} {caller : Address} :
    (∀ src dst id v data, safeTransferFrom R s caller src dst id v data = .ok s' → MayMove s caller src) ∧
    (∀ src dst ids vs data, safeBatchTransferFrom R s caller src dst ids vs data = .ok s' → MayMove s caller src) ∧
    (∀ a id v, burn R s caller a id v = .ok s' → MayMove s caller a) ∧
    (∀ a ids vs, burnBatch R s caller a ids vs = .ok s' → MayMove s caller a) :=
  ⟨fun _ _ _ _ _ h => (auth_then.mp h).1, fun _ _ _ _ _ h => (auth_then.mp h).1,
   fun _ _ _ h => (auth_then.mp h).1, fun _ _ _ h => (auth_then.mp h).1⟩

/-- **C56.** Anybody else is refused with the error naming them and the holder. -/
theorem C56_strangers_refused {R : Receivers} {s : State} {caller src : Address} (h : ¬ MayMove s caller src) :
    (∀ dst id v data, safeTransferFrom R s caller src dst id v data = .error (.missingApprovalForAll caller src)) ∧
    (∀ dst ids vs data, safeBatchTransferFrom R s caller src dst ids vs data =
      .error (.missingApprovalForAll caller src)) ∧
    (∀ id v, burn R s caller src id v = .error (.missingApprovalForAll caller src)) ∧
    (∀ ids vs, burnBatch R s caller src ids vs = .error (.missingApprovalForAll caller src)) := by
  have ha : authorizeTransfer s caller src = .error (.missingApprovalForAll caller src) := by
    unfold authorizeTransfer
    unfold MayMove at h
    push Not at h
    rw [if_pos ⟨fun e => h.1 e.symm, by simpa using h.2⟩]
  refine ⟨fun _ _ _ _ => ?_, fun _ _ _ _ => ?_, fun _ _ => ?_, fun _ _ => ?_⟩
  · unfold safeTransferFrom; rw [ha]; rfl
  · unfold safeBatchTransferFrom; rw [ha]; rfl
  · unfold burn; rw [ha]; rfl
  · unfold burnBatch; rw [ha]; rfl

/-- **C56.** In any call by any user, a balance can fall only if the caller is the holder or an
operator of the holder, and the call is a transfer or a burn from that holder. -/
theorem C56_balance_falls_only_by_authority {R : Receivers} {s s' : State} {caller a : Address} {id : U256}
    {c : UserCall} (h : execUser R s caller c = .ok s')
    (hfall : (balanceOf s' a id).toNat < (balanceOf s a id).toNat) :
    MayMove s caller a ∧
    ((∃ dst i v data, c = .safeTransferFrom a dst i v data) ∨
     (∃ dst ids vs data, c = .safeBatchTransferFrom a dst ids vs data) ∨
     (∃ i v, c = .burn a i v) ∨ (∃ ids vs, c = .burnBatch a ids vs)) := by
  have key : ∀ {src dst : Address} {ids vs : List U256}, Moved s s' caller src dst ids vs → a = src := by
    intro src dst ids vs hm
    by_contra hne
    have := hm.balances a id
    rw [if_neg (fun h => hne h.1)] at this
    change bal s' a id < bal s a id at hfall
    omega
  have kt : ∀ {src dst : Address} {ids vs : List U256} {data : Bytes},
      doSafeTransferFrom R s caller src dst ids vs data = .ok s' → a = src := by
    intro src dst ids vs data h
    obtain ⟨h1, h2, h3, h4, _, rfl⟩ := doSafeTransferFrom_ok.mp h
    exact key (moved_spec (op := caller) (Or.inr h1) h3 h4)
  cases c with
  | safeTransferFrom src dst i v data =>
    obtain ⟨hm, h⟩ := auth_then.mp h
    obtain rfl := kt h
    exact ⟨hm, Or.inl ⟨_, _, _, _, rfl⟩⟩
  | safeBatchTransferFrom src dst ids vs data =>
    obtain ⟨hm, h⟩ := auth_then.mp h
    obtain rfl := kt h
    exact ⟨hm, Or.inr (Or.inl ⟨_, _, _, _, rfl⟩)⟩
  | setApprovalForAll op b =>
    obtain ⟨_, rfl⟩ := setApprovalForAll_ok.mp h
    exact absurd hfall (Nat.lt_irrefl _)
  | burn src i v =>
    obtain ⟨hm, h⟩ := auth_then.mp h
    obtain rfl := key ((C55_burn R s caller src [i] [v]).2 s' h)
    exact ⟨hm, Or.inr (Or.inr (Or.inl ⟨_, _, rfl⟩))⟩
  | burnBatch src ids vs =>
    obtain ⟨hm, h⟩ := auth_then.mp h
    obtain rfl := key ((C55_burn R s caller src ids vs).2 s' h)
    exact ⟨hm, Or.inr (Or.inr (Or.inr ⟨_, _, rfl⟩))⟩

/-- **C56.** An operator approval changes only by the holder's own `setApprovalForAll`, which sets
exactly that approval, is refused for the zero operator, and moves nothing. -/
theorem C56_approvals_only_by_owner {R : Receivers} {s s' : State} {caller : Address} {c : UserCall}
    (h : execUser R s caller c = .ok s') (o p : Address) (hch : isApprovedForAll s' o p ≠ isApprovedForAll s o p) :
    caller = o ∧ c = .setApprovalForAll p (isApprovedForAll s' o p) := by
  have kt : ∀ {src dst : Address} {ids vs : List U256} {data : Bytes},
      doSafeTransferFrom R s caller src dst ids vs data = .ok s' → False := by
    intro src dst ids vs data h
    obtain ⟨h1, h2, h3, h4, _, rfl⟩ := doSafeTransferFrom_ok.mp h
    exact hch ((moved_spec (op := caller) (Or.inr h1) h3 h4).approvals o p)
  cases c with
  | safeTransferFrom src dst i v data => exact (kt (auth_then.mp h).2).elim
  | safeBatchTransferFrom src dst ids vs data => exact (kt (auth_then.mp h).2).elim
  | burn src i v => exact absurd (((C55_burn R s caller src [i] [v]).2 s' (auth_then.mp h).2).approvals o p) hch
  | burnBatch src ids vs => exact absurd (((C55_burn R s caller src ids vs).2 s' (auth_then.mp h).2).approvals o p) hch
  | setApprovalForAll q b =>
    obtain ⟨_, rfl⟩ := setApprovalForAll_ok.mp h
    unfold isApprovedForAll at hch ⊢
    dsimp only at hch ⊢
    rw [upd2_apply] at hch ⊢
    by_cases e : o = caller ∧ p = q
    · obtain ⟨rfl, rfl⟩ := e
      rw [if_pos ⟨rfl, rfl⟩]
      exact ⟨rfl, rfl⟩
    · rw [if_neg e] at hch
      exact absurd rfl hch

/-- **C56.** `setApprovalForAll` succeeds exactly for a non-zero operator, and then sets that one
approval and logs it. -/
theorem C56_set_approval (s : State) (caller op : Address) (b : Bool) :
    (op = ZERO → setApprovalForAll s caller op b = .error (.invalidOperator op)) ∧
    (op ≠ ZERO → ∃ s', setApprovalForAll s caller op b = .ok s' ∧ isApprovedForAll s' caller op = b ∧
      (∀ o p, ¬ (o = caller ∧ p = op) → isApprovedForAll s' o p = isApprovedForAll s o p) ∧
      (∀ a id, balanceOf s' a id = balanceOf s a id) ∧ s'.log = s.log ++ [.approvalForAll caller op b]) := by
  constructor
  · intro h; unfold setApprovalForAll; rw [if_pos h]
  · intro h
    refine ⟨_, setApprovalForAll_ok.mpr ⟨h, rfl⟩, ?_, fun o p hne => ?_, fun _ _ => rfl, rfl⟩
    · unfold isApprovedForAll; dsimp only; rw [upd2_apply, if_pos ⟨rfl, rfl⟩]
    · unfold isApprovedForAll; dsimp only; rw [upd2_apply, if_neg hne]

example : MayMove s1 carol alice ∧ ¬ MayMove s1 bob alice := by
  refine ⟨Or.inr (by decide +kernel), fun h => ?_⟩
  rcases h with h | h
  · exact absurd h (by decide)
  · exact absurd h (by decide +kernel)

/-! ## C57 -/

/-- **C57.** Exactly when a batch transfer succeeds — for any lengths and contents, repeated ids
included — and exactly what it then does. -/
theorem C57_batch_transfer (R : Receivers) (s : State) (caller src dst : Address) (ids vs : List U256) (data : Bytes) :
    ((∃ s', safeBatchTransferFrom R s caller src dst ids vs data = .ok s') ↔
      MayMove s caller src ∧ src ≠ ZERO ∧ dst ≠ ZERO ∧ ids.length = vs.length ∧
      Covered s src dst (ids.zip vs) ∧ Accepted R caller src dst ids vs data) ∧
    ∀ s', safeBatchTransferFrom R s caller src dst ids vs data = .ok s' → Moved s s' caller src dst ids vs := by
  constructor
  · constructor
    · rintro ⟨s', h⟩
      obtain ⟨hm, h⟩ := auth_then.mp h
      obtain ⟨h1, h2, h3, h4, h5, _⟩ := doSafeTransferFrom_ok.mp h
      exact ⟨hm, h2, h1, h3, (covered_iff h2 h1).mp h4, (accepted_iff h3).mp h5⟩
    · rintro ⟨hm, h2, h1, h3, h4, h5⟩
      exact ⟨_, auth_then.mpr ⟨hm, doSafeTransferFrom_ok.mpr
        ⟨h1, h2, h3, (covered_iff h2 h1).mpr h4, (accepted_iff h3).mpr h5, rfl⟩⟩⟩
  · intro s' h
    obtain ⟨h1, h2, h3, h4, _, rfl⟩ := doSafeTransferFrom_ok.mp (auth_then.mp h).2
    exact moved_spec (Or.inr h1) h3 h4

/-- **C57.** The same for a single transfer. -/
theorem C57_single_transfer (R : Receivers) (s : State) (caller src dst : Address) (id v : U256) (data : Bytes) :
    ((∃ s', safeTransferFrom R s caller src dst id v data = .ok s') ↔
      MayMove s caller src ∧ src ≠ ZERO ∧ dst ≠ ZERO ∧ v.toNat ≤ (balanceOf s src id).toNat ∧
      (src ≠ dst → (balanceOf s dst id).toNat + v.toNat < 2 ^ 256) ∧
      Accepts R dst 0xf23a6e61#32 (.single caller src id v data)) ∧
    ∀ s', safeTransferFrom R s caller src dst id v data = .ok s' → Moved s s' caller src dst [id] [v] := by
  obtain ⟨h1, h2⟩ := C57_batch_transfer R s caller src dst [id] [v] data
  refine ⟨?_, h2⟩
  have e : safeTransferFrom R s caller src dst id v data = safeBatchTransferFrom R s caller src dst [id] [v] data := rfl
  have hcov : Covered s src dst ([id].zip [v]) ↔ v.toNat ≤ (balanceOf s src id).toNat ∧
      (src ≠ dst → (balanceOf s dst id).toNat + v.toNat < 2 ^ 256) := by
    unfold Covered
    by_cases he : src = dst
    · rw [if_pos he]; simp [he, bal]
    · rw [if_neg he]
      constructor
      · intro h
        have := h id
        simp only [List.zip_cons_cons, List.zip_nil_right, demand, if_true, Nat.add_zero] at this
        exact ⟨this.1, fun _ => this.2⟩
      · rintro ⟨ha, hb⟩ i
        simp only [List.zip_cons_cons, List.zip_nil_right, demand, Nat.add_zero]
        by_cases hi : id = i
        · subst hi; rw [if_pos rfl]; exact ⟨ha, hb he⟩
        · rw [if_neg hi]; exact ⟨Nat.zero_le _, bal_lt s dst i⟩
  have hacc : Accepted R caller src dst [id] [v] data ↔ Accepts R dst 0xf23a6e61#32 (.single caller src id v data) := by
    unfold Accepted; simp
  rw [e, h1, hcov, hacc]
  constructor
  · rintro ⟨a, b, c, _, ⟨d, f⟩, g⟩; exact ⟨a, b, c, d, f, g⟩
  · rintro ⟨a, b, c, d, f, g⟩; exact ⟨a, b, c, rfl, ⟨d, f⟩, g⟩

/-- **C57.** A batch whose lists differ in length is refused with both lengths, by an authorised caller
between non-zero accounts; likewise a `balanceOfBatch`. -/
theorem C57_length_mismatch {R : Receivers} {s : State} {caller src dst : Address} {ids vs : List U256} {data : Bytes}
    (hm : MayMove s caller src) (h1 : src ≠ ZERO) (h2 : dst ≠ ZERO) (hl : ids.length ≠ vs.length) :
    safeBatchTransferFrom R s caller src dst ids vs data =
      .error (.invalidArrayLength (BitVec.ofNat 256 ids.length) (BitVec.ofNat 256 vs.length)) ∧
    ∀ accounts : List Address, ids.length ≠ accounts.length → balanceOfBatch s accounts ids =
      .error (.invalidArrayLength (BitVec.ofNat 256 ids.length) (BitVec.ofNat 256 accounts.length)) := by
  constructor
  · unfold safeBatchTransferFrom doSafeTransferFrom updateWithAcceptanceCheck update requireEqualLength
    rw [authorizeTransfer_ok.mpr hm, except_bind_ok, if_neg h2, if_neg h1, if_pos hl]
    rfl
  · intro accounts h
    unfold balanceOfBatch requireEqualLength
    rw [if_pos h]
    rfl

/-- **C57.** Between two accounts, the first entry of a batch that finds the running balance too low is
the one reported, with the running balance; everything before it is undone with the rest. -/
theorem C57_first_shortfall_reported {R : Receivers} {s : State} {caller src dst : Address}
    {ps qs : List (U256 × U256)} {id v : U256} {data : Bytes}
    (hm : MayMove s caller src) (h1 : src ≠ ZERO) (h2 : dst ≠ ZERO) (hne : src ≠ dst)
    (hps : ∀ i, demand ps i ≤ (balanceOf s src i).toNat ∧ (balanceOf s dst i).toNat + demand ps i < 2 ^ 256)
    (hshort : (balanceOf s src id).toNat < demand ps id + v.toNat) :
    safeBatchTransferFrom R s caller src dst ((ps ++ (id, v) :: qs).map (·.1)) ((ps ++ (id, v) :: qs).map (·.2)) data =
      .error (.insufficientBalance src (BitVec.ofNat 256 ((balanceOf s src id).toNat - demand ps id)) v id) := by
  have hz : ((ps ++ (id, v) :: qs).map (·.1)).zip ((ps ++ (id, v) :: qs).map (·.2)) = ps ++ (id, v) :: qs :=
    (List.zip_of_prod rfl rfl).symm
  have happ : ∀ (ps qs : List (U256 × U256)) (s : State), doUpdates s src dst (ps ++ qs) =
      (do let m ← doUpdates s src dst ps; doUpdates m src dst qs) := by
    intro ps
    induction ps with
    | nil => intro qs s; rfl
    | cons p ps ih =>
      intro qs s
      rw [List.cons_append, doUpdates, doUpdates]
      cases doUpdate s src dst p.1 p.2 with
      | error e => rfl
      | ok m => rw [except_bind_ok, except_bind_ok, ih]
  have hfirst : doUpdates s src dst ps = .ok (moved s src dst ps) :=
    (doUpdates_ok hne ps).mpr ⟨fun _ i => (hps i).1, fun _ i => (hps i).2, rfl⟩
  have hbal : (balanceOf (moved s src dst ps) src id).toNat = (balanceOf s src id).toNat - demand ps id :=
    bal_moved_src h1 (hps id).1
  have hbal' : balanceOf (moved s src dst ps) src id = BitVec.ofNat 256 ((balanceOf s src id).toNat - demand ps id) := by
    apply BitVec.eq_of_toNat_eq
    rw [hbal, ofNat_toNat256 (by have := (balanceOf s src id).isLt; omega)]
  have hlt : balanceOf (moved s src dst ps) src id < v := by
    rw [BitVec.lt_def, hbal]
    have := (hps id).1
    omega
  have hfail : doUpdates (moved s src dst ps) src dst ((id, v) :: qs) =
      .error (.insufficientBalance src (balanceOf (moved s src dst ps) src id) v id) := by
    rw [doUpdates]
    unfold doUpdate
    dsimp only
    rw [if_pos h1, if_pos hlt]
    rfl
  unfold safeBatchTransferFrom doSafeTransferFrom updateWithAcceptanceCheck update requireEqualLength
  rw [authorizeTransfer_ok.mpr hm, except_bind_ok, if_neg h2, if_neg h1, if_neg (by simp), hz, happ, hfirst]
  simp only [except_bind_ok, except_pure, hfail, except_bind_error, hbal']

/-- **C57.** `balanceOfBatch` answers exactly the listed balances. -/
theorem C57_balance_of_batch (s : State) (ps : List (Address × U256)) :
    balanceOfBatch s (ps.map (·.1)) (ps.map (·.2)) = .ok (ps.map fun p => balanceOf s p.1 p.2) := by
  unfold balanceOfBatch requireEqualLength
  rw [if_neg (by simp), except_bind_ok, show (ps.map (·.1)).zip (ps.map (·.2)) = ps from (List.zip_of_prod rfl rfl).symm]
  rfl

/-- A receiver that answers batches properly but singles wrongly. -/
def R1 : Receivers := fun a => if a = bob then some fun n => match n with
  | .batch _ _ _ _ _ => .selector 0xbc197c81#32
  | .single _ _ _ _ _ => .selector 0xbc197c81#32 else none

example : (safeBatchTransferFrom R1 s1 alice alice bob [1#256, 1#256] [4#256, 6#256] []).toOption.isSome = true := by
  decide +kernel
example : (safeTransferFrom R1 s1 alice alice bob 1#256 4#256 []).toOption.isSome = false := by decide +kernel
/-- From an account to itself, twice the balance passes: each value is covered. -/
example : (safeBatchTransferFrom R0 s1 alice alice alice [1#256, 1#256] [10#256, 10#256] []).toOption.isSome = true := by
  decide +kernel
example : Covered s1 alice bob ([1#256, 2#256].zip [10#256, 5#256]) := by
  unfold Covered
  rw [if_neg (by decide)]
  intro id
  have h1 : bal s1 alice 1#256 = 10 := by decide +kernel
  have h2 : bal s1 alice 2#256 = 5 := by decide +kernel
  have hb : bal s1 bob id = 0 := by
    have : balanceOf s1 bob id = 0#256 := by
      simp [s1, run, runOf, stepOf, exec, execAdmin, execUser, doMint, updateWithAcceptanceCheck, update, requireEqualLength,
        doUpdates, doUpdate, orPanic, checkedAdd, checkOnReceived, receiverData, setApprovalForAll, balanceOf, init, R0,
        alice, bob, carol, ZERO, upd2_apply, except_bind_ok, except_pure, updateEvent]
    unfold bal; rw [this]; rfl
  rw [hb]
  simp only [List.zip_cons_cons, List.zip_nil_right, demand]
  by_cases e1 : 1#256 = id
  · subst e1
    rw [h1]
    decide
  · rw [if_neg e1]
    by_cases e2 : 2#256 = id
    · subst e2
      rw [h2]
      decide
    · rw [if_neg e2]
      exact ⟨Nat.zero_le _, by decide⟩

end Verif.Erc1155.Props

namespace Verif.Erc1155Supply.Props
open Verif.Erc1155 (Err Receivers)
open Verif.Erc1155Supply
open Verif.Spec.Erc1155Supply

/-! ## C58 -/

/-- **C58.** In every reachable state `total_supply(id)` is the sum of all balances of `id`. -/
theorem C58_total_is_sum {s : State} (h : Reachable s) (id : U256) :
    (totalSupplyOf s id).toNat = ∑ a, (Erc1155.balanceOf s.erc1155 a id).toNat := by
  have := (reachable_inv h).tot id
  exact this

/-- **C58.** `exists(id)` says whether anybody holds any of `id`. -/
theorem C58_exists_iff_held {s : State} (h : Reachable s) (id : U256) :
    exists_ s id = true ↔ ∃ a, Erc1155.balanceOf s.erc1155 a id ≠ 0#256 := by
  have ht := C58_total_is_sum h id
  unfold exists_
  rw [decide_eq_true_eq, BitVec.lt_def, ht]
  have hpos : ∀ a, Erc1155.balanceOf s.erc1155 a id ≠ 0#256 ↔ (Erc1155.balanceOf s.erc1155 a id).toNat ≠ 0 := by
    intro a
    constructor
    · intro h e; exact h (BitVec.eq_of_toNat_eq e)
    · intro h e; rw [e] at h; exact h rfl
  constructor
  · intro hlt
    by_contra hno
    push Not at hno
    have : ∑ a, (Erc1155.balanceOf s.erc1155 a id).toNat = 0 :=
      Finset.sum_eq_zero fun a _ => by rw [hno a]; rfl
    rw [this] at hlt
    exact Nat.lt_irrefl _ hlt
  · rintro ⟨a, ha⟩
    have h1 := Finset.single_le_sum (f := fun a => (Erc1155.balanceOf s.erc1155 a id).toNat)
      (fun _ _ => Nat.zero_le _) (Finset.mem_univ a)
    have h2 := (hpos a).mp ha
    have : (0#256).toNat = 0 := rfl
    rw [this]
    omega

/-- **C58.** The extension changes nothing about the token: whatever a call does to balances, approvals
and the log, the plain ERC-1155 does too. -/
theorem C58_same_token {s s' : State} {tx : Tx} (h : exec s tx = .ok s') :
    Erc1155.exec s.erc1155 ⟨tx.caller, tx.receivers, tx.call.base⟩ = .ok s'.erc1155 :=
  (exec_effect h).2

/-- **C58.** Transfers leave all totals alone, and a call of the extension that the plain token would
accept fails only when minting and one of its totals would overflow. -/
theorem C58_fails_only_on_overflow {s : State} {tx : Tx} {t : Erc1155.State}
    (hb : Erc1155.exec s.erc1155 ⟨tx.caller, tx.receivers, tx.call.base⟩ = .ok t) :
    (∃ s', exec s tx = .ok s' ∧ s'.erc1155 = t) ∨
    (∃ dst ids vs data, (tx.call = .mintBatch dst ids vs data ∨ ∃ i v, tx.call = .mint dst i v data ∧ ids = [i] ∧ vs = [v]) ∧
      ((∃ id, 2 ^ 256 ≤ (totalSupplyOf s id).toNat + Spec.Erc1155.demand (ids.zip vs) id) ∨
       2 ^ 256 ≤ (totalSupplyAllOf s).toNat + (wrappingSum vs).toNat)) := by
  obtain ⟨caller, R, call⟩ := tx
  have mintCase : ∀ dst ids vs data, Erc1155.doMint R s.erc1155 caller dst ids vs data = .ok t →
      (∃ s', doMint R s caller dst ids vs data = .ok s' ∧ s'.erc1155 = t) ∨
      ((∃ id, 2 ^ 256 ≤ (totalSupplyOf s id).toNat + Spec.Erc1155.demand (ids.zip vs) id) ∨
       2 ^ 256 ≤ (totalSupplyAllOf s).toNat + (wrappingSum vs).toNat) := by
    intro dst ids vs data h
    unfold Erc1155.doMint at h
    unfold doMint
    by_cases h1 : dst = ZERO
    · rw [if_pos h1] at h; simp at h
    rw [if_neg h1] at h ⊢
    simp only [except_pure, except_bind_ok] at h ⊢
    unfold Erc1155.updateWithAcceptanceCheck at h
    rw [bind_eq_ok] at h
    obtain ⟨t', h2, h3⟩ := h
    rw [if_pos h1, bind_eq_ok] at h3
    obtain ⟨_, h3, h4⟩ := h3
    injection h4 with h4
    subst h4
    by_cases ha : ∀ id, (s.totalSupply id).toNat + Spec.Erc1155.demand (ids.zip vs) id < 2 ^ 256
    · by_cases hc : s.totalSupplyAll.toNat + (wrappingSum vs).toNat < 2 ^ 256
      · exact Or.inl ⟨_, updateCheck_ok.mpr ⟨(update_mint h1).mpr ⟨_, h2, ha, hc, rfl⟩, fun _ => h3⟩, rfl⟩
      · exact Or.inr (Or.inr (Nat.le_of_not_lt hc))
    · push Not at ha
      exact Or.inr (Or.inl ha)
  have burnCase : ∀ src ids vs, Erc1155.doBurn R s.erc1155 caller src ids vs = .ok t →
      ∃ s', doBurn R s caller src ids vs = .ok s' ∧ s'.erc1155 = t := by
    intro src ids vs h
    unfold Erc1155.doBurn at h
    unfold doBurn
    by_cases h1 : src = ZERO
    · rw [if_pos h1] at h; simp at h
    rw [if_neg h1] at h ⊢
    simp only [except_pure, except_bind_ok] at h ⊢
    unfold Erc1155.updateWithAcceptanceCheck at h
    rw [bind_eq_ok] at h
    obtain ⟨t', h2, h3⟩ := h
    rw [if_neg (not_not.mpr rfl)] at h3
    injection h3 with h3
    subst h3
    exact ⟨_, updateCheck_ok.mpr ⟨(update_burn h1).mpr ⟨_, h2, rfl⟩, fun e => absurd rfl e⟩, rfl⟩
  have moveCase : ∀ src dst ids vs data, Erc1155.doSafeTransferFrom R s.erc1155 caller src dst ids vs data = .ok t →
      ∃ s', doSafeTransferFrom R s caller src dst ids vs data = .ok s' ∧ s'.erc1155 = t := by
    intro src dst ids vs data h
    unfold Erc1155.doSafeTransferFrom at h
    unfold doSafeTransferFrom
    by_cases h1 : dst = ZERO
    · rw [if_pos h1] at h; simp at h
    by_cases h2 : src = ZERO
    · rw [if_neg h1, if_pos h2] at h; simp at h
    rw [if_neg h1, if_neg h2] at h ⊢
    simp only [except_pure, except_bind_ok] at h ⊢
    unfold Erc1155.updateWithAcceptanceCheck at h
    rw [bind_eq_ok] at h
    obtain ⟨t', h3, h4⟩ := h
    rw [if_pos h1, bind_eq_ok] at h4
    obtain ⟨_, h4, h5⟩ := h4
    injection h5 with h5
    subst h5
    exact ⟨_, updateCheck_ok.mpr ⟨(update_transfer h2 h1).mpr ⟨_, h3, rfl⟩, fun _ => h4⟩, rfl⟩
  unfold exec
  unfold Erc1155.exec at hb
  dsimp only at hb ⊢
  cases call with
  | safeTransferFrom src dst id v data =>
    obtain ⟨ha, h⟩ := Erc1155.auth_then.mp hb
    obtain ⟨s', h', e⟩ := moveCase _ _ _ _ _ h
    exact Or.inl ⟨s', auth_then.mpr ⟨ha, h'⟩, e⟩
  | safeBatchTransferFrom src dst ids vs data =>
    obtain ⟨ha, h⟩ := Erc1155.auth_then.mp hb
    obtain ⟨s', h', e⟩ := moveCase _ _ _ _ _ h
    exact Or.inl ⟨s', auth_then.mpr ⟨ha, h'⟩, e⟩
  | setApprovalForAll op b =>
    refine Or.inl ⟨{ s with erc1155 := t }, ?_, rfl⟩
    have hb' : Erc1155.setApprovalForAll s.erc1155 caller op b = .ok t := hb
    dsimp only
    rw [hb']
    rfl
  | mint dst id v data =>
    rcases mintCase _ _ _ _ hb with h | h
    · exact Or.inl h
    · exact Or.inr ⟨dst, [id], [v], data, Or.inr ⟨id, v, rfl, rfl, rfl⟩, h⟩
  | mintBatch dst ids vs data =>
    rcases mintCase _ _ _ _ hb with h | h
    · exact Or.inl h
    · exact Or.inr ⟨dst, ids, vs, data, Or.inl rfl, h⟩
  | burn src id v => exact Or.inl (burnCase _ _ _ hb)
  | burnBatch src ids vs => exact Or.inl (burnCase _ _ _ hb)

def alice : Address := 0xA#160
def bob : Address := 0xB#160
def R0 : Receivers := fun _ => none

/-- Alice got 10 of id 1 and 5 of id 2, and 3 of id 1 were burned again. -/
def s1 : State := run init
  [⟨alice, R0, .mintBatch alice [1#256, 2#256] [10#256, 5#256] []⟩, ⟨alice, R0, .burn alice 1#256 3#256⟩,
   ⟨alice, R0, .safeTransferFrom alice bob 1#256 2#256 []⟩]

example : Reachable s1 ∧ totalSupplyOf s1 1#256 = 7#256 ∧ totalSupplyAllOf s1 = 12#256 ∧
    exists_ s1 2#256 = true ∧ exists_ s1 3#256 = false := ⟨⟨_, rfl⟩, by decide +kernel⟩

/-- **C58 (limit).** `Erc1155Supply` derefs to `Erc1155`, whose `burn` (of `burnable.rs`) knows nothing of
supplies: called on the inner token it destroys tokens that `total_supply` keeps counting. -/
theorem C58_inner_burn_bypasses_totals :
    ∃ (s : State) (t : Erc1155.State), Reachable s ∧
      Erc1155.burn R0 s.erc1155 alice alice 1#256 5#256 = .ok t ∧
      totalSupplyOf { s with erc1155 := t } 1#256 = 7#256 ∧
      Erc1155.balanceOf t alice 1#256 = 0#256 ∧ Erc1155.balanceOf t bob 1#256 = 2#256 := by
  cases hx : Erc1155.burn R0 s1.erc1155 alice alice 1#256 5#256 with
  | error e =>
    have : (match Erc1155.burn R0 s1.erc1155 alice alice 1#256 5#256 with | .ok _ => true | .error _ => false) = true := by
      decide +kernel
    rw [hx] at this
    simp at this
  | ok t =>
    have hk : (match Erc1155.burn R0 s1.erc1155 alice alice 1#256 5#256 with
        | .ok t => decide (Erc1155.balanceOf t alice 1#256 = 0#256 ∧ Erc1155.balanceOf t bob 1#256 = 2#256)
        | .error _ => false) = true := by decide +kernel
    rw [hx] at hk
    exact ⟨s1, t, ⟨_, rfl⟩, hx, (by decide +kernel : totalSupplyOf s1 1#256 = 7#256), of_decide_eq_true hk⟩

/-! ## C59 -/

/-- **C59.** In every reachable state `total_supply_all` agrees with the sum over ids of the totals up to a
multiple of `2^256`. -/
theorem C59_aggregate_modulo {s : State} (h : Reachable s) :
    (totalSupplyAllOf s).toNat = (∑ id, (totalSupplyOf s id).toNat) % 2 ^ 256 := by
  have h1 := (reachable_inv h).all
  unfold totalSupplyAllOf
  rw [h1, BitVec.toNat_ofNat]
  rfl

/-- **C59.** After every history in which no single mint batch adds up to more than a word,
`total_supply_all` is exactly the sum over ids of the totals, and so the sum of all balances. -/
theorem C59_aggregate_exact {txs : List Tx} (h : BatchesFit txs) :
    (totalSupplyAllOf (run init txs)).toNat = ∑ id, (totalSupplyOf (run init txs) id).toNat := by
  have := (exact_run txs h).1
  exact this

/-- **C59 (violation).** Without that condition the claim is false of the code: `values.iter().sum()` wraps.
One batch mint of the largest word of id 1 and one of id 2 leaves `total_supply_all` at zero. -/
theorem C59_batch_sum_wraps :
    ∃ s, Reachable s ∧ totalSupplyAllOf s = 0#256 ∧ totalSupplyOf s 1#256 = maxU256 ∧ totalSupplyOf s 2#256 = 1#256 ∧
      (totalSupplyAllOf s).toNat < ∑ id, (totalSupplyOf s id).toNat := by
  let s2 := run init [⟨alice, R0, .mintBatch alice [1#256, 2#256] [maxU256, 1#256] []⟩]
  have h0 : totalSupplyAllOf s2 = 0#256 := by decide +kernel
  have h2 : totalSupplyOf s2 2#256 = 1#256 := by decide +kernel
  refine ⟨s2, ⟨_, rfl⟩, h0, by decide +kernel, h2, ?_⟩
  have h1 := Finset.single_le_sum (f := fun id => (totalSupplyOf s2 id).toNat)
    (fun _ _ => Nat.zero_le _) (Finset.mem_univ 2#256)
  rw [h0]
  rw [h2] at h1
  exact Nat.lt_of_lt_of_le (by decide) h1

example : BatchesFit [⟨alice, R0, .mintBatch alice [1#256, 2#256] [10#256, 5#256] []⟩, ⟨alice, R0, .burn alice 1#256 3#256⟩] := by
  intro tx h
  simp only [List.mem_cons, List.not_mem_nil, or_false] at h
  rcases h with rfl | rfl <;> decide

end Verif.Erc1155Supply.Props
