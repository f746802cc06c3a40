import Verif.Spec.Erc721
/-! # Lemmas about the ERC-721 model -/

namespace Verif.Erc721
open Verif.Spec.Erc721

/-! ## Shape of the results -/

/-- Balances after moving one token. -/
def moveBal (b : Address → U256) (src dst : Address) : Address → U256 :=
  let b1 := if src ≠ ZERO then upd b src (b src - 1#256) else b
  if dst ≠ ZERO then upd b1 dst (b1 dst + 1#256) else b1

/-- State after a successful `_update`. -/
def updated (s : State) (dst : Address) (id : U256) : State :=
  { owners := upd s.owners id dst
    balances := moveBal s.balances (s.owners id) dst
    tokenApprovals := if s.owners id ≠ ZERO then upd s.tokenApprovals id ZERO else s.tokenApprovals
    operatorApprovals := s.operatorApprovals
    log := s.log ++ [.transfer (s.owners id) dst id] }

/-- State after a successful `approve`. -/
def approvedState (s : State) (dst : Address) (id : U256) : State :=
  { s with tokenApprovals := upd s.tokenApprovals id dst
           log := s.log ++ [.approval (s.owners id) dst id] }

/-- State after a successful `set_approval_for_all`. -/
def operatorState (s : State) (o p : Address) (b : Bool) : State :=
  { s with operatorApprovals := upd2 s.operatorApprovals o p b
           log := s.log ++ [.approvalForAll o p b] }

theorem ok_flip {ε α : Type} {a b : α} : (Except.ok a : Except ε α) = .ok b ↔ b = a := by
  constructor
  · intro h; injection h with h; exact h.symm
  · rintro rfl; rfl

theorem checkAuthorized_ok {s : State} {o p : Address} {id : U256} :
    checkAuthorized s o p id = .ok () ↔ isAuthorized s o p id = true := by
  unfold checkAuthorized
  split
  · simp_all
  · split <;> simp_all

theorem approve_clear (s : State) (id : U256) :
    approveInternal s ZERO id ZERO false = .ok { s with tokenApprovals := upd s.tokenApprovals id ZERO } := by
  simp [approveInternal]

/-- `_update` performs exactly `updated`, if the authorisation check passes. -/
theorem update_eq (s : State) (dst : Address) (id : U256) (auth : Address) :
    update s dst id auth =
      (if auth = ZERO ∨ isAuthorized s (s.owners id) auth id = true
       then .ok (s.owners id, updated s dst id)
       else if s.owners id = ZERO then .error (.nonexistentToken id)
       else .error (.insufficientApproval auth id)) := by
  unfold update ownerOfInternal checkAuthorized updated moveBal
  simp only [approve_clear]
  by_cases ha : auth = ZERO
  · by_cases h1 : s.owners id = ZERO <;> by_cases h2 : dst = ZERO <;> simp [ha, h1, h2]
  · by_cases hb : isAuthorized s (s.owners id) auth id = true
    · by_cases h1 : s.owners id = ZERO
      · simp only [h1] at hb
        by_cases h2 : dst = ZERO <;> simp [ha, hb, h1, h2]
      · by_cases h2 : dst = ZERO <;> simp [ha, hb, h1, h2]
    · by_cases h1 : s.owners id = ZERO
      · simp only [h1] at hb; simp [ha, hb, h1]
      · simp [ha, hb, h1]

theorem update_ok {s s' : State} {dst src : Address} {id : U256} {auth : Address} :
    update s dst id auth = .ok (src, s') ↔
      (auth = ZERO ∨ isAuthorized s (s.owners id) auth id = true) ∧ src = s.owners id ∧
        s' = updated s dst id := by
  rw [update_eq]
  split
  · rename_i h; simp only [h, true_and, Except.ok.injEq, Prod.mk.injEq]
    constructor
    · rintro ⟨rfl, rfl⟩; exact ⟨rfl, rfl⟩
    · rintro ⟨rfl, rfl⟩; exact ⟨rfl, rfl⟩
  · rename_i h; simp only [h, false_and, iff_false]; split <;> simp

theorem update_zero (s : State) (dst : Address) (id : U256) :
    update s dst id ZERO = .ok (s.owners id, updated s dst id) :=
  update_ok.mpr ⟨Or.inl rfl, rfl, rfl⟩

theorem mint_ok {s s' : State} {dst : Address} {id : U256} :
    mint s dst id = .ok s' ↔ dst ≠ ZERO ∧ s.owners id = ZERO ∧ s' = updated s dst id := by
  unfold mint
  simp only [update_zero, except_throw, except_pure]
  by_cases h1 : dst = ZERO <;> by_cases h2 : s.owners id = ZERO <;> simp [h1, h2, ok_flip, -Except.ok.injEq]

theorem burnInternal_ok {s s' : State} {id : U256} :
    burnInternal s id = .ok s' ↔ s.owners id ≠ ZERO ∧ s' = updated s ZERO id := by
  unfold burnInternal
  simp only [update_zero, except_throw, except_pure]
  by_cases h2 : s.owners id = ZERO <;> simp [h2, ok_flip, -Except.ok.injEq]

theorem transferInternal_ok {s s' : State} {src dst : Address} {id : U256} :
    transferInternal s src dst id = .ok s' ↔
      dst ≠ ZERO ∧ s.owners id ≠ ZERO ∧ s.owners id = src ∧ s' = updated s dst id := by
  unfold transferInternal
  simp only [update_zero, except_throw, except_pure]
  by_cases h1 : dst = ZERO
  · simp [h1]
  · by_cases h2 : s.owners id = ZERO
    · simp [h1, h2]
    · by_cases h3 : s.owners id = src
      · subst h3; simp [h1, h2, ok_flip, -Except.ok.injEq]
      · simp [h1, h2, h3]

theorem transferFrom_ok {s s' : State} {caller src dst : Address} {id : U256} :
    transferFrom s caller src dst id = .ok s' ↔
      dst ≠ ZERO ∧ (caller = ZERO ∨ isAuthorized s (s.owners id) caller id = true) ∧
        s.owners id = src ∧ s' = updated s dst id := by
  unfold transferFrom
  rw [update_eq]
  by_cases h1 : dst = ZERO
  · simp [h1]
  · by_cases h2 : caller = ZERO ∨ isAuthorized s (s.owners id) caller id = true
    · rw [if_pos h2]
      by_cases h3 : s.owners id = src
      · subst h3; simp [h1, h2, ok_flip, -Except.ok.injEq]
      · simp [h1, h3]
    · rw [if_neg h2]
      simp only [h2, false_and, and_false, iff_false, h1, if_false]
      split <;> simp

theorem burn_ok {s s' : State} {caller : Address} {id : U256} :
    burn s caller id = .ok s' ↔
      (caller = ZERO ∨ isAuthorized s (s.owners id) caller id = true) ∧ s' = updated s ZERO id := by
  unfold burn
  rw [update_eq]
  split
  · rename_i h; simp [h, ok_flip, -Except.ok.injEq]
  · rename_i h; simp only [h, false_and, iff_false]; split <;> simp

theorem approve_ok {s s' : State} {caller dst : Address} {id : U256} (hc : caller ≠ ZERO) :
    approve s caller dst id = .ok s' ↔ s.owners id ≠ ZERO ∧
      (s.owners id = caller ∨ s.operatorApprovals (s.owners id) caller = true) ∧
      s' = approvedState s dst id := by
  unfold approve approveInternal requireOwned ownerOfInternal isApprovedForAll
  dsimp only
  by_cases h1 : s.owners id = ZERO
  · simp [h1]
  · by_cases h2 : s.owners id = caller
    · subst h2; simp [h1, approvedState, ok_flip, -Except.ok.injEq]
    · cases h3 : s.operatorApprovals (s.owners id) caller <;>
        simp [h1, h2, h3, hc, approvedState, ok_flip, -Except.ok.injEq]

theorem setApprovalForAll_ok {s s' : State} {caller p : Address} {b : Bool} :
    setApprovalForAll s caller p b = .ok s' ↔ p ≠ ZERO ∧ s' = operatorState s caller p b := by
  unfold setApprovalForAll setApprovalForAllInternal operatorState
  by_cases h : p = ZERO <;> simp [h, ok_flip, -Except.ok.injEq]

/-- A receiver check passes iff there is no code or the magic selector was answered. -/
theorem checkOnReceived_ok {R : Receivers} {op src dst : Address} {id : U256} {data : Bytes} :
    checkOnReceived R op src dst id data = .ok () ↔
      ∀ f, R dst = some f → f op src id data = .selector RECEIVER_FN_SELECTOR := by
  unfold checkOnReceived
  cases hR : R dst with
  | none => simp
  | some f =>
    simp only [Option.some.injEq, forall_eq']
    cases hf : f op src id data with
    | selector sel =>
      simp only [Answer.selector.injEq]
      by_cases h : sel = RECEIVER_FN_SELECTOR <;> simp [h]
    | revert reason => by_cases h : reason = [] <;> simp [h]
    | failure => simp

theorem then_check_ok {R : Receivers} {op src dst : Address} {id : U256} {data : Bytes}
    {x : Except Err State} {s' : State} :
    (do let s1 ← x
        checkOnReceived R op src dst id data
        (return s1 : Except Err State)) = .ok s' ↔
      x = .ok s' ∧ checkOnReceived R op src dst id data = .ok () := by
  cases x with
  | error e => simp
  | ok s1 =>
    simp only [except_bind_ok, except_pure]
    cases checkOnReceived R op src dst id data with
    | error e => simp
    | ok u => simp

/-! ## What a transaction can do -/

/-- The three kinds of effect. -/
inductive Effect (s : State) (caller : Address) : State → Prop
  | move (dst : Address) (id : U256) (h : s.owners id ≠ ZERO ∨ dst ≠ ZERO) : Effect s caller (updated s dst id)
  | approve (dst : Address) (id : U256) (h : s.owners id ≠ ZERO)
      (hc : s.owners id = caller ∨ s.operatorApprovals (s.owners id) caller = true) :
      Effect s caller (approvedState s dst id)
  | operator (p : Address) (b : Bool) (h : p ≠ ZERO) : Effect s caller (operatorState s caller p b)

/-- Unowned tokens have no approval, and the zero address has no operators. -/
structure NoGhost (s : State) : Prop where
  appr : ∀ id, s.owners id = ZERO → s.tokenApprovals id = ZERO
  oper : ∀ p, s.operatorApprovals ZERO p = false
  toZero : ∀ o, s.operatorApprovals o ZERO = false

theorem authorized_exists {s : State} (hs : NoGhost s) {caller : Address} {id : U256}
    (h : isAuthorized s (s.owners id) caller id = true) : s.owners id ≠ ZERO := by
  intro h0
  unfold isAuthorized isApprovedForAll getApprovedInternal at h
  rw [h0, hs.oper, hs.appr id h0] at h
  simp [eq_comm] at h

/-- The authorisation check, in the vocabulary of the specification. -/
theorem authorized_iff {s : State} (hs : NoGhost s) {caller : Address} (hc : caller ≠ ZERO) {id : U256} :
    isAuthorized s (s.owners id) caller id = true ↔ MayMove s caller id := by
  constructor
  · intro h
    have h0 := authorized_exists hs h
    unfold isAuthorized isApprovedForAll getApprovedInternal at h
    simp only [ne_eq, decide_not, Bool.and_eq_true, Bool.not_eq_true', decide_eq_false_iff_not,
      Bool.or_eq_true, decide_eq_true_eq] at h
    refine ⟨s.owners id, by simp [owner?, ownerOf, requireOwned, ownerOfInternal, h0], ?_⟩
    rcases h.2 with (h1 | h1) | h1
    · exact Or.inl h1.symm
    · exact Or.inr (Or.inl h1)
    · refine Or.inr (Or.inr ?_)
      simp [approved?, getApproved, requireOwned, ownerOfInternal, getApprovedInternal, h0, h1, hc]
  · rintro ⟨o, ho, h⟩
    have h0 : s.owners id = o := by
      unfold owner? ownerOf requireOwned ownerOfInternal at ho
      dsimp only at ho
      by_cases hz : s.owners id = ZERO
      · simp [hz] at ho
      · simpa [hz] using ho
    subst h0
    unfold isAuthorized getApprovedInternal
    simp only [ne_eq, decide_not, Bool.and_eq_true, Bool.not_eq_true', decide_eq_false_iff_not,
      Bool.or_eq_true, decide_eq_true_eq]
    refine ⟨hc, ?_⟩
    rcases h with h | h | h
    · exact Or.inl (Or.inl h.symm)
    · exact Or.inl (Or.inr h)
    · refine Or.inr ?_
      unfold approved? getApproved requireOwned ownerOfInternal getApprovedInternal at h
      dsimp only at h
      by_cases hz : s.owners id = ZERO
      · simp [hz] at h
      · by_cases hy : s.tokenApprovals id = ZERO
        · simp [hz, hy] at h
        · simpa [hz, hy] using h

theorem execUser_effect {R : Receivers} {s s' : State} (hs : NoGhost s) {caller : Address} {c : UserCall}
    (hc : caller ≠ ZERO) (h : execUser R s caller c = .ok s') : Effect s caller s' := by
  cases c with
  | transferFrom src dst id =>
    obtain ⟨h1, _, _, rfl⟩ := transferFrom_ok.mp h
    exact .move dst id (Or.inr h1)
  | safeTransferFrom src dst id =>
    obtain ⟨h, _⟩ := then_check_ok.mp h
    obtain ⟨h1, _, _, rfl⟩ := transferFrom_ok.mp h
    exact .move dst id (Or.inr h1)
  | safeTransferFromWithData src dst id data =>
    obtain ⟨h, _⟩ := then_check_ok.mp h
    obtain ⟨h1, _, _, rfl⟩ := transferFrom_ok.mp h
    exact .move dst id (Or.inr h1)
  | approve dst id =>
    obtain ⟨h1, h2, rfl⟩ := (approve_ok hc).mp h
    exact .approve dst id h1 h2
  | setApprovalForAll p b =>
    obtain ⟨h1, rfl⟩ := setApprovalForAll_ok.mp h
    exact .operator p b h1
  | burn id =>
    obtain ⟨h1, rfl⟩ := burn_ok.mp h
    refine .move ZERO id (Or.inl ?_)
    rcases h1 with h1 | h1
    · exact absurd h1 hc
    · exact authorized_exists hs h1

theorem execAdmin_effect {R : Receivers} {s s' : State} {caller : Address} {c : AdminCall}
    (h : execAdmin R s caller c = .ok s') : Effect s caller s' := by
  cases c with
  | mint dst id =>
    obtain ⟨h1, _, rfl⟩ := mint_ok.mp h
    exact .move dst id (Or.inr h1)
  | safeMint dst id data =>
    obtain ⟨h, _⟩ := then_check_ok.mp h
    obtain ⟨h1, _, rfl⟩ := mint_ok.mp h
    exact .move dst id (Or.inr h1)
  | burn id =>
    obtain ⟨h1, rfl⟩ := burnInternal_ok.mp h
    exact .move ZERO id (Or.inl h1)
  | transfer src dst id =>
    obtain ⟨h1, _, _, rfl⟩ := transferInternal_ok.mp h
    exact .move dst id (Or.inr h1)
  | safeTransfer src dst id data =>
    obtain ⟨h, _⟩ := then_check_ok.mp h
    obtain ⟨h1, _, _, rfl⟩ := transferInternal_ok.mp h
    exact .move dst id (Or.inr h1)

theorem exec_effect {s s' : State} (hs : NoGhost s) {tx : Tx} (h : exec s tx = .ok s') :
    tx.caller ≠ ZERO ∧ Effect s tx.caller s' := by
  unfold exec at h
  by_cases hc : tx.caller = ZERO
  · simp [hc] at h
  · rw [if_neg hc] at h
    refine ⟨hc, ?_⟩
    cases hcall : tx.call with
    | inl c => rw [hcall] at h; exact execUser_effect hs hc h
    | inr c => rw [hcall] at h; exact execAdmin_effect h

/-! ## Counting -/

/-- Number of ids that a map sends to `a`. -/
def cnt (f : U256 → Address) (a : Address) : Nat := ∑ id, if f id = a then 1 else 0

theorem cnt_upd (f : U256 → Address) (id : U256) (d a : Address) :
    cnt (upd f id d) a + (if f id = a then 1 else 0) = cnt f a + (if d = a then 1 else 0) := by
  have h := sum_upd_add (fun i => if f i = a then 1 else 0) id (if d = a then 1 else 0)
  have h2 : (fun i => if upd f id d i = a then 1 else 0)
      = upd (fun i => if f i = a then 1 else 0) id (if d = a then 1 else 0) := by
    funext i; simp only [upd_apply]; split <;> rfl
  unfold cnt
  rw [h2]; exact h

theorem cnt_pos {f : U256 → Address} {id : U256} {a : Address} (h : f id = a) : 0 < cnt f a := by
  unfold cnt
  have := Finset.single_le_sum (f := fun i => if f i = a then 1 else 0) (fun _ _ => Nat.zero_le _)
    (Finset.mem_univ id)
  simp only [h, if_true] at this
  omega

theorem card_U256 : Fintype.card U256 = 2 ^ 256 := by
  have : Fintype.card U256 = Fintype.card (Fin (2 ^ 256)) :=
    Fintype.card_congr ⟨BitVec.toFin, BitVec.ofFin, fun _ => rfl, fun _ => rfl⟩
  rw [this, Fintype.card_fin]

theorem cnt_eq_card (f : U256 → Address) (a : Address) :
    cnt f a = (Finset.univ.filter fun id => f id = a).card := by
  unfold cnt; rw [Finset.card_filter]

theorem cnt_le (f : U256 → Address) (a : Address) : cnt f a ≤ 2 ^ 256 := by
  have h := Finset.card_le_univ (Finset.univ.filter fun id => f id = a)
  rw [card_U256] at h
  rw [cnt_eq_card]; exact h

theorem cnt_lt {f : U256 → Address} {a : Address} {id : U256} (h : f id ≠ a) : cnt f a < 2 ^ 256 := by
  have h1 : (Finset.univ.filter fun id => f id = a) ⊂ Finset.univ := by
    rw [Finset.ssubset_univ_iff]
    intro e
    have : id ∈ (Finset.univ.filter fun id => f id = a) := by rw [e]; exact Finset.mem_univ _
    exact h (Finset.mem_filter.mp this).2
  have h2 := Finset.card_lt_card h1
  rw [Finset.card_univ, card_U256] at h2
  rw [cnt_eq_card]; exact h2

/-- Balance effect of a move, as numbers modulo the word size. -/
theorem moveBal_count {f : U256 → Address} {b : Address → U256} (h : ∀ a, a ≠ ZERO → b a = BitVec.ofNat 256 (cnt f a))
    (dst : Address) (id : U256) (a : Address) (ha : a ≠ ZERO) :
    moveBal b (f id) dst a = BitVec.ofNat 256 (cnt (upd f id dst) a) := by
  have hc := cnt_upd f id dst a
  have hb := h a ha
  have hpos : f id = a → 0 < cnt f a := fun e => cnt_pos e
  generalize cnt (upd f id dst) a = n' at *
  generalize cnt f a = n at *
  have hmove : moveBal b (f id) dst a
      = (if f id = a then b a - 1#256 else b a) + (if dst = a then 1#256 else 0#256) := by
    unfold moveBal
    by_cases h1 : f id = a <;> by_cases h2 : dst = a
    · rw [h1, h2]; simp [ha]
    · rw [h1]
      by_cases h3 : dst = ZERO
      · have : ZERO ≠ a := fun e => ha e.symm
        simp [ha, h3, this]
      · have h4 : a ≠ dst := fun e => h2 e.symm
        simp [ha, h2, h3, upd_ne _ _ h4]
    · rw [h2]
      by_cases h3 : f id = ZERO
      · have : ZERO ≠ a := fun e => ha e.symm
        simp [ha, h3, this]
      · have h4 : a ≠ f id := fun e => h1 e.symm
        simp [ha, h1, h3, upd_ne _ _ h4]
    · have h4 : a ≠ f id := fun e => h1 e.symm
      have h5 : a ≠ dst := fun e => h2 e.symm
      rw [if_neg h1, if_neg h2, BitVec.add_zero]
      by_cases h3 : f id = ZERO <;> by_cases h6 : dst = ZERO
      · rw [if_neg (not_not.mpr h6), if_neg (not_not.mpr h3)]
      · rw [if_pos h6, upd_ne _ _ h5, if_neg (not_not.mpr h3)]
      · rw [if_neg (not_not.mpr h6), if_pos h3, upd_ne _ _ h4]
      · rw [if_pos h6, upd_ne _ _ h5, if_pos h3, upd_ne _ _ h4]
  rw [hmove, hb]
  clear hmove hb h
  have hsucc : ∀ m, BitVec.ofNat 256 (m + 1) = BitVec.ofNat 256 m + 1#256 :=
    fun m => BitVec.ofNat_add m 1
  by_cases h1 : f id = a
  · obtain ⟨m, rfl⟩ : ∃ m, n = m + 1 := ⟨n - 1, by have := hpos h1; omega⟩
    rw [if_pos h1] at hc ⊢
    rw [hsucc, BitVec.add_sub_cancel]
    by_cases h2 : dst = a
    · rw [if_pos h2] at hc ⊢
      rw [← hsucc]; congr 1; omega
    · rw [if_neg h2] at hc ⊢
      rw [BitVec.add_zero]; congr 1; omega
  · rw [if_neg h1] at hc ⊢
    by_cases h2 : dst = a
    · rw [if_pos h2] at hc ⊢
      rw [← hsucc]; congr 1; omega
    · rw [if_neg h2] at hc ⊢
      rw [BitVec.add_zero]; congr 1; omega

theorem moveBal_zero {b : Address → U256} (h : b ZERO = 0#256) (src dst : Address) :
    moveBal b src dst ZERO = 0#256 := by
  unfold moveBal
  by_cases h1 : src = ZERO <;> by_cases h2 : dst = ZERO
  · simp [h1, h2, h]
  · have h4 : ZERO ≠ dst := fun e => h2 e.symm
    simp [h1, h2, h, upd_ne _ _ h4]
  · have h4 : ZERO ≠ src := fun e => h1 e.symm
    simp [h1, h2, h, upd_ne _ _ h4]
  · have h4 : ZERO ≠ src := fun e => h1 e.symm
    have h5 : ZERO ≠ dst := fun e => h2 e.symm
    simp [h1, h2, h, upd_ne _ _ h4, upd_ne _ _ h5]

/-! ## The invariant -/

theorem truthful_snoc {l : List Event} {e : Event} (h : Truthful l)
    (he : match e with
      | .transfer src _ id => (replay l).owner id = nobody src
      | .approval o _ id => (replay l).owner id = some o
      | .approvalForAll .. => True) : Truthful (l ++ [e]) := by
  intro pre e' post heq
  rcases List.eq_nil_or_concat post with rfl | ⟨post', x, rfl⟩
  · have := List.append_inj' heq (by simp)
    obtain ⟨rfl, h2⟩ := this
    injection h2 with h2 _
    subst h2
    exact he
  · rw [List.concat_eq_append, ← List.cons_append, ← List.append_assoc] at heq
    have := List.append_inj' heq (by simp)
    exact h pre e' post' this.1

theorem replay_snoc (l : List Event) (e : Event) : replay (l ++ [e]) = (replay l).apply e := by
  simp [replay, List.foldl_append]

/-- Everything that holds of every reachable state. -/
structure Inv (s : State) : Prop extends NoGhost s where
  count : ∀ a, a ≠ ZERO → s.balances a = BitVec.ofNat 256 (cnt s.owners a)
  zero : s.balances ZERO = 0#256
  owner : ∀ id, (replay s.log).owner id = nobody (s.owners id)
  approved : ∀ id, (replay s.log).approved id = nobody (s.tokenApprovals id)
  operator : ∀ o p, (replay s.log).operator o p = s.operatorApprovals o p
  truthful : Truthful s.log

theorem inv_init : Inv init := by
  refine ⟨⟨fun _ _ => rfl, fun _ => rfl, fun _ => rfl⟩, ?_, rfl, ?_, ?_, ?_, ?_⟩
  · intro a ha
    have : cnt init.owners a = 0 := by
      unfold cnt
      apply Finset.sum_eq_zero
      intro id _
      rw [if_neg]
      exact fun e => ha e.symm
    rw [this]; rfl
  · intro id; simp [replay, init, Ledger.empty, nobody]
  · intro id; simp [replay, init, Ledger.empty, nobody]
  · intro o p; rfl
  · intro pre e post h
    simp [init] at h

theorem inv_effect {s s' : State} {caller : Address} (hc : caller ≠ ZERO) (hs : Inv s)
    (h : Effect s caller s') : Inv s' := by
  cases h with
  | move dst id hx =>
    refine ⟨⟨?_, hs.oper, hs.toZero⟩, ?_, moveBal_zero hs.zero _ _, ?_, ?_, ?_, ?_⟩
    · intro i hi
      simp only [updated] at hi ⊢
      by_cases he : i = id
      · subst he
        by_cases ho : s.owners i = ZERO
        · simp [ho, hs.appr i ho]
        · simp [ho]
      · rw [upd_ne _ _ he] at hi
        split
        · rw [upd_ne _ _ he]; exact hs.appr i hi
        · exact hs.appr i hi
    · intro a ha
      exact moveBal_count hs.count dst id a ha
    · intro i
      simp only [updated, replay_snoc, Ledger.apply, upd_apply, hs.owner]
      split <;> rfl
    · intro i
      simp only [updated, replay_snoc, Ledger.apply, hs.approved]
      by_cases he : i = id
      · subst he
        rw [if_pos rfl]
        by_cases ho : s.owners i = ZERO
        · simp [ho, hs.appr i ho, nobody]
        · simp [ho, nobody]
      · rw [if_neg he]
        split
        · rw [upd_ne _ _ he]
        · rfl
    · intro o p
      simp only [updated, replay_snoc, Ledger.apply, hs.operator]
    · exact truthful_snoc hs.truthful (hs.owner id)
  | approve dst id hx hy =>
    refine ⟨⟨?_, hs.oper, hs.toZero⟩, hs.count, hs.zero, ?_, ?_, ?_, ?_⟩
    · intro i hi
      have he : i ≠ id := by rintro rfl; exact hx hi
      simp only [approvedState, upd_ne _ _ he]
      exact hs.appr i hi
    · intro i; simp only [approvedState, replay_snoc, Ledger.apply, hs.owner]
    · intro i
      simp only [approvedState, replay_snoc, Ledger.apply, upd_apply, hs.approved]
      split <;> rfl
    · intro o p; simp only [approvedState, replay_snoc, Ledger.apply, hs.operator]
    · refine truthful_snoc hs.truthful ?_
      show (replay s.log).owner id = some (s.owners id)
      rw [hs.owner, nobody, if_neg hx]
  | operator p b hx =>
    refine ⟨⟨hs.appr, ?_, ?_⟩, hs.count, hs.zero, ?_, ?_, ?_, ?_⟩
    · intro q
      simp only [operatorState, upd2_apply]
      rw [if_neg (fun e => hc e.1.symm)]; exact hs.oper q
    · intro o
      simp only [operatorState, upd2_apply]
      rw [if_neg (fun e => hx e.2.symm)]; exact hs.toZero o
    · intro i; simp only [operatorState, replay_snoc, Ledger.apply, hs.owner]
    · intro i; simp only [operatorState, replay_snoc, Ledger.apply, hs.approved]
    · intro o q
      simp only [operatorState, replay_snoc, Ledger.apply, upd2_apply, hs.operator]
    · exact truthful_snoc hs.truthful trivial

theorem inv_exec {s s' : State} {tx : Tx} (hs : Inv s) (h : exec s tx = .ok s') : Inv s' := by
  obtain ⟨hc, he⟩ := exec_effect hs.toNoGhost h
  exact inv_effect hc hs he

theorem inv_run (txs : List Tx) : Inv (run init txs) :=
  run_invariant (exec := exec) (Inv := Inv) (fun _ _ _ => inv_exec) txs _ inv_init

theorem reachable_inv {s : State} (h : Reachable s) : Inv s := by
  obtain ⟨txs, rfl⟩ := h; exact inv_run txs

/-! ## Views -/

theorem owner?_eq (s : State) (id : U256) : owner? s id = nobody (s.owners id) := by
  unfold owner? ownerOf requireOwned ownerOfInternal nobody
  dsimp only
  by_cases h : s.owners id = ZERO <;> simp [h]

theorem approved?_eq {s : State} (hs : NoGhost s) (id : U256) :
    approved? s id = nobody (s.tokenApprovals id) := by
  unfold approved? getApproved requireOwned ownerOfInternal getApprovedInternal nobody
  dsimp only
  by_cases h : s.owners id = ZERO
  · simp [h, hs.appr id h]
  · simp [h]

theorem nobody_some {a b : Address} : nobody a = some b ↔ a = b ∧ b ≠ ZERO := by
  unfold nobody
  by_cases h : a = ZERO
  · simp only [h, if_true]
    constructor
    · intro e; cases e
    · rintro ⟨rfl, h2⟩; exact absurd rfl h2
  · simp only [h, if_false, Option.some.injEq]
    constructor
    · rintro rfl; exact ⟨rfl, h⟩
    · exact fun e => e.1

theorem nobody_none {a : Address} : nobody a = none ↔ a = ZERO := by
  unfold nobody; by_cases h : a = ZERO <;> simp [h]

theorem owned_eq (s : State) {a : Address} (ha : a ≠ ZERO) : owned s a = cnt s.owners a := by
  unfold owned
  have h : (Finset.univ.filter fun id : U256 => owner? s id = some a)
      = Finset.univ.filter fun id : U256 => s.owners id = a := by
    apply Finset.filter_congr
    intro id _
    rw [owner?_eq, nobody_some]
    exact ⟨fun h => h.1, fun h => ⟨h, ha⟩⟩
  rw [h, cnt_eq_card]

end Verif.Erc721
