import Verif.Model.Erc721Enumerable
import Verif.Proofs.Erc721
/-! # The enumeration invariants -/

namespace Verif.Enumerable
open Verif.Erc721 (cnt cnt_upd cnt_pos updated)

theorem toNat_ne {n : Nat} {a b : BitVec n} (h : a ≠ b) : a.toNat ≠ b.toNat :=
  fun e => h (BitVec.eq_of_toNat_eq e)

/-! ## Per-owner lists -/

/-- The first `N a` slots of each owner hold exactly its tokens, the index map inverts them, the other
slots are zero. -/
structure OE (own : U256 → Address) (N : Address → Nat) (owned : Address → U256 → U256)
    (idx : U256 → U256) : Prop where
  slot : ∀ a, a ≠ ZERO → ∀ i : U256, i.toNat < N a → own (owned a i) = a ∧ idx (owned a i) = i
  tok : ∀ id, own id ≠ ZERO → (idx id).toNat < N (own id) ∧ owned (own id) (idx id) = id
  rest : ∀ a, a ≠ ZERO → ∀ i : U256, N a ≤ i.toNat → owned a i = 0#256

variable {own : U256 → Address} {N N' : Address → Nat} {owned : Address → U256 → U256}
  {idx : U256 → U256}

theorem OE.congr (h : OE own N owned idx) (hN : ∀ a, a ≠ ZERO → N a = N' a) : OE own N' owned idx := by
  refine ⟨fun a ha i hi => h.slot a ha i (by rw [hN a ha]; exact hi), fun id hid => ?_,
    fun a ha i hi => h.rest a ha i (by rw [hN a ha]; exact hi)⟩
  rw [← hN _ hid]; exact h.tok id hid

theorem OE.remove (h : OE own N owned idx) {id last : U256} {a : Address} (ha : own id = a)
    (h0 : a ≠ ZERO) (hl : last.toNat + 1 = N a) :
    OE (upd own id ZERO) (upd N a last.toNat)
      (upd2 (if idx id ≠ last then upd2 owned a (idx id) (owned a last) else owned) a last 0#256)
      (upd (if idx id ≠ last then upd idx (owned a last) (idx id) else idx) id 0#256) := by
  obtain ⟨hk1, hk2⟩ := h.tok id (by rw [ha]; exact h0)
  rw [ha] at hk1 hk2
  obtain ⟨hlt1, hlt2⟩ := h.slot a h0 last (by omega)
  generalize hk : idx id = k at *
  generalize hlt : owned a last = lt at *
  by_cases hc : k = last
  · subst hc
    have hid : lt = id := by rw [← hlt, hk2]
    subst hid
    simp only [ne_eq, not_true_eq_false, if_false]
    refine ⟨fun b hb i hi => ?_, fun x hx => ?_, fun b hb i hi => ?_⟩
    · by_cases hba : b = a
      · subst hba
        rw [upd_same] at hi
        have hik : i ≠ k := by rintro rfl; omega
        obtain ⟨s1, s2⟩ := h.slot b hb i (by omega)
        have hne : owned b i ≠ lt := by intro e; rw [e, hlt2] at s2; exact hik s2.symm
        rw [upd2_apply, if_neg (fun e => hik e.2), upd_ne _ _ hne, upd_ne _ _ hne]
        exact ⟨s1, s2⟩
      · rw [upd_ne _ _ hba] at hi
        obtain ⟨s1, s2⟩ := h.slot b hb i hi
        have hne : owned b i ≠ lt := by intro e; rw [e, hlt1] at s1; exact hba s1.symm
        rw [upd2_apply, if_neg (fun e => hba e.1), upd_ne _ _ hne, upd_ne _ _ hne]
        exact ⟨s1, s2⟩
    · have hxne : x ≠ lt := by rintro rfl; rw [upd_same] at hx; exact hx rfl
      rw [upd_ne _ _ hxne] at hx ⊢
      obtain ⟨t1, t2⟩ := h.tok x hx
      rw [upd_ne _ _ hxne]
      by_cases hxa : own x = a
      · rw [hxa] at t1 t2 ⊢
        have hne : idx x ≠ k := by intro e; rw [e, hlt] at t2; exact hxne t2.symm
        have := toNat_ne hne
        rw [upd_same, upd2_apply, if_neg (fun e => hne e.2)]
        exact ⟨by omega, t2⟩
      · rw [upd_ne _ _ hxa, upd2_apply, if_neg (fun e => hxa e.1)]
        exact ⟨t1, t2⟩
    · by_cases hba : b = a
      · subst hba
        rw [upd_same] at hi
        rw [upd2_apply]
        split
        · rfl
        · rename_i hne
          have : i ≠ k := fun e => hne ⟨rfl, e⟩
          have := toNat_ne this
          exact h.rest b hb i (by omega)
      · rw [upd_ne _ _ hba] at hi
        rw [upd2_apply, if_neg (fun e => hba e.1)]
        exact h.rest b hb i hi
  · have hltne : lt ≠ id := by
      intro e; rw [e, hk] at hlt2; exact hc hlt2
    have hkl := toNat_ne hc
    simp only [ne_eq, hc, not_false_eq_true, if_true]
    refine ⟨fun b hb i hi => ?_, fun x hx => ?_, fun b hb i hi => ?_⟩
    · by_cases hba : b = a
      · subst hba
        rw [upd_same] at hi
        have hil : i ≠ last := by rintro rfl; omega
        rw [upd2_apply, if_neg (fun e => hil e.2), upd2_apply]
        by_cases hik : i = k
        · subst hik
          rw [if_pos ⟨rfl, rfl⟩, upd_ne _ _ hltne, upd_ne _ _ hltne, upd_same]
          exact ⟨hlt1, rfl⟩
        · rw [if_neg (fun e => hik e.2)]
          obtain ⟨s1, s2⟩ := h.slot b hb i (by omega)
          have n1 : owned b i ≠ id := by intro e; rw [e, hk] at s2; exact hik s2.symm
          have n2 : owned b i ≠ lt := by intro e; rw [e, hlt2] at s2; exact hil s2.symm
          rw [upd_ne _ _ n1, upd_ne _ _ n1, upd_ne _ _ n2]
          exact ⟨s1, s2⟩
      · rw [upd_ne _ _ hba] at hi
        obtain ⟨s1, s2⟩ := h.slot b hb i hi
        have n1 : owned b i ≠ id := by intro e; rw [e, ha] at s1; exact hba s1.symm
        have n2 : owned b i ≠ lt := by intro e; rw [e, hlt1] at s1; exact hba s1.symm
        rw [upd2_apply, if_neg (fun e => hba e.1), upd2_apply, if_neg (fun e => hba e.1),
          upd_ne _ _ n1, upd_ne _ _ n1, upd_ne _ _ n2]
        exact ⟨s1, s2⟩
    · have hxne : x ≠ id := by rintro rfl; rw [upd_same] at hx; exact hx rfl
      rw [upd_ne _ _ hxne] at hx ⊢
      rw [upd_ne _ _ hxne]
      by_cases hxl : x = lt
      · subst hxl
        rw [hlt1, upd_same, upd_same, upd2_apply, if_neg (fun e => hc e.2), upd2_same]
        exact ⟨by omega, rfl⟩
      · rw [upd_ne _ _ hxl]
        obtain ⟨t1, t2⟩ := h.tok x hx
        by_cases hxa : own x = a
        · rw [hxa] at t1 t2 ⊢
          have n1 : idx x ≠ last := by intro e; rw [e, hlt] at t2; exact hxl t2.symm
          have n2 : idx x ≠ k := by intro e; rw [e, hk2] at t2; exact hxne t2.symm
          have := toNat_ne n1
          rw [upd_same, upd2_apply, if_neg (fun e => n1 e.2), upd2_apply, if_neg (fun e => n2 e.2)]
          exact ⟨by omega, t2⟩
        · rw [upd_ne _ _ hxa, upd2_apply, if_neg (fun e => hxa e.1), upd2_apply,
            if_neg (fun e => hxa e.1)]
          exact ⟨t1, t2⟩
    · by_cases hba : b = a
      · subst hba
        rw [upd_same] at hi
        rw [upd2_apply]
        split
        · rfl
        · rename_i hne
          have : i ≠ last := fun e => hne ⟨rfl, e⟩
          have := toNat_ne this
          have hik : i ≠ k := by rintro rfl; omega
          rw [upd2_apply, if_neg (fun e => hik e.2)]
          exact h.rest b hb i (by omega)
      · rw [upd_ne _ _ hba] at hi
        rw [upd2_apply, if_neg (fun e => hba e.1), upd2_apply, if_neg (fun e => hba e.1)]
        exact h.rest b hb i hi

theorem OE.add (h : OE own N owned idx) {id len : U256} {b : Address} (hid : own id = ZERO)
    (h0 : b ≠ ZERO) (hlen : len.toNat = N b) :
    OE (upd own id b) (upd N b (N b + 1)) (upd2 owned b len id) (upd idx id len) := by
  refine ⟨fun c hc i hi => ?_, fun x hx => ?_, fun c hc i hi => ?_⟩
  · by_cases hcb : c = b
    · subst hcb
      rw [upd_same] at hi
      rw [upd2_apply]
      by_cases hil : i = len
      · rw [if_pos ⟨rfl, hil⟩, upd_same, upd_same]; exact ⟨rfl, hil.symm⟩
      · have := toNat_ne hil
        rw [if_neg (fun e => hil e.2)]
        obtain ⟨s1, s2⟩ := h.slot c hc i (by omega)
        have hne : owned c i ≠ id := by intro e; rw [e, hid] at s1; exact hc s1.symm
        rw [upd_ne _ _ hne, upd_ne _ _ hne]
        exact ⟨s1, s2⟩
    · rw [upd_ne _ _ hcb] at hi
      obtain ⟨s1, s2⟩ := h.slot c hc i hi
      have hne : owned c i ≠ id := by intro e; rw [e, hid] at s1; exact hc s1.symm
      rw [upd2_apply, if_neg (fun e => hcb e.1), upd_ne _ _ hne, upd_ne _ _ hne]
      exact ⟨s1, s2⟩
  · by_cases hxi : x = id
    · subst hxi
      rw [upd_same, upd_same, upd_same, upd2_same]
      exact ⟨by omega, rfl⟩
    · rw [upd_ne _ _ hxi] at hx ⊢
      rw [upd_ne _ _ hxi]
      obtain ⟨t1, t2⟩ := h.tok x hx
      by_cases hxb : own x = b
      · rw [hxb] at t1 t2 ⊢
        have hne : idx x ≠ len := by rintro e; rw [e] at t1; omega
        rw [upd_same, upd2_apply, if_neg (fun e => hne e.2)]
        exact ⟨by omega, t2⟩
      · rw [upd_ne _ _ hxb, upd2_apply, if_neg (fun e => hxb e.1)]
        exact ⟨t1, t2⟩
  · by_cases hcb : c = b
    · subst hcb
      rw [upd_same] at hi
      have hne : i ≠ len := by rintro rfl; omega
      rw [upd2_apply, if_neg (fun e => hne e.2)]
      exact h.rest c hc i (by omega)
    · rw [upd_ne _ _ hcb] at hi
      rw [upd2_apply, if_neg (fun e => hcb e.1)]
      exact h.rest c hc i hi

/-! ## The list of all tokens -/

/-- The list holds exactly the owned tokens, and the index map inverts it. -/
structure AE (own : U256 → Address) (all : List U256) (aidx : U256 → U256) : Prop where
  slot : ∀ i x, all[i]? = some x → own x ≠ ZERO ∧ (aidx x).toNat = i
  tok : ∀ x, own x ≠ ZERO → all[(aidx x).toNat]? = some x

variable {all : List U256} {aidx : U256 → U256}

theorem AE.add (h : AE own all aidx) {id : U256} {b : Address} (hid : own id = ZERO) (h0 : b ≠ ZERO)
    (hlen : all.length < 2 ^ 256) :
    AE (upd own id b) (all ++ [id]) (upd aidx id (BitVec.ofNat 256 all.length)) := by
  have hn : (BitVec.ofNat 256 all.length).toNat = all.length := by
    rw [BitVec.toNat_ofNat, Nat.mod_eq_of_lt hlen]
  refine ⟨fun i x hx => ?_, fun x hx => ?_⟩
  · by_cases hi : i < all.length
    · rw [List.getElem?_append_left hi] at hx
      obtain ⟨s1, s2⟩ := h.slot i x hx
      have hne : x ≠ id := by rintro rfl; exact s1 hid
      rw [upd_ne _ _ hne, upd_ne _ _ hne]; exact ⟨s1, s2⟩
    · rw [List.getElem?_append_right (by omega)] at hx
      have hi' : i = all.length := by
        rcases Nat.eq_zero_or_pos (i - all.length) with e | e
        · omega
        · rw [List.getElem?_eq_none (by simp; omega)] at hx; cases hx
      subst hi'
      simp only [Nat.sub_self, List.getElem?_cons_zero, Option.some.injEq] at hx
      subst hx
      rw [upd_same, upd_same]; exact ⟨h0, hn⟩
  · by_cases hxi : x = id
    · subst hxi
      rw [upd_same, hn, List.getElem?_append_right (by omega)]
      simp
    · rw [upd_ne _ _ hxi] at hx ⊢
      have ht := h.tok x hx
      have hlt : (aidx x).toNat < all.length := by
        by_contra hge
        rw [List.getElem?_eq_none (by omega)] at ht; cases ht
      rw [List.getElem?_append_left hlt]; exact ht

theorem AE.move (h : AE own all aidx) {id : U256} {b : Address} (hid : own id ≠ ZERO) (h0 : b ≠ ZERO) :
    AE (upd own id b) all aidx := by
  refine ⟨fun i x hx => ?_, fun x hx => ?_⟩
  · obtain ⟨s1, s2⟩ := h.slot i x hx
    refine ⟨?_, s2⟩
    by_cases hxi : x = id
    · rw [hxi, upd_same]; exact h0
    · rw [upd_ne _ _ hxi]; exact s1
  · by_cases hxi : x = id
    · rw [hxi]; exact h.tok id hid
    · rw [upd_ne _ _ hxi] at hx; exact h.tok x hx

theorem AE.remove (h : AE own all aidx) {id lt : U256} (hid : own id ≠ ZERO)
    (hlt : all[all.length - 1]? = some lt) :
    AE (upd own id ZERO) ((all.set (aidx id).toNat lt).dropLast)
      (upd (upd aidx lt (aidx id)) id 0#256) := by
  have hk := h.tok id hid
  have hklt : (aidx id).toNat < all.length := by
    by_contra hge
    rw [List.getElem?_eq_none (by omega)] at hk; cases hk
  obtain ⟨l1, l2⟩ := h.slot _ lt hlt
  have hget : ∀ i, i < all.length - 1 → ((all.set (aidx id).toNat lt).dropLast)[i]?
      = if i = (aidx id).toNat then some lt else all[i]? := by
    intro i hi
    rw [List.getElem?_dropLast, if_pos (by rw [List.length_set]; exact hi), List.getElem?_set]
    by_cases he : (aidx id).toNat = i
    · rw [if_pos he, if_pos (by omega), if_pos he.symm]
    · rw [if_neg he, if_neg (fun e => he e.symm)]
  refine ⟨fun i x hx => ?_, fun x hx => ?_⟩
  · have hi : i < all.length - 1 := by
      by_contra hge
      rw [List.getElem?_eq_none (by simp; omega)] at hx; cases hx
    rw [hget i hi] at hx
    by_cases hik : i = (aidx id).toNat
    · rw [if_pos hik] at hx
      injection hx with hx
      subst hx
      have hne : lt ≠ id := by rintro rfl; omega
      rw [upd_ne _ _ hne, upd_ne _ _ hne, upd_same]
      exact ⟨l1, hik.symm⟩
    · rw [if_neg hik] at hx
      obtain ⟨s1, s2⟩ := h.slot i x hx
      have n1 : x ≠ id := by rintro rfl; exact hik s2.symm
      have n2 : x ≠ lt := by rintro rfl; omega
      rw [upd_ne _ _ n1, upd_ne _ _ n1, upd_ne _ _ n2]
      exact ⟨s1, s2⟩
  · have hxi : x ≠ id := by rintro rfl; rw [upd_same] at hx; exact hx rfl
    rw [upd_ne _ _ hxi] at hx ⊢
    by_cases hxl : x = lt
    · subst hxl
      have hkne : (aidx id).toNat ≠ all.length - 1 := by
        intro e
        rw [e, hlt] at hk
        exact hxi (Option.some.inj hk)
      rw [upd_same, hget _ (by omega), if_pos rfl]
    · rw [upd_ne _ _ hxl]
      have ht := h.tok x hx
      have hj : (aidx x).toNat < all.length := by
        by_contra hge
        rw [List.getElem?_eq_none (by omega)] at ht; cases ht
      have hjl : (aidx x).toNat ≠ all.length - 1 := by
        intro e
        rw [e, hlt] at ht
        exact hxl (Option.some.inj ht).symm
      have hjk : (aidx x).toNat ≠ (aidx id).toNat := by
        intro e
        rw [e, hk] at ht
        exact hxi (Option.some.inj ht).symm
      rw [hget _ (by omega), if_neg hjk]; exact ht

theorem AE.nodup (h : AE own all aidx) : all.Nodup := by
  rw [List.nodup_iff_injective_get]
  intro i j hij
  have hi := h.slot i.1 (all.get i) (by simp)
  have hj := h.slot j.1 (all.get j) (by simp)
  rw [hij] at hi
  exact Fin.ext (hi.2.symm.trans hj.2)

theorem AE.mem_iff (h : AE own all aidx) (id : U256) : id ∈ all ↔ own id ≠ ZERO := by
  constructor
  · intro hm
    obtain ⟨i, hi⟩ := List.getElem?_of_mem hm
    exact (h.slot i id hi).1
  · intro ho; exact List.mem_of_getElem? (h.tok id ho)

theorem AE.cnt_le (h : AE own all aidx) {a : Address} (ha : a ≠ ZERO) : cnt own a ≤ all.length := by
  rw [Erc721.cnt_eq_card]
  refine le_trans (Finset.card_le_card (t := all.toFinset) ?_) (List.toFinset_card_le all)
  intro id hid
  have := (Finset.mem_filter.mp hid).2
  rw [List.mem_toFinset, h.mem_iff, this]; exact ha

/-! ## Transactions -/

attribute [local irreducible] Verif.Erc721.cnt

theorem arith_gain {x y p q : Nat} (h : x + p = y + q) (hp : p = 0) (hq : q = 1) : x = y + 1 := by
  omega

theorem arith_loss {x y p q : Nat} (h : x + p = y + q) (hp : p = 1) (hq : q = 0) : x + 1 = y := by
  omega

theorem arith_same {x y p q : Nat} (h : x + p = y + q) (hp : p = 0) (hq : q = 0) : x = y := by
  omega

theorem cnt_gain {f : U256 → Address} {id : U256} {a : Address} (h : f id ≠ a) :
    cnt (upd f id a) a = cnt f a + 1 := arith_gain (cnt_upd f id a a) (if_neg h) (if_pos rfl)

theorem cnt_loss {f : U256 → Address} {id : U256} {a d : Address} (h : f id = a) (hd : d ≠ a) :
    cnt (upd f id d) a + 1 = cnt f a := arith_loss (cnt_upd f id d a) (if_pos h) (if_neg hd)

theorem cnt_same {f : U256 → Address} {id : U256} {a d : Address} (h : f id ≠ a) (hd : d ≠ a) :
    cnt (upd f id d) a = cnt f a := arith_same (cnt_upd f id d a) (if_neg h) (if_neg hd)

/-- Invariant of every history. -/
structure Inv (cap : Nat) (s : State) : Prop where
  base : Erc721.Inv s.erc721
  ae : AE s.erc721.owners s.lists.allTokens s.lists.allTokensIndex
  len : s.lists.allTokens.length ≤ cap

/-- Invariant of histories without self-transfers. -/
def InvO (s : State) : Prop :=
  OE s.erc721.owners (cnt s.erc721.owners) s.lists.ownedTokens s.lists.ownedTokensIndex

theorem lift_ok {α : Type} {x : Except Erc721.Err α} {a : α} : lift x = .ok a ↔ x = .ok a := by
  cases x <;> simp [lift]

theorem liftP_ok {α : Type} {x : Except Pausable.Err α} {a : α} : liftP x = .ok a ↔ x = .ok a := by
  cases x <;> simp [liftP]

theorem balanceOf_ok {t : Erc721.State} {a : Address} {b : U256} :
    Erc721.balanceOf t a = .ok b ↔ a ≠ ZERO ∧ b = t.balances a := by
  unfold Erc721.balanceOf
  by_cases h : a = ZERO <;> simp [h, Erc721.ok_flip, -Except.ok.injEq]

theorem ownerOf_ok {t : Erc721.State} {id : U256} {o : Address} :
    Erc721.ownerOf t id = .ok o ↔ t.owners id = o ∧ o ≠ ZERO := by
  unfold Erc721.ownerOf Erc721.requireOwned Erc721.ownerOfInternal
  dsimp only
  by_cases h : t.owners id = ZERO
  · simp only [h, if_true]
    constructor
    · intro e; cases e
    · rintro ⟨rfl, e⟩; exact absurd rfl e
  · simp only [h, if_false, Except.ok.injEq]
    constructor
    · rintro rfl; exact ⟨rfl, h⟩
    · exact fun e => e.1

theorem addToOwner_ok {l l' : Lists} {dst : Address} {id : U256} {t : Erc721.State} :
    addToOwner l dst id t = .ok l' ↔ dst ≠ ZERO ∧
      l' = { l with ownedTokens := upd2 l.ownedTokens dst (t.balances dst - 1#256) id
                    ownedTokensIndex := upd l.ownedTokensIndex id (t.balances dst - 1#256) } := by
  unfold addToOwner
  simp only [bind_eq_ok, lift_ok, balanceOf_ok, except_pure, Except.ok.injEq]
  constructor
  · rintro ⟨b, ⟨h1, rfl⟩, rfl⟩; exact ⟨h1, rfl⟩
  · rintro ⟨h1, rfl⟩; exact ⟨_, ⟨h1, rfl⟩, rfl⟩

theorem removeFromOwner_ok {l l' : Lists} {src : Address} {id : U256} {t : Erc721.State} :
    removeFromOwner l src id t = .ok l' ↔ src ≠ ZERO ∧
      l' = { l with
        ownedTokens := upd2 (if l.ownedTokensIndex id ≠ t.balances src then
          upd2 l.ownedTokens src (l.ownedTokensIndex id) (l.ownedTokens src (t.balances src))
          else l.ownedTokens) src (t.balances src) 0#256
        ownedTokensIndex := upd (if l.ownedTokensIndex id ≠ t.balances src then
          upd l.ownedTokensIndex (l.ownedTokens src (t.balances src)) (l.ownedTokensIndex id)
          else l.ownedTokensIndex) id 0#256 } := by
  unfold removeFromOwner
  simp only [bind_eq_ok, lift_ok, balanceOf_ok, except_pure, Except.ok.injEq]
  constructor
  · rintro ⟨b, ⟨h1, rfl⟩, rfl⟩
    refine ⟨h1, ?_⟩
    by_cases h : l.ownedTokensIndex id = t.balances src <;> simp [h]
  · rintro ⟨h1, rfl⟩
    refine ⟨_, ⟨h1, rfl⟩, ?_⟩
    by_cases h : l.ownedTokensIndex id = t.balances src <;> simp [h]

theorem addToAll_ok {cap : Nat} {l l' : Lists} {id : U256} :
    addToAll cap l id = .ok l' ↔ l.allTokens.length < cap ∧
      l' = { l with allTokensIndex := upd l.allTokensIndex id (BitVec.ofNat 256 l.allTokens.length)
                    allTokens := l.allTokens ++ [id] } := by
  unfold addToAll totalSupply
  by_cases h : l.allTokens.length < cap <;> simp [h, Erc721.ok_flip, -Except.ok.injEq]

theorem removeFromAll_ok {l l' : Lists} {id : U256} :
    removeFromAll l id = .ok l' ↔ ∃ lt, l.allTokens[l.allTokens.length - 1]? = some lt ∧
      (l.allTokensIndex id).toNat < l.allTokens.length ∧
      l' = { l with
        allTokens := (l.allTokens.set (l.allTokensIndex id).toNat lt).dropLast
        allTokensIndex := upd (upd l.allTokensIndex lt (l.allTokensIndex id)) id 0#256 } := by
  unfold removeFromAll
  cases hl : l.allTokens[l.allTokens.length - 1]? with
  | none => simp
  | some lt =>
    simp only [orPanic_some, except_bind_ok, except_throw, except_pure, Option.some.injEq,
      exists_eq_left']
    by_cases h : (l.allTokensIndex id).toNat < l.allTokens.length
    · simp [h, Erc721.ok_flip, -Except.ok.injEq]
    · simp [h]

theorem Inv.bal {cap : Nat} (hcap : cap < 2 ^ 256) {s : State} (h : Inv cap s) {a : Address}
    (ha : a ≠ ZERO) : (s.erc721.balances a).toNat = cnt s.erc721.owners a := by
  rw [h.base.count a ha, BitVec.toNat_ofNat, Nat.mod_eq_of_lt]
  have h1 := h.ae.cnt_le ha
  have h2 := h.len
  omega

theorem totalSupply_toNat {cap : Nat} (hcap : cap < 2 ^ 256) {s : State} (h : Inv cap s) :
    (totalSupply s.lists).toNat = s.lists.allTokens.length := by
  unfold totalSupply
  rw [BitVec.toNat_ofNat, Nat.mod_eq_of_lt]
  have := h.len; omega

/-- A base-contract state changed by `_update`, in a form shared by the operations below. -/
theorem base_updated {s : State} {caller dst : Address} {id : U256} (hc : caller ≠ ZERO)
    (h : Erc721.Inv s.erc721) (hx : s.erc721.owners id ≠ ZERO ∨ dst ≠ ZERO) :
    Erc721.Inv (updated s.erc721 dst id) := Erc721.inv_effect hc h (.move dst id hx)

theorem mintVia_effect {cap : Nat} (hcap : cap < 2 ^ 256) {s s' : State} {caller dst : Address}
    {id : U256} (hc : caller ≠ ZERO) (hs : Inv cap s) {f : Except Erc721.Err Erc721.State}
    (hf : ∀ t, f = .ok t → Erc721.mint s.erc721 dst id = .ok t)
    (h : mintVia cap s f dst id = .ok s') :
    Inv cap s' ∧ (InvO s → InvO s') ∧ s'.erc721.owners = upd s.erc721.owners id dst := by
  unfold mintVia at h
  simp only [bind_eq_ok, lift_ok, liftP_ok, except_pure, Except.ok.injEq, addToAll_ok,
    addToOwner_ok] at h
  obtain ⟨_, _, t, ht, l1, ⟨hlen, rfl⟩, l2, ⟨hd, rfl⟩, rfl⟩ := h
  obtain ⟨_, ho, rfl⟩ := Erc721.mint_ok.mp (hf t ht)
  have hb := base_updated (dst := dst) (id := id) hc hs.base (Or.inr hd)
  have hae : AE (upd s.erc721.owners id dst) (s.lists.allTokens ++ [id])
      (upd s.lists.allTokensIndex id (BitVec.ofNat 256 s.lists.allTokens.length)) :=
    hs.ae.add ho hd (by omega)
  have hinv : Inv cap { s with
      erc721 := updated s.erc721 dst id,
      lists := { ownedTokens := upd2 s.lists.ownedTokens dst ((updated s.erc721 dst id).balances dst - 1#256) id
                 ownedTokensIndex := upd s.lists.ownedTokensIndex id ((updated s.erc721 dst id).balances dst - 1#256)
                 allTokens := s.lists.allTokens ++ [id]
                 allTokensIndex := upd s.lists.allTokensIndex id (BitVec.ofNat 256 s.lists.allTokens.length) } } :=
    ⟨hb, hae, by show (s.lists.allTokens ++ [id]).length ≤ cap; simp; omega⟩
  refine ⟨hinv, fun hoe => ?_, rfl⟩
  have hbal : ((updated s.erc721 dst id).balances dst).toNat = cnt s.erc721.owners dst + 1 := by
    have := hinv.bal hcap hd
    rw [this]; exact cnt_gain (by rw [ho]; exact fun e => hd e.symm)
  have hlen' : ((updated s.erc721 dst id).balances dst - 1#256).toNat = cnt s.erc721.owners dst := by
    have o1 : (1#256).toNat = 1 := rfl
    rw [toNat_sub_of_ge (by omega), hbal, o1]; omega
  have key := hoe.add ho hd hlen'
  refine key.congr (fun a ha => ?_)
  have ha' : s.erc721.owners id ≠ a := by rw [ho]; exact fun e => ha e.symm
  show _ = cnt (upd s.erc721.owners id dst) a
  by_cases hda : a = dst
  · subst hda; rw [upd_same, cnt_gain ha']
  · rw [upd_ne _ _ hda, cnt_same ha' (fun e => hda e.symm)]

theorem transferVia_effect {cap : Nat} (hcap : cap < 2 ^ 256) {s s' : State}
    {caller src dst : Address} {id : U256} (hc : caller ≠ ZERO) (hs : Inv cap s)
    {f : Except Erc721.Err Erc721.State}
    (hf : ∀ t, f = .ok t → Erc721.transferFrom s.erc721 caller src dst id = .ok t)
    (h : transferVia s f dst id = .ok s') :
    Inv cap s' ∧ (src ≠ dst → InvO s → InvO s') ∧ s'.erc721.owners = upd s.erc721.owners id dst ∧
      s.erc721.owners id = src := by
  unfold transferVia relist at h
  simp only [bind_eq_ok, lift_ok, liftP_ok, except_pure, Except.ok.injEq, ownerOf_ok,
    removeFromOwner_ok, addToOwner_ok] at h
  obtain ⟨_, _, o, ⟨rfl, ho⟩, t, ht, l2, ⟨l1, ⟨_, rfl⟩, hd, rfl⟩, rfl⟩ := h
  obtain ⟨_, _, hsrc, rfl⟩ := Erc721.transferFrom_ok.mp (hf t ht)
  have hb := base_updated (dst := dst) (id := id) hc hs.base (Or.inr hd)
  have hae := hs.ae.move ho hd
  refine ⟨⟨hb, hae, hs.len⟩, fun hne hoe => ?_, rfl, hsrc⟩
  have hne' : s.erc721.owners id ≠ dst := by rw [hsrc]; exact hne
  -- balances in the new state
  have hbal : ∀ a, a ≠ ZERO → ((updated s.erc721 dst id).balances a).toNat
      = cnt (upd s.erc721.owners id dst) a := by
    intro a ha
    rw [hb.count a ha, BitVec.toNat_ofNat, Nat.mod_eq_of_lt]
    · rfl
    · have h1 := hae.cnt_le ha
      have h2 := hs.len
      show cnt (upd s.erc721.owners id dst) a < 2 ^ 256
      omega
  have c1 : cnt (upd s.erc721.owners id dst) (s.erc721.owners id) + 1
      = cnt s.erc721.owners (s.erc721.owners id) := cnt_loss rfl (fun e => hne' e.symm)
  have c2 : cnt (upd s.erc721.owners id dst) dst = cnt s.erc721.owners dst + 1 := cnt_gain hne'
  have r1 := hoe.remove (id := id) (last := (updated s.erc721 dst id).balances (s.erc721.owners id))
    rfl ho (by rw [hbal _ ho]; exact c1)
  have hlen' : ((updated s.erc721 dst id).balances dst - 1#256).toNat = cnt s.erc721.owners dst := by
    have o1 : (1#256).toNat = 1 := rfl
    have := hbal dst hd
    rw [toNat_sub_of_ge (by omega), this, o1]; omega
  have r2 := r1.add (id := id) (len := (updated s.erc721 dst id).balances dst - 1#256) (b := dst)
    (upd_same _ _ _) hd (by rw [upd_ne _ _ (fun e => hne' e.symm)]; exact hlen')
  have hupd : upd (upd s.erc721.owners id ZERO) id dst = upd s.erc721.owners id dst := by
    funext x; simp only [upd_apply]; split <;> rfl
  rw [hupd] at r2
  refine r2.congr (fun a ha => ?_)
  show _ = cnt (upd s.erc721.owners id dst) a
  by_cases h1 : a = dst
  · subst h1; rw [upd_same, upd_ne _ _ (fun e => hne' e.symm), c2]
  · rw [upd_ne _ _ h1]
    by_cases h2 : a = s.erc721.owners id
    · subst h2; rw [upd_same, hbal _ ho]
    · rw [upd_ne _ _ h2]
      rw [cnt_same (fun e => h2 e.symm) (fun e => h1 e.symm)]

theorem burn_effect {cap : Nat} (hcap : cap < 2 ^ 256) {s s' : State} {caller : Address} {id : U256}
    (hc : caller ≠ ZERO) (hs : Inv cap s) (h : burn s caller id = .ok s') :
    Inv cap s' ∧ (InvO s → InvO s') ∧ s'.erc721.owners = upd s.erc721.owners id ZERO := by
  unfold burn at h
  simp only [bind_eq_ok, lift_ok, liftP_ok, except_pure, Except.ok.injEq, ownerOf_ok,
    removeFromOwner_ok, removeFromAll_ok] at h
  obtain ⟨_, _, o, ⟨rfl, ho⟩, t, ht, l1, ⟨_, rfl⟩, l2, ⟨lt, hlt, _, rfl⟩, rfl⟩ := h
  obtain ⟨_, rfl⟩ := Erc721.burn_ok.mp ht
  dsimp only at hlt
  have hb := base_updated (dst := ZERO) (id := id) hc hs.base (Or.inl ho)
  have hae := hs.ae.remove ho hlt
  have hlen : ((s.lists.allTokens.set (s.lists.allTokensIndex id).toNat lt).dropLast).length ≤ cap := by
    rw [List.length_dropLast, List.length_set]
    have := hs.len; omega
  refine ⟨⟨hb, hae, hlen⟩, fun hoe => ?_, rfl⟩
  have hbal : ((updated s.erc721 ZERO id).balances (s.erc721.owners id)).toNat
      = cnt (upd s.erc721.owners id ZERO) (s.erc721.owners id) := by
    rw [hb.count _ ho, BitVec.toNat_ofNat, Nat.mod_eq_of_lt]
    · rfl
    · have h1 := hae.cnt_le ho
      show cnt (upd s.erc721.owners id ZERO) _ < 2 ^ 256
      omega
  have c1 : cnt (upd s.erc721.owners id ZERO) (s.erc721.owners id) + 1
      = cnt s.erc721.owners (s.erc721.owners id) := cnt_loss rfl (fun e => ho e.symm)
  have r1 := hoe.remove (id := id) (last := (updated s.erc721 ZERO id).balances (s.erc721.owners id))
    rfl ho (by rw [hbal]; exact c1)
  refine r1.congr (fun a ha => ?_)
  show _ = cnt (upd s.erc721.owners id ZERO) a
  by_cases h2 : a = s.erc721.owners id
  · subst h2; rw [upd_same, hbal]
  · rw [upd_ne _ _ h2]
    rw [cnt_same (fun e => h2 e.symm) (fun e => ha e.symm)]

/-- The call is a transfer of a token from an account to itself. -/
def SelfTransfer : Call → Prop
  | .transferFrom src dst _ => src = dst
  | .safeTransferFrom src dst _ => src = dst
  | .safeTransferFromWithData src dst _ _ => src = dst
  | _ => False

theorem exec_inv {cap : Nat} (hcap : cap < 2 ^ 256) {s s' : State} {tx : Tx} (hs : Inv cap s)
    (h : exec cap s tx = .ok s') : Inv cap s' ∧ (¬ SelfTransfer tx.call → InvO s → InvO s') := by
  unfold exec at h
  by_cases hc : tx.caller = ZERO
  · simp [hc] at h
  rw [if_neg hc] at h
  cases hcall : tx.call with
  | burn id =>
    rw [hcall] at h
    obtain ⟨h1, h2, _⟩ := burn_effect hcap hc hs h
    exact ⟨h1, fun _ => h2⟩
  | mint dst id =>
    rw [hcall] at h
    obtain ⟨h1, h2, _⟩ := mintVia_effect hcap hc hs (fun t ht => ht) h
    exact ⟨h1, fun _ => h2⟩
  | safeMint dst id data =>
    rw [hcall] at h
    obtain ⟨h1, h2, _⟩ := mintVia_effect hcap hc hs (fun t ht => (Erc721.then_check_ok.mp ht).1) h
    exact ⟨h1, fun _ => h2⟩
  | transferFrom src dst id =>
    rw [hcall] at h
    obtain ⟨h1, h2, _⟩ := transferVia_effect hcap hc hs (fun t ht => ht) h
    exact ⟨h1, h2⟩
  | safeTransferFrom src dst id =>
    rw [hcall] at h
    obtain ⟨h1, h2, _⟩ := transferVia_effect hcap hc hs (fun t ht => (Erc721.then_check_ok.mp ht).1) h
    exact ⟨h1, h2⟩
  | safeTransferFromWithData src dst id data =>
    rw [hcall] at h
    obtain ⟨h1, h2, _⟩ := transferVia_effect hcap hc hs (fun t ht => (Erc721.then_check_ok.mp ht).1) h
    exact ⟨h1, h2⟩
  | approve dst id =>
    rw [hcall] at h
    simp only [bind_eq_ok, lift_ok, except_pure, Except.ok.injEq] at h
    obtain ⟨t, ht, rfl⟩ := h
    obtain ⟨k1, k2, rfl⟩ := (Erc721.approve_ok hc).mp ht
    exact ⟨⟨Erc721.inv_effect hc hs.base (.approve dst id k1 k2), hs.ae, hs.len⟩, fun _ h => h⟩
  | setApprovalForAll op b =>
    rw [hcall] at h
    simp only [bind_eq_ok, lift_ok, except_pure, Except.ok.injEq] at h
    obtain ⟨t, ht, rfl⟩ := h
    obtain ⟨k1, rfl⟩ := Erc721.setApprovalForAll_ok.mp ht
    exact ⟨⟨Erc721.inv_effect hc hs.base (.operator op b k1), hs.ae, hs.len⟩, fun _ h => h⟩
  | pause =>
    rw [hcall] at h
    simp only [bind_eq_ok, liftP_ok, except_pure, Except.ok.injEq] at h
    obtain ⟨p, _, rfl⟩ := h
    exact ⟨⟨hs.base, hs.ae, hs.len⟩, fun _ h => h⟩
  | unpause =>
    rw [hcall] at h
    simp only [bind_eq_ok, liftP_ok, except_pure, Except.ok.injEq] at h
    obtain ⟨p, _, rfl⟩ := h
    exact ⟨⟨hs.base, hs.ae, hs.len⟩, fun _ h => h⟩

theorem inv_init (cap : Nat) : Inv cap init :=
  ⟨Erc721.inv_init, ⟨fun i x h => by simp [init] at h, fun x h => absurd rfl h⟩, Nat.zero_le _⟩

theorem invO_init : InvO init := by
  refine ⟨fun a ha i hi => ?_, fun id h => absurd rfl h, fun _ _ _ _ => rfl⟩
  exfalso
  have : cnt init.erc721.owners a = 0 := by
    unfold cnt
    apply Finset.sum_eq_zero
    intro id _
    rw [if_neg]
    exact fun e => ha e.symm
  omega

theorem inv_run {cap : Nat} (hcap : cap < 2 ^ 256) (txs : List Tx) : Inv cap (run cap init txs) :=
  run_invariant (exec := exec cap) (Inv := Inv cap) (fun _ _ _ h hx => (exec_inv hcap h hx).1) txs _
    (inv_init cap)

theorem invO_run {cap : Nat} (hcap : cap < 2 ^ 256) (txs : List Tx)
    (hno : ∀ tx ∈ txs, ¬ SelfTransfer tx.call) : InvO (run cap init txs) := by
  suffices H : ∀ (txs : List Tx) (s : State), Inv cap s → InvO s →
      (∀ tx ∈ txs, ¬ SelfTransfer tx.call) → InvO (runOf (exec cap) s txs) from
    H txs init (inv_init cap) invO_init hno
  intro txs
  induction txs with
  | nil => intro s _ h _; exact h
  | cons tx txs ih =>
    intro s hi ho hn
    have hn' : ∀ t ∈ txs, ¬ SelfTransfer t.call := fun t ht => hn t (by simp [ht])
    rw [runOf_cons]
    cases hx : exec cap s tx with
    | error e => rw [stepOf_error hx]; exact ih s hi ho hn'
    | ok s' =>
      rw [stepOf_ok hx]
      obtain ⟨h1, h2⟩ := exec_inv hcap hi hx
      exact ih s' h1 (h2 (hn tx (by simp)) ho) hn'

end Verif.Enumerable
