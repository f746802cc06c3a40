import Verif.Proofs.Storage
import Verif.Proofs.KeccakFast
/-! # C98: cells of a contract's storage are independent -/

namespace Verif.Props.Storage
open Verif Verif.Storage Verif.Spec.Storage Verif.Proofs.Storage

/-! ## Paths -/

theorem walk_append (K : Hash) : ∀ (p q : List Step) (l : Loc),
    l.walk K (p ++ q) = (l.walk K p).bind fun m => m.walk K q
  | [], _, _ => rfl
  | s :: p, q, l => by
    rw [List.cons_append, Loc.walk, Loc.walk]
    cases h : l.step K s with
    | none => rfl
    | some m => rw [Option.bind_some, Option.bind_some]; exact walk_append K p q m

theorem visited_append (K : Hash) : ∀ (p q : List Step) {l m : Loc} (_ : l.walk K p = some m),
    visited K l (p ++ q) = visited K l p ++ visited K m q
  | [], _, _, _, h => by rw [Loc.walk] at h; cases h; rfl
  | s :: p, q, l, m, h => by
    rw [Loc.walk] at h
    cases hs : l.step K s with
    | none => rw [hs] at h; cases h
    | some a =>
      rw [hs, Option.bind_some] at h
      rw [List.cons_append, visited, visited, hs]
      show a :: visited K a (p ++ q) = (a :: visited K a p) ++ visited K m q
      rw [visited_append K p q h, List.cons_append]

theorem visited_last (K : Hash) : ∀ (p : List Step) {l m : Loc} (_ : l.walk K p = some m) (_ : p ≠ []), m ∈ visited K l p
  | [], _, _, _, hne => absurd rfl hne
  | s :: p, l, m, h, _ => by
    rw [Loc.walk] at h
    cases hs : l.step K s with
    | none => rw [hs] at h; cases h
    | some a =>
      rw [hs, Option.bind_some] at h
      rw [visited, hs]
      cases p with
      | nil => rw [Loc.walk] at h; cases h; exact List.mem_cons_self
      | cons s' p => exact List.mem_cons_of_mem _ (visited_last K _ h (List.cons_ne_nil _ _))

/-- A step that hashes. -/
def Hashes : Step → Prop
  | .field _ => False
  | _ => True

theorem split : ∀ p : List Step, (∃ names : List String, p = names.map Step.field) ∨
    ∃ (p1 : List Step) (h : Step) (names : List String), p = p1 ++ h :: names.map Step.field ∧ Hashes h
  | [] => Or.inl ⟨[], rfl⟩
  | s :: p => by
    rcases split p with ⟨names, rfl⟩ | ⟨p1, h, names, rfl, hh⟩
    · cases s with
      | field n => exact Or.inl ⟨n :: names, rfl⟩
      | key k => exact Or.inr ⟨[], .key k, names, rfl, trivial⟩
      | index i => exact Or.inr ⟨[], .index i, names, rfl, trivial⟩
    · exact Or.inr ⟨s :: p1, h, names, rfl, hh⟩

theorem good_low0 {t : Ty} (h : Ty.ok t = true) (b : Option Bytes) (d : Nat) : Good ⟨b, d, 0, t⟩ := by
  refine ⟨h, ?_⟩
  have := (width_le h).2
  cases t <;> first | exact rfl | (show 0 + Ty.width _ ≤ 32; dsimp only; omega)

theorem step_good {K : Hash} {l l' : Loc} (hl : Good l) : ∀ {s : Step} (_ : l.step K s = some l'), Good l'
  | .field n, h => (field_step hl h).1
  | .key k, h => by
    obtain ⟨base, disp, low, ty⟩ := l
    cases ty with
    | map v =>
      cases h
      have := hl.ok
      rw [Ty.ok] at this
      exact good_low0 this _ _
    | _ => cases h
  | .index i, h => by
    obtain ⟨base, disp, low, ty⟩ := l
    cases ty with
    | vec e =>
      cases h
      have := hl.ok
      rw [Ty.ok] at this
      exact element_good this _
    | string =>
      cases h
      exact element_good (by decide) _
    | _ => cases h

theorem walk_good {K : Hash} : ∀ (p : List Step) {l l' : Loc} (_ : Good l) (_ : l.walk K p = some l'), Good l'
  | [], _, _, hl, h => by rw [Loc.walk] at h; cases h; exact hl
  | s :: p, l, l', hl, h => by
    rw [Loc.walk] at h
    cases hs : l.step K s with
    | none => rw [hs] at h; cases h
    | some a => rw [hs, Option.bind_some] at h; exact walk_good p (step_good hl hs) h

/-! ## Isolation -/

theorem disp_eq {K : Hash} {l m : Loc} {n : Nat} (hn : n < 2 ^ 256) (hb : l.base = m.base) (hl : l.disp ≤ n)
    (hm : m.disp ≤ n) (h : l.slot K = m.slot K) : l.disp = m.disp := by
  unfold Loc.slot at h
  rw [hb] at h
  have h2 : BitVec.ofNat 256 l.disp = BitVec.ofNat 256 m.disp := by
    have := congrArg (fun x => x - origin K m.base) h
    simpa [BitVec.add_comm, BitVec.add_sub_cancel] using this
  have := congrArg BitVec.toNat h2
  rw [BitVec.toNat_ofNat, BitVec.toNat_ofNat, Nat.mod_eq_of_lt (by omega), Nat.mod_eq_of_lt (by omega)] at this
  exact this

theorem not_overlap_of_disjoint {K : Hash} {l m : Loc} {n : Nat} (hn : n < 2 ^ 256) (hb : l.base = m.base)
    (hl : l.disp ≤ n) (hm : m.disp ≤ n) (ll : Leaf l.ty) (lm : Leaf m.ty)
    (hd : 32 * l.disp + l.low + extent l.ty ≤ 32 * m.disp + m.low ∨
      32 * m.disp + m.low + extent m.ty ≤ 32 * l.disp + l.low) : ¬ Overlap K l m := by
  rintro ⟨h1, h2, h3⟩
  have := disp_eq hn hb hl hm h1
  rw [extent_leaf ll, extent_leaf lm] at hd
  omega

theorem near_of_slots {K : Hash} {l m : Loc} {n : Nat} (hl : l.disp ≤ n) (hm : m.disp ≤ n)
    (h : l.slot K = m.slot K) : Near n (origin K l.base) (origin K m.base) := ⟨l.disp, m.disp, hl, hm, h⟩

/-- What a hashing step leads to. -/
theorem hash_step {K : Hash} {l l' : Loc} : ∀ {h : Step} (_ : Hashes h) (_ : l.step K h = some l'),
    Leaf l.ty ∧ l.ty.width = 32 ∧
    ((∃ k v, h = .key k ∧ l.ty = .map v ∧ l' = ⟨some (be32 k ++ be32 (l.slot K)), 0, 0, v⟩) ∨
     (∃ i e, h = .index i ∧ (l.ty = .vec e ∨ (l.ty = .string ∧ e = .scalar 32)) ∧ l' = element (l.slot K) e i))
  | .field _, hh, _ => hh.elim
  | .key k, _, h => by
    obtain ⟨base, disp, low, ty⟩ := l
    cases ty with
    | map v => cases h; exact ⟨trivial, rfl, Or.inl ⟨k, v, rfl, rfl, rfl⟩⟩
    | _ => cases h
  | .index i, _, h => by
    obtain ⟨base, disp, low, ty⟩ := l
    cases ty with
    | vec e => cases h; exact ⟨trivial, rfl, Or.inr ⟨i, e, rfl, Or.inl rfl, rfl⟩⟩
    | string => cases h; exact ⟨trivial, rfl, Or.inr ⟨i, .scalar 32, rfl, Or.inr ⟨rfl, rfl⟩, rfl⟩⟩
    | _ => cases h

theorem low_zero {l : Loc} (hl : Good l) (hw : l.ty.width = 32) (hf : Leaf l.ty) : l.low = 0 := by
  obtain ⟨base, disp, low, ty⟩ := l
  have := hl.aligned
  cases ty with
  | struct fs => exact hf.elim
  | _ => change low + Ty.width _ ≤ 32 at this; dsimp only at hw this ⊢; omega

theorem hashed_prefix {K : Hash} {t : Ty} {p q : List Step} {m : Loc} (h : cell K t p = some m) :
    ∀ x ∈ hashed K t p, x ∈ hashed K t (p ++ q) := by
  intro x hx
  unfold hashed at hx ⊢
  rw [visited_append K p q h, List.filterMap_append]
  exact List.mem_append_left _ hx

theorem within_prefix {K : Hash} {n : Nat} {t : Ty} {p q : List Step} {m : Loc} (h : cell K t p = some m)
    (hw : Within K n t (p ++ q)) : Within K n t p := by
  intro l hl
  apply hw
  rw [visited_append K p q h]
  exact List.mem_append_left _ hl

theorem within_last {K : Hash} {n : Nat} {t : Ty} {p : List Step} {m : Loc} (h : cell K t p = some m)
    (hw : Within K n t p) : m.disp ≤ n := by
  cases p with
  | nil => unfold cell at h; rw [Loc.walk] at h; cases h; exact Nat.zero_le _
  | cons s p => exact hw m (visited_last K _ h (List.cons_ne_nil _ _))

/-- The path to a cell, cut behind the last hashing step. -/
theorem cut {K : Hash} {t : Ty} {p1 : List Step} {h : Step} {names : List String} {l : Loc}
    (hc : cell K t (p1 ++ h :: names.map Step.field) = some l) :
    ∃ a b, cell K t p1 = some a ∧ a.step K h = some b ∧ b.walk K (names.map Step.field) = some l ∧
      ∀ x, b.base = some x → x ∈ hashed K t (p1 ++ h :: names.map Step.field) := by
  have hc' := hc
  unfold cell at hc'
  rw [walk_append] at hc'
  cases ha : Loc.walk K ⟨none, 0, 0, t⟩ p1 with
  | none => rw [ha] at hc'; cases hc'
  | some a =>
    rw [ha, Option.bind_some, Loc.walk] at hc'
    cases hb : a.step K h with
    | none => rw [hb] at hc'; cases hc'
    | some b =>
      rw [hb, Option.bind_some] at hc'
      refine ⟨a, b, ha, hb, hc', fun x hx => ?_⟩
      unfold hashed
      rw [visited_append K p1 _ ha, visited, hb]
      refine List.mem_filterMap.mpr ⟨b, List.mem_append_right _ List.mem_cons_self, hx⟩

theorem base_of {K : Hash} {l l' : Loc} {h : Step} (hh : Hashes h) (hs : l.step K h = some l') :
    ∃ x, l'.base = some x := by
  rcases (hash_step hh hs).2.2 with ⟨k, v, _, _, rfl⟩ | ⟨i, e, _, _, rfl⟩
  · exact ⟨_, rfl⟩
  · exact ⟨_, rfl⟩

theorem isolation_aux {K : Hash} {n : Nat} (hn : n < 2 ^ 256) {t : Ty} (ht : Ty.ok t = true) :
    ∀ (N : Nat) (p q : List Step), p.length ≤ N → ∀ {l m : Loc}, cell K t p = some l → cell K t q = some m →
      Leaf l.ty → Leaf m.ty → Within K n t p → Within K n t q → p ≠ q → Overlap K l m → Coincidence K n t p q := by
  intro N
  induction N with
  | zero =>
    intro p q hp l m hl hm ll lm wp wq hne ho
    cases p with
    | cons s p => cases hp
    | nil =>
      unfold cell at hl
      rw [Loc.walk] at hl
      cases hl
      rcases split q with ⟨names, rfl⟩ | ⟨q1, h, names, rfl, hh⟩
      · cases names with
        | nil => exact absurd rfl hne
        | cons x names =>
          unfold cell at hm
          rw [List.map_cons, Loc.walk] at hm
          cases hs : Loc.step K ⟨none, 0, 0, t⟩ (.field x) with
          | none => rw [hs] at hm; cases hm
          | some a => exact (leaf_step ll hs).elim
      · obtain ⟨a, b, ha, hb, hw, hx⟩ := cut hm
        obtain ⟨x, hbx⟩ := base_of hh hb
        have hg : Good b := step_good (walk_good _ (good_low0 ht _ _) ha) hb
        have hbase := (field_steps names hg hw).2.1
        have := near_of_slots (K := K) (within_last hm wq) (Nat.zero_le n) ho.1.symm
        rw [hbase, hbx] at this
        exact Or.inr (Or.inr ⟨x, hx x hbx, this⟩)
  | succ N ih =>
    intro p q hp l m hl hm ll lm wp wq hne ho
    have h0 : Good ⟨none, 0, 0, t⟩ := good_low0 ht _ _
    rcases split p with ⟨names, rfl⟩ | ⟨p1, h, names, rfl, hh⟩
    · rcases split q with ⟨names', rfl⟩ | ⟨q1, h', names', rfl, hh'⟩
      · exfalso
        have hd := fields_disjoint names names' h0 hl hm ll lm fun e => hne (by rw [e])
        have b1 := (field_steps names h0 hl).2.1
        have b2 := (field_steps names' h0 hm).2.1
        exact not_overlap_of_disjoint hn (b1.trans b2.symm) (within_last hl wp) (within_last hm wq) ll lm hd ho
      · obtain ⟨a, b, ha, hb, hw, hx⟩ := cut hm
        obtain ⟨x, hbx⟩ := base_of hh' hb
        have hg : Good b := step_good (walk_good _ h0 ha) hb
        have hbase := (field_steps names' hg hw).2.1
        have b1 := (field_steps names h0 hl).2.1
        have := near_of_slots (K := K) (within_last hm wq) (within_last hl wp) ho.1.symm
        rw [hbase, hbx, b1] at this
        exact Or.inr (Or.inr ⟨x, hx x hbx, this⟩)
    · obtain ⟨a, b, ha, hb, hw, hx⟩ := cut hl
      obtain ⟨x, hbx⟩ := base_of hh hb
      have hga : Good a := walk_good _ h0 ha
      have hg : Good b := step_good hga hb
      have hbase := (field_steps names hg hw).2.1
      rcases split q with ⟨names', rfl⟩ | ⟨q1, h', names', rfl, hh'⟩
      · have b2 := (field_steps names' h0 hm).2.1
        have := near_of_slots (K := K) (within_last hl wp) (within_last hm wq) ho.1
        rw [hbase, hbx, b2] at this
        exact Or.inr (Or.inl ⟨x, hx x hbx, this⟩)
      · obtain ⟨a', b', ha', hb', hw', hx'⟩ := cut hm
        obtain ⟨x', hbx'⟩ := base_of hh' hb'
        have hga' : Good a' := walk_good _ h0 ha'
        have hg' : Good b' := step_good hga' hb'
        have hbase' := (field_steps names' hg' hw').2.1
        by_cases hxx : x = x'
        · subst hxx
          -- the same byte string was hashed
          have rest : a.slot K = a'.slot K → p1 ≠ q1 → Coincidence K n t (p1 ++ h :: names.map Step.field)
              (q1 ++ h' :: names'.map Step.field) := by
            intro hslot hpq
            obtain ⟨la, wa, _⟩ := hash_step hh hb
            obtain ⟨la', wa', _⟩ := hash_step hh' hb'
            have z := low_zero hga wa la
            have z' := low_zero hga' wa' la'
            have hlen : p1.length ≤ N := by
              rw [List.length_append, List.length_cons] at hp
              omega
            have := ih p1 q1 hlen ha ha' la la' (within_prefix ha wp) (within_prefix ha' wq) hpq
              ⟨hslot, by omega, by omega⟩
            rcases this with ⟨u, hu, v, hv, huv⟩ | ⟨u, hu, hu2⟩ | ⟨u, hu, hu2⟩
            · exact Or.inl ⟨u, hashed_prefix ha u hu, v, hashed_prefix ha' v hv, huv⟩
            · exact Or.inr (Or.inl ⟨u, hashed_prefix ha u hu, hu2⟩)
            · exact Or.inr (Or.inr ⟨u, hashed_prefix ha' u hu, hu2⟩)
          have hbb : l.base = m.base := by rw [hbase, hbase', hbx, hbx']
          -- the same place after hashing, different fields behind it
          have same : b = b' → p1 = q1 → h = h' → False := by
            intro e1 e2 e3
            subst e1 e2 e3
            have hd := fields_disjoint names names' hg hw hw' ll lm fun e => hne (by rw [e])
            exact not_overlap_of_disjoint hn hbb (within_last hl wp) (within_last hm wq) ll lm hd ho
          rcases (hash_step hh hb).2.2 with ⟨k, v, rfl, hty, rfl⟩ | ⟨i, e, rfl, hty, rfl⟩
          · rcases (hash_step hh' hb').2.2 with ⟨k', v', rfl, hty', rfl⟩ | ⟨i', e', rfl, hty', rfl⟩
            · have e1 : be32 k ++ be32 (a.slot K) = be32 k' ++ be32 (a'.slot K) :=
                (Option.some.inj hbx).trans (Option.some.inj hbx').symm
              obtain ⟨f1, f2⟩ := List.append_inj e1 (by rw [be32_length, be32_length])
              by_cases hpq : p1 = q1
              · subst hpq
                have : a = a' := Option.some.inj (ha.symm.trans ha')
                subst this
                have := be32_inj f1
                subst this
                exact (same (by rw [hty] at hty'; cases hty'; rfl) rfl rfl).elim
              · exact rest (be32_inj f2) hpq
            · exfalso
              have e1 : be32 k ++ be32 (a.slot K) = be32 (a'.slot K) :=
                (Option.some.inj hbx).trans (Option.some.inj hbx').symm
              have := congrArg List.length e1
              rw [List.length_append, be32_length, be32_length, be32_length] at this
              omega
          · rcases (hash_step hh' hb').2.2 with ⟨k', v', rfl, hty', rfl⟩ | ⟨i', e', rfl, hty', rfl⟩
            · exfalso
              have e1 : be32 (a.slot K) = be32 k' ++ be32 (a'.slot K) :=
                (Option.some.inj hbx).trans (Option.some.inj hbx').symm
              have := congrArg List.length e1
              rw [List.length_append, be32_length, be32_length, be32_length] at this
              omega
            · have e1 : be32 (a.slot K) = be32 (a'.slot K) :=
                (Option.some.inj hbx).trans (Option.some.inj hbx').symm
              by_cases hpq : p1 = q1
              · subst hpq
                have : a = a' := Option.some.inj (ha.symm.trans ha')
                subst this
                have hee : e = e' := by
                  rcases hty with h1 | ⟨h1, rfl⟩ <;> rcases hty' with h2 | ⟨h2, rfl⟩ <;> rw [h1] at h2 <;> cases h2 <;> rfl
                subst hee
                by_cases hi : i = i'
                · subst hi
                  exact (same rfl rfl rfl).elim
                · exfalso
                  have hok : Ty.ok e = true := hg.ok
                  have hd := elements_disjoint (s := a.slot K) hok hi
                  obtain ⟨_, _, c1, c2⟩ := field_steps names hg hw
                  obtain ⟨_, _, d1, d2⟩ := field_steps names' hg' hw'
                  have ee : (element (a.slot K) e i).ty = e := rfl
                  have ee' : (element (a.slot K) e i').ty = e := rfl
                  rw [ee] at c2
                  rw [ee'] at d2
                  exact not_overlap_of_disjoint hn hbb (within_last hl wp) (within_last hm wq) ll lm (by omega) ho
              · exact rest (be32_inj e1) hpq
        · have := near_of_slots (K := K) (within_last hl wp) (within_last hm wq) ho.1
          rw [hbase, hbx, hbase', hbx'] at this
          exact Or.inl ⟨x, hx x hbx, x', hx' x' hbx', hxx, this⟩

/-- C98: two different cells of a contract share a byte of storage only if hash values on the way to them coincide: two
different byte strings with hashes at most `n` apart, or one whose hash is at most `n`, where `n` is the number of words
the largest struct or vector on the way has.  For every storage struct, every two cells and every hash function. -/
theorem C98_isolation (K : Hash) {n : Nat} (hn : n < 2 ^ 256) {t : Ty} (ht : Ty.ok t = true) {p q : List Step} (hne : p ≠ q)
    {l m : Loc} (hl : cell K t p = some l) (hm : cell K t q = some m) (ll : Leaf l.ty) (lm : Leaf m.ty)
    (wp : Within K n t p) (wq : Within K n t q) (ho : Overlap K l m) : Coincidence K n t p q :=
  isolation_aux hn ht p.length p q (Nat.le_refl _) hl hm ll lm wp wq hne ho

/-! ## Reading and writing -/

theorem mask_bit (n i : Nat) : (mask n).getLsbD i = (decide (i < 256) && decide (i < 8 * n)) := by
  unfold mask
  rw [BitVec.getLsbD_ofNat, Nat.testBit_two_pow_sub_one]

/-- Bit `i` of a value read from storage. -/
theorem read_bit (K : Hash) (st : Words) (l : Loc) (i : Nat) :
    (read K st l).getLsbD i = ((st (l.slot K)).getLsbD (8 * l.low + i) && (decide (i < 256) && decide (i < 8 * l.ty.width))) := by
  unfold Storage.read
  rw [BitVec.getLsbD_and, BitVec.getLsbD_ushiftRight, mask_bit]

/-- C98: a value that was written is read back, cut to the bytes the type has, whatever the storage held. -/
theorem C98_read_own_write (K : Hash) (st : Words) (l : Loc) (v : U256) (hl : l.low + l.ty.width ≤ 32) :
    read K (write K st l v) l = v &&& mask l.ty.width := by
  apply BitVec.eq_of_getLsbD_eq
  intro i hi
  rw [read_bit, BitVec.getLsbD_and, mask_bit]
  unfold write
  rw [upd_same]
  simp only [BitVec.getLsbD_or, BitVec.getLsbD_and, BitVec.getLsbD_not, BitVec.getLsbD_shiftLeft, mask_bit]
  by_cases h : i < 8 * l.ty.width
  · have h1 : 8 * l.low + i < 256 := by omega
    have h2 : ¬ 8 * l.low + i < 8 * l.low := by omega
    have h3 : 8 * l.low + i - 8 * l.low = i := by omega
    simp [h, hi, h1, h2, h3]
  · simp [h]

/-- C98: writing to a place leaves everything alone that shares no byte with it. -/
theorem C98_frame (K : Hash) (st : Words) (l m : Loc) (v : U256) (hl : l.low + l.ty.width ≤ 32)
    (hm : m.low + m.ty.width ≤ 32) (h : ¬ Overlap K l m) : read K (write K st l v) m = read K st m := by
  by_cases hs : m.slot K = l.slot K
  · apply BitVec.eq_of_getLsbD_eq
    intro i hi
    rw [read_bit, read_bit]
    by_cases hw : i < 8 * m.ty.width
    · congr 1
      unfold write
      rw [hs, upd_same]
      simp only [BitVec.getLsbD_or, BitVec.getLsbD_and, BitVec.getLsbD_not, BitVec.getLsbD_shiftLeft, mask_bit]
      have hd : l.low + l.ty.width ≤ m.low ∨ m.low + m.ty.width ≤ l.low := by
        apply Classical.byContradiction
        intro hc
        exact h ⟨hs.symm, by omega, by omega⟩
      have h1 : 8 * m.low + i < 256 := by omega
      rcases hd with hd | hd
      · have h2 : ¬ 8 * m.low + i - 8 * l.low < 8 * l.ty.width := by omega
        simp [h1, h2]
      · have h2 : 8 * m.low + i < 8 * l.low := by omega
        simp [h1, h2]
    · simp [hw]
  · unfold Storage.read write
    rw [upd_ne _ _ hs]

/-- Cells stay within their word. -/
theorem cell_fits {K : Hash} {t : Ty} (ht : Ty.ok t = true) {p : List Step} {l : Loc} (hl : cell K t p = some l)
    (ll : Leaf l.ty) : l.low + l.ty.width ≤ 32 := by
  have := (walk_good p (good_low0 ht none 0) hl).aligned
  obtain ⟨base, disp, low, ty⟩ := l
  cases ty with
  | struct fs => exact ll.elim
  | _ => exact this

/-- C98: in a contract, writing one cell is read back from this cell and leaves every other cell alone, unless hash values on
the way to the two coincide. -/
theorem C98_cells (K : Hash) {n : Nat} (hn : n < 2 ^ 256) {t : Ty} (ht : Ty.ok t = true) (st : Words) (v : U256)
    {p q : List Step} {l m : Loc} (hl : cell K t p = some l) (hm : cell K t q = some m) (ll : Leaf l.ty) (lm : Leaf m.ty)
    (wp : Within K n t p) (wq : Within K n t q) (hc : ¬ Coincidence K n t p q) :
    read K (write K st l v) m = if p = q then v &&& mask m.ty.width else read K st m := by
  by_cases h : p = q
  · subst h
    cases hl.symm.trans hm
    rw [if_pos rfl]
    exact C98_read_own_write K st l v (cell_fits ht hl ll)
  · rw [if_neg h]
    exact C98_frame K st l m v (cell_fits ht hl ll) (cell_fits ht hm lm)
      fun ho => hc (C98_isolation K hn ht h hl hm ll lm wp wq ho)

/-- The storage structs of the 21 example contracts. -/
def layouts : List Ty :=
  [accessControlExample, basicToken, ecdsaExample, erc1155MetadataUriExample, erc1155SupplyExample, erc1155Example,
   erc20FlashMintExample, erc20PermitExample, erc20WrapperExample, erc20Example, erc4626Example, erc721ConsecutiveExample,
   erc721MetadataExample, erc721WrapperExample, erc721Example, merkleProofsExample, ownableTwoStepExample, ownableExample,
   poseidonExample, safeErc20Example, vestingWalletExample]

/-- C98: all storage structs of the examples satisfy the condition of the theorems above. -/
theorem C98_layouts_ok : ∀ t ∈ layouts, Ty.ok t = true := by decide

/-! ## A concrete case -/

/-- Being near can be decided. -/
theorem near_iff {n : Nat} {u v : U256} : Near n u v ↔ (u - v).toNat ≤ n ∨ (v - u).toNat ≤ n := by
  constructor
  · rintro ⟨a, b, ha, hb, h⟩
    by_cases hab : a ≤ b
    · left
      have : u - v = BitVec.ofNat 256 (b - a) := by
        have e : BitVec.ofNat 256 b = BitVec.ofNat 256 (b - a) + BitVec.ofNat 256 a := by
          rw [← BitVec.ofNat_add]; congr 1; omega
        rw [e, ← BitVec.add_assoc] at h
        have := (BitVec.add_left_inj _).mp h
        rw [this, BitVec.add_comm, BitVec.add_sub_cancel]
      rw [this, BitVec.toNat_ofNat]
      exact Nat.le_trans (Nat.mod_le _ _) (by omega)
    · right
      have : v - u = BitVec.ofNat 256 (a - b) := by
        have e : BitVec.ofNat 256 a = BitVec.ofNat 256 (a - b) + BitVec.ofNat 256 b := by
          rw [← BitVec.ofNat_add]; congr 1; omega
        rw [e, ← BitVec.add_assoc] at h
        have := (BitVec.add_left_inj _).mp h
        rw [← this, BitVec.add_comm, BitVec.add_sub_cancel]
      rw [this, BitVec.toNat_ofNat]
      exact Nat.le_trans (Nat.mod_le _ _) (by omega)
  · rintro (h | h)
    · refine ⟨0, (u - v).toNat, Nat.zero_le _, h, ?_⟩
      rw [BitVec.ofNat_toNat, BitVec.setWidth_eq, BitVec.add_zero, BitVec.add_comm,
        BitVec.sub_add_cancel]
    · refine ⟨(v - u).toNat, 0, h, Nat.zero_le _, ?_⟩
      rw [BitVec.ofNat_toNat, BitVec.setWidth_eq, BitVec.add_zero, BitVec.add_comm,
        BitVec.sub_add_cancel]

/-- Two packed cells of `examples/erc4626`: the asset and its decimals are in the same word and do not overlap. -/
example (K : Hash) : ∃ l m, cell K erc4626Example [.field "erc4626", .field "asset"] = some l ∧
    cell K erc4626Example [.field "erc4626", .field "underlying_decimals"] = some m ∧
    l.slot K = m.slot K ∧ l.slot K = 5#256 ∧ m.low = 20 ∧ ¬ Overlap K l m :=
  ⟨_, _, rfl, rfl, rfl, rfl, rfl, fun h => absurd h.2.2 (by decide)⟩

set_option maxRecDepth 100000 in
/-- With Keccak: the balances of two accounts in `examples/erc20` do not meet, so a write to one leaves the other alone. -/
example (st : Words) (v : U256) :
    let K := Spec.Keccak.keccak256
    let p : List Step := [.field "erc20", .field "balances", .key 1#256]
    let q : List Step := [.field "erc20", .field "balances", .key 2#256]
    ∃ l m, cell K erc20Example p = some l ∧ cell K erc20Example q = some m ∧ ¬ Coincidence K 10 erc20Example p q ∧
      Storage.read K (write K st l v) m = Storage.read K st m := by
  intro K p q
  have hc : ¬ Coincidence K 10 erc20Example p q := by
    have h1 : hashed K erc20Example p = [be32 1#256 ++ be32 0#256] := rfl
    have h2 : hashed K erc20Example q = [be32 2#256 ++ be32 0#256] := rfl
    unfold Coincidence
    rw [h1, h2]
    simp only [List.mem_singleton, exists_eq_left, near_iff]
    show ¬ ((_ ∧ ((Spec.Keccak.keccak256 _ - Spec.Keccak.keccak256 _).toNat ≤ 10 ∨ _)) ∨ _)
    rw [show K = Spec.Keccak.keccak256 from rfl, Proofs.KeccakFast.keccak256_eq]
    decide +kernel
  refine ⟨_, _, rfl, rfl, hc, ?_⟩
  have := C98_cells K (n := 10) (by decide) (t := erc20Example) (by decide) st v (p := p) (q := q) rfl rfl trivial trivial
    (by intro l hl; revert l; decide) (by intro l hl; revert l; decide) hc
  rw [this, if_neg (by decide)]

/-- The exception is needed: with a hash function that gives everything the same word, all balances are one cell. -/
example :
    let K : Hash := fun _ => 7#256
    ∃ l m, cell K erc20Example [.field "erc20", .field "balances", .key 1#256] = some l ∧
      cell K erc20Example [.field "erc20", .field "balances", .key 2#256] = some m ∧ Overlap K l m :=
  ⟨_, _, rfl, rfl, rfl, by decide, by decide⟩

end Verif.Props.Storage
