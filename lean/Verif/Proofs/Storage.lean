import Verif.Spec.Storage
import Verif.Props.Crypto
/-! # Proofs about storage layout -/

namespace Verif.Proofs.Storage
open Verif Verif.Storage Verif.Spec.Storage

/-- Bytes a type takes. -/
def extent : Ty → Nat
  | .struct fs => 32 * (Ty.struct fs).words
  | t => t.width

/-- Structs begin at a word, values do not cross the end of one. -/
def Aligned (low : Nat) : Ty → Prop
  | .struct _ => low = 0
  | t => low + t.width ≤ 32

theorem walk_cons (n : String) (t : Ty) (rest : Fields) (p : Nat × Nat) :
    (Fields.cons n t rest).walk p = rest.walk (behind t (place t p)) := by
  rw [Fields.walk.eq_def]
  cases t <;> rfl

theorem width_le {t : Ty} (h : Ty.ok t = true) : 0 < t.width ∧ t.width ≤ 32 := by
  cases t with
  | scalar b => rw [Ty.ok] at h; exact of_decide_eq_true h
  | map v => exact ⟨Nat.succ_pos 31, Nat.le_refl 32⟩
  | vec v => exact ⟨Nat.succ_pos 31, Nat.le_refl 32⟩
  | string => exact ⟨Nat.succ_pos 31, Nat.le_refl 32⟩
  | struct v => exact ⟨Nat.succ_pos 31, Nat.le_refl 32⟩

theorem place_spec {t : Ty} (h : Ty.ok t = true) {p : Nat × Nat} (hp : p.2 ≤ 32) :
    32 * p.1 + p.2 ≤ 32 * (place t p).1 + (place t p).2 ∧ Aligned (place t p).2 t ∧
    32 * (behind t (place t p)).1 + (behind t (place t p)).2 = 32 * (place t p).1 + (place t p).2 + extent t ∧
    (behind t (place t p)).2 ≤ 32 := by
  have hw := width_le h
  cases t with
  | struct fs =>
    unfold place behind extent Aligned
    dsimp only
    split <;> refine ⟨?_, ?_, ?_, ?_⟩ <;> (try dsimp only) <;> omega
  | _ =>
    unfold place behind extent Aligned
    dsimp only
    split <;> refine ⟨?_, ?_, ?_, ?_⟩ <;> (try dsimp only) <;> omega

theorem walk_ge : ∀ {fs : Fields} (_ : Fields.ok fs = true) {p : Nat × Nat} (_ : p.2 ≤ 32),
    32 * p.1 + p.2 ≤ 32 * (fs.walk p).1 + (fs.walk p).2 ∧ (fs.walk p).2 ≤ 32
  | .nil, _, p, hp => by rw [Fields.walk]; exact ⟨Nat.le_refl _, hp⟩
  | .cons n t rest, h, p, hp => by
    rw [Fields.ok, Bool.and_eq_true] at h
    obtain ⟨h1, _, h3, h4⟩ := place_spec h.1 hp
    have ih := walk_ge h.2 h4
    rw [walk_cons]
    exact ⟨by omega, ih.2⟩

theorem locate_spec {n : String} : ∀ {fs : Fields} (_ : Fields.ok fs = true) {p : Nat × Nat} (_ : p.2 ≤ 32)
    {s l : Nat} {t : Ty} (_ : fs.locate n p = some (s, l, t)),
    32 * p.1 + p.2 ≤ 32 * s + l ∧ 32 * s + l + extent t ≤ 32 * (fs.walk p).1 + (fs.walk p).2 ∧ Aligned l t ∧
    Ty.ok t = true
  | .nil, _, _, _, _, _, _, hl => by rw [Fields.locate] at hl; cases hl
  | .cons m u rest, h, p, hp, s, l, t, hl => by
    rw [Fields.ok, Bool.and_eq_true] at h
    obtain ⟨h1, h2, h3, h4⟩ := place_spec h.1 hp
    rw [walk_cons]
    rw [Fields.locate] at hl
    split at hl
    · cases hl
      have := walk_ge h.2 h4
      exact ⟨h1, by omega, h2, h.1⟩
    · have ih := locate_spec h.2 h4 hl
      exact ⟨by omega, ih.2.1, ih.2.2⟩

theorem locate_disjoint {n m : String} (hnm : n ≠ m) : ∀ {fs : Fields} (_ : Fields.ok fs = true) {p : Nat × Nat}
    (_ : p.2 ≤ 32) {s l : Nat} {t : Ty} {s' l' : Nat} {t' : Ty} (_ : fs.locate n p = some (s, l, t))
    (_ : fs.locate m p = some (s', l', t')),
    32 * s + l + extent t ≤ 32 * s' + l' ∨ 32 * s' + l' + extent t' ≤ 32 * s + l
  | .nil, _, _, _, _, _, _, _, _, _, hl, _ => by rw [Fields.locate] at hl; cases hl
  | .cons k u rest, h, p, hp, s, l, t, s', l', t', hl, hm => by
    rw [Fields.ok, Bool.and_eq_true] at h
    obtain ⟨h1, h2, h3, h4⟩ := place_spec h.1 hp
    rw [Fields.locate] at hl hm
    split at hl
    · rename_i hk
      rw [if_neg (by rw [hk]; exact hnm)] at hm
      cases hl
      have := locate_spec h.2 h4 hm
      left; omega
    · split at hm
      · cases hm
        have := locate_spec h.2 h4 hl
        right; omega
      · exact locate_disjoint hnm h.2 h4 hl hm

/-- Everything inside a struct is inside its words. -/
theorem words_ge {fs : Fields} (h : Fields.ok fs = true) :
    32 * (fs.walk (0, 0)).1 + (fs.walk (0, 0)).2 ≤ 32 * (Ty.struct fs).words := by
  have := (walk_ge h (p := (0, 0)) (Nat.zero_le _)).2
  rw [Ty.words]
  split <;> omega

/-- A place of a proper type at a proper byte. -/
structure Good (l : Loc) : Prop where
  ok : Ty.ok l.ty = true
  aligned : Aligned l.low l.ty

theorem field_step {K : Hash} {l l' : Loc} {n : String} (hl : Good l) (h : l.step K (.field n) = some l') :
    Good l' ∧ l'.base = l.base ∧ 32 * l.disp + l.low ≤ 32 * l'.disp + l'.low ∧
    32 * l'.disp + l'.low + extent l'.ty ≤ 32 * l.disp + l.low + extent l.ty := by
  obtain ⟨base, disp, low, ty⟩ := l
  cases ty with
  | struct fs =>
    have hok := hl.ok
    have hal := hl.aligned
    rw [Ty.ok] at hok
    unfold Aligned at hal
    dsimp only at hal
    subst hal
    unfold Loc.step at h
    dsimp only at h
    cases hq : fs.locate n (0, 0) with
    | none => rw [hq] at h; cases h
    | some q =>
      obtain ⟨s, lo, t⟩ := q
      rw [hq] at h
      cases h
      obtain ⟨_, h2, h3, h4⟩ := locate_spec hok (Nat.zero_le _) hq
      have hw := words_ge hok
      refine ⟨⟨h4, h3⟩, rfl, by dsimp only; omega, ?_⟩
      rw [show extent (Ty.struct fs) = 32 * (Ty.struct fs).words from rfl]
      dsimp only at *
      omega
  | _ => cases h

theorem field_steps {K : Hash} : ∀ (names : List String) {l l' : Loc} (_ : Good l)
    (_ : l.walk K (names.map Step.field) = some l'),
    Good l' ∧ l'.base = l.base ∧ 32 * l.disp + l.low ≤ 32 * l'.disp + l'.low ∧
    32 * l'.disp + l'.low + extent l'.ty ≤ 32 * l.disp + l.low + extent l.ty
  | [], l, l', hl, h => by
    rw [List.map_nil, Loc.walk] at h
    cases h
    exact ⟨hl, rfl, Nat.le_refl _, Nat.le_refl _⟩
  | n :: names, l, l', hl, h => by
    rw [List.map_cons, Loc.walk] at h
    cases hs : l.step K (.field n) with
    | none => rw [hs] at h; cases h
    | some m =>
      rw [hs] at h
      obtain ⟨a1, a2, a3, a4⟩ := field_step hl hs
      obtain ⟨b1, b2, b3, b4⟩ := field_steps names a1 h
      exact ⟨b1, b2.trans a2, by omega, by omega⟩

theorem extent_leaf {t : Ty} (h : Leaf t) : extent t = t.width := by cases t <;> first | rfl | cases h

theorem leaf_step {K : Hash} {l l' : Loc} {n : String} (hl : Leaf l.ty) (h : l.step K (.field n) = some l') : False := by
  obtain ⟨base, disp, low, ty⟩ := l
  cases ty <;> first | cases h | cases hl

theorem fields_disjoint {K : Hash} : ∀ (names names' : List String) {l m m' : Loc} (_ : Good l)
    (_ : l.walk K (names.map Step.field) = some m) (_ : l.walk K (names'.map Step.field) = some m') (_ : Leaf m.ty)
    (_ : Leaf m'.ty) (_ : names ≠ names'),
    32 * m.disp + m.low + extent m.ty ≤ 32 * m'.disp + m'.low ∨
    32 * m'.disp + m'.low + extent m'.ty ≤ 32 * m.disp + m.low
  | [], [], _, _, _, _, _, _, _, _, hne => absurd rfl hne
  | [], n :: names', l, m, m', hl, h, h', lm, lm', _ => by
    rw [List.map_nil, Loc.walk] at h
    cases h
    rw [List.map_cons, Loc.walk] at h'
    cases hs : l.step K (.field n) with
    | none => rw [hs] at h'; cases h'
    | some a => exact absurd (leaf_step lm hs) id
  | n :: names, [], l, m, m', hl, h, h', lm, lm', _ => by
    rw [List.map_nil, Loc.walk] at h'
    cases h'
    rw [List.map_cons, Loc.walk] at h
    cases hs : l.step K (.field n) with
    | none => rw [hs] at h; cases h
    | some a => exact absurd (leaf_step lm' hs) id
  | n :: names, n' :: names', l, m, m', hl, h, h', lm, lm', hne => by
    rw [List.map_cons, Loc.walk] at h h'
    cases hs : l.step K (.field n) with
    | none => rw [hs] at h; cases h
    | some a =>
      cases hs' : l.step K (.field n') with
      | none => rw [hs'] at h'; cases h'
      | some a' =>
        rw [hs] at h
        rw [hs'] at h'
        rw [Option.bind_some] at h h'
        obtain ⟨a1, a2, a3, a4⟩ := field_step hl hs
        obtain ⟨b1, b2, b3, b4⟩ := field_step hl hs'
        by_cases hn : n = n'
        · subst hn
          rw [hs] at hs'
          cases hs'
          exact fields_disjoint names names' a1 h h' lm lm' fun e => hne (by rw [e])
        · obtain ⟨c1, c2, c3, c4⟩ := field_steps names a1 h
          obtain ⟨d1, d2, d3, d4⟩ := field_steps names' b1 h'
          have key : 32 * a.disp + a.low + extent a.ty ≤ 32 * a'.disp + a'.low ∨
              32 * a'.disp + a'.low + extent a'.ty ≤ 32 * a.disp + a.low := by
            obtain ⟨base, disp, low, ty⟩ := l
            cases ty with
            | struct fs =>
              unfold Loc.step at hs hs'
              dsimp only at hs hs'
              cases hq : fs.locate n (0, 0) with
              | none => rw [hq] at hs; cases hs
              | some q =>
                cases hq' : fs.locate n' (0, 0) with
                | none => rw [hq'] at hs'; cases hs'
                | some q' =>
                  obtain ⟨s, lo, t⟩ := q
                  obtain ⟨s', lo', t'⟩ := q'
                  rw [hq] at hs
                  rw [hq'] at hs'
                  cases hs
                  cases hs'
                  have hok := hl.ok
                  rw [Ty.ok] at hok
                  have := locate_disjoint hn hok (Nat.zero_le _) hq hq'
                  dsimp only at this ⊢
                  omega
            | _ => cases hs
          omega

/-- Different elements of a vector do not share bytes. -/
theorem elements_disjoint {s : U256} {e : Ty} (he : Ty.ok e = true) {i j : Nat} (h : i ≠ j) :
    32 * (element s e i).disp + (element s e i).low + extent e ≤ 32 * (element s e j).disp + (element s e j).low ∨
    32 * (element s e j).disp + (element s e j).low + extent e ≤ 32 * (element s e i).disp + (element s e i).low := by
  have other : ∀ w : Nat, 32 * (w * (i / 1)) + 32 * (i % 1) + 32 * w ≤ 32 * (w * (j / 1)) + 32 * (j % 1) ∨
      32 * (w * (j / 1)) + 32 * (j % 1) + 32 * w ≤ 32 * (w * (i / 1)) + 32 * (i % 1) := by
    intro w
    rw [Nat.div_one, Nat.div_one, Nat.mod_one, Nat.mod_one]
    rcases Nat.lt_or_gt_of_ne h with h | h
    · left
      have : w * i + w ≤ w * j := by rw [← Nat.mul_succ]; exact Nat.mul_le_mul_left _ h
      omega
    · right
      have : w * j + w ≤ w * i := by rw [← Nat.mul_succ]; exact Nat.mul_le_mul_left _ h
      omega
  cases e with
  | struct fs => exact other (Ty.struct fs).words
  | map v => have := other 1; rw [Nat.mul_one] at this; exact this
  | vec v => have := other 1; rw [Nat.mul_one] at this; exact this
  | string => have := other 1; rw [Nat.mul_one] at this; exact this
  | scalar b =>
    obtain ⟨h0, h1⟩ := width_le he
    change 0 < b at h0
    change b ≤ 32 at h1
    show 32 * (1 * (i / (32 / b))) + b * (i % (32 / b)) + b ≤ 32 * (1 * (j / (32 / b))) + b * (j % (32 / b)) ∨
      32 * (1 * (j / (32 / b))) + b * (j % (32 / b)) + b ≤ 32 * (1 * (i / (32 / b))) + b * (i % (32 / b))
    rw [Nat.one_mul, Nat.one_mul]
    have hc : 0 < 32 / b := Nat.div_pos h1 h0
    have hcb : b * (32 / b) ≤ 32 := Nat.mul_div_le 32 b
    generalize hcd : 32 / b = c at hc hcb
    have mi := Nat.mod_lt i hc
    have mj := Nat.mod_lt j hc
    have bi : b * (i % c) + b ≤ 32 := by
      rw [← Nat.mul_succ]; exact Nat.le_trans (Nat.mul_le_mul_left _ mi) hcb
    have bj : b * (j % c) + b ≤ 32 := by
      rw [← Nat.mul_succ]; exact Nat.le_trans (Nat.mul_le_mul_left _ mj) hcb
    rcases Nat.lt_trichotomy (i / c) (j / c) with hlt | heq | hgt
    · left; omega
    · rw [heq]
      have : i % c ≠ j % c := fun hm => h (by rw [← Nat.div_add_mod i c, ← Nat.div_add_mod j c, heq, hm])
      rcases Nat.lt_or_gt_of_ne this with hm | hm
      · left
        have : b * (i % c) + b ≤ b * (j % c) := by rw [← Nat.mul_succ]; exact Nat.mul_le_mul_left _ hm
        omega
      · right
        have : b * (j % c) + b ≤ b * (i % c) := by rw [← Nat.mul_succ]; exact Nat.mul_le_mul_left _ hm
        omega
    · right; omega

theorem element_good {s : U256} {e : Ty} (he : Ty.ok e = true) (i : Nat) : Good (element s e i) := by
  refine ⟨he, ?_⟩
  cases e with
  | scalar b =>
    obtain ⟨h0, h1⟩ := width_le he
    change 0 < b at h0
    change b ≤ 32 at h1
    show b * (i % (32 / b)) + b ≤ 32
    have hc : 0 < 32 / b := Nat.div_pos h1 h0
    rw [← Nat.mul_succ]
    exact Nat.le_trans (Nat.mul_le_mul_left _ (Nat.mod_lt i hc)) (Nat.mul_div_le 32 b)
  | struct fs => show 32 * (i % 1) = 0; rw [Nat.mod_one]
  | _ => show 32 * (i % 1) + 32 ≤ 32; rw [Nat.mod_one]

end Verif.Proofs.Storage
