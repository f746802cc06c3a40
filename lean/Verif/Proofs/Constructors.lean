import Verif.Model.Constructors
import Verif.Props.Storage
/-! # Proofs about constructors -/

namespace Verif.Proofs.Constructors
open Verif Verif.Storage Verif.Constructors Verif.Spec.Storage Verif.Proofs.Storage Verif.Props.Storage
open Verif.Ecdsa (fromBytes)

/-! ## Bytes of a word -/

theorem fromBytes_append (l : Bytes) (b : U8) : fromBytes (l ++ [b]) = fromBytes l * 256 + b.toNat := by
  unfold fromBytes
  rw [List.foldl_append]
  rfl

theorem fromBytes_digit : ∀ (n : Nat) (l : Bytes), l.length = n → ∀ i (h : i < l.length),
    fromBytes l / 256 ^ (n - 1 - i) % 256 = (l[i]).toNat := by
  intro n
  induction n with
  | zero => intro l hl i h; omega
  | succ n ih =>
    intro l hl i h
    have hne : l ≠ [] := by intro e; rw [e] at hl; cases hl
    obtain ⟨m, b, rfl⟩ : ∃ m b, l = m ++ [b] := ⟨l.dropLast, l.getLast hne, (List.dropLast_append_getLast hne).symm⟩
    have hm : m.length = n := by rw [List.length_append] at hl; simpa using hl
    rw [fromBytes_append]
    by_cases hi : i < m.length
    · rw [List.getElem_append_left hi, ← ih m hm i hi]
      have e : n + 1 - 1 - i = (n - 1 - i) + 1 := by omega
      have hb : b.toNat < 256 := b.isLt
      rw [e, Nat.pow_succ, Nat.mul_comm (256 ^ _) 256, ← Nat.div_div_eq_div_mul]
      congr 2
      omega
    · have e : n + 1 - 1 - i = 0 := by omega
      have hb : b.toNat < 256 := b.isLt
      have hi' : i = m.length := by rw [List.length_append] at h; simp at h; omega
      subst hi'
      rw [e, Nat.pow_zero, Nat.div_one, List.getElem_append_right (Nat.le_refl _)]
      simp only [Nat.sub_self, List.getElem_cons_zero]
      omega

theorem fromBytes_lt : ∀ (n : Nat) (l : Bytes), l.length = n → fromBytes l < 256 ^ n := by
  intro n
  induction n with
  | zero => intro l hl; rw [List.length_eq_zero_iff.mp hl]; decide
  | succ n ih =>
    intro l hl
    have hne : l ≠ [] := by intro e; rw [e] at hl; cases hl
    obtain ⟨m, b, rfl⟩ : ∃ m b, l = m ++ [b] := ⟨l.dropLast, l.getLast hne, (List.dropLast_append_getLast hne).symm⟩
    have hm : m.length = n := by rw [List.length_append] at hl; simpa using hl
    have := ih m hm
    have hb : b.toNat < 256 := b.isLt
    rw [fromBytes_append, Nat.pow_succ]
    omega

/-- The bytes of a word made of 32 bytes. -/
theorem be32_wordOf {l : Bytes} (hl : l.length = 32) : be32 (wordOf l) = l := by
  apply List.ext_getElem
  · rw [be32_length, hl]
  · intro i h1 h2
    simp only [be32, List.getElem_map, List.getElem_range]
    apply BitVec.eq_of_toNat_eq
    rw [BitVec.extractLsb'_toNat, Nat.shiftRight_eq_div_pow]
    unfold wordOf
    rw [BitVec.toNat_ofNat, Nat.mod_eq_of_lt (Nat.lt_of_lt_of_le (fromBytes_lt 32 l hl) (by decide)),
      ← fromBytes_digit 32 l hl i h2]
    have : (2 : Nat) ^ (8 * (31 - i)) = 256 ^ (32 - 1 - i) := by rw [show (256 : Nat) = 2 ^ 8 from rfl, ← Nat.pow_mul]
    rw [this]

/-! ## Assignments -/

theorem assign_append (K : Hash) (t : Ty) : ∀ (a b : List (Path × U256)) (st : Words),
    assign K t (a ++ b) st = (assign K t a st).bind (assign K t b)
  | [], _, _ => rfl
  | (p, v) :: a, b, st => by
    rw [List.cons_append, assign, assign]
    cases cell K t p with
    | none => rfl
    | some l => rw [Option.bind_some, Option.bind_some]; exact assign_append K t a b _

theorem cell_index {K : Hash} {t : Ty} {p : Path} {l : Loc} (h : cell K t p = some l) (hs : l.ty = .string) (i : Nat) :
    cell K t (p ++ [.index i]) = some (element (l.slot K) (.scalar 32) i) := by
  unfold cell at h ⊢
  rw [walk_append, h, Option.bind_some, Loc.walk]
  obtain ⟨b, d, lo, ty⟩ := l
  cases hs
  rfl

theorem assign_index_same {K : Hash} {t t' : Ty} {p p' : Path} {l : Loc} (h : cell K t p = some l)
    (h' : cell K t' p' = some l) (hs : l.ty = .string) (f : Nat → U256) : ∀ (is : List Nat) (st : Words),
    assign K t (is.map fun i => (p ++ [.index i], f i)) st = assign K t' (is.map fun i => (p' ++ [.index i], f i)) st
  | [], _ => rfl
  | i :: is, st => by
    rw [List.map_cons, List.map_cons, assign, assign, cell_index h hs, cell_index h' hs, Option.bind_some, Option.bind_some]
    exact assign_index_same h h' hs f is _

/-- A string is written to the same words by two contracts that have the variable at the same place. -/
theorem text_same {K : Hash} {t t' : Ty} {p p' : Path} {l : Loc} (h : cell K t p = some l)
    (h' : cell K t' p' = some l) (hs : l.ty = .string) (bs : Bytes) (st : Words) :
    assign K t (text p bs) st = assign K t' (text p' bs) st := by
  unfold text
  split
  · rw [assign, assign, h, h']; rfl
  · rw [assign, assign, h, h', Option.bind_some, Option.bind_some]
    exact assign_index_same h h' hs _ _ _

/-- All cells exist. -/
theorem assign_cell {K : Hash} {t : Ty} : ∀ {ws : List (Path × U256)} {st st' : Words} (_ : assign K t ws st = some st'),
    ∀ w ∈ ws, ∃ l, cell K t w.1 = some l
  | [], _, _, _ => by simp
  | (p, v) :: ws, st, st', h => by
    rw [assign] at h
    cases hc : cell K t p with
    | none => rw [hc] at h; cases h
    | some l =>
      rw [hc, Option.bind_some] at h
      intro w hw
      rcases List.mem_cons.mp hw with rfl | hw
      · exact ⟨l, hc⟩
      · exact assign_cell h w hw

/-- The value a list of assignments leaves in a cell that had `a` before. -/
def final (q : Path) (ws : List (Path × U256)) (a : Option U256) : Option U256 :=
  ws.foldl (fun a w => if w.1 = q then some w.2 else a) a

theorem final_none {q : Path} : ∀ {ws : List (Path × U256)} {a : Option U256} (_ : ∀ w ∈ ws, w.1 ≠ q), final q ws a = a
  | [], _, _ => rfl
  | w :: ws, a, h => by
    unfold final
    rw [List.foldl_cons, if_neg (h w List.mem_cons_self)]
    exact final_none fun w hw => h w (List.mem_cons_of_mem _ hw)

theorem final_append (q : Path) (a b : List (Path × U256)) (x : Option U256) : final q (a ++ b) x = final q b (final q a x) := by
  unfold final
  rw [List.foldl_append]

/-- The assigned cells are no structs and reach at most `n` words. -/
def Fine (K : Hash) (n : Nat) (t : Ty) (p : Path) : Prop :=
  ∀ l, cell K t p = some l → Leaf l.ty ∧ Within K n t p

theorem assign_read (K : Hash) {n : Nat} (hn : n < 2 ^ 256) {t : Ty} (ht : Ty.ok t = true) {q : Path} {m : Loc}
    (hm : cell K t q = some m) (hq : Fine K n t q) :
    ∀ {ws : List (Path × U256)} {st st' : Words} (_ : assign K t ws st = some st') (_ : ∀ w ∈ ws, Fine K n t w.1)
      (_ : ∀ w ∈ ws, w.1 ≠ q → ¬ Coincidence K n t w.1 q) (a : Option U256)
      (_ : Storage.read K st m = (a.getD 0#256) &&& mask m.ty.width),
      Storage.read K st' m = ((final q ws a).getD 0#256) &&& mask m.ty.width
  | [], st, st', h, _, _, a, ha => by
    rw [assign] at h
    cases h
    exact ha
  | (p, v) :: ws, st, st', h, hf, hc, a, ha => by
    rw [assign] at h
    cases hp : cell K t p with
    | none => rw [hp] at h; cases h
    | some l =>
      rw [hp, Option.bind_some] at h
      obtain ⟨ll, wl⟩ := hf _ List.mem_cons_self l hp
      obtain ⟨lm, wm⟩ := hq m hm
      refine assign_read K hn ht hm hq h (fun w hw => hf w (List.mem_cons_of_mem _ hw))
        (fun w hw => hc w (List.mem_cons_of_mem _ hw)) (if p = q then some v else a) ?_
      by_cases e : p = q
      · subst e
        cases hp.symm.trans hm
        rw [if_pos rfl, Option.getD_some]
        exact C98_read_own_write K st m v (cell_fits ht hp ll)
      · rw [if_neg e, ← ha]
        exact C98_frame K st l m v (cell_fits ht hp ll) (cell_fits ht hm lm)
          fun ho => hc (p, v) List.mem_cons_self e (C98_isolation K hn ht e hp hm ll lm wl wm ho)

theorem read_fresh (K : Hash) (l : Loc) : Storage.read K fresh l = 0#256 := by
  unfold Storage.read fresh
  simp

/-! ## Strings -/

theorem append_index_ne (p : Path) (i : Nat) : p ++ [Step.index i] ≠ p := by
  intro h
  have := congrArg List.length h
  rw [List.length_append] at this
  simp at this

theorem append_index_inj {p : Path} {i j : Nat} (h : p ++ [Step.index i] = p ++ [Step.index j]) : i = j := by
  have := List.append_cancel_left h
  cases this
  rfl

theorem final_range (p : Path) (f : Nat → U256) (i : Nat) (a : Option U256) : ∀ k : Nat,
    final (p ++ [.index i]) ((List.range k).map fun j => (p ++ [.index j], f j)) a = if i < k then some (f i) else a
  | 0 => by simp [final]
  | k + 1 => by
    rw [List.range_succ, List.map_append, final_append, final_range p f i a k]
    show (if p ++ [Step.index k] = p ++ [Step.index i] then some (f k) else _) = _
    by_cases h : k = i
    · subst h
      rw [if_pos rfl, if_pos (Nat.lt_succ_self _)]
    · rw [if_neg fun e => h (append_index_inj e)]
      by_cases h2 : i < k
      · rw [if_pos h2, if_pos (by omega)]
      · rw [if_neg h2, if_neg (by omega)]

/-- The word of the variable after a string was assigned. -/
def head (bs : Bytes) : U256 :=
  if bs.length < 32 then wordOf (bs ++ List.replicate (31 - bs.length) 0#8 ++ [BitVec.ofNat 8 (2 * bs.length)])
  else BitVec.ofNat 256 (2 * bs.length + 1)

theorem final_text_head (p : Path) (bs : Bytes) (a : Option U256) : final p (text p bs) a = some (head bs) := by
  unfold text head
  split
  · unfold final
    rw [List.foldl_cons, if_pos rfl]
    rfl
  · unfold final
    rw [List.foldl_cons, if_pos rfl]
    apply final_none
    intro w hw
    obtain ⟨i, _, rfl⟩ := List.mem_map.mp hw
    exact append_index_ne p i

theorem final_text_chunk (p : Path) {bs : Bytes} (hb : ¬ bs.length < 32) {i : Nat} (hi : i < (bs.length + 31) / 32)
    (a : Option U256) : final (p ++ [.index i]) (text p bs) a = some (chunk bs i) := by
  unfold text
  rw [if_neg hb]
  unfold final
  rw [List.foldl_cons]
  have := final_range p (chunk bs) i (if p = p ++ [Step.index i] then some (BitVec.ofNat 256 (2 * bs.length + 1)) else a)
    ((bs.length + 31) / 32)
  rw [if_pos hi] at this
  exact this

theorem text_mem {p : Path} {bs : Bytes} {w : Path × U256} (h : w ∈ text p bs) :
    w.1 = p ∨ ∃ i, i < (bs.length + 31) / 32 ∧ w.1 = p ++ [.index i] := by
  unfold text at h
  split at h
  · rw [List.mem_singleton.mp h]; exact Or.inl rfl
  · rcases List.mem_cons.mp h with rfl | h
    · exact Or.inl rfl
    · obtain ⟨i, hi, rfl⟩ := List.mem_map.mp h
      exact Or.inr ⟨i, List.mem_range.mp hi, rfl⟩

theorem mask32 (v : U256) : v &&& mask 32 = v := by
  apply BitVec.eq_of_getLsbD_eq
  intro i hi
  rw [BitVec.getLsbD_and, mask_bit]
  simp [hi]

theorem be32_last (x : U256) : (be32 x)[31]'(by rw [be32_length]; decide) = x.setWidth 8 := by
  simp only [be32, List.getElem_map, List.getElem_range]
  apply BitVec.eq_of_toNat_eq
  simp

/-- Bytes of a short string. -/
theorem short_head {bs : Bytes} (h : bs.length < 32) :
    be32 (head bs) = bs ++ List.replicate (31 - bs.length) 0#8 ++ [BitVec.ofNat 8 (2 * bs.length)] := by
  unfold head
  rw [if_pos h]
  apply be32_wordOf
  simp
  omega

theorem short_len {bs : Bytes} (h : bs.length < 32) : (head bs).setWidth 8 = BitVec.ofNat 8 (2 * bs.length) := by
  rw [← be32_last]
  simp only [short_head h]
  rw [List.getElem_append_right (by simp; omega)]
  simp

theorem chunk_bytes (bs : Bytes) (i : Nat) :
    be32 (chunk bs i) = (bs.drop (32 * i)).take 32 ++ List.replicate (32 - ((bs.drop (32 * i)).take 32).length) 0#8 := by
  unfold chunk
  apply be32_wordOf
  rw [List.length_append, List.length_replicate, List.length_take]
  omega

/-- The words of a long string, cut to its length, are the string. -/
theorem chunks (bs : Bytes) : ∀ k : Nat,
    (((List.range k).map (chunk bs)).flatMap be32).length = 32 * k ∧
    ((((List.range k).map (chunk bs)).flatMap be32).take bs.length) = bs.take (32 * k)
  | 0 => by simp
  | k + 1 => by
    obtain ⟨h1, h2⟩ := chunks bs k
    rw [List.range_succ, List.map_append, List.flatMap_append]
    have e : List.flatMap be32 (List.map (chunk bs) [k]) = be32 (chunk bs k) := by simp
    rw [e]
    constructor
    · rw [List.length_append, h1, be32_length]; omega
    · rw [List.take_append, h1, h2, chunk_bytes]
      by_cases hk : 32 * k ≤ bs.length
      · rw [show bs.take (32 * (k + 1)) = bs.take (32 * k) ++ (bs.drop (32 * k)).take 32 by
          rw [show 32 * (k + 1) = 32 * k + 32 by omega, List.take_add]]
        congr 1
        rw [List.take_append, List.take_take, List.length_take, List.length_drop]
        have e1 : bs.length - 32 * k - min 32 (bs.length - 32 * k) = 0 ∨ 32 - min 32 (bs.length - 32 * k) = 0 := by omega
        have e2 : List.take (bs.length - 32 * k - min 32 (bs.length - 32 * k))
            (List.replicate (32 - min 32 (bs.length - 32 * k)) 0#8) = [] := by
          rcases e1 with e1 | e1
          · rw [e1]; simp
          · rw [e1]; simp
        rw [e2, List.append_nil]
        by_cases h3 : bs.length - 32 * k ≤ 32
        · rw [Nat.min_eq_left h3]
          rw [List.take_of_length_le (Nat.le_of_eq List.length_drop),
            List.take_of_length_le (by rw [List.length_drop]; exact h3)]
        · rw [Nat.min_eq_right (by omega)]
      · have : bs.length - 32 * k = 0 := by omega
        rw [this, List.take_zero, List.append_nil, List.take_of_length_le (by omega), List.take_of_length_le (by omega)]

end Verif.Proofs.Constructors
