import Verif.Spec.UriDeployed
import Verif.Proofs.OnWords
import Verif.Props.Constructors
/-! # Lemmas: texts in storage, and contracts whose state is not a function of the cells -/

namespace Verif.Proofs.Texts
open Verif Verif.Storage Verif.OnWords Verif.Spec.Storage Verif.Spec.Constructors Verif.Spec.StoragePrograms Verif.Spec.OnWords
open Verif.Spec.UriDeployed
open Verif.Props.StoragePrograms (onCells_bind)
open Verif.Proofs.Deployed (Table UsedBy used_bind onCells_lift programs_run Holds string_run)
open Verif.Proofs.Erc721Words (Sim unit look)
open Verif.Proofs.OnWords (used_lift lefts rights lefts_append rights_append lefts_inl rights_inl Under)
open Verif.Proofs.Constructors (head final final_none final_append final_text_head final_text_chunk text_mem mask32 append_index_ne)
open Verif.Constructors (text)
open Verif.Abi (Val Handler Decoder Outcome)
open Verif.Spec.Deployed (answer)
open Verif.Spec.Contracts (Raw after)

/-! ## Texts -/

section
variable {E V : Type} {w : List Step → Nat} {C : List Step → Prop}

theorem used_frame {α : Type} : ∀ (m : Prog E V α) {c : Table} (_ : UsedBy w C m c) {r : α × Table × List V} (_ : onCells w m c = .ok r)
    {p : List Step} (_ : ¬ C p), r.2.1 p = c p
  | .ret _, _, _, _, h, _, _ => by cases h; rfl
  | .fail _, _, _, _, h, _, _ => by cases h
  | .get q k, c, hu, _, h, _, hp => used_frame (k (c q)) hu.2 h hp
  | .set q v k, c, hu, _, h, p, hp => by
    rw [used_frame k hu.2 h hp]
    exact upd_ne _ _ (by rintro rfl; exact hp hu.1)
  | .emit v k, c, hu, r, h, p, hp => by
    rw [onCells] at h
    cases hk : onCells w k c with
    | error e => rw [hk] at h; cases h
    | ok r' =>
      rw [hk] at h
      cases h
      exact used_frame k hu hk hp

theorem erase_run (p : List Step) : ∀ (n i : Nat) (c : Table), ∃ c', onCells w (eraseFrom p i n : Prog E V Unit) c = .ok ((), c', []) ∧
    (∀ q, (∀ j, i ≤ j → j < i + n → q ≠ p ++ [.index j]) → c' q = c q) ∧ ∀ j, i ≤ j → j < i + n → c' (p ++ [.index j]) = 0#256
  | 0, _, c => ⟨c, rfl, fun _ _ => rfl, fun j h1 h2 => by omega⟩
  | n + 1, i, c => by
    obtain ⟨c', h1, h2, h3⟩ := erase_run p n (i + 1) (upd c (p ++ [.index i]) (0#256 &&& mask (w (p ++ [.index i]))))
    refine ⟨c', h1, fun q hq => (h2 q fun j a b => hq j (by omega) (by omega)).trans (upd_ne _ _ (hq i (Nat.le_refl _) (by omega))), ?_⟩
    intro j a b
    by_cases e : j = i
    · subst e
      rw [h2 _ fun j' a' _ e => by simp at e; omega, upd_same, BitVec.zero_and]
    · exact h3 j (by omega) (by omega)

theorem erase_used {p : List Step} : ∀ (n i : Nat) {c : Table} (_ : ∀ j, i ≤ j → j < i + n → C (p ++ [.index j])),
    UsedBy w C (eraseFrom p i n : Prog E V Unit) c
  | 0, _, _, _ => trivial
  | n + 1, i, _, h => ⟨h i (Nat.le_refl _) (by omega), erase_used n (i + 1) fun j h1 h2 => h j (by omega) (by omega)⟩

theorem store_run : ∀ (l : List (List Step × U256)) (c : Table) (_ : ∀ e ∈ l, w e.1 = 32),
    ∃ c', onCells w (store l : Prog E V Unit) c = .ok ((), c', []) ∧ ∀ q, some (c' q) = final q l (some (c q))
  | [], c, _ => ⟨c, rfl, fun _ => rfl⟩
  | (p, v) :: l, c, h => by
    obtain ⟨c', h1, h2⟩ := store_run l (upd c p (v &&& mask (w p))) fun e he => h e (List.mem_cons_of_mem _ he)
    refine ⟨c', h1, fun q => ?_⟩
    rw [h2 q, h (p, v) List.mem_cons_self, mask32]
    unfold final
    rw [List.foldl_cons]
    congr 1
    by_cases e : p = q
    · subst e; rw [upd_same, if_pos rfl]
    · rw [upd_ne _ _ (Ne.symm e), if_neg e]

theorem store_used : ∀ (l : List (List Step × U256)) {c : Table} (_ : ∀ e ∈ l, C e.1), UsedBy w C (store l : Prog E V Unit) c
  | [], _, _ => trivial
  | (_, _) :: l, _, h => ⟨h _ List.mem_cons_self, store_used l fun e he => h e (List.mem_cons_of_mem _ he)⟩

/-- What is left of the last text written. -/
theorem holds_final {c c' : Table} {a b : List (List Step × U256)} {p : List Step} {bs : Bytes}
    (h : ∀ q, some (c' q) = final q (a ++ text p bs ++ b) (some (c q)))
    (hb : ∀ e ∈ b, e.1 ≠ p ∧ ∀ i, e.1 ≠ p ++ [.index i]) : Holds c' p bs := by
  refine ⟨Option.some.inj ?_, fun hl i hi => Option.some.inj ?_⟩
  · rw [h, final_append, final_append, final_none fun e he => (hb e he).1, final_text_head]
  · rw [h, final_append, final_append, final_none fun e he => (hb e he).2 i, final_text_chunk p hl hi]

/-- The words beyond the end of a text. -/
def Beyond (bs : Bytes) (i : Nat) : Prop := bs.length < 32 ∨ (bs.length + 31) / 32 ≤ i

theorem text_beyond {p : List Step} {bs : Bytes} {i : Nat} (hi : Beyond bs i) : ∀ e ∈ text p bs, e.1 ≠ p ++ [.index i] := by
  intro e he e1
  unfold text at he
  split at he
  · rw [List.mem_singleton.mp he] at e1
    exact append_index_ne p i e1.symm
  · next hl =>
    rcases List.mem_cons.mp he with rfl | he
    · exact append_index_ne p i e1.symm
    · obtain ⟨j, hj, rfl⟩ := List.mem_map.mp he
      have := List.mem_range.mp hj
      simp at e1
      rcases hi with h | h
      · exact hl h
      · omega

/-- Beyond the end of a text nothing is written. -/
theorem clean_final {c c' : Table} {a b : List (List Step × U256)} {p : List Step} {bs : Bytes}
    (h : ∀ q, some (c' q) = final q (a ++ text p bs ++ b) (some (c q))) (ha : ∀ e ∈ a, ∀ i, e.1 ≠ p ++ [.index i])
    (hb : ∀ e ∈ b, ∀ i, e.1 ≠ p ++ [.index i]) (hc : ∀ i, c (p ++ [.index i]) = 0#256) {i : Nat} (hi : Beyond bs i) :
    c' (p ++ [.index i]) = 0#256 := by
  refine (Option.some.inj ((h _).trans (final_none fun e he => ?_))).trans (hc i)
  rcases List.mem_append.mp he with he | he
  · rcases List.mem_append.mp he with he | he
    · exact ha e he i
    · exact text_beyond hi e he
  · exact hb e he i

theorem text_under {p : List Step} {bs : Bytes} {q : List Step} (h : ¬ Under p q) : ∀ e ∈ text p bs, e.1 ≠ q := by
  rintro e he rfl
  rcases text_mem he with e1 | ⟨i, _, e1⟩
  · exact h ⟨[], (List.append_nil _).trans e1.symm⟩
  · exact h ⟨_, e1.symm⟩

theorem head_nil : head [] = 0#256 := by decide

theorem holds_nil {c : Table} {p : List Step} (h : c p = 0#256) : Holds c p [] :=
  ⟨h.trans head_nil.symm, fun h => absurd (by decide) h⟩

theorem head_len {bs : Bytes} (hb : bs.length < 2 ^ 255) (h : (head bs).getLsbD 0 = true) :
    ((head bs >>> 1).toNat + 31) / 32 = (bs.length + 31) / 32 := by
  unfold head at h ⊢
  split at h
  · next hl =>
    exfalso
    have e := Proofs.Constructors.short_len hl
    have := congrArg (fun x => BitVec.getLsbD x 0) e
    unfold head at this
    rw [if_pos hl, BitVec.getLsbD_setWidth, BitVec.getLsbD_ofNat] at this
    rw [h] at this
    simp at this
  · next hl =>
    rw [if_neg hl, BitVec.toNat_ushiftRight, BitVec.toNat_ofNat, Nat.mod_eq_of_lt (by omega), Nat.shiftRight_one]
    congr 2
    omega

theorem head_long {bs : Bytes} (h : ¬ (head bs).getLsbD 0 = true) : bs.length < 32 := by
  by_contra hl
  refine h ?_
  unfold head
  rw [if_neg hl, BitVec.getLsbD_ofNat]
  simp

/-- A new text is written over the old one. -/
theorem set_run {c : Table} {p : List Step} {old : Bytes} {L : Nat} (h : Holds c p old)
    (hz : ∀ i, Beyond old i → c (p ++ [.index i]) = 0#256) (ho : old.length ≤ 32 * L) (hL : 32 * L < 2 ^ 255)
    (hw : w p = 32) (hw' : ∀ i, w (p ++ [.index i]) = 32) (hC : ∀ q, Text p L q → C q) {s : List Char} (hs : Short L s) :
    ∃ c', onCells w (setString p s : Prog E V Unit) c = .ok ((), c', []) ∧ UsedBy w C (setString p s : Prog E V Unit) c ∧
      Holds c' p (Logs.utf8 s) ∧ (∀ i, Beyond (Logs.utf8 s) i → c' (p ++ [.index i]) = 0#256) ∧
      ∀ q, q ≠ p → (∀ i, q ≠ p ++ [.index i]) → c' q = c q := by
  have hmem : ∀ e ∈ text p (Logs.utf8 s), C e.1 ∧ w e.1 = 32 := by
    intro e he
    rcases text_mem he with e1 | ⟨i, hi, e1⟩
    · rw [e1]; exact ⟨hC _ (.inl rfl), hw⟩
    · rw [e1]; unfold Short at hs; exact ⟨hC _ (.inr ⟨i, by omega, rfl⟩), hw' i⟩
  have key : ∃ c1, onCells w (if (c p).getLsbD 0 then eraseFrom p 0 (((c p >>> 1).toNat + 31) / 32) else .ret () : Prog E V Unit) c =
      .ok ((), c1, []) ∧
      UsedBy w C (if (c p).getLsbD 0 then eraseFrom p 0 (((c p >>> 1).toNat + 31) / 32) else .ret () : Prog E V Unit) c ∧
      (∀ q, (∀ j, q ≠ p ++ [.index j]) → c1 q = c q) ∧ ∀ j, c1 (p ++ [.index j]) = 0#256 := by
    by_cases hl : (c p).getLsbD 0 = true
    · rw [if_pos hl]
      obtain ⟨c1, h1, h2, h3⟩ := erase_run (E := E) (V := V) (w := w) p (((c p >>> 1).toNat + 31) / 32) 0 c
      rw [h.head] at hl
      have hlen : ((c p >>> 1).toNat + 31) / 32 = (old.length + 31) / 32 := by rw [h.head, head_len (by omega) hl]
      refine ⟨c1, h1, erase_used _ _ fun j _ hj => hC _ (.inr ⟨j, by omega, rfl⟩), fun q hq => h2 q fun j _ _ => hq j, fun j => ?_⟩
      by_cases hj : j < (old.length + 31) / 32
      · exact h3 j (Nat.zero_le _) (by omega)
      · refine (h2 _ fun j' _ h' e => ?_).trans (hz j (.inr (by omega)))
        simp at e
        omega
    · rw [if_neg hl]
      rw [h.head] at hl
      exact ⟨c, rfl, trivial, fun _ _ => rfl, fun j => hz j (.inl (head_long hl))⟩
  obtain ⟨c1, h1, h2, h3, hz1⟩ := key
  obtain ⟨c', h4, h5⟩ := store_run (E := E) (V := V) (w := w) (text p (Logs.utf8 s)) c1 fun e he => (hmem e he).2
  refine ⟨c', ?_, ⟨hC _ (.inl rfl), used_bind h2 fun r hr => ?_⟩, ?_, ?_, ?_⟩
  · unfold setString
    rw [onCells, onCells_bind, h1]
    dsimp only
    rw [h4]
    rfl
  · exact store_used _ fun e he => (hmem e he).1
  · exact holds_final (c := c1) (a := []) (b := []) (fun q => by rw [h5 q, List.append_nil, List.nil_append]) (by simp)
  · exact fun i hi => clean_final (c := c1) (a := []) (b := []) (fun q => by rw [h5 q, List.append_nil, List.nil_append]) (by simp) (by simp)
      hz1 hi
  · intro q hq hq'
    refine (Option.some.inj ?_ : c' q = c1 q).trans (h3 q hq')
    rw [h5 q]
    refine final_none fun e he e1 => ?_
    rcases text_mem he with e2 | ⟨i, _, e2⟩
    · exact hq (e1.symm.trans e2)
    · exact hq' i (e1.symm.trans e2)

theorem get_run {U : Deployed.Utf8} {c : Table} {p : List Step} {s : List Char} {L : Nat} (h : Holds c p (Logs.utf8 s)) (hs : Short L s)
    (hL : 32 * L < 2 ^ 255) (hC : ∀ q, Text p L q → C q) :
    onCells w (getString U p : Prog E V (List Char)) c = .ok (s, c, []) ∧ UsedBy w C (getString U p : Prog E V (List Char)) c := by
  unfold Short at hs
  have hm : ∀ q ∈ (text p (Logs.utf8 s)).map Prod.fst, C q := by
    intro q hq
    obtain ⟨e, he, rfl⟩ := List.mem_map.mp hq
    rcases text_mem he with e1 | ⟨i, hi, e1⟩
    · rw [e1]; exact hC _ (.inl rfl)
    · rw [e1]; exact hC _ (.inr ⟨i, by omega, rfl⟩)
  obtain ⟨h1, h2⟩ := string_run (E := E) (V := V) h (by omega) w hm
  refine ⟨?_, used_bind h2 fun _ _ => trivial⟩
  unfold getString
  rw [onCells_bind, h1]
  show Except.ok _ = _
  rw [U.valid]
  rfl

end

/-- The table has a text of at most `L` words there, and nothing beyond its end. -/
structure Has (L : Nat) (c : Table) (p : List Step) (s : List Char) : Prop where
  holds : Holds c p (Logs.utf8 s)
  short : Short L s
  clean : ∀ i, Beyond (Logs.utf8 s) i → c (p ++ [.index i]) = 0#256

theorem has_nil {L : Nat} {c : Table} {p : List Step} (h : ∀ q, c (p ++ q) = 0#256) : Has L c p [] :=
  ⟨holds_nil (by have := h []; rwa [List.append_nil] at this), Nat.zero_le _, fun _ _ => h _⟩

theorem has_frame {L : Nat} {c c' : Table} {p r : List Step} {s : List Char} (h : Has L c p s) (hd : ∀ q, ¬ r <+: p ++ q)
    (hf : ∀ q, ¬ Under r q → c' q = c q) : Has L c' p s := by
  refine ⟨⟨?_, fun hl i hi => ?_⟩, h.short, fun i hi => by rw [hf _ (hd _)]; exact h.clean i hi⟩
  · rw [hf p (by have := hd []; rwa [List.append_nil] at this)]
    exact h.holds.head
  · rw [hf _ (hd _)]
    exact h.holds.chunks hl i hi

theorem has_set {E V : Type} {w : List Step → Nat} {C : List Step → Prop} {L : Nat} {c : Table} {p : List Step} {old s : List Char}
    (h : Has L c p old) (hL : 32 * L < 2 ^ 255) (hw : w p = 32) (hw' : ∀ i, w (p ++ [.index i]) = 32) (hC : ∀ q, Text p L q → C q)
    (hs : Short L s) : ∃ c', onCells w (setString p s : Prog E V Unit) c = .ok ((), c', []) ∧
      UsedBy w C (setString p s : Prog E V Unit) c ∧ Has L c' p s ∧ ∀ q, ¬ Under p q → c' q = c q := by
  obtain ⟨c', h1, h2, h3, hz, h4⟩ := set_run (E := E) (V := V) h.holds h.clean h.short hL hw hw' hC hs
  exact ⟨c', h1, h2, ⟨h3, hs, hz⟩, fun q hq => h4 q (by rintro rfl; exact hq ⟨[], List.append_nil _⟩) fun i e => hq ⟨_, e.symm⟩⟩

theorem has_get {E V : Type} {w : List Step → Nat} {C : List Step → Prop} {U : Deployed.Utf8} {L : Nat} {c : Table} {p : List Step}
    {s : List Char} (h : Has L c p s) (hL : 32 * L < 2 ^ 255) (hC : ∀ q, Text p L q → C q) :
    onCells w (getString U p : Prog E V (List Char)) c = .ok (s, c, []) ∧ UsedBy w C (getString U p : Prog E V (List Char)) c :=
  get_run h.holds h.short hL hC

/-- What the table has, the words have. -/
theorem has_stored {K : Hash} {n : Nat} {t : Ty} {C : List Step → Prop} (h : Apart K n t C) {st : Words} {c : Table} (ha : Agree K t C st c)
    {p : List Step} {L : Nat} (hL : 32 * L < 2 ^ 255) (hC : ∀ q, Text p L q → C q) {s : List Char} (hs : Has L c p s) :
    Stored K t st p L s := by
  have hget : ∀ q, Text p L q → Constructors.get K t st q = some (c q) := by
    intro q hq
    obtain ⟨l, hl, _⟩ := h.separate.cells q (hC q hq)
    unfold Constructors.get
    rw [hl, Option.map_some, ha q (hC q hq) l hl]
  have := hs.short
  unfold Short at this
  refine ⟨Props.Constructors.getText_of (by omega) ((hget p (.inl rfl)).trans (congrArg some hs.holds.head)) fun hl i hi =>
    (hget _ (.inr ⟨i, by omega, rfl⟩)).trans (congrArg some (hs.holds.chunks hl i hi)), fun i hi hb =>
    (hget _ (.inr ⟨i, hi, rfl⟩)).trans (congrArg some (hs.clean i ?_))⟩
  rcases hb with hb | hb
  · exact .inl hb
  · exact .inr (by omega)

/-! ## Functions -/

section
variable {V σ E α : Type} {w : List Step → Nat} {C : List Step → Prop} {R : Table → List V → σ → Prop} {c : Table} {log : List V}

/-- The same outcome: the same error, or the same answer and states that are related. -/
def Same (R : Table → List V → σ → Prop) (log : List V) : Except E (α × Table × List V) → Except E (σ × α) → Prop
  | .error e, .error e' => e = e'
  | .ok r, .ok y => y.2 = r.1 ∧ R r.2.1 (log ++ r.2.2) y.1
  | _, _ => False

/-- The outcome as an answer of the contract. -/
def told (K : Hash) (reply : E → Revert.Reply) (f : α → List Val) : Except E (σ × α) → Except (Option Bytes) (σ × List Val)
  | .error e => .error ((reply e).data K)
  | .ok y => .ok (y.1, f y.2)

/-- The program does what the function does, and uses the cells only. -/
def Fits (w : List Step → Nat) (C : List Step → Prop) (R : Table → List V → σ → Prop) (c : Table) (log : List V)
    (m : Prog (Option Bytes) V (List Val)) (x : Except (Option Bytes) (σ × List Val)) : Prop :=
  UsedBy w C m c ∧ Same R log (onCells w m c) x

theorem fits_fail : Fits w C R c log (.fail none) (.error none) := ⟨trivial, rfl⟩

theorem fits_ret {s : σ} (h : R c log s) (l : List Val) : Fits w C R c log (.ret l) (.ok (s, l)) :=
  ⟨trivial, rfl, by show R c (log ++ []) s; rw [List.append_nil]; exact h⟩

theorem fits_get {s : σ} (h : R c log s) {p : List Step} (hp : C p) (g : U256 → List Val) :
    Fits w C R c log (.get p fun v => .ret (g v)) (.ok (s, g (c p))) :=
  ⟨⟨hp, trivial⟩, rfl, by show R c (log ++ []) s; rw [List.append_nil]; exact h⟩

/-- A function that only looks. -/
theorem fits_read {s : σ} (h : R c log s) {m : Prog (Option Bytes) V α} {a : α} (hm : onCells w m c = .ok (a, c, []) ∧ UsedBy w C m c)
    (g : α → List Val) : Fits w C R c log (m.bind fun v => .ret (g v)) (.ok (s, g a)) := by
  refine ⟨used_bind hm.2 fun _ _ => trivial, ?_⟩
  rw [onCells_bind, hm.1]
  exact ⟨rfl, by show R c (log ++ ([] ++ [])) s; rw [List.append_nil, List.append_nil]; exact h⟩

theorem finish_run (K : Hash) (reply : E → Revert.Reply) (f : α → List Val) (m : Prog E V α) (c : Table) :
    onCells w (OnWords.finish K reply f m) c = match onCells w m c with
      | .error e => .error ((reply e).data K)
      | .ok r => .ok (f r.1, r.2.1, r.2.2) := by
  unfold OnWords.finish
  rw [onCells_bind, onCells_lift]
  cases onCells w m c with
  | error e => rfl
  | ok r =>
    show Except.ok (f r.1, r.2.1, r.2.2.map id ++ []) = _
    rw [List.map_id, List.append_nil]

/-- A function whose outcome is known. -/
theorem fits_finish (K : Hash) (reply : E → Revert.Reply) (f : α → List Val) {m : Prog E V α} (hu : UsedBy w C m c)
    {x : Except E (σ × α)} (h : Same R log (onCells w m c) x) :
    Fits w C R c log (OnWords.finish K reply f m) (told K reply f x) := by
  refine ⟨used_bind (used_lift m hu) fun _ _ => trivial, ?_⟩
  rw [finish_run]
  revert h
  cases onCells w m c with
  | error e =>
    cases x with
    | error e' => intro h; cases h; rfl
    | ok y => exact False.elim
  | ok r =>
    cases x with
    | error e' => exact False.elim
    | ok y => rintro ⟨h1, h2⟩; exact ⟨congrArg f h1, h2⟩

theorem fits_call (K : Hash) (reply : E → Revert.Reply) (l : List Val) {m : Prog E V Unit} (hu : UsedBy w C m c)
    {x : Except E σ} (h : Same R log (onCells w m c) (x.map fun s => (s, ()))) :
    Fits w C R c log (OnWords.finish K reply (fun _ => l) m) (Entry.finish K reply l x) := by
  have := fits_finish K reply (fun _ => l) hu h
  revert this
  cases x <;> exact id

theorem fits_table {t f : String} {args : List Val} {l : List (OnWords.Row V)}
    {l' : List (String × String × (List Val → Except (Option Bytes) (σ × List Val)))}
    (h : List.Forall₂ (fun r r' => r.1 = r'.1 ∧ r.2.1 = r'.2.1 ∧ Fits w C R c log (r.2.2 args) (r'.2.2 args)) l l') :
    Fits w C R c log (OnWords.dispatch t f args l) (Entry.dispatch t f args l') := by
  unfold OnWords.dispatch Entry.dispatch
  induction h with
  | nil => exact fits_fail
  | cons h _ ih =>
    obtain ⟨h1, h2, h3⟩ := h
    rw [List.find?_cons, List.find?_cons, h1, h2]
    cases decide (_ = t) && decide (_ = f) with
    | true => exact h3
    | false => exact ih

end

/-- A function that takes these arguments and no others. -/
syntax "accepts" term : tactic
macro_rules
  | `(tactic| accepts $t) => `(tactic| (
      dsimp only
      split
      · exact $t
      · next h =>
        split
        · first | exact absurd rfl h | exact absurd rfl (h _) | exact absurd rfl (h _ _) | exact absurd rfl (h _ _ _) | exact absurd rfl (h _ _ _ _) | exact absurd rfl (h _ _ _ _ _)
        · exact Verif.Proofs.Texts.fits_fail))

/-! ## One part of a contract -/

section
variable {A VA VB σ E E' α : Type} {w : List Step → Nat} {C : List Step → Prop} {R : Table → List (VA ⊕ VB) → σ → Prop} {c : Table}
  {log : List (VA ⊕ VB)} {va : Table → List VA → A}

/-- A function of the first part. -/
theorem part_run {root : List Step} {m : Prog E VA α} {g : A → Except E (α × A)} (hs : Sim w va m g) (hu : UsedBy w (Under root) m c)
    {put : A → σ} (hR : ∀ c' l', (∀ p, ¬ Under root p → c' p = c p) →
      (∃ a, g (va c (lefts log)) = .ok (a, va c' (lefts log ++ l'))) → R c' (log ++ l'.map .inl) (put (va c' (lefts log ++ l')))) :
    Same R log (onCells w (m.lift id (Sum.inl (β := VB))) c) ((g (va c (lefts log))).map fun r => (put r.2, r.1)) := by
  rw [onCells_lift, hs c (lefts log)]
  cases hm : onCells w m c with
  | error e => rfl
  | ok r =>
    refine ⟨rfl, hR r.2.1 r.2.2 (fun p hp => used_frame m hu hm hp) ⟨r.1, ?_⟩⟩
    rw [hs c (lefts log), hm]
    rfl

end

/-! ## Contracts -/

section
variable {V σ : Type} {K : Hash} {n : Nat} {t : Ty} {C : List Step → Prop} {R : Table → List V → σ → Prop}

/-- The words and the state agree on the cells. -/
def Inv (K : Hash) (t : Ty) (C : List Step → Prop) (R : Table → List V → σ → Prop) (w : OnWords.State V) (s : σ) : Prop :=
  ∃ c, Agree K t C w.words c ∧ R c w.log s

theorem step (ht : Ty.ok t = true) (h : Apart K n t C) (D : Decoder) (router : Router.Contract)
    {P : String → String → List Val → Prog (Option Bytes) V (List Val)} {H : Handler σ} {w : OnWords.State V} {s : σ}
    (hi : Inv K t C R w s) (value : U256) (input : Bytes)
    (hrow : ∀ u f args, router.route K (Abi.selectorOf input) = some (u, f) → D.read (Abi.flat f.args) (input.drop 4) = some args →
      ∀ c log, R c log s → Fits (widthAt K t) C R c log (P u f.rustName args) (H u f.rustName args s)) :
    answer (Abi.entry K D router (onWords K t P) w value input) = answer (Abi.entry K D router H s value input) ∧
    Inv K t C R ((Abi.entry K D router (onWords K t P) w value input).after w) ((Abi.entry K D router H s value input).after s) := by
  unfold Abi.entry
  split
  · exact ⟨rfl, hi⟩
  split
  · exact ⟨rfl, hi⟩
  cases hr : router.route K (Abi.selectorOf input) with
  | none => exact ⟨rfl, hi⟩
  | some r =>
    obtain ⟨u, f⟩ := r
    dsimp only
    cases hd : D.read (Abi.flat f.args) (input.drop 4) with
    | none => exact ⟨rfl, hi⟩
    | some args =>
      dsimp only
      obtain ⟨c, hag, hv⟩ := hi
      obtain ⟨hu, hrow⟩ := hrow u f args hr hd c w.log hv
      have hrun := programs_run h.bound ht h.separate _ hu hag
      unfold OnWords.onWords
      revert hrow hrun
      cases (P u f.rustName args).onWords K t w.words with
      | error e =>
        cases onCells (widthAt K t) (P u f.rustName args) c with
        | ok r => exact fun _ h => h.elim
        | error e' =>
          cases H u f.rustName args s with
          | ok y => exact fun h _ => h.elim
          | error e'' =>
            intro h h'
            cases h
            cases h'
            exact ⟨rfl, c, hag, hv⟩
      | ok r =>
        cases onCells (widthAt K t) (P u f.rustName args) c with
        | error e => exact fun _ h => h.elim
        | ok r' =>
          cases H u f.rustName args s with
          | error e => exact fun h _ => h.elim
          | ok y =>
            rintro ⟨e1, e2⟩ ⟨e4, e5, e6⟩
            obtain ⟨y1, y2⟩ := y
            refine ⟨?_, r'.2.1, e6, ?_⟩
            · show Except.ok (Abi.encode r.1) = Except.ok (Abi.encode y2)
              rw [e4, ← e1]
            · show R r'.2.1 (w.log ++ r.2.2) y1
              rw [e5]
              exact e2

/-- The words a constructor leaves. -/
theorem assigned (ht : Ty.ok t = true) (h : Apart K n t C) : ∀ (ws : List (List Step × U256)) {st : Words} {c : Table}
    (_ : Agree K t C st c) (_ : ∀ e ∈ ws, C e.1 ∧ widthAt K t e.1 = 32),
    ∃ st' c', Constructors.assign K t ws st = some st' ∧ Agree K t C st' c' ∧ ∀ q, some (c' q) = final q ws (some (c q))
  | [], st, c, ha, _ => ⟨st, c, rfl, ha, fun _ => rfl⟩
  | (p, v) :: ws, st, c, ha, hw => by
    obtain ⟨hp, h32⟩ := hw (p, v) List.mem_cons_self
    obtain ⟨l, hl, _⟩ := h.separate.cells p hp
    have ha' := Props.StoragePrograms.agree_write h.bound ht h.separate ha hp hl v
    obtain ⟨st', c', h1, h2, h3⟩ := assigned ht h ws ha' fun e he => hw e (List.mem_cons_of_mem _ he)
    refine ⟨st', c', ?_, h2, fun q => ?_⟩
    · unfold Constructors.assign
      rw [hl]
      exact h1
    · rw [h3 q, h32, mask32]
      unfold final
      rw [List.foldl_cons]
      congr 1
      by_cases e : p = q
      · subst e; rw [upd_same, if_pos rfl]
      · rw [upd_ne _ _ (Ne.symm e), if_neg e]

end
end Verif.Proofs.Texts
