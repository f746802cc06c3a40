import Verif.Spec.StoragePrograms
import Verif.Props.StoragePrograms
/-! # Lemmas: cells of which a table of hash values shows that they are apart -/

namespace Verif.Proofs.Separate
open Verif Verif.Storage Verif.Spec.Storage Verif.Spec.Constructors Verif.Spec.StoragePrograms

/-- The hash values of a table. -/
def lookup : List (Bytes × U256) → Hash
  | [], _ => 0#256
  | (y, v) :: tab, x => if x = y then v else lookup tab x

theorem lookup_mem {tab : List (Bytes × U256)} {K : Hash} (h : ∀ e ∈ tab, K e.1 = e.2) {x : Bytes} (hx : x ∈ tab.map Prod.fst) :
    lookup tab x = K x := by
  induction tab with
  | nil => cases hx
  | cons e tab ih =>
    obtain ⟨y, v⟩ := e
    unfold lookup
    by_cases hxy : x = y
    · rw [if_pos hxy, hxy]; exact (h (y, v) List.mem_cons_self).symm
    · rw [if_neg hxy]
      refine ih (fun e he => h e (List.mem_cons_of_mem _ he)) ?_
      rcases List.mem_cons.mp hx with e | e
      · exact absurd e hxy
      · exact e

/-- A place is a value or the like, and the way to it stays within `n` words. -/
def fine (H : Hash) (n : Nat) (t : Ty) (p : List Step) : Bool :=
  match Loc.walk H ⟨none, 0, 0, t⟩ p with
  | some l => (match l.ty with | .struct _ => false | _ => true) && (visited H ⟨none, 0, 0, t⟩ p).all fun l => Nat.ble l.disp n
  | none => false

/-- More than `n` words apart. -/
def apart (n : Nat) (u v : U256) : Bool := Nat.blt n (u - v).toNat && Nat.blt n (v - u).toNat

theorem not_near {n : Nat} {u v : U256} (h : apart n u v = true) : ¬ Near n u v := by
  unfold apart at h
  rw [Bool.and_eq_true, Nat.blt_eq, Nat.blt_eq] at h
  rw [Verif.Props.Storage.near_iff]
  omega

/-- All values of the table are far from each other and from zero. -/
def spread (n : Nat) : List (Bytes × U256) → Bool
  | [] => true
  | (_, v) :: tab => apart n v 0#256 && tab.all (fun e => apart n v e.2) && spread n tab

theorem spread_zero {n : Nat} {tab : List (Bytes × U256)} (h : spread n tab = true) {e : Bytes × U256} (he : e ∈ tab) :
    apart n e.2 0#256 = true := by
  induction tab with
  | nil => cases he
  | cons f tab ih =>
    obtain ⟨y, v⟩ := f
    unfold spread at h
    rw [Bool.and_eq_true, Bool.and_eq_true] at h
    rcases List.mem_cons.mp he with rfl | he
    · exact h.1.1
    · exact ih h.2 he

theorem apart_symm {n : Nat} {u v : U256} (h : apart n u v = true) : apart n v u = true := by
  unfold apart at h ⊢
  rw [Bool.and_eq_true] at h ⊢
  exact ⟨h.2, h.1⟩

theorem spread_two {n : Nat} {tab : List (Bytes × U256)} (h : spread n tab = true) {e f : Bytes × U256} (he : e ∈ tab) (hf : f ∈ tab)
    (hne : e.1 ≠ f.1) : apart n e.2 f.2 = true := by
  induction tab with
  | nil => cases he
  | cons g tab ih =>
    obtain ⟨y, v⟩ := g
    unfold spread at h
    rw [Bool.and_eq_true, Bool.and_eq_true] at h
    rcases List.mem_cons.mp he with rfl | he <;> rcases List.mem_cons.mp hf with rfl | hf
    · exact absurd rfl hne
    · exact List.all_eq_true.mp h.1.2 f hf
    · exact apart_symm (List.all_eq_true.mp h.1.2 e he)
    · exact ih h.2 he hf

section
variable {K H : Hash}

theorem step_same {l : Loc} (h : ∀ x, l.base = some x → H x = K x) (s : Step) : l.step H s = l.step K s := by
  have e : l.slot H = l.slot K := by
    unfold Loc.slot origin
    cases hb : l.base with
    | none => rfl
    | some x => dsimp only; rw [h x hb]
  unfold Loc.step
  rw [e]

theorem walk_same : ∀ (p : List Step) (l : Loc) (_ : ∀ x, l.base = some x → H x = K x)
    (_ : ∀ x ∈ (visited H l p).filterMap fun l => l.base, H x = K x),
    Loc.walk H l p = Loc.walk K l p ∧ visited H l p = visited K l p
  | [], _, _, _ => ⟨rfl, rfl⟩
  | s :: p, l, h, hv => by
    have hs := step_same h s
    unfold visited at hv ⊢
    unfold Loc.walk
    rw [← hs]
    cases hl : l.step H s with
    | none => exact ⟨rfl, rfl⟩
    | some m =>
      rw [hl] at hv
      dsimp only at hv ⊢
      have hm : ∀ x, m.base = some x → H x = K x := by
        intro x hx
        refine hv x (List.mem_filterMap.mpr ⟨m, List.mem_cons_self, hx⟩)
      obtain ⟨e1, e2⟩ := walk_same p m hm fun x hx => by
        obtain ⟨a, ha, hx⟩ := List.mem_filterMap.mp hx
        exact hv x (List.mem_filterMap.mpr ⟨a, List.mem_cons_of_mem _ ha, hx⟩)
      exact ⟨e1, by rw [e2]⟩

end

/-- A table of hash values, of which the kernel checks that they are hash values and far apart, shows that cells are apart. -/
theorem separate {K : Hash} {n : Nat} {t : Ty} {S : List Step → Prop} (ps : List (List Step)) (tab : List (Bytes × U256))
    (hp : ∀ p, S p → p ∈ ps) (hK : ∀ e ∈ tab, K e.1 = e.2)
    (hh : (ps.all fun p => (hashed (lookup tab) t p).all fun x => (tab.map Prod.fst).contains x) = true)
    (hf : (ps.all fun p => fine (lookup tab) n t p) = true) (hs : spread n tab = true) : Separate K n t S := by
  have mem : ∀ p, S p → ∀ x ∈ hashed (lookup tab) t p, x ∈ tab.map Prod.fst := by
    intro p h x hx
    exact List.contains_iff_mem.mp (List.all_eq_true.mp (List.all_eq_true.mp hh p (hp p h)) x hx)
  have same : ∀ p, S p → Loc.walk (lookup tab) ⟨none, 0, 0, t⟩ p = Loc.walk K ⟨none, 0, 0, t⟩ p ∧
      visited (lookup tab) ⟨none, 0, 0, t⟩ p = visited K ⟨none, 0, 0, t⟩ p := by
    intro p h
    exact walk_same p _ (fun x hx => by cases hx) fun x hx => lookup_mem hK (mem p h x hx)
  have value : ∀ p, S p → ∀ x ∈ hashed K t p, ∃ e ∈ tab, e.1 = x ∧ e.2 = K x := by
    intro p h x hx
    have : x ∈ hashed (lookup tab) t p := by
      unfold hashed at hx ⊢
      rw [(same p h).2]; exact hx
    obtain ⟨e, he, rfl⟩ := List.mem_map.mp (mem p h x this)
    exact ⟨e, he, rfl, (hK e he).symm⟩
  refine ⟨fun p h => ?_, fun p h q h' _ hc => ?_⟩
  · have h1 := List.all_eq_true.mp hf p (hp p h)
    unfold fine at h1
    rw [(same p h).1, (same p h).2] at h1
    unfold Cell cell
    cases hw : Loc.walk K ⟨none, 0, 0, t⟩ p with
    | none => rw [hw] at h1; cases h1
    | some l =>
      rw [hw] at h1
      dsimp only at h1
      rw [Bool.and_eq_true] at h1
      refine ⟨l, rfl, ?_, fun m hm => ?_⟩
      · cases hl : l.ty <;> rw [hl] at h1 <;> first | trivial | exact absurd h1.1 (by simp)
      · exact Nat.le_of_ble_eq_true (List.all_eq_true.mp h1.2 m hm)
  · rcases hc with ⟨x, hx, y, hy, hne, hn⟩ | ⟨x, hx, hn⟩ | ⟨y, hy, hn⟩
    · obtain ⟨e, he, e1, e2⟩ := value p h x hx
      obtain ⟨f, hf, f1, f2⟩ := value q h' y hy
      rw [← e2, ← f2] at hn
      exact not_near (spread_two hs he hf (by rw [e1, f1]; exact hne)) hn
    · obtain ⟨e, he, _, e2⟩ := value p h x hx
      rw [← e2] at hn
      exact not_near (spread_zero hs he) hn
    · obtain ⟨e, he, _, e2⟩ := value q h' y hy
      rw [← e2] at hn
      exact not_near (spread_zero hs he) hn

end Verif.Proofs.Separate
