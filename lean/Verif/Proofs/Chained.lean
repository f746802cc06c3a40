import Verif.Proofs.OnWords
import Verif.Model.VestingDeployed
import Verif.Props.Constructors
/-! # Lemmas: contracts on storage words that call others -/

namespace Verif.Proofs.Chained
open Verif Verif.Storage Verif.OnWords Verif.Spec.Storage Verif.Spec.StoragePrograms Verif.Spec.OnWords
open Verif.Props.StoragePrograms (onCells_bind)
open Verif.Proofs.Deployed (Table UsedBy used_bind onCells_lift programs_run)
open Verif.Proofs.OnWords (used_lift)
open Verif.Abi (Val Handler Decoder Outcome)
open Verif.Spec.Deployed (answer)

/-! ## Functions -/

section
variable {V τ σ E α : Type} {w : List Step → Nat} {C : List Step → Prop} {view : Table → List V → τ → σ} {c : Table} {log : List V}

/-- The program does what the function does, and uses the cells only. -/
def Fits (w : List Step → Nat) (C : List Step → Prop) (view : Table → List V → τ → σ) (c : Table) (log : List V)
    (m : Act V τ) (x : Except (Option Bytes) (σ × List Val)) : Prop :=
  UsedBy w C m c ∧ x = (onCells w m c).map fun r => (view r.2.1 (log ++ r.2.2) r.1.2, r.1.1)

theorem fits_fail : Fits w C view c log (.fail none) (.error none) := ⟨trivial, rfl⟩

theorem conclude_run (K : Hash) (reply : E → Revert.Reply) (f : α → List Val × τ) (m : Prog E V α) (c : Table) :
    onCells w (conclude K reply f m) c = match onCells w m c with
      | .error e => .error ((reply e).data K)
      | .ok r => .ok (f r.1, r.2.1, r.2.2) := by
  unfold conclude
  rw [onCells_bind, onCells_lift]
  cases onCells w m c with
  | error e => rfl
  | ok r =>
    show Except.ok (f r.1, r.2.1, r.2.2.map id ++ []) = _
    rw [List.map_id, List.append_nil]

/-- A function, in terms of what its program does. -/
theorem fits_conclude (K : Hash) (reply : E → Revert.Reply) (f : α → List Val × τ) {m : Prog E V α} (hu : UsedBy w C m c)
    {x : Except (Option Bytes) (σ × List Val)}
    (h : x = match onCells w m c with
      | .error e => .error ((reply e).data K)
      | .ok r => .ok (view r.2.1 (log ++ r.2.2) (f r.1).2, (f r.1).1)) :
    Fits w C view c log (conclude K reply f m) x := by
  refine ⟨used_bind (used_lift m hu) fun _ _ => trivial, ?_⟩
  rw [conclude_run, h]
  cases onCells w m c <;> rfl

theorem fits_table {t f : String} {args : List Val} {l : List (String × String × (List Val → Act V τ))}
    {l' : List (String × String × (List Val → Except (Option Bytes) (σ × List Val)))}
    (h : List.Forall₂ (fun r r' => r.1 = r'.1 ∧ r.2.1 = r'.2.1 ∧ Fits w C view c log (r.2.2 args) (r'.2.2 args)) l l') :
    Fits w C view c log (select t f args l) (Entry.dispatch t f args l') := by
  unfold select Entry.dispatch
  induction h with
  | nil => exact fits_fail
  | cons h _ ih =>
    obtain ⟨h1, h2, h3⟩ := h
    rw [List.find?_cons, List.find?_cons, h1, h2]
    cases decide (_ = t) && decide (_ = f) with
    | true => exact h3
    | false => exact ih

end

/-- A function that takes these arguments and no others. -/
syntax "hears" term : tactic
macro_rules
  | `(tactic| hears $t) => `(tactic| (
      dsimp only
      split
      · exact $t
      · next h =>
        split
        · first | exact absurd rfl h | exact absurd rfl (h _) | exact absurd rfl (h _ _) | exact absurd rfl (h _ _ _) | exact absurd rfl (h _ _ _ _) | exact absurd rfl (h _ _ _ _ _)
        · exact Verif.Proofs.Chained.fits_fail))

/-! ## Contracts -/

section
variable {V τ σ : Type} {K : Hash} {n : Nat} {t : Ty} {C : List Step → Prop} {view : Address → Table → List V → τ → σ}

theorem used_frame {E α : Type} {w : List Step → Nat} : ∀ (m : Prog E V α) {c : Table} (_ : UsedBy w C m c) {r : α × Table × List V}
    (_ : onCells w m c = .ok r) {p : List Step} (_ : ¬ C p), r.2.1 p = c p
  | .ret _, _, _, _, h, _, _ => by cases h; rfl
  | .fail _, _, _, _, h, _, _ => by cases h
  | .get p k, c, hu, _, h, _, hp => used_frame (k (c p)) hu.2 h hp
  | .set q v k, c, hu, _, h, p, hp => by
    rw [used_frame k hu.2 h hp]
    exact upd_ne _ _ fun e => hp (e ▸ hu.1)
  | .emit e k, c, hu, r, h, p, hp => by
    unfold onCells at h
    revert h
    cases hk : onCells w k c with
    | error e => intro h; cases h
    | ok r' => intro h; cases h; exact used_frame k hu hk hp

/-- The words and the state agree on the cells, and nothing is elsewhere. -/
def Inv (K : Hash) (t : Ty) (C : List Step → Prop) (view : Address → Table → List V → τ → σ) (w : Chained V τ) (s : σ) : Prop :=
  ∃ c, Agree K t C w.words c ∧ view w.self_ c w.log w.world = s ∧ ∀ p, ¬ C p → c p = 0#256

theorem step (ht : Ty.ok t = true) (h : Apart K n t C) (D : Decoder) (router : Router.Contract)
    {P : Address → τ → String → String → List Val → Act V τ} {H : Handler σ} {w : Chained V τ} {s : σ}
    (hi : Inv K t C view w s) (value : U256) (input : Bytes)
    (hrow : ∀ u f args, router.route K (Abi.selectorOf input) = some (u, f) → D.read (Abi.flat f.args) (input.drop 4) = some args →
      ∀ c log, view w.self_ c log w.world = s → Fits (widthAt K t) C (view w.self_) c log (P w.self_ w.world u f.rustName args)
        (H u f.rustName args (view w.self_ c log w.world))) :
    answer (Abi.entry K D router (onChain K t P) w value input) = answer (Abi.entry K D router H s value input) ∧
    Inv K t C view ((Abi.entry K D router (onChain K t P) w value input).after w) ((Abi.entry K D router H s value input).after s) ∧
    ((Abi.entry K D router (onChain K t P) w value input).after w).self_ = w.self_ := by
  unfold Abi.entry
  split
  · exact ⟨rfl, hi, rfl⟩
  split
  · exact ⟨rfl, hi, rfl⟩
  cases hr : router.route K (Abi.selectorOf input) with
  | none => exact ⟨rfl, hi, rfl⟩
  | some r =>
    obtain ⟨u, f⟩ := r
    dsimp only
    cases hd : D.read (Abi.flat f.args) (input.drop 4) with
    | none => exact ⟨rfl, hi, rfl⟩
    | some args =>
      dsimp only
      obtain ⟨c, hag, hv, hz⟩ := hi
      obtain ⟨hu, hrow⟩ := hrow u f args hr hd c w.log hv
      have hrun := programs_run h.bound ht h.separate _ hu hag
      rw [hv] at hrow
      rw [hrow]
      unfold onChain
      revert hrun
      cases (P w.self_ w.world u f.rustName args).onWords K t w.words with
      | error e =>
        cases onCells (widthAt K t) (P w.self_ w.world u f.rustName args) c with
        | ok r => exact fun h => h.elim
        | error e' =>
          intro h
          cases h
          exact ⟨rfl, ⟨c, hag, hv, hz⟩, rfl⟩
      | ok r =>
        cases hc : onCells (widthAt K t) (P w.self_ w.world u f.rustName args) c with
        | error e => exact fun h => h.elim
        | ok r' =>
          rintro ⟨e4, e5, e6⟩
          refine ⟨?_, ⟨r'.2.1, e6, ?_, fun p hp => (used_frame _ hu hc hp).trans (hz p hp)⟩, rfl⟩
          · show Except.ok (Abi.encode r.1.1) = Except.ok (Abi.encode r'.1.1)
            rw [e4]
          · show view w.self_ r'.2.1 (w.log ++ r.2.2) r.1.2 = view w.self_ r'.2.1 (w.log ++ r'.2.2) r'.1.2
            rw [e4, e5]

/-- The words a constructor leaves. -/
theorem assigned (ht : Ty.ok t = true) (h : Apart K n t C) : ∀ (ws : List (List Step × U256)) {st : Words} {c : Table}
    (_ : Agree K t C st c) (_ : ∀ p, ¬ C p → c p = 0#256) (_ : ∀ e ∈ ws, C e.1),
    ∃ st', Constructors.assign K t ws st = some st' ∧
      Agree K t C st' (ws.foldl (fun c e => upd c e.1 (e.2 &&& mask (widthAt K t e.1))) c) ∧
      ∀ p, ¬ C p → ws.foldl (fun c e => upd c e.1 (e.2 &&& mask (widthAt K t e.1))) c p = 0#256
  | [], st, c, ha, hz, _ => ⟨st, rfl, ha, hz⟩
  | (p, v) :: ws, st, c, ha, hz, hw => by
    have hp := hw (p, v) List.mem_cons_self
    obtain ⟨l, hl, _⟩ := h.separate.cells p hp
    have ha' := Props.StoragePrograms.agree_write h.bound ht h.separate ha hp hl v
    obtain ⟨st', h1, h2⟩ := assigned ht h ws ha' (fun q hq => (upd_ne c _ fun e : q = p => hq (e ▸ hp)).trans (hz q hq)) fun e he => hw e (List.mem_cons_of_mem _ he)
    refine ⟨st', ?_, h2⟩
    unfold Constructors.assign
    rw [hl]
    exact h1

end
end Verif.Proofs.Chained
