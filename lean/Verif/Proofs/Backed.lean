import Verif.Proofs.Chained
import Verif.Proofs.GatesDeployed
import Verif.Model.WrapperDeployed
/-! # Lemmas: contracts on storage words that have a token and call others -/

namespace Verif.Proofs.Backed
open Verif Verif.Storage Verif.OnWords Verif.Spec.StoragePrograms
open Verif.Props.StoragePrograms (onCells_bind uses_bind uses_ite Wide)
open Verif.Proofs.Deployed (Table UsedBy used_of_uses uses_mono uses_lift onCells_lift onCells_frame)
open Verif.Proofs.OnWords (lefts rights lefts_append rights_append lefts_inl rights_inl tokenView Under under_token accounts_under)
open Verif.Proofs.Chained (Fits fits_conclude fits_fail)
open Verif.Abi (Val)

section
variable {w : List Step → Nat} {G α β : Type}

theorem mask1 (a : U8) : ((a.setWidth 256 &&& mask 1).setWidth 8 : U8) = a := by
  apply BitVec.eq_of_getLsbD_eq
  intro i hi
  have e : mask 1 = BitVec.setWidth 256 (BitVec.allOnes 8) := by decide +kernel
  rw [e]
  simp only [BitVec.getLsbD_setWidth, BitVec.getLsbD_and, BitVec.getLsbD_allOnes]
  have : i < 256 := by omega
  simp [hi, this]

/-! ## What a program reads -/

/-- A program that only looks, with this outcome. -/
def Reads (w : List Step → Nat) (m : Backed G α) (c : Table) (x : Except Revert.Reply α) : Prop :=
  onCells w m c = x.map fun a => (a, c, [])

theorem reads_ret {c : Table} (a : α) : Reads w (.ret a : Backed G α) c (.ok a) := rfl

theorem reads_bind {c : Table} {m : Backed G α} {x : Except Revert.Reply α} {g : α → Backed G β} {y : α → Except Revert.Reply β}
    (hm : Reads w m c x) (hg : ∀ a, Reads w (g a) c (y a)) : Reads w (m.bind g) c (x >>= y) := by
  unfold Reads at *
  rw [onCells_bind, hm]
  cases x with
  | error e => rfl
  | ok a =>
    show (onCells w (g a) c).map _ = (y a).map _
    rw [hg a]
    cases y a <;> rfl

theorem reads_settle {c : Table} (x : Except Revert.Reply α) : Reads (G := G) w (settle x) c x := by
  cases x <;> rfl

theorem run_read {c : Table} {m : Backed G α} {x : Except Revert.Reply α} (h : Reads w m c x) (g : α → Backed G β) :
    onCells w (m.bind g) c = x >>= fun a => onCells w (g a) c := by
  rw [onCells_bind, h]
  cases x with
  | error e => rfl
  | ok a =>
    show (onCells w (g a) c).map _ = onCells w (g a) c
    cases onCells w (g a) c <;> rfl

/-! ## The token -/

/-- What a function of the token does inside the contract. -/
theorem token_run {m : Erc20Words.Code Unit} {f : Erc20.State → Except Erc20.Err Erc20.State} (h : Props.StoragePrograms.Sim w token m f)
    (hu : Uses (Under token) m) (c : Table) (l : List Erc20.Event) :
    (∃ e, onCells w (within (G := G) m) c = .error (Revert.erc20 e) ∧ f (tokenView c l) = .error e) ∨
    ∃ c' ev, onCells w (within (G := G) m) c = .ok ((), c', ev.map .inl) ∧ f (tokenView c l) = .ok (tokenView c' (l ++ ev)) ∧
      ∀ p, ¬ Under token p → c' p = c p := by
  unfold within
  rw [onCells_lift]
  have h := h c l
  cases hm : onCells w m c with
  | error e =>
    rw [hm] at h
    exact .inl ⟨e, rfl, h⟩
  | ok r =>
    rw [hm] at h
    exact .inr ⟨r.2.1, r.2.2, rfl, h, fun p hp => onCells_frame m hu hm hp⟩

theorem sim_mint (hw : Wide w token) (a : Address) (v : U256) :
    Props.StoragePrograms.Sim w token (Erc20Words.mint token a v) (fun s => Erc20.mint s a v) :=
  Props.StoragePrograms.sim_code hw (ZERO, .mint a v)

theorem sim_burn (hw : Wide w token) (a : Address) (v : U256) :
    Props.StoragePrograms.Sim w token (Erc20Words.burnInternal token a v) (fun s => Erc20.burnInternal s a v) :=
  Props.StoragePrograms.sim_code hw (a, .burn v)

theorem under_mint (a : Address) (v : U256) : Uses (Under token) (Erc20Words.mint token a v) := under_token ZERO (.mint a v)
theorem under_burn (a : Address) (v : U256) : Uses (Under token) (Erc20Words.burnInternal token a v) := under_token a (.burn v)

theorem run_token {m : Backed G Unit} {c c' : Table} {ev : List (Erc20.Event ⊕ G)} (h : onCells w m c = .ok ((), c', ev))
    (g : Unit → Backed G β) : onCells w (m.bind g) c = (onCells w (g ()) c').map fun r => (r.1, r.2.1, ev ++ r.2.2) := by
  rw [onCells_bind, h]

theorem run_error {m : Backed G Unit} {c : Table} {e : Revert.Reply} (h : onCells w m c = .error e)
    (g : Unit → Backed G β) : onCells w (m.bind g) c = .error e := by
  rw [onCells_bind, h]

end

/-! ## The functions of the token -/

section
variable {w : List Step → Nat} {G τ σ : Type} {C : List Step → Prop} {view : Table → List (Erc20.Event ⊕ G) → τ → σ} {c : Table}
  {log : List (Erc20.Event ⊕ G)} {t : τ} {put : Erc20.State → σ}

/-- The state is made of the token and of what else there is. -/
def Part (view : Table → List (Erc20.Event ⊕ G) → τ → σ) (c : Table) (log : List (Erc20.Event ⊕ G)) (t : τ) (put : Erc20.State → σ) : Prop :=
  ∀ c' ev, (∀ p, ¬ Under token p → c' p = c p) → view c' (log ++ ev.map .inl) t = put (tokenView c' (lefts log ++ ev))

theorem fits_get (hp : C p) (g : U256 → List Val) :
    Fits w C view c log (.get p fun v => .ret (g v, t)) (.ok (view c log t, g (c p))) := by
  refine ⟨⟨hp, trivial⟩, ?_⟩
  show Except.ok (view c log t, g (c p)) = Except.ok (view c (log ++ []) t, g (c p))
  rw [List.append_nil]

theorem fits_ret (g : List Val) : Fits w C view c log (.ret (g, t)) (.ok (view c log t, g)) := by
  refine ⟨trivial, ?_⟩
  show Except.ok (view c log t, g) = Except.ok (view c (log ++ []) t, g)
  rw [List.append_nil]

/-- A question. -/
theorem fits_ask (K : Hash) {α : Type} {m : Backed G α} {x : Except Revert.Reply α} (h : Reads w m c x) (hu : Uses C m) (f : α → List Val) :
    Fits w C view c log (conclude K id (fun a => (f a, t)) m)
      (match x with | .error e => .error (e.data K) | .ok a => .ok (view c log t, f a)) := by
  refine fits_conclude K _ _ (used_of_uses _ _ hu) ?_
  rw [h]
  cases x with
  | error e => rfl
  | ok a =>
    show Except.ok _ = Except.ok (view c (log ++ []) t, _)
    rw [List.append_nil]

theorem fits_token (hw : Wide w token) (K : Hash) (hput : Part view c log t put) (caller : Address) (call : Erc20.Call)
    (hu : Uses C (Erc20Words.code token caller call)) (r : List Val) :
    Fits w C view c log (conclude K id (fun _ => (r, t)) (within (Erc20Words.code token caller call)))
      (Entry.finish K Revert.erc20 r (put <$> Erc20.exec (tokenView c (lefts log)) (caller, call))) := by
  refine fits_conclude K _ _ (m := within (Erc20Words.code token caller call)) (used_of_uses _ _ (uses_lift _ hu)) ?_
  rcases token_run (G := G) (Props.StoragePrograms.sim_code hw (caller, call)) (under_token caller call) c (lefts log) with
    ⟨e, h1, h2⟩ | ⟨c', ev, h1, h2, h3⟩
  · dsimp only at h1; rw [h1, h2]; rfl
  · dsimp only at h1; rw [h1, h2]
    show Except.ok _ = Except.ok _
    rw [hput c' ev h3]

theorem rows_token (hw : Wide w token) (K : Hash) (hput : Part view c log t put) {S : List Address} {caller : Address} (hc : caller ∈ S)
    (hC : ∀ p, Accounts token S p → C p) {args : List Val} (ha : ∀ a, Val.address a ∈ args → a ∈ S) :
    List.Forall₂ (fun r r' => r.1 = r'.1 ∧ r.2.1 = r'.2.1 ∧ Fits w C view c log (r.2.2 args) (r'.2.2 args))
      (tokenCalls K caller t) (Outside.erc20Calls K caller (tokenView c (lefts log)) put) := by
  have hu : ∀ call, (∀ a ∈ named (caller, call), a ∈ S) → Uses C (Erc20Words.code token caller call) := fun call h =>
    uses_mono hC _ (Props.StoragePrograms.uses_code h)
  refine .cons ⟨rfl, rfl, ?_⟩ (.cons ⟨rfl, rfl, ?_⟩ (.cons ⟨rfl, rfl, ?_⟩ .nil))
  · hears fits_token hw K hput caller (.transfer _ _) (hu _ (by simp_all [named])) _
  · hears fits_token hw K hput caller (.approve _ _) (hu _ (by simp_all [named])) _
  · hears fits_token hw K hput caller (.transferFrom _ _ _) (hu _ (by simp_all [named])) _

theorem rows_views {S : List Address} (hC : ∀ p, Accounts token S p → C p) {args : List Val} (ha : ∀ a, Val.address a ∈ args → a ∈ S) :
    List.Forall₂ (fun r r' => r.1 = r'.1 ∧ r.2.1 = r'.2.1 ∧ Fits w C view c log (r.2.2 args) (r'.2.2 args))
      (tokenAsks t) (Contracts.erc20Views (view c log t) (tokenView c (lefts log))) := by
  refine .cons ⟨rfl, rfl, ?_⟩ (.cons ⟨rfl, rfl, ?_⟩ (.cons ⟨rfl, rfl, ?_⟩ .nil))
  · hears fits_get (hC _ (.inl rfl)) _
  · hears fits_get (hC _ (.inr (.inl ⟨_, ha _ (by simp), rfl⟩))) _
  · hears fits_get (hC _ (.inr (.inr ⟨_, ha _ (by simp), _, ha _ (by simp), rfl⟩))) _

end
end Verif.Proofs.Backed
