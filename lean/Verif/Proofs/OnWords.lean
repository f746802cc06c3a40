import Verif.Spec.GatesDeployed
import Verif.Proofs.Erc721Words
/-! # Lemmas: contracts on storage words, in general -/

namespace Verif.Proofs.OnWords
open Verif Verif.Storage Verif.OnWords Verif.Spec.Storage Verif.Spec.Constructors Verif.Spec.StoragePrograms Verif.Spec.OnWords
open Verif.Props.StoragePrograms (SameOutcome onCells_bind uses_bind uses_ite uses_code Wide)
open Verif.Proofs.Deployed (Table UsedBy used_bind used_of_uses uses_mono onCells_lift onCells_frame programs_run)
open Verif.Proofs.Erc721Words (Sim unit look)
open Verif.Abi (Val Handler Decoder Outcome)
open Verif.Spec.Deployed (answer)
open Verif.Spec.Contracts (Raw after)

/-! ## Programs -/

section
variable {E V E' V' α σ : Type} {w : List Step → Nat}

theorem used_lift {C : List Step → Prop} {fe : E → E'} {fv : V → V'} : ∀ (m : Prog E V α) {c : Table} (_ : UsedBy w C m c),
    UsedBy w C (m.lift fe fv) c
  | .ret _, _, _ => trivial
  | .fail _, _, _ => trivial
  | .get p k, c, h => ⟨h.1, used_lift (k (c p)) h.2⟩
  | .set _ _ k, _, h => ⟨h.1, used_lift k h.2⟩
  | .emit _ k, _, h => used_lift k h

theorem used_mono {C C' : List Step → Prop} (hc : ∀ p, C p → C' p) : ∀ (m : Prog E V α) {c : Table} (_ : UsedBy w C m c), UsedBy w C' m c
  | .ret _, _, _ => trivial
  | .fail _, _, _ => trivial
  | .get p k, c, h => ⟨hc _ h.1, used_mono hc (k (c p)) h.2⟩
  | .set _ _ k, _, h => ⟨hc _ h.1, used_mono hc k h.2⟩
  | .emit _ k, _, h => used_mono hc k h

theorem sim_congr {view : Table → List V → σ} {m : Prog E V α} {f f' : σ → Except E (α × σ)} (h : Sim w view m f) (e : ∀ s, f s = f' s) :
    Sim w view m f' := fun c log => (e _).symm.trans (h c log)

theorem unit_ok {f : σ → Except E σ} {s s' : σ} {u : Unit} (h : unit f s = .ok (u, s')) : f s = .ok s' := by
  unfold unit at h
  cases hf : f s with
  | error e => rw [hf] at h; cases h
  | ok t => rw [hf] at h; cases h; rfl

theorem look_ok {f : σ → Except E α} {s s' : σ} {a : α} (h : look f s = .ok (a, s')) : f s = .ok a ∧ s' = s := by
  unfold look at h
  cases hf : f s with
  | error e => rw [hf] at h; cases h
  | ok t => rw [hf] at h; cases h; exact ⟨rfl, rfl⟩

/-- Something is checked first. -/
theorem sim_gate {view : Table → List V → σ} {g : Prog E V Unit} {m : Prog E V α} {p : σ → Except E Unit} {f : σ → Except E (α × σ)}
    (hg : Sim w view g (look p)) (hm : Sim w view m f) : Sim w view (g.bind fun _ => m) fun s => p s >>= fun _ => f s := by
  refine sim_congr (Proofs.Erc721Words.sim_bind hg fun _ => hm) fun s => ?_
  unfold look
  cases p s <;> rfl

/-- The cells at and below a field. -/
def Under (root : List Step) (p : List Step) : Prop := root <+: p

end

/-! ## A contract of two parts -/

section
variable {A B VA VB E E' α σ : Type} {w : List Step → Nat} {mk : A → B → σ} {va : Table → List VA → A} {vb : Table → List VB → B}

/-- The events of the first part. -/
def lefts (l : List (VA ⊕ VB)) : List VA := l.filterMap Sum.getLeft?
/-- The events of the second part. -/
def rights (l : List (VA ⊕ VB)) : List VB := l.filterMap Sum.getRight?

theorem lefts_append (a b : List (VA ⊕ VB)) : lefts (a ++ b) = lefts a ++ lefts b := List.filterMap_append
theorem rights_append (a b : List (VA ⊕ VB)) : rights (a ++ b) = rights a ++ rights b := List.filterMap_append
theorem lefts_inl (l : List VA) : lefts (l.map (Sum.inl (β := VB))) = l := by
  induction l with
  | nil => rfl
  | cons a l ih => exact congrArg (a :: ·) ih
theorem rights_inl (l : List VA) : rights (l.map (Sum.inl (β := VB))) = [] := by
  induction l with
  | nil => rfl
  | cons a l ih => exact ih
theorem lefts_inr (l : List VB) : lefts (l.map (Sum.inr (α := VA))) = [] := by
  induction l with
  | nil => rfl
  | cons a l ih => exact ih
theorem rights_inr (l : List VB) : rights (l.map (Sum.inr (α := VA))) = l := by
  induction l with
  | nil => rfl
  | cons a l ih => exact congrArg (a :: ·) ih

/-- The state of both. -/
def both (mk : A → B → σ) (va : Table → List VA → A) (vb : Table → List VB → B) (c : Table) (log : List (VA ⊕ VB)) : σ :=
  mk (va c (lefts log)) (vb c (rights log))

theorem sim_left {root : List Step} {m : Prog E VA α} {f : A → Except E (α × A)} (h : Sim w va m f) (hu : Uses (Under root) m)
    (hf : ∀ c c' : Table, (∀ p, ¬ Under root p → c' p = c p) → ∀ log, vb c' log = vb c log) {fe : E → E'} {F : σ → Except E' (α × σ)}
    (hF : ∀ a b, F (mk a b) = match f a with | .error e => .error (fe e) | .ok r => .ok (r.1, mk r.2 b)) :
    Sim w (both mk va vb) (m.lift fe .inl) F := by
  intro c log
  unfold both
  rw [hF, h c (lefts log), onCells_lift]
  cases hm : onCells w m c with
  | error e => rfl
  | ok r =>
    have := hf c r.2.1 (fun p hp => onCells_frame m hu hm hp)
    show Except.ok (r.1, mk (va r.2.1 (lefts log ++ r.2.2)) (vb c (rights log))) =
      Except.ok (r.1, mk (va r.2.1 (lefts (log ++ r.2.2.map .inl))) (vb r.2.1 (rights (log ++ r.2.2.map .inl))))
    rw [lefts_append, rights_append, lefts_inl, rights_inl, List.append_nil, this]

theorem sim_right {root : List Step} {m : Prog E VB α} {f : B → Except E (α × B)} (h : Sim w vb m f) (hu : Uses (Under root) m)
    (hf : ∀ c c' : Table, (∀ p, ¬ Under root p → c' p = c p) → ∀ log, va c' log = va c log) {fe : E → E'} {F : σ → Except E' (α × σ)}
    (hF : ∀ a b, F (mk a b) = match f b with | .error e => .error (fe e) | .ok r => .ok (r.1, mk a r.2)) :
    Sim w (both mk va vb) (m.lift fe .inr) F := by
  intro c log
  unfold both
  rw [hF, h c (rights log), onCells_lift]
  cases hm : onCells w m c with
  | error e => rfl
  | ok r =>
    have := hf c r.2.1 (fun p hp => onCells_frame m hu hm hp)
    show Except.ok (r.1, mk (va c (lefts log)) (vb r.2.1 (rights log ++ r.2.2))) =
      Except.ok (r.1, mk (va r.2.1 (lefts (log ++ r.2.2.map .inr))) (vb r.2.1 (rights (log ++ r.2.2.map .inr))))
    rw [lefts_append, rights_append, lefts_inr, rights_inr, List.append_nil, this]

end

/-! ## The token -/

section
variable {w : List Step → Nat}

/-- The token a table stands for. -/
abbrev tokenView := Props.StoragePrograms.view token

theorem sim_token (hw : Wide w token) (caller : Address) (c : Erc20.Call) :
    Sim w tokenView (Erc20Words.code token caller c) (unit fun s => Erc20.exec s (caller, c)) := by
  intro t log
  have h1 := Props.StoragePrograms.sim_code hw (caller, c) t log
  revert h1
  unfold unit
  dsimp only
  cases onCells w (Erc20Words.code token caller c) t with
  | error e => intro h1; rw [h1]; rfl
  | ok r => intro h1; rw [h1]; rfl

theorem accounts_under {S : List Address} {p : List Step} (h : Accounts token S p) : Under token p := by
  rcases h with rfl | ⟨a, _, rfl⟩ | ⟨a, _, b, _, rfl⟩ <;> exact ⟨_, rfl⟩

theorem under_token (caller : Address) (c : Erc20.Call) : Uses (Under token) (Erc20Words.code token caller c) :=
  uses_mono (fun _ => accounts_under) _ (uses_code (op := (caller, c)) (fun _ h => h))

theorem tokenView_frame {root : List Step} (hr : ∀ q, ¬ root <+: token ++ q) {c c' : Table}
    (h : ∀ p, ¬ Under root p → c' p = c p) (log : List Erc20.Event) : tokenView c' log = tokenView c log := by
  have e : ∀ q, c' (token ++ q) = c (token ++ q) := fun q => h _ (hr q)
  show Props.StoragePrograms.view token c' log = Props.StoragePrograms.view token c log
  unfold Props.StoragePrograms.view
  rw [show c' (Erc20Words.supply token) = _ from e _, funext fun a => show c' (Erc20Words.balance token a) = _ from e _,
    funext fun a => funext fun b => show c' (Erc20Words.allowance token a b) = _ from e _]
  rfl

end

/-! ## Functions -/

section
variable {V σ E α : Type} {w : List Step → Nat} {C : List Step → Prop} {view : Table → List V → σ} {Good : σ → Prop} {c : Table} {log : List V}

/-- The program does what the function does, and uses the cells only. -/
def Fits (w : List Step → Nat) (C : List Step → Prop) (view : Table → List V → σ) (Good : σ → Prop) (c : Table) (log : List V)
    (m : Prog (Option Bytes) V (List Val)) (x : Except (Option Bytes) (σ × List Val)) : Prop :=
  UsedBy w C m c ∧ match onCells w m c, x with
    | .error e, .error e' => e = e'
    | .ok r, .ok y => y.2 = r.1 ∧ y.1 = view r.2.1 (log ++ r.2.2) ∧ Good y.1
    | _, _ => False

theorem fits_fail : Fits w C view Good c log (.fail none) (.error none) := ⟨trivial, rfl⟩

theorem fits_get (h : Good (view c log)) {p : List Step} (hp : C p) (g : U256 → List Val) :
    Fits w C view Good c log (.get p fun v => .ret (g v)) (.ok (view c log, g (c p))) :=
  ⟨⟨hp, trivial⟩, rfl, (congrArg (view c) (List.append_nil log)).symm, h⟩

theorem fits_sim (K : Hash) (reply : E → Revert.Reply) {m : Prog E V α} {g : σ → Except E (α × σ)} (hs : Sim w view m g)
    (hu : UsedBy w C m c) (hg : ∀ a s', g (view c log) = .ok (a, s') → Good s') (f : α → List Val) :
    Fits w C view Good c log (OnWords.finish K reply f m) (match g (view c log) with
      | .error e => .error ((reply e).data K)
      | .ok r => .ok (r.2, f r.1)) := by
  refine ⟨used_bind (used_lift m hu) fun _ _ => trivial, ?_⟩
  have h1 := hs c log
  have e : onCells w (OnWords.finish K reply f m) c = match onCells w m c with
      | .error e => .error ((reply e).data K)
      | .ok r => .ok (f r.1, r.2.1, r.2.2) := by
    unfold OnWords.finish
    rw [onCells_bind, onCells_lift]
    cases onCells w m c with
    | error e => rfl
    | ok r =>
      show Except.ok (f r.1, r.2.1, r.2.2.map id ++ []) = _
      rw [List.map_id, List.append_nil]
  rw [e]
  cases hm : onCells w m c with
  | error e =>
    rw [hm] at h1
    rw [show g (view c log) = .error e from h1]
  | ok r =>
    rw [hm] at h1
    have h1 : g (view c log) = .ok (r.1, view r.2.1 (log ++ r.2.2)) := h1
    have h2 := hg _ _ h1
    rw [h1]
    exact ⟨rfl, rfl, h2⟩

/-- A function that changes the state. -/
theorem fits_call (K : Hash) (reply : E → Revert.Reply) {m : Prog E V Unit} {g : σ → Except E σ} (hs : Sim w view m (unit g))
    (hu : UsedBy w C m c) (hg : ∀ s', g (view c log) = .ok s' → Good s') (r : List Val) :
    Fits w C view Good c log (OnWords.finish K reply (fun _ => r) m) (Entry.finish K reply r (g (view c log))) := by
  have hr := fits_sim (log := log) K reply hs hu (fun _ _ e => hg _ (unit_ok e)) (fun _ => r)
  revert hr
  unfold unit
  cases g (view c log) <;> exact fun h => h

theorem fits_table {t f : String} {args : List Val} {l : List (OnWords.Row V)}
    {l' : List (String × String × (List Val → Except (Option Bytes) (σ × List Val)))}
    (h : List.Forall₂ (fun r r' => r.1 = r'.1 ∧ r.2.1 = r'.2.1 ∧ Fits w C view Good c log (r.2.2 args) (r'.2.2 args)) l l') :
    Fits w C view Good c log (OnWords.dispatch t f args l) (Entry.dispatch t f args l') := by
  unfold OnWords.dispatch Entry.dispatch
  induction h with
  | nil => exact fits_fail
  | cons h _ ih =>
    obtain ⟨h1, h2, h3⟩ := h
    rw [List.find?_cons, List.find?_cons, h1, h2]
    cases decide (_ = t) && decide (_ = f) with
    | true => exact h3
    | false => exact ih

/-- A function that takes these arguments and no others. -/
syntax "takes" term : tactic
macro_rules
  | `(tactic| takes $t) => `(tactic| (
      dsimp only
      split
      · exact $t
      · next h =>
        split
        · first | exact absurd rfl h | exact absurd rfl (h _) | exact absurd rfl (h _ _) | exact absurd rfl (h _ _ _) | exact absurd rfl (h _ _ _ _) | exact absurd rfl (h _ _ _ _ _)
        · exact fits_fail))

theorem fits_views {S : List Address} {G VG : Type} {mk : Erc20.State → G → σ} {vg : Table → List VG → G} {log : List (Erc20.Event ⊕ VG)}
    (h : Good (both mk tokenView vg c log)) (hC : ∀ p, Accounts token S p → C p) {args : List Val} (ha : ∀ a, Val.address a ∈ args → a ∈ S) :
    List.Forall₂ (fun (r : OnWords.Row (Erc20.Event ⊕ VG)) (r' : Contracts.Row σ) =>
      r.1 = r'.1 ∧ r.2.1 = r'.2.1 ∧ Fits w C (both mk tokenView vg) Good c log (r.2.2 args) (r'.2.2 args))
      OnWords.erc20Views (Contracts.erc20Views (both mk tokenView vg c log) (tokenView c (lefts log))) := by
  refine .cons ⟨rfl, rfl, ?_⟩ (.cons ⟨rfl, rfl, ?_⟩ (.cons ⟨rfl, rfl, ?_⟩ .nil))
  · takes fits_get h (hC _ (.inl rfl)) (fun v => [.uint256 v])
  · takes fits_get h (hC _ (.inr (.inl ⟨_, ha _ (by simp), rfl⟩))) (fun v => [.uint256 v])
  · takes fits_get h (hC _ (.inr (.inr ⟨_, ha _ (by simp), _, ha _ (by simp), rfl⟩))) (fun v => [.uint256 v])

end

/-! ## Contracts -/

section
variable {V σ : Type} {K : Hash} {n : Nat} {t : Ty} {C : List Step → Prop} {view : Table → List V → σ} {Good : σ → Prop}

/-- The words and the state agree on the cells. -/
def Inv (K : Hash) (t : Ty) (C : List Step → Prop) (view : Table → List V → σ) (Good : σ → Prop) (w : OnWords.State V) (s : σ) : Prop :=
  Good s ∧ ∃ c, Agree K t C w.words c ∧ view c w.log = s

theorem step (ht : Ty.ok t = true) (h : Apart K n t C) (D : Decoder) (router : Router.Contract)
    {P : String → String → List Val → Prog (Option Bytes) V (List Val)} {H : Handler σ} {w : OnWords.State V} {s : σ}
    (hi : Inv K t C view Good w s) (value : U256) (input : Bytes)
    (hrow : ∀ u f args, router.route K (Abi.selectorOf input) = some (u, f) → D.read (Abi.flat f.args) (input.drop 4) = some args →
      ∀ c log, Good (view c log) → Fits (widthAt K t) C view Good c log (P u f.rustName args) (H u f.rustName args (view c log))) :
    answer (Abi.entry K D router (onWords K t P) w value input) = answer (Abi.entry K D router H s value input) ∧
    Inv K t C view Good ((Abi.entry K D router (onWords K t P) w value input).after w) ((Abi.entry K D router H s value input).after s) := by
  unfold Abi.entry
  split
  · exact ⟨rfl, hi⟩
  split
  · exact ⟨rfl, hi⟩
  cases hr : router.route K (Abi.selectorOf input) with
  | none => exact ⟨rfl, hi⟩
  | some r =>
    obtain ⟨u, f⟩ := r
    dsimp only
    cases hd : D.read (Abi.flat f.args) (input.drop 4) with
    | none => exact ⟨rfl, hi⟩
    | some args =>
      dsimp only
      obtain ⟨hg, c, hag, hv⟩ := hi
      obtain ⟨hu, hrow⟩ := hrow u f args hr hd c w.log (hv ▸ hg)
      have hrun := programs_run h.bound ht h.separate _ hu hag
      rw [hv] at hrow
      unfold OnWords.onWords
      revert hrow hrun
      cases (P u f.rustName args).onWords K t w.words with
      | error e =>
        cases onCells (widthAt K t) (P u f.rustName args) c with
        | ok r => exact fun _ h => h.elim
        | error e' =>
          cases H u f.rustName args s with
          | ok y => exact fun h _ => h.elim
          | error e'' =>
            intro h h'
            cases h
            cases h'
            exact ⟨rfl, hg, c, hag, hv⟩
      | ok r =>
        cases onCells (widthAt K t) (P u f.rustName args) c with
        | error e => exact fun _ h => h.elim
        | ok r' =>
          cases H u f.rustName args s with
          | error e => exact fun h _ => h.elim
          | ok y =>
            rintro ⟨e1, e2, e3⟩ ⟨e4, e5, e6⟩
            obtain ⟨y1, y2⟩ := y
            refine ⟨?_, e3, r'.2.1, e6, ?_⟩
            · show Except.ok (Abi.encode r.1) = Except.ok (Abi.encode y2)
              rw [e4, ← e1]
            · show view r'.2.1 (w.log ++ r.2.2) = y1
              rw [e5]
              exact e2.symm

theorem fresh_agree (K : Hash) (t : Ty) (C : List Step → Prop) : Agree K t C Constructors.fresh fun _ => 0#256 := by
  intro p _ l _
  unfold Storage.read Constructors.fresh
  simp

/-- A history, when every step is matched. -/
theorem steps {T : Type} {run : T → OnWords.State V → U256 → Bytes → Outcome (OnWords.State V)} {run' : T → σ → U256 → Bytes → Outcome σ}
    {I : OnWords.State V → σ → Prop} {ok : Raw T → Prop}
    (h : ∀ w s tx, I w s → ok tx → I ((run tx.env w tx.value tx.input).after w) ((run' tx.env s tx.value tx.input).after s)) :
    ∀ (txs : List (Raw T)) {w : OnWords.State V} {s : σ} (_ : I w s) (_ : ∀ tx ∈ txs, ok tx), I (after run w txs) (after run' s txs)
  | [], _, _, hi, _ => hi
  | tx :: txs, _, _, hi, hx =>
    steps h txs (h _ _ tx hi (hx tx List.mem_cons_self)) fun tx' h' => hx tx' (List.mem_cons_of_mem _ h')

/-- One word is set by the constructor. -/
theorem assign_one (ht : Ty.ok t = true) (h : Apart K n t C) {p : List Step} (hp : C p) (v : U256) :
    ∃ st, Constructors.assign K t [(p, v)] Constructors.fresh = some st ∧
      Agree K t C st (upd (fun _ => 0#256) p (v &&& mask (widthAt K t p))) := by
  obtain ⟨l, hl, _⟩ := h.separate.cells p hp
  refine ⟨Storage.write K Constructors.fresh l v, ?_, Props.StoragePrograms.agree_write h.bound ht h.separate (fresh_agree K t C) hp hl v⟩
  simp [Constructors.assign, hl]

end
end Verif.Proofs.OnWords
