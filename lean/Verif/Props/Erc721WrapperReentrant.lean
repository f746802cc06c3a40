import Verif.Model.Erc721WrapperReentrant
import Verif.Props.Erc721Wrapper
/-! # C92: the re-entrant ERC-721 wrapper -/

namespace Verif.Props.Wrapper721Reentrant
open Verif.Wrapper721 Verif.Spec.Wrapper721
open Verif.Erc721 (updated NoGhost Receivers)
open Verif.Wrapper721.Reentrant (execWith Reaches)
open Verif.Props.Erc721Wrapper (wrapped_some under_some)

/-- **C92.** If callees touch only the underlying, the re-entrant wrapper is the wrapper of C54. -/
theorem C92_passive (s : State) (caller : Address) (env : Env) (call : Call) :
    execWith env.receivers
      (fun k t => { t with underlying := others t.self_ t.underlying (env.acts k) }) s caller call
      = exec s ⟨caller, env, call⟩ := by
  have hd : ∀ ids s account, Reentrant.depositFor env.receivers
      (fun k t => { t with underlying := others t.self_ t.underlying (env.acts k) }) caller account s ids
      = depositFor env caller account s ids := by
    intro ids
    induction ids with
    | nil => intro s account; rw [Reentrant.depositFor, depositFor]
    | cons id ids ih =>
      intro s account
      rw [Reentrant.depositFor, depositFor]
      simp only [ih]
      rfl
  have hwd : ∀ ids s account, Reentrant.withdrawTo env.receivers
      (fun k t => { t with underlying := others t.self_ t.underlying (env.acts k) }) caller account s ids
      = withdrawTo env caller account s ids := by
    intro ids
    induction ids with
    | nil => intro s account; rw [Reentrant.withdrawTo, withdrawTo]
    | cons id ids ih =>
      intro s account
      rw [Reentrant.withdrawTo, withdrawTo]
      simp only [ih]
  unfold execWith exec
  cases call with
  | depositFor account ids => simp only [hd]
  | withdrawTo account ids => simp only [hwd]
  | onReceived _ src id _ => rfl
  | recover account id => rfl
  | token c => rfl
  | underlying R' c => rfl

/-! ## Backing -/

private def Keeps (s s' : State) : Prop := Inv s → Inv s' ∧ s'.self_ = s.self_

private theorem keeps_refl (s : State) : Keeps s s := fun h => ⟨h, rfl⟩
private theorem keeps_trans {a b c : State} (h1 : Keeps a b) (h2 : Keeps b c) : Keeps a c := by
  intro h
  obtain ⟨w, e⟩ := h1 h
  obtain ⟨w, e'⟩ := h2 w
  exact ⟨w, e'.trans e⟩

private theorem minted_inv {s : State} (hme : s.self_ ≠ ZERO) (ht : NoGhost s.token)
    (hu : Held s.self_ s.underlying)
    (hb : ∀ id, s.token.owners id ≠ ZERO → s.underlying.owners id = s.self_)
    {account : Address} {id : U256} (hid : s.underlying.owners id = s.self_) :
    Inv { s with token := updated s.token account id } := by
  refine ⟨hme, noGhost_updated ht _ _, hu, ?_⟩
  intro i hi
  by_cases hii : i = id
  · rw [hii]; exact hid
  · apply hb
    dsimp only at hi
    rwa [updated_ne hii] at hi

private theorem safeMint_keeps {R : Receivers} {inside : Nat → State → State} {s s' : State} {k : Nat}
    {caller account : Address} {id : U256} (hin : ∀ k t, Keeps t (inside k t)) (hs : Inv s)
    (hid : s.underlying.owners id = s.self_)
    (h : Reentrant.safeMintThen R inside s k caller account id = .ok s') :
    Inv s' ∧ s'.self_ = s.self_ := by
  unfold Reentrant.safeMintThen at h
  rw [bind_eq_ok] at h
  obtain ⟨t, ht, h⟩ := h
  rw [lift_ok] at ht
  obtain ⟨ht, _⟩ := Erc721.then_check_ok.mp ht
  obtain ⟨_, _, rfl⟩ := Erc721.mint_ok.mp ht
  injection h with h
  subst h
  exact hin k _ (minted_inv hs.me hs.tok hs.und hs.backed hid)

private theorem deposit_keeps {R : Receivers} {inside : Nat → State → State} {caller account : Address}
    (hin : ∀ k t, Keeps t (inside k t)) (ids : List U256) :
    ∀ {s s' : State}, Inv s → Reentrant.depositFor R inside caller account s ids = .ok s' →
      Inv s' ∧ s'.self_ = s.self_ := by
  induction ids with
  | nil => intro s s' hs h; rw [Reentrant.depositFor] at h; injection h with h; subst h; exact ⟨hs, rfl⟩
  | cons id ids ih =>
    intro s s' hs h
    rw [Reentrant.depositFor, bind_eq_ok] at h
    obtain ⟨u, hu, h⟩ := h
    rw [liftCall_ok] at hu
    obtain ⟨_, _, _, rfl⟩ := Erc721.transferFrom_ok.mp hu
    rw [bind_eq_ok] at h
    obtain ⟨s1, h1, h2⟩ := h
    have hs1 : Inv { s with underlying := updated s.underlying s.self_ id } :=
      ⟨hs.me, hs.tok, held_updated hs.und _ _, fun i hi => by
        by_cases hii : i = id
        · rw [hii]; exact updated_self
        · show (updated s.underlying s.self_ id).owners i = _
          rw [updated_ne hii]; exact hs.backed i hi⟩
    obtain ⟨hs2, e2⟩ := safeMint_keeps hin hs1 updated_self h1
    obtain ⟨hs3, e3⟩ := ih hs2 h2
    exact ⟨hs3, e3.trans e2⟩

private theorem withdraw_keeps {R : Receivers} {inside : Nat → State → State} {caller account : Address}
    (hin : ∀ k t, Keeps t (inside k t)) (ids : List U256) :
    ∀ {s s' : State}, Inv s → Reentrant.withdrawTo R inside caller account s ids = .ok s' →
      Inv s' ∧ s'.self_ = s.self_ := by
  induction ids with
  | nil => intro s s' hs h; rw [Reentrant.withdrawTo] at h; injection h with h; subst h; exact ⟨hs, rfl⟩
  | cons id ids ih =>
    intro s s' hs h
    rw [Reentrant.withdrawTo, bind_eq_ok] at h
    obtain ⟨⟨r, t⟩, ht, h⟩ := h
    rw [lift_ok] at ht
    obtain ⟨_, _, rfl⟩ := Erc721.update_ok.mp ht
    rw [bind_eq_ok] at h
    obtain ⟨u, hu, h⟩ := h
    rw [liftCall_ok] at hu
    obtain ⟨hu, _⟩ := Erc721.then_check_ok.mp hu
    obtain ⟨_, _, _, rfl⟩ := Erc721.transferFrom_ok.mp hu
    have hs1 : Inv { s with token := updated s.token ZERO id
                            underlying := updated s.underlying account id } := by
      refine ⟨hs.me, noGhost_updated hs.tok _ _, held_updated hs.und _ _, ?_⟩
      intro i hi
      dsimp only at hi ⊢
      by_cases hii : i = id
      · rw [hii, updated_self] at hi; exact absurd rfl hi
      · rw [updated_ne hii] at hi ⊢; exact hs.backed i hi
    obtain ⟨hs2, e2⟩ := hin ids.length _ hs1
    obtain ⟨hs3, e3⟩ := ih hs2 h
    exact ⟨hs3, e3.trans e2⟩

private theorem step_keeps {R : Receivers} {inside : Nat → State → State} {caller : Address} {call : Call}
    {s s' : State} (hin : ∀ k t, Keeps t (inside k t)) (h : execWith R inside s caller call = .ok s') :
    Keeps s s' := by
  intro hs
  unfold execWith at h
  by_cases hc : caller = s.self_ ∨ caller = s.under ∨ caller = ZERO
  · rw [if_pos hc] at h; simp at h
  rw [if_neg hc] at h
  push Not at hc
  obtain ⟨_, hcu, hc0⟩ := hc
  cases call with
  | depositFor account ids => exact deposit_keeps hin ids hs h
  | withdrawTo account ids => exact withdraw_keeps hin ids hs h
  | onReceived op src id data =>
    dsimp only at h
    unfold Reentrant.onReceived at h
    rw [if_pos (fun e => hcu e.symm)] at h
    simp at h
  | recover account id =>
    dsimp only at h
    unfold Reentrant.recover at h
    rw [bind_eq_ok] at h
    obtain ⟨o, ho, h⟩ := h
    rw [liftCall_ok] at ho
    by_cases he : o = s.self_
    · rw [if_neg (not_not.mpr he)] at h
      simp only [except_pure, except_bind_ok] at h
      have : s.underlying.owners id = s.self_ := by
        unfold Erc721.ownerOf Erc721.requireOwned Erc721.ownerOfInternal at ho
        dsimp only at ho
        by_cases h0 : s.underlying.owners id = ZERO
        · rw [if_pos h0] at ho; simp at ho
        · rw [if_neg h0] at ho; injection ho with ho; exact ho.trans he
      exact safeMint_keeps hin hs this h
    · rw [if_pos he] at h; simp at h
  | token c =>
    dsimp only at h
    rw [bind_eq_ok] at h
    obtain ⟨t, ht, h⟩ := h
    injection h with h
    subst h
    rw [lift_ok] at ht
    obtain ⟨b1, b2⟩ := token_call hs.tok hc0 ht
    exact hin 0 _ ⟨hs.me, b1, hs.und, fun id hid => hs.backed id ((b2 id).mp hid)⟩
  | underlying R' c =>
    dsimp only at h
    unfold Reentrant.execUnderlying at h
    dsimp only at h
    by_cases hcs : caller = s.self_
    · rw [if_pos hcs] at h; simp at h
    rw [if_neg hcs] at h
    simp only [except_pure, except_bind_ok] at h
    rw [bind_eq_ok] at h
    obtain ⟨u, hu, h⟩ := h
    rw [lift_ok] at hu
    obtain ⟨k1, k2⟩ := uexec_keeps hs.me hcs hs.und hu
    have hs1 : Inv { s with underlying := u } :=
      ⟨hs.me, hs.tok, k1, fun id hid => k2 id (hs.backed id hid)⟩
    cases hk : hooked s.self_ c with
    | none =>
      rw [hk] at h
      injection h with h
      subst h
      exact ⟨hs1, rfl⟩
    | some p =>
      rw [hk] at h
      dsimp only at h
      unfold Reentrant.onReceived at h
      rw [if_neg (not_not.mpr rfl)] at h
      simp only [except_pure, except_bind_ok] at h
      have hid : ({ s with underlying := u } : State).underlying.owners p.2 = s.self_ :=
        hooked_delivers hu hk
      exact safeMint_keeps (s := { s with underlying := u }) hin hs1 hid h

private theorem reaches_keeps {s s' : State} (h : Reaches s s') : Keeps s s' := by
  induction h with
  | refl s => exact keeps_refl s
  | step R inside caller call _ now _ ih1 ih2 => exact keeps_trans (step_keeps ih1 now) ih2

/-- **C92.** However the wrapper and the underlying are re-entered from callbacks, to any depth, a wrapped
token that exists is owned in the underlying by the wrapper. -/
theorem C92_wrapped_is_backed (me under : Address) (hme : me ≠ ZERO) (s : State)
    (hr : Reaches (init me under) s) (id : U256) (a : Address) (h : wrappedOwner s id = some a) :
    underOwner s id = some me := by
  obtain ⟨hs, e⟩ := reaches_keeps hr (inv_init hme)
  have e : s.self_ = me := e
  obtain ⟨rfl, h0⟩ := wrapped_some.mp h
  exact under_some.mpr ⟨e ▸ hs.backed id h0, hme⟩

/-- **C92.** And nobody but the wrapper can move the underlying token behind it. -/
theorem C92_backing_cannot_be_moved (me under : Address) (hme : me ≠ ZERO) (s : State)
    (hr : Reaches (init me under) s) (id : U256) (a c : Address) (hc : c ≠ me)
    (h : wrappedOwner s id = some a) : ¬ Spec.Erc721.MayMove s.underlying c id := by
  obtain ⟨hs, e⟩ := reaches_keeps hr (inv_init hme)
  have e : s.self_ = me := e
  obtain ⟨rfl, h0⟩ := wrapped_some.mp h
  have ho := hs.backed id h0
  have ow : Spec.Erc721.owner? s.underlying id = some s.self_ := by
    exact under_some.mpr ⟨ho, hs.me⟩
  rintro ⟨o, h1, h2⟩
  rw [ow] at h1
  injection h1 with h1
  subst h1
  rcases h2 with h2 | h2 | h2
  · exact hc (h2.trans e)
  · rw [Erc721.isApprovedForAll, hs.und.oper'] at h2; cases h2
  · rw [Erc721.approved?_eq hs.und.toNoGhost, hs.und.appr' id ho] at h2
    cases h2

/-! ## A nested history -/

/-- Try one call; a failed one leaves no trace. -/
private def attempt (R : Receivers) (inside : Nat → State → State) (c : Address) (call : Call) (s : State) :
    State :=
  match execWith R inside s c call with
  | .ok s' => s'
  | .error _ => s

private theorem reaches_attempt {R : Receivers} {inside : Nat → State → State}
    (h : ∀ k t, Reaches t (inside k t)) (c : Address) (call : Call) (s : State) :
    Reaches s (attempt R inside c call s) := by
  unfold attempt
  cases hx : execWith R inside s c call with
  | ok s' => exact .step R inside c call h hx (.refl _)
  | error e => exact .refl _

private theorem reaches_trans {a b c : State} (h : Reaches a b) (h' : Reaches b c) : Reaches a c := by
  induction h with
  | refl s => exact h'
  | step R inside caller call nested now _ _ ih => exact .step R inside caller call nested now (ih h')

private abbrev W : Address := 0xAA#160
private abbrev U : Address := 0xBB#160
private abbrev alice : Address := 1#160
private abbrev bob : Address := 2#160
private def still : Nat → State → State := fun _ t => t
/-- Bob is a contract that accepts every token. -/
private def R : Receivers := fun a =>
  if a = bob then some (fun _ _ _ _ => .selector Erc721.RECEIVER_FN_SELECTOR) else none
/-- In the callback for the first of two tokens, Bob withdraws it again at once. -/
private def bobActs : Nat → State → State := fun k t =>
  if k = 1 then attempt R still bob (.withdrawTo bob [7#256]) t else t
private def nestedWorld : State :=
  attempt R bobActs alice (.depositFor bob [7#256, 8#256])
    (attempt R still alice (.underlying R (.user (.setApprovalForAll W true)))
      (attempt R still alice (.underlying R (.mint alice 8#256))
        (attempt R still alice (.underlying R (.mint alice 7#256)) (init W U))))

example : W ≠ ZERO ∧ Reaches (init W U) nestedWorld ∧
    wrappedOwner nestedWorld 7#256 = none ∧ underOwner nestedWorld 7#256 = some bob ∧
    wrappedOwner nestedWorld 8#256 = some bob ∧ underOwner nestedWorld 8#256 = some W := by
  refine ⟨by decide, ?_, by decide +kernel, by decide +kernel, by decide +kernel, by decide +kernel⟩
  have hs : ∀ k t, Reaches t (still k t) := fun _ t => .refl t
  have hb : ∀ k t, Reaches t (bobActs k t) := by
    intro k t
    unfold bobActs
    by_cases hk : k = 1
    · rw [if_pos hk]; exact reaches_attempt hs _ _ _
    · rw [if_neg hk]; exact .refl _
  exact reaches_trans (reaches_trans (reaches_trans (reaches_attempt hs _ _ _) (reaches_attempt hs _ _ _))
    (reaches_attempt hs _ _ _)) (reaches_attempt hb _ _ _)

end Verif.Props.Wrapper721Reentrant
