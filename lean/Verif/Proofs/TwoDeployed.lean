import Verif.Spec.TwoDeployed
import Verif.Proofs.BasicDeployed
import Verif.Props.GatesDeployed
import Verif.Props.ContractsErc20
import Verif.Proofs.Outside
/-! # A contract over a token on words does the same as over the token with mappings -/

namespace Verif.Proofs.TwoDeployed
open Verif Verif.Outside Verif.Abi Verif.Entry Verif.Spec.TwoDeployed
open Verif.Contracts (Row)
open Verif.Deployed (Utf8)
open Verif.Spec.Keccak (keccak256)
open Verif.Spec.OnWords (Within)
open Verif.Spec.Outside (tokenWorld Tx Step)
open Verif.Spec.Contracts (message)

/-- Both fail in the same way, or both have related results. -/
inductive Both {ε α β : Type} (R : α → β → Prop) : Except ε α → Except ε β → Prop
  | error (e : ε) : Both R (.error e) (.error e)
  | ok {a : α} {b : β} : R a b → Both R (.ok a) (.ok b)

/-- Both return the same bytes, with related states, or both revert with the same bytes. -/
inductive Same {α β : Type} (R : α → β → Prop) : Outcome α → Outcome β → Prop
  | reverted (d : Bytes) : Same R (.reverted d) (.reverted d)
  | returned {a : α} {b : β} (d : Bytes) : R a b → Same R (.returned a d) (.returned b d)

section
variable {ε ε' α β γ δ σ σ' : Type} {R : α → β → Prop}

theorem Both.bind {Q : γ → δ → Prop} {x : Except ε α} {y : Except ε β} {f : α → Except ε γ} {g : β → Except ε δ} (h : Both R x y)
    (hf : ∀ a b, R a b → Both Q (f a) (g b)) : Both Q (x >>= f) (y >>= g) := by
  cases h with
  | error e => exact .error e
  | ok h => exact hf _ _ h

theorem Both.bind_same {Q : γ → δ → Prop} {x y : Except ε α} {f : α → Except ε γ} {g : α → Except ε δ} (h : x = y)
    (hf : ∀ a, Both Q (f a) (g a)) : Both Q (x >>= f) (y >>= g) := by
  subst h
  cases x with
  | error e => exact .error e
  | ok a => exact hf a

theorem Same.after {s : σ} {s' : σ'} {Q : σ → σ' → Prop} {x : Outcome σ} {y : Outcome σ'} (h : Same Q x y) (hs : Q s s') :
    Q (x.after s) (y.after s') := by
  cases h with
  | reverted d => exact hs
  | returned d h => exact h

theorem Same.reply {Q : σ → σ' → Prop} {x : Outcome σ} {y : Outcome σ'} (h : Same Q x y) : x.reply = y.reply := by cases h <;> rfl

theorem Same.answer {Q : σ → σ' → Prop} {x : Outcome σ} {y : Outcome σ'} (h : Same Q x y) :
    Spec.Deployed.answer x = Spec.Deployed.answer y := by cases h <;> rfl

theorem same_of {Q : σ → σ' → Prop} {x : Outcome σ} {y : Outcome σ'} {s : σ} {s' : σ'} (h : Spec.Deployed.answer x = Spec.Deployed.answer y)
    (h' : Q (x.after s) (y.after s')) : Same Q x y := by
  cases x <;> cases y
  · cases h; exact .returned _ h'
  · cases h
  · cases h
  · cases h; exact .reverted _

/-- Results of handlers. -/
abbrev Res (Q : σ → σ' → Prop) (x : Except (Option Bytes) (σ × List Val)) (y : Except (Option Bytes) (σ' × List Val)) : Prop :=
  Both (fun a b => Q a.1 b.1 ∧ a.2 = b.2) x y

theorem outcome_same {Q : σ → σ' → Prop} {x : Except (Option Bytes) (σ × List Val)} {y : Except (Option Bytes) (σ' × List Val)}
    (h : Res Q x y) : Same Q (outcome x) (outcome y) := by
  cases h with
  | error e => exact .reverted _
  | @ok a b h =>
    obtain ⟨a1, a2⟩ := a
    obtain ⟨b1, b2⟩ := b
    obtain ⟨h1, h2⟩ := h
    cases h2
    exact .returned _ h1

theorem entry_same {Q : σ → σ' → Prop} (K : Hash) (D : Decoder) (c : Router.Contract) {h1 : Handler σ} {h2 : Handler σ'} {s : σ} {s' : σ'}
    (value : U256) (input : Bytes) (env : Address)
    (h : ∀ t f args, Spec.OnWords.Arguments K D c ⟨env, value, input⟩ args → Res Q (h1 t f args s) (h2 t f args s')) :
    Same Q (Abi.entry K D c h1 s value input) (Abi.entry K D c h2 s' value input) := by
  unfold Abi.entry
  split
  · exact .reverted _
  split
  · exact .reverted _
  cases hr : c.route K (selectorOf input) with
  | none => exact .reverted _
  | some tf =>
    obtain ⟨t, f⟩ := tf
    dsimp only
    cases hd : D.read (flat f.args) (input.drop 4) with
    | none => exact .reverted _
    | some args => exact outcome_same (h t f.rustName args ⟨t, f, hr, hd⟩)

/-- Tables with the same functions in the same order. -/
abbrev Rows (Q : σ → σ' → Prop) (args : List Val) (l : List (Row σ)) (l' : List (Row σ')) : Prop :=
  List.Forall₂ (fun x y => x.1 = y.1 ∧ x.2.1 = y.2.1 ∧ Res Q (x.2.2 args) (y.2.2 args)) l l'

theorem dispatch_same {Q : σ → σ' → Prop} (t f : String) {args : List Val} {l : List (Row σ)} {l' : List (Row σ')} (h : Rows Q args l l') :
    Res Q (dispatch t f args l) (dispatch t f args l') := by
  unfold dispatch
  induction h with
  | nil => exact .error _
  | @cons x y l l' hxy _ ih =>
    obtain ⟨h1, h2, h3⟩ := hxy
    rw [List.find?_cons, List.find?_cons, h1, h2]
    cases decide (y.1 = t) && decide (y.2.1 = f)
    · exact ih
    · exact h3

theorem finish_same {Q : σ → σ' → Prop} {K : Hash} {reply : ε → Revert.Reply} {r : List Val} {x : Except ε σ} {y : Except ε σ'}
    (h : Both Q x y) : Res Q (finish K reply r x) (finish K reply r y) := by
  cases h with
  | error e => exact .error _
  | ok h => exact .ok ⟨h, rfl⟩

theorem view_same {Q : σ → σ' → Prop} {K : Hash} {reply : ε → Revert.Reply} {s : σ} {s' : σ'} (h : Q s s') {x y : Except ε (List Val)} (e : x = y) :
    Res Q (Contracts.view K reply s x) (Contracts.view K reply s' y) := by
  subst e
  cases x with
  | error e => exact .error _
  | ok r => exact .ok ⟨h, rfl⟩

theorem number_same {Q : σ → σ' → Prop} {K : Hash} {reply : ε → Revert.Reply} {x : Except ε (U256 × σ)} {y : Except ε (U256 × σ')}
    (h : Both (fun a b => a.1 = b.1 ∧ Q a.2 b.2) x y) : Res Q (number K reply x) (number K reply y) := by
  cases h with
  | error e => exact .error _
  | @ok a b h =>
    obtain ⟨a1, a2⟩ := a
    obtain ⟨b1, b2⟩ := b
    obtain ⟨h1, h2⟩ := h
    cases h1
    exact .ok ⟨h2, rfl⟩

theorem put_same {Q : σ → σ' → Prop} {K : Hash} {reply : ε → Revert.Reply} {r : List Val} {x : Except ε Erc20.State} {put : Erc20.State → σ}
    {put' : Erc20.State → σ'} (h : ∀ u, Q (put u) (put' u)) : Res Q (finish K reply r (put <$> x)) (finish K reply r (put' <$> x)) := by
  cases x with
  | error e => exact .error _
  | ok u => exact .ok ⟨h u, rfl⟩

theorem calls_same {Q : σ → σ' → Prop} (K : Hash) (caller : Address) (u : Erc20.State) {put : Erc20.State → σ} {put' : Erc20.State → σ'}
    (h : ∀ u, Q (put u) (put' u)) (args : List Val) : Rows Q args (erc20Calls K caller u put) (erc20Calls K caller u put') := by
  refine .cons ⟨rfl, rfl, ?_⟩ (.cons ⟨rfl, rfl, ?_⟩ (.cons ⟨rfl, rfl, ?_⟩ .nil)) <;> dsimp only <;> split <;>
    first | exact put_same h | exact .error _

theorem views_same {Q : σ → σ' → Prop} {s : σ} {s' : σ'} (h : Q s s') (u : Erc20.State) (args : List Val) :
    Rows Q args (Contracts.erc20Views s u) (Contracts.erc20Views s' u) := by
  refine .cons ⟨rfl, rfl, ?_⟩ (.cons ⟨rfl, rfl, ?_⟩ (.cons ⟨rfl, rfl, ?_⟩ .nil)) <;> dsimp only <;> split <;>
    first | exact .ok ⟨h, rfl⟩ | exact .error _

end

/-- What is used of the two worlds: they agree on the messages that `Ok` allows. -/
structure Alike {τ τ' : Type} (W : World τ) (W' : World τ') (Q : τ → τ' → Prop) (Ok : Address → Bytes → Prop) : Prop where
  code : ∀ t t' a, Q t t' → W.hasCode t a = W'.hasCode t' a
  call : ∀ t t' a c b, Q t t' → Ok c b → Same Q (W.call t c a b) (W'.call t' c a b)
  look : ∀ t t' n a c b, Q t t' → Ok c b → W.look t n c a b = W'.look t' n c a b

section
variable {τ τ' : Type} {W : World τ} {W' : World τ'} {Q : τ → τ' → Prop} {Ok : Address → Bytes → Prop}

theorem send_same (h : Alike W W' Q Ok) {t : τ} {t' : τ'} (ht : Q t t') {c : Address} {b : Bytes} (hb : Ok c b) (a : Address) :
    Same Q (W.send t c a b) (W'.send t' c a b) := by
  unfold World.send
  rw [h.code t t' a ht]
  split
  · exact h.call _ _ _ _ _ ht hb
  · exact .returned _ ht

theorem ask_same (h : Alike W W' Q Ok) {t : τ} {t' : τ'} (ht : Q t t') {c : Address} {b : Bytes} (hb : Ok c b) (n : Nat) (a : Address) :
    Same Q (W.ask t n c a b) (W'.ask t' n c a b) := by
  unfold World.ask
  rw [h.code t t' a ht, h.look t t' n a c b ht hb]
  split
  · split
    · exact .returned _ ht
    · exact .reverted _
  · exact .returned _ ht

theorem uint_same {D : Decoder} {x : Outcome τ} {y : Outcome τ'} (h : Same Q x y) : Calls.uintReply D x = Calls.uintReply D y := by
  cases h <;> rfl

theorem settled_same {ε : Type} (h : Alike W W' Q Ok) {t : τ} {t' : τ'} (ht : Q t t') {self asset : Address} {r : SafeErc20.Req} {K : Hash}
    (hb : Ok self ((Calls.request r).bytes K)) (err : SafeErc20.Err → ε) :
    Both Q (settled err (SafeErc20.callOptionalReturn (W.token K t self asset) t r))
      (settled err (SafeErc20.callOptionalReturn (W'.token K t' self asset) t' r)) := by
  unfold SafeErc20.callOptionalReturn World.token
  dsimp only
  rw [h.code t t' asset ht]
  split
  · exact .error _
  · unfold Calls.rawToken
    dsimp only
    have hs := send_same h ht hb asset
    revert hs
    generalize W.send t self asset ((Calls.request r).bytes K) = x
    generalize W'.send t' self asset ((Calls.request r).bytes K) = y
    intro hs
    cases hs with
    | reverted d => exact .error _
    | returned d hq =>
      dsimp only
      split
      · exact .ok hq
      · exact .error _

end

/-! ### The wrapper -/

namespace Wrapper
open Verif.Outside.Wrapper

variable {τ τ' : Type} {W : World τ} {W' : World τ'} {Q : τ → τ' → Prop} {Ok : Address → Bytes → Prop}

/-- The same wrapper over related worlds. -/
def Over (Q : τ → τ' → Prop) (s : State τ) (s' : State τ') : Prop :=
  Q s.world s'.world ∧ ∃ t', s' = ⟨s.self_, s.underlying, s.decimals, s.token, t'⟩

theorem over {self u : Address} {d : U8} {k : Erc20.State} {t : τ} {t' : τ'} (h : Q t t') :
    Over Q ⟨self, u, d, k, t⟩ ⟨self, u, d, k, t'⟩ := ⟨h, _, rfl⟩

theorem run_same (h : Alike W W' Q Ok) (K : Hash) (D : Decoder) {caller : Address} {s : State τ} {s' : State τ'} (hs : Over Q s s')
    (value : U256) (input : Bytes)
    (pull : ∀ v, Ok s.self_ ((Calls.Message.transferFrom caller s.self_ v).bytes K))
    (push : ∀ args, Spec.OnWords.Arguments K D Router.erc20WrapperExample ⟨caller, value, input⟩ args → ∀ a, Val.address a ∈ args → ∀ v,
      Ok s.self_ ((Calls.Message.transfer a v).bytes K)) :
    Same (Over Q) (run W K D caller s value input) (run W' K D caller s' value input) := by
  obtain ⟨self, u, d, k, t⟩ := s
  obtain ⟨ht, t', rfl⟩ := hs
  refine entry_same K D _ value input caller fun tp f args ha => ?_
  unfold handler
  refine dispatch_same tp f (List.rel_append (List.rel_append ?_ (calls_same K caller k (fun u => over ht) args)) (views_same (over ht) k args))
  refine .cons ⟨rfl, rfl, ?_⟩ (.cons ⟨rfl, rfl, ?_⟩ (.cons ⟨rfl, rfl, ?_⟩ (.cons ⟨rfl, rfl, ?_⟩ .nil))) <;> dsimp only <;> split
  · exact .ok ⟨over ht, rfl⟩
  · exact .error _
  · exact .ok ⟨over ht, rfl⟩
  · exact .error _
  · refine finish_same ?_
    unfold depositFor
    dsimp only
    split
    · exact .error _
    split
    · exact .error _
    refine Both.bind (settled_same h ht (r := .transferFrom caller self _) (pull _) _) fun t1 t1' hq => ?_
    exact Both.bind_same rfl fun u => .ok (over hq)
  · exact .error _
  · refine finish_same ?_
    unfold withdrawTo
    dsimp only
    split
    · exact .error _
    refine Both.bind_same rfl fun u => ?_
    refine Both.bind (settled_same h ht (r := .transfer _ _) (push _ ha _ (by simp) _) _) fun t1 t1' hq => ?_
    exact .ok (over hq)
  · exact .error _

end Wrapper

/-! ### The vault -/

namespace Vault
open Verif.Outside.Vault

variable {τ τ' : Type} {W : World τ} {W' : World τ'} {Q : τ → τ' → Prop} {Ok : Address → Bytes → Prop}

/-- The same vault over related worlds. -/
def Over (Q : τ → τ' → Prop) (s : State τ) (s' : State τ') : Prop :=
  Q s.world s'.world ∧ ∃ t', s' = ⟨s.self_, s.asset, s.underlyingDecimals, s.offset, s.shares, s.log, t'⟩

theorem over {self u : Address} {d o : U8} {k : Erc20.State} {l : List Erc4626.Event} {t : τ} {t' : τ'} (h : Q t t') :
    Over Q ⟨self, u, d, o, k, l, t⟩ ⟨self, u, d, o, k, l, t'⟩ := ⟨h, _, rfl⟩

section
variable {K : Hash} {D : Decoder} {self asset : Address} {d o : U8} {k : Erc20.State} {log : List Erc4626.Event} {t : τ} {t' : τ'}

theorem total_same (h : Alike W W' Q Ok) (ht : Q t t') (hq : Ok self ((Calls.Message.balanceOf self).bytes K)) (n : Nat) :
    totalAssets W K D n ⟨self, asset, d, o, k, log, t⟩ = totalAssets W' K D n ⟨self, asset, d, o, k, log, t'⟩ := by
  unfold totalAssets
  dsimp only
  rw [uint_same (ask_same h ht hq n asset)]

theorem shares_same (h : Alike W W' Q Ok) (ht : Q t t') (hq : Ok self ((Calls.Message.balanceOf self).bytes K)) (n : Nat) (a : U256)
    (r : Math.Rounding) : convertToSharesInternal W K D n ⟨self, asset, d, o, k, log, t⟩ a r =
      convertToSharesInternal W' K D n ⟨self, asset, d, o, k, log, t'⟩ a r := by
  unfold convertToSharesInternal
  rw [total_same h ht hq]

theorem assets_same (h : Alike W W' Q Ok) (ht : Q t t') (hq : Ok self ((Calls.Message.balanceOf self).bytes K)) (n : Nat) (a : U256)
    (r : Math.Rounding) : convertToAssetsInternal W K D n ⟨self, asset, d, o, k, log, t⟩ a r =
      convertToAssetsInternal W' K D n ⟨self, asset, d, o, k, log, t'⟩ a r := by
  unfold convertToAssetsInternal
  rw [total_same h ht hq]

theorem deposit_same (h : Alike W W' Q Ok) (ht : Q t t') {caller : Address}
    (pull : ∀ v, Ok self ((Calls.Message.transferFrom caller self v).bytes K)) (r : Address) (a x : U256) :
    Both (Over Q) (depositInternal W K ⟨self, asset, d, o, k, log, t⟩ caller r a x)
      (depositInternal W' K ⟨self, asset, d, o, k, log, t'⟩ caller r a x) := by
  unfold depositInternal
  dsimp only
  refine Both.bind (settled_same h ht (r := .transferFrom caller self a) (pull _) _) fun t1 t1' hq => ?_
  exact Both.bind_same rfl fun u => .ok (over hq)

theorem withdraw_same (h : Alike W W' Q Ok) (ht : Q t t') {r : Address} (push : ∀ v, Ok self ((Calls.Message.transfer r v).bytes K))
    (caller ow : Address) (a x : U256) :
    Both (Over Q) (withdrawInternal W K ⟨self, asset, d, o, k, log, t⟩ caller r ow a x)
      (withdrawInternal W' K ⟨self, asset, d, o, k, log, t'⟩ caller r ow a x) := by
  unfold withdrawInternal
  dsimp only
  refine Both.bind_same rfl fun u => Both.bind_same rfl fun u2 => ?_
  exact Both.bind (settled_same h ht (r := .transfer r a) (push _) _) fun t1 t1' hq => .ok (over hq)

end

theorem one_same {K : Hash} {reply : Err → Revert.Reply} {s : State τ} {s' : State τ'} (h : Over Q s s') {x y : Except Err U256} (e : x = y) :
    Res (Over Q) (Contracts.view K reply s (Contracts.one .uint256 x)) (Contracts.view K reply s' (Contracts.one .uint256 y)) :=
  view_same h (congrArg _ e)

theorem run_same (h : Alike W W' Q Ok) (K : Hash) (D : Decoder) (m : Strings) {caller : Address} {s : State τ} {s' : State τ'} (hs : Over Q s s')
    (value : U256) (input : Bytes)
    (hq : Ok s.self_ ((Calls.Message.balanceOf s.self_).bytes K))
    (pull : ∀ v, Ok s.self_ ((Calls.Message.transferFrom caller s.self_ v).bytes K))
    (push : ∀ args, Spec.OnWords.Arguments K D Router.erc4626Example ⟨caller, value, input⟩ args → ∀ a, Val.address a ∈ args → ∀ v,
      Ok s.self_ ((Calls.Message.transfer a v).bytes K)) :
    Same (Over Q) (run W K D m caller s value input) (run W' K D m caller s' value input) := by
  obtain ⟨self, u, d, o, k, log, t⟩ := s
  obtain ⟨ht, t', rfl⟩ := hs
  refine entry_same K D _ value input caller fun tp f args ha => ?_
  unfold handler
  refine dispatch_same tp f (List.rel_append (List.rel_append ?_ (calls_same K caller k (fun u => over ht) args)) (views_same (over ht) k args))
  refine .cons ⟨rfl, rfl, ?_⟩ (.cons ⟨rfl, rfl, ?_⟩ (.cons ⟨rfl, rfl, ?_⟩ (.cons ⟨rfl, rfl, ?_⟩ (.cons ⟨rfl, rfl, ?_⟩ (.cons ⟨rfl, rfl, ?_⟩ (
    .cons ⟨rfl, rfl, ?_⟩ (.cons ⟨rfl, rfl, ?_⟩ (.cons ⟨rfl, rfl, ?_⟩ (.cons ⟨rfl, rfl, ?_⟩ (.cons ⟨rfl, rfl, ?_⟩ (.cons ⟨rfl, rfl, ?_⟩ (
    .cons ⟨rfl, rfl, ?_⟩ (.cons ⟨rfl, rfl, ?_⟩ (.cons ⟨rfl, rfl, ?_⟩ (.cons ⟨rfl, rfl, ?_⟩ (.cons ⟨rfl, rfl, ?_⟩ (.cons ⟨rfl, rfl, ?_⟩ (
    .cons ⟨rfl, rfl, ?_⟩ .nil)))))))))))))))))) <;> dsimp only <;> split
  · exact view_same (over ht) rfl
  · exact .error _
  · exact .ok ⟨over ht, rfl⟩
  · exact .error _
  · exact one_same (over ht) (total_same h ht hq _)
  · exact .error _
  · exact one_same (over ht) (shares_same h ht hq _ _ _)
  · exact .error _
  · exact one_same (over ht) (assets_same h ht hq _ _ _)
  · exact .error _
  · exact .ok ⟨over ht, rfl⟩
  · exact .error _
  · exact one_same (over ht) (shares_same h ht hq _ _ _)
  · exact .error _
  · refine number_same ?_
    unfold deposit
    split
    · exact .error _
    exact Both.bind_same (shares_same h ht hq _ _ _) fun x => Both.bind (deposit_same h ht pull _ _ _) fun _ _ hr => .ok ⟨rfl, hr⟩
  · exact .error _
  · exact .ok ⟨over ht, rfl⟩
  · exact .error _
  · exact one_same (over ht) (assets_same h ht hq _ _ _)
  · exact .error _
  · refine number_same ?_
    unfold mint
    split
    · exact .error _
    exact Both.bind_same (assets_same h ht hq _ _ _) fun x => Both.bind (deposit_same h ht pull _ _ _) fun _ _ hr => .ok ⟨rfl, hr⟩
  · exact .error _
  · exact one_same (over ht) (assets_same h ht hq _ _ _)
  · exact .error _
  · exact one_same (over ht) (shares_same h ht hq _ _ _)
  · exact .error _
  · refine number_same ?_
    unfold withdraw
    refine Both.bind_same (assets_same h ht hq _ _ _) fun x => ?_
    split
    · exact .error _
    exact Both.bind_same (shares_same h ht hq _ _ _) fun x =>
      Both.bind (withdraw_same h ht (push _ ha _ (by simp)) _ _ _ _) fun _ _ hr => .ok ⟨rfl, hr⟩
  · exact .error _
  · exact .ok ⟨over ht, rfl⟩
  · exact .error _
  · exact one_same (over ht) (assets_same h ht hq _ _ _)
  · exact .error _
  · refine number_same ?_
    unfold redeem
    dsimp only
    split
    · exact .error _
    exact Both.bind_same (assets_same h ht hq _ _ _) fun x =>
      Both.bind (withdraw_same h ht (push _ ha _ (by simp)) _ _ _ _) fun _ _ hr => .ok ⟨rfl, hr⟩
  · exact .error _
  · exact .ok ⟨over ht, rfl⟩
  · exact .error _
  · exact .ok ⟨over ht, rfl⟩
  · exact .error _

end Vault

/-! ### The token on words and the token with mappings -/

section
variable {n : Nat} {S : List Address} {name symbol : List Char} {D : Decoder} {U : Utf8}

/-- The token on words agrees with the token with mappings. -/
abbrev Agree (S : List Address) (name symbol : List Char) : Token → Erc20.State → Prop :=
  Proofs.BasicDeployed.Agrees keccak256 S name symbol

theorem token_same (h : Spec.BasicDeployed.Setting keccak256 n S name symbol) {t : Token} {t' : Erc20.State} (ht : Agree S name symbol t t')
    {c : Address} {v : U256} {b : Bytes} (hb : Within keccak256 D Router.basicToken S ⟨c, v, b⟩) :
    Same (Agree S name symbol) (BasicDeployed.entry keccak256 D U c t v b) (Entry.basicTokenEntry keccak256 D ⟨name, symbol⟩ c t' v b) :=
  same_of (Proofs.BasicDeployed.inv_step h D U ht hb).1 (Proofs.BasicDeployed.inv_step h D U ht hb).2

set_option maxRecDepth 100000 in
theorem alike (h : Spec.BasicDeployed.Setting keccak256 n S name symbol) (asset : Address) :
    Alike (wordsWorld D U asset) (tokenWorld D ⟨name, symbol⟩ asset) (Agree S name symbol)
      fun c b => Within keccak256 D Router.basicToken S ⟨c, 0#256, b⟩ where
  code _ _ _ _ := rfl
  call _ _ _ _ _ ht hb := token_same h ht hb
  look _ _ _ _ _ _ ht hb := (token_same h ht hb).reply

theorem asked_within {self : Address} (hs : self ∈ S) :
    Within keccak256 D Router.basicToken S ⟨self, 0#256, (Calls.Message.balanceOf self).bytes keccak256⟩ := by
  rw [show (Calls.Message.balanceOf self).bytes keccak256 = message "balanceOf(address)" [.address self] from Proofs.Outside.bytes_message _]
  exact Props.OnWords.within Props.Contracts.BasicTokenContract.mem (by simp [Spec.Router.basicToken]) rfl rfl
    (Proofs.Contracts.words_lt _ _ (by simp [Spec.Contracts.arg]) (by simp)) hs (by simp [hs])

theorem pulled_within {self c : Address} (hs : self ∈ S) (hc : c ∈ S) (v : U256) :
    Within keccak256 D Router.basicToken S ⟨self, 0#256, (Calls.Message.transferFrom c self v).bytes keccak256⟩ := by
  rw [show (Calls.Message.transferFrom c self v).bytes keccak256 =
    message "transferFrom(address,address,uint256)" [.address c, .address self, .uint256 v] from Proofs.Outside.bytes_message _]
  exact Props.OnWords.within Props.Contracts.BasicTokenContract.mem (by simp [Spec.Router.basicToken]) rfl rfl
    (Proofs.Contracts.words_lt _ _ (by simp [Spec.Contracts.arg]) (by simp)) hs (by simp [hs, hc])

theorem pushed_within {self a : Address} (hs : self ∈ S) (ha : a ∈ S) (v : U256) :
    Within keccak256 D Router.basicToken S ⟨self, 0#256, (Calls.Message.transfer a v).bytes keccak256⟩ := by
  rw [show (Calls.Message.transfer a v).bytes keccak256 = message "transfer(address,uint256)" [.address a, .uint256 v] from
    Proofs.Outside.bytes_message _]
  exact Props.OnWords.within Props.Contracts.BasicTokenContract.mem (by simp [Spec.Router.basicToken]) rfl rfl
    (Proofs.Contracts.words_lt _ _ (by simp [Spec.Contracts.arg]) (by simp)) hs (by simp [ha])

theorem wrapper_step (h : Spec.BasicDeployed.Setting keccak256 n S name symbol) {asset : Address} {s : Outside.Wrapper.State Token}
    {s' : Outside.Wrapper.State Erc20.State} (hs : Wrapper.Over (Agree S name symbol) s s') (hself : s.self_ ∈ S) {c : Address} {v : U256}
    {b : Bytes} (hx : Within keccak256 D Router.erc20WrapperExample S ⟨c, v, b⟩) :
    Same (Wrapper.Over (Agree S name symbol)) (Outside.Wrapper.run (wordsWorld D U asset) keccak256 D c s v b)
      (Outside.Wrapper.run (tokenWorld D ⟨name, symbol⟩ asset) keccak256 D c s' v b) :=
  Wrapper.run_same (alike h asset) keccak256 D hs v b (fun _ => pulled_within hself hx.sender _)
    fun args ha a hm _ => pushed_within hself (hx.addresses args ha a hm) _

theorem vault_step (h : Spec.BasicDeployed.Setting keccak256 n S name symbol) {asset : Address} {m : Strings} {s : Outside.Vault.State Token}
    {s' : Outside.Vault.State Erc20.State} (hs : Vault.Over (Agree S name symbol) s s') (hself : s.self_ ∈ S) {c : Address} {v : U256}
    {b : Bytes} (hx : Within keccak256 D Router.erc4626Example S ⟨c, v, b⟩) :
    Same (Vault.Over (Agree S name symbol)) (Outside.Vault.run (wordsWorld D U asset) keccak256 D m c s v b)
      (Outside.Vault.run (tokenWorld D ⟨name, symbol⟩ asset) keccak256 D m c s' v b) :=
  Vault.run_same (alike h asset) keccak256 D m hs v b (asked_within hself) (fun _ => pulled_within hself hx.sender _)
    fun args ha a hm _ => pushed_within hself (hx.addresses args ha a hm) _

end

end Verif.Proofs.TwoDeployed
