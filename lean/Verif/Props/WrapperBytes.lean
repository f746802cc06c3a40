import Verif.Props.VaultSystem
import Verif.Props.Erc20Wrapper
/-! # C106: the ERC-20 wrapper on bytes, over any underlying token -/
namespace Verif.Props.WrapperBytes
open Verif Verif.Abi Verif.Outside Verif.Outside.Wrapper Verif.Proofs.Outside Verif.Proofs.Outside.Wrapper Verif.Proofs.Contracts
open Verif.Spec.Keccak (keccak256)
open Verif.Spec.Contracts Verif.Spec.Outside
open Verif.Spec.Calls (call)
open Verif.Spec.Revert (addr)

variable {τ : Type}

/-- The operations of the wrapper. -/
inductive Op where
  | depositFor (account : Address) (value : U256)
  | withdrawTo (account : Address) (value : U256)
  | transfer (dst : Address) (value : U256)
  | transferFrom (src dst : Address) (value : U256)
  | approve (spender : Address) (value : U256)

/-- Signature and arguments of each operation. -/
def abi : Op → String × List Val
  | .depositFor a v => ("depositFor(address,uint256)", [.address a, .uint256 v])
  | .withdrawTo a v => ("withdrawTo(address,uint256)", [.address a, .uint256 v])
  | .transfer dst v => ("transfer(address,uint256)", [.address dst, .uint256 v])
  | .transferFrom src dst v => ("transferFrom(address,address,uint256)", [.address src, .address dst, .uint256 v])
  | .approve p v => ("approve(address,uint256)", [.address p, .uint256 v])

/-- The operation, for the sender. -/
def act (W : World τ) (caller : Address) (s : State τ) : Op → Except Err (State τ)
  | .depositFor a v => depositFor W keccak256 s caller a v
  | .withdrawTo a v => withdrawTo W keccak256 s caller a v
  | .transfer dst v => inner (fun e => .wrapper (.erc20 e)) (fun u => { s with token := u }) (Erc20.transfer s.token caller dst v)
  | .transferFrom src dst v =>
    inner (fun e => .wrapper (.erc20 e)) (fun u => { s with token := u }) (Erc20.transferFrom s.token caller src dst v)
  | .approve p v => inner (fun e => .wrapper (.erc20 e)) (fun u => { s with token := u }) (Erc20.approve s.token caller p v)

/-- With its answer, which is always true. -/
def exec (W : World τ) (caller : Address) (s : State τ) (op : Op) : Except Err (State τ × List Val) :=
  giving (act W caller s op) [.bool true]

/-- The wrapper on bytes. -/
abbrev wrapper (W : World τ) (D : Decoder) (caller : Address) (s : State τ) (value : U256) (input : Bytes) :
    Outcome (State τ) := Outside.Wrapper.run W keccak256 D caller s value input

/-- The revert data of an error. -/
def revert (under : Address) (e : Err) : Bytes := ((errReply under e).data keccak256).getD []

abbrev spec : Spec.Router.Entry := ⟨Router.erc20WrapperExample, Spec.Router.erc20WrapperExample, [Spec.Router.erc20]⟩

theorem mem : spec ∈ Spec.Router.contracts := by simp [Spec.Router.contracts]

theorem abi_short (op : Op) : (message (abi op).1 (abi op).2).length < 2 ^ 256 := by
  cases op <;> exact words_lt _ _ (by simp [abi, arg]) (by simp [abi])

set_option maxRecDepth 100000 in
/-- **C106** For every world, operation, sender and state: the message of the call, as the ABI defines it, has exactly the effect
of the operation and answers true, or reverts with exactly the bytes of its error. -/
theorem C106_wrapper_call (W : World τ) (D : Decoder) (caller : Address) (s : State τ) (op : Op) :
    wrapper W D caller s 0#256 (message (abi op).1 (abi op).2) = reply (revert s.underlying) (exec W caller s op) := by
  cases op <;>
    exact run_message mem D _ s _ _ rfl rfl (by
      first
      | exact outcome_finish _ _
      | exact outcome_inner (rep := Revert.erc20) (rep' := errReply s.underlying) (err := fun e => .wrapper (.erc20 e))
          (fun _ => rfl) _ _)
      (by simp [abi, Spec.Router.erc20WrapperExample]) (abi_short _)

set_option maxRecDepth 100000 in
theorem ops (W : World τ) : Ops spec (handler W keccak256) abi (exec W) where
  inv env s sg t n args s' r hm hh := by
    obtain ⟨x, hmem, rfl, rfl, h2⟩ := dispatch_ok hh
    clear hh
    simp only [Contracts.erc20Views, erc20Calls, List.cons_append, List.nil_append, List.mem_cons, List.not_mem_nil,
      or_false] at hmem
    rcases hmem with rfl | rfl | rfl | rfl | rfl | rfl | rfl | rfl | rfl | rfl
    all_goals dsimp only at h2 hm
    all_goals split at h2
    all_goals try (first | (cases h2; done) | (cases h2; exact .inl rfl))
    all_goals simp [Spec.Router.erc20WrapperExample] at hm
    all_goals subst hm
    · exact .inr ⟨.depositFor _ _, rfl, finish_ok h2⟩
    · exact .inr ⟨.withdrawTo _ _, rfl, finish_ok h2⟩
    · exact .inr ⟨.transfer _ _, rfl, inner_ok h2⟩
    · exact .inr ⟨.approve _ _, rfl, inner_ok h2⟩
    · exact .inr ⟨.transferFrom _ _ _, rfl, inner_ok h2⟩

/-- **C106** Whatever is sent: the call is refused, or it is answered and changes nothing, or it is a call of one of the
operations (its selector, its arguments, no value) that succeeds, with exactly its effect and its reply. -/
theorem C106_wrapper_no_other_effect (W : World τ) (D : Decoder) (caller : Address) (s : State τ) (value : U256) (input : Bytes) :
    (∃ data, wrapper W D caller s value input = .reverted data) ∨
    (∃ data, wrapper W D caller s value input = .returned s data) ∨
    ∃ op s' r, exec W caller s op = .ok (s', r) ∧ wrapper W D caller s value input = .returned s' (values r) ∧
      value = 0#256 ∧ Says D input (abi op).1 (abi op).2 :=
  no_other_effect mem (ops W) D caller s value input

set_option maxRecDepth 100000 in
/-- **C106** What the questions answer, for every sender and state. -/
theorem C106_wrapper_views (W : World τ) (D : Decoder) (caller : Address) (s : State τ) (a b : Address) :
    wrapper W D caller s 0#256 (message "underlying()" []) = .returned s (values [.address s.underlying]) ∧
    wrapper W D caller s 0#256 (message "decimals()" []) = .returned s (values [.uint8 s.decimals]) ∧
    wrapper W D caller s 0#256 (message "totalSupply()" []) = .returned s (values [.uint256 s.token.totalSupply]) ∧
    wrapper W D caller s 0#256 (message "balanceOf(address)" [.address a]) =
      .returned s (values [.uint256 (s.token.balances a)]) ∧
    wrapper W D caller s 0#256 (message "allowance(address,address)" [.address a, .address b]) =
      .returned s (values [.uint256 (s.token.allowances a b)]) := by
  refine ⟨?_, ?_, ?_, ?_, ?_⟩ <;>
    refine run_message mem D _ s _ _ rfl rfl ?_ (by simp [Spec.Router.erc20WrapperExample]) (words_lt _ _ (by simp [arg]) (by simp))
  all_goals exact outcome_ok _ _

/-! ### Histories of the wrapped token -/

theorem token_exec {W : World τ} {caller : Address} {s s' : State τ} {op : Op} {r : List Val}
    (h : exec W caller s op = .ok (s', r)) :
    (s'.self_ = s.self_ ∧ s'.underlying = s.underlying ∧ s'.decimals = s.decimals) ∧
      ∃ k, Erc20.exec s.token (caller, k) = .ok s'.token := by
  have h := (giving_eq_ok.mp h).1
  cases op with
  | depositFor a v =>
    obtain ⟨t, u, _, _, _, h2, rfl⟩ := depositFor_ok.mp h
    exact ⟨⟨rfl, rfl, rfl⟩, .mint a v, h2⟩
  | withdrawTo a v =>
    obtain ⟨t, u, _, _, h2, rfl⟩ := withdrawTo_ok.mp h
    exact ⟨⟨rfl, rfl, rfl⟩, .burn v, h2⟩
  | transfer dst v =>
    obtain ⟨u, hu, rfl⟩ := inner_eq_ok.mp h
    exact ⟨⟨rfl, rfl, rfl⟩, .transfer dst v, hu⟩
  | transferFrom src dst v =>
    obtain ⟨u, hu, rfl⟩ := inner_eq_ok.mp h
    exact ⟨⟨rfl, rfl, rfl⟩, .transferFrom src dst v, hu⟩
  | approve p v =>
    obtain ⟨u, hu, rfl⟩ := inner_eq_ok.mp h
    exact ⟨⟨rfl, rfl, rfl⟩, .approve p v, hu⟩

/-- The wrapper is the same, its token has gone through some calls. -/
def Kept (s s' : State τ) : Prop :=
  (s'.self_ = s.self_ ∧ s'.underlying = s.underlying ∧ s'.decimals = s.decimals) ∧ ∃ ks, s'.token = Erc20.run s.token ks

theorem Kept.refl (s : State τ) : Kept s s := ⟨⟨rfl, rfl, rfl⟩, [], rfl⟩

theorem Kept.trans {s s1 s2 : State τ} (h : Kept s s1) (h' : Kept s1 s2) : Kept s s2 := by
  obtain ⟨⟨a1, a2, a3⟩, ks, ak⟩ := h
  obtain ⟨⟨b1, b2, b3⟩, ls, bk⟩ := h'
  exact ⟨⟨b1.trans a1, b2.trans a2, b3.trans a3⟩, ks ++ ls, by rw [bk, ak]; exact (runOf_append _ _ _ _).symm⟩

theorem kept_call (W : World τ) (D : Decoder) (c : Address) (s : State τ) (v : U256) (i : Bytes) :
    Kept s ((wrapper W D c s v i).after s) := by
  rcases C106_wrapper_no_other_effect W D c s v i with ⟨d, h⟩ | ⟨d, h⟩ | ⟨op, s', r, he, h, _, _⟩
  · rw [h]; exact .refl s
  · rw [h]; exact .refl s
  · rw [h]
    obtain ⟨h1, k, hk⟩ := token_exec he
    refine ⟨h1, [(c, k)], ?_⟩
    show s'.token = runOf _ _ _
    simp only [runOf, List.foldl, stepOf]
    rw [hk]

theorem kept_play (W : World τ) (D : Decoder) (l : List (Step τ)) (s : State τ) : Kept s (wrapperAfter W D s l) := by
  induction l generalizing s with
  | nil => exact .refl s
  | cons x l ih =>
    cases x with
    | outside f => exact Kept.trans ⟨⟨rfl, rfl, rfl⟩, [], rfl⟩ (ih { s with world := f s.world })
    | call c v i => exact (kept_call W D c s v i).trans (ih _)

theorem reached_token {W : World τ} {D : Decoder} {s : State τ} (h : WrapperReached W D s) : Spec.Erc20.Reachable s.token := by
  obtain ⟨self_, under, d, t, l, rfl⟩ := h
  obtain ⟨_, ks, hk⟩ := kept_play W D l (newWrapper self_ under d t)
  exact ⟨ks, hk⟩

theorem reached_sum {W : World τ} {D : Decoder} {s : State τ} (h : WrapperReached W D s) : Erc20.SumOk s.token :=
  Props.reachable_sumOk (reached_token h)

/-- **C106** Address, underlying token and decimals of a wrapper never change. -/
theorem C106_fixed (W : World τ) (D : Decoder) (l : List (Step τ)) (s : State τ) :
    let s' := wrapperAfter W D s l
    s'.self_ = s.self_ ∧ s'.underlying = s.underlying ∧ s'.decimals = s.decimals := (kept_play W D l s).1

/-- **C106** Whatever the underlying token does: after any history the answers to `balanceOf` add up to the answer to
`totalSupply`. -/
theorem C106_supply (W : World τ) (D : Decoder) {s : State τ} (hr : WrapperReached W D s) (asker : Address) :
    ∃ (total : U256) (bal : Address → U256),
      answer (wrapper W D) asker s "totalSupply()" [] = some (values [.uint256 total]) ∧
      (∀ a, answer (wrapper W D) asker s "balanceOf(address)" [.address a] = some (values [.uint256 (bal a)])) ∧
      ∑ a, (bal a).toNat = total.toNat := by
  refine ⟨s.token.totalSupply, s.token.balances, ?_, fun a => ?_, reached_sum hr⟩
  · unfold answer
    rw [(C106_wrapper_views W D asker s 0#160 0#160).2.2.1]; rfl
  · unfold answer
    rw [(C106_wrapper_views W D asker s a 0#160).2.2.2.1]; rfl

/-- **C106** Whatever the underlying token does: if the answer to `balanceOf` falls over a step, the step is a transaction to the
wrapper, and the holder sent it or `allowance` had answered at least the difference for the sender. -/
theorem C106_no_theft (W : World τ) (D : Decoder) {s : State τ} (hr : WrapperReached W D s) (x : Step τ)
    (asker a : Address) (n n' : U256)
    (hb : answer (wrapper W D) asker s "balanceOf(address)" [.address a] = some (values [.uint256 n]))
    (ha : answer (wrapper W D) asker (wrapperAfter W D s [x]) "balanceOf(address)" [.address a] = some (values [.uint256 n']))
    (hlt : n'.toNat < n.toNat) :
    ∃ caller value input, x = .call caller value input ∧ (caller = a ∨ ∃ allowed : U256, n.toNat - n'.toNat ≤ allowed.toNat ∧
      answer (wrapper W D) asker s "allowance(address,address)" [.address a, .address caller] =
        some (values [.uint256 allowed])) := by
  unfold answer at *
  rw [(C106_wrapper_views W D asker s a 0#160).2.2.2.1] at hb
  rw [(C106_wrapper_views W D asker _ a 0#160).2.2.2.1] at ha
  injection hb with hb
  injection ha with ha
  rw [← uint256_inj hb, ← uint256_inj ha] at hlt ⊢
  cases x with
  | outside f => exact absurd hlt (lt_irrefl _)
  | call c v i =>
    refine ⟨c, v, i, rfl, ?_⟩
    rw [(C106_wrapper_views W D asker s a c).2.2.2.2]
    change (((wrapper W D c s v i).after s).token.balances a).toNat < _ at hlt
    show _ ∨ ∃ allowed : U256, _ - (((wrapper W D c s v i).after s).token.balances a).toNat ≤ _ ∧ _
    rcases C106_wrapper_no_other_effect W D c s v i with ⟨d, h⟩ | ⟨d, h⟩ | ⟨op, s', r, he, h, _, _⟩
    · rw [h] at hlt; exact absurd hlt (lt_irrefl _)
    · rw [h] at hlt; exact absurd hlt (lt_irrefl _)
    · rw [h] at hlt ⊢
      obtain ⟨_, k, hk⟩ := token_exec he
      rcases Props.C05_only_authorised_debit (reached_token hr) hk (a := a) hlt with h1 | h1
      · exact .inl h1
      · exact .inr ⟨_, h1, rfl⟩

/-! ### The two operations -/

theorem act_iff {W : World τ} {D : Decoder} {caller : Address} {s s' : State τ} {data : Bytes} (op : Op) :
    wrapper W D caller s 0#256 (message (abi op).1 (abi op).2) = .returned s' data ↔
      act W caller s op = .ok s' ∧ data = values [.bool true] := by
  rw [C106_wrapper_call, Vault.reply_iff]
  unfold exec
  constructor
  · rintro ⟨r, h, rfl⟩
    obtain ⟨h1, rfl⟩ := giving_eq_ok.mp h
    exact ⟨h1, rfl⟩
  · rintro ⟨h, rfl⟩
    exact ⟨_, giving_eq_ok.mpr ⟨h, rfl⟩, rfl⟩

/-- **C106** `depositFor(a, v)` succeeds exactly if neither the sender nor `a` is the wrapper, the underlying token takes
`transferFrom(sender, wrapper, v)`, `a` is not the zero address, and there is room for `v` more tokens; it creates `v` tokens for
`a`, answers true, and does nothing else. -/
theorem C106_depositFor (W : World τ) (D : Decoder) (caller : Address) {s : State τ} (hr : WrapperReached W D s)
    (a : Address) (v : U256) (s' : State τ) (data : Bytes) :
    wrapper W D caller s 0#256 (message "depositFor(address,uint256)" [.address a, .uint256 v]) = .returned s' data ↔
      ∃ t u, caller ≠ s.self_ ∧ a ≠ s.self_ ∧
        Takes W s.world s.self_ s.underlying
          (message "transferFrom(address,address,uint256)" [.address caller, .address s.self_, .uint256 v]) t ∧
        a ≠ ZERO ∧ s.token.totalSupply.toNat + v.toNat < 2 ^ 256 ∧ Created s.token u a v ∧
        s' = { s with world := t, token := u } ∧ data = values [.bool true] := by
  refine (act_iff (.depositFor a v)).trans ?_
  show depositFor W keccak256 s caller a v = .ok s' ∧ _ ↔ _
  rw [depositFor_ok]
  constructor
  · rintro ⟨⟨t, u, h1, h2, h3, h4, h5⟩, h6⟩
    obtain ⟨k1, k2, k3⟩ := (Vault.minted_iff (reached_sum hr)).mp h4
    exact ⟨t, u, h1, h2, h3, k1, k2, k3, h5, h6⟩
  · rintro ⟨t, u, h1, h2, h3, k1, k2, k3, h5, h6⟩
    exact ⟨⟨t, u, h1, h2, h3, (Vault.minted_iff (reached_sum hr)).mpr ⟨k1, k2, k3⟩, h5⟩, h6⟩

/-- **C106** `withdrawTo(a, v)` succeeds exactly if `a` is not the wrapper, the sender has `v` tokens, and the underlying token
takes `transfer(a, v)`; it destroys `v` tokens of the sender, answers true, and does nothing else. -/
theorem C106_withdrawTo (W : World τ) (D : Decoder) (caller : Address) {s : State τ} (hr : WrapperReached W D s)
    (a : Address) (v : U256) (s' : State τ) (data : Bytes) :
    wrapper W D caller s 0#256 (message "withdrawTo(address,uint256)" [.address a, .uint256 v]) = .returned s' data ↔
      ∃ t u, a ≠ s.self_ ∧
        Takes W s.world s.self_ s.underlying (message "transfer(address,uint256)" [.address a, .uint256 v]) t ∧
        caller ≠ ZERO ∧ v.toNat ≤ (s.token.balances caller).toNat ∧ Destroyed s.token u caller caller v ∧
        s' = { s with world := t, token := u } ∧ data = values [.bool true] := by
  refine (act_iff (.withdrawTo a v)).trans ?_
  show withdrawTo W keccak256 s caller a v = .ok s' ∧ _ ↔ _
  rw [withdrawTo_ok]
  constructor
  · rintro ⟨⟨t, u, h1, h2, h3, h4⟩, h5⟩
    obtain ⟨k1, k2, k3⟩ := (burned_iff (reached_sum hr)).mp h3
    exact ⟨t, u, h1, h2, k1, k2, k3, h4, h5⟩
  · rintro ⟨t, u, h1, h2, k1, k2, k3, h4, h5⟩
    exact ⟨⟨t, u, h1, h2, (burned_iff (reached_sum hr)).mpr ⟨k1, k2, k3⟩, h4⟩, h5⟩

/-- **C106** Whatever is sent, and whatever the underlying token is: the supply changes, or the wrapper sends a message that
changes the rest of the chain, only together: `transferFrom(sender, wrapper, v)` taken and `v` tokens created, or `transfer(a, v)`
taken and `v` tokens destroyed. -/
theorem C106_one_for_one (W : World τ) (D : Decoder) (caller : Address) {s : State τ} (hr : WrapperReached W D s)
    (value : U256) (input : Bytes) (s' : State τ) (data : Bytes) (h : wrapper W D caller s value input = .returned s' data)
    (hne : s'.token.totalSupply ≠ s.token.totalSupply ∨ s'.world ≠ s.world) :
    (∃ v : U256, Takes W s.world s.self_ s.underlying
        (message "transferFrom(address,address,uint256)" [.address caller, .address s.self_, .uint256 v]) s'.world ∧
      s'.token.totalSupply.toNat = s.token.totalSupply.toNat + v.toNat) ∨
    ∃ (a : Address) (v : U256), Takes W s.world s.self_ s.underlying
        (message "transfer(address,uint256)" [.address a, .uint256 v]) s'.world ∧
      s'.token.totalSupply.toNat + v.toNat = s.token.totalSupply.toNat := by
  have hs := reached_sum hr
  have same : ∀ {k u}, Erc20.exec s.token (caller, k) = .ok u → (∀ a v, k ≠ .mint a v) → (∀ v, k ≠ .burn v) →
      (∀ a v, k ≠ .burnFrom a v) → u.totalSupply = s.token.totalSupply := by
    intro k u hk h1 h2 h3
    have keep : ∀ {w u : Erc20.State} {src dst : Address} {v : U256}, Erc20.SumOk w → src ≠ ZERO → dst ≠ ZERO →
        Erc20.update w src dst v = .ok u → u.totalSupply = w.totalSupply := by
      intro w u src dst v hw h0 h1 h
      have := (Erc20.update_effect hw h).supply
      simp only [h0, h1, if_false] at this
      exact BitVec.eq_of_toNat_eq this
    cases k with
    | transfer dst v =>
      have := Erc20.transferInternal_eq_ok.mp hk
      exact keep hs this.1 this.2.1 this.2.2
    | transferFrom src dst v =>
      obtain ⟨s1, h1, h2⟩ := Erc20.transferFrom_eq_ok.mp hk
      obtain ⟨hb, ht, _⟩ := Erc20.spend_frame h1
      have := Erc20.transferInternal_eq_ok.mp h2
      rw [← ht]
      exact keep (hs.of_frame hb ht) this.1 this.2.1 this.2.2
    | approve sp v =>
      obtain ⟨_, _, rfl⟩ := Erc20.approve_eq_ok.mp hk
      rfl
    | mint a v => exact absurd rfl (h1 a v)
    | burn v => exact absurd rfl (h2 v)
    | burnFrom a v => exact absurd rfl (h3 a v)
  rcases C106_wrapper_no_other_effect W D caller s value input with ⟨d, h1⟩ | ⟨d, h1⟩ | ⟨op, s1, r, he, h1, _, _⟩
  · rw [h1] at h; cases h
  · rw [h1] at h; cases h; exact absurd rfl (hne.elim (fun h => absurd rfl h) fun h => h)
  · rw [h1] at h
    injection h with e _
    subst e
    have he := (giving_eq_ok.mp he).1
    cases op with
    | depositFor a v =>
      obtain ⟨t, u, _, _, k1, k2, rfl⟩ := depositFor_ok.mp he
      exact .inl ⟨v, k1, (created_of_mint hs k2).supply⟩
    | withdrawTo a v =>
      obtain ⟨t, u, _, k1, k2, rfl⟩ := withdrawTo_ok.mp he
      exact .inr ⟨a, v, k1, ((burned_iff hs).mp k2).2.2.supply⟩
    | transfer dst v =>
      obtain ⟨u, hu, rfl⟩ := inner_eq_ok.mp he
      exact (hne.elim (fun h => h (same (k := .transfer dst v) hu (by simp) (by simp) (by simp))) fun h => h rfl).elim
    | transferFrom src dst v =>
      obtain ⟨u, hu, rfl⟩ := inner_eq_ok.mp he
      exact (hne.elim (fun h => h (same (k := .transferFrom src dst v) hu (by simp) (by simp) (by simp))) fun h => h rfl).elim
    | approve p v =>
      obtain ⟨u, hu, rfl⟩ := inner_eq_ok.mp he
      exact (hne.elim (fun h => h (same (k := .approve p v) hu (by simp) (by simp) (by simp))) fun h => h rfl).elim

/-- **C106** The internal `_recover`: with the answer `A` of the underlying token for the balance of the wrapper it creates the
difference to the supply, and nothing if there is none; if the answer is below the supply it panics; without an answer it reverts
with `ERC20InvalidUnderlying`, which names the wrapper itself. -/
theorem C106_recover (W : World τ) (D : Decoder) {s : State τ} (hr : WrapperReached W D s) (a : Address) :
    (∀ A, Reports W D s.world 0 s.self_ s.underlying A →
      (∀ n s', recover W keccak256 D s a = .ok (n, s') ↔
        s.token.totalSupply.toNat + n.toNat = A.toNat ∧
        (n.toNat = 0 ∧ s' = s ∨ 0 < n.toNat ∧ a ≠ ZERO ∧ ∃ u, Created s.token u a n ∧ s' = { s with token := u })) ∧
      (A.toNat < s.token.totalSupply.toNat → recover W keccak256 D s a = .error (.wrapper .panic))) ∧
    ((∀ A, ¬ Reports W D s.world 0 s.self_ s.underlying A) → ∃ e, recover W keccak256 D s a = .error e ∧
      revert s.underlying e = call "ERC20InvalidUnderlying(address)" [addr s.self_]) := by
  have hs := reached_sum hr
  refine ⟨fun A hA => ?_, fun hA => ?_⟩
  · have hq := ask_some.mpr hA
    have body : recover W keccak256 D s a =
        (orPanic (.wrapper .panic) (checkedSub A (Erc20.totalSupplyOf s.token)) >>= fun value =>
          if 0#256 < value then
            lift (Verif.Wrapper.liftErc20 (Erc20.mint s.token a value)) >>= fun u => pure (value, { s with token := u })
          else pure (value, s)) := by
      unfold recover
      rw [hq]
      rfl
    rw [body]
    unfold checkedSub Erc20.totalSupplyOf
    refine ⟨fun n s' => ?_, fun hlt => ?_⟩
    · by_cases hle : s.token.totalSupply.toNat ≤ A.toNat
      · rw [if_pos hle]
        have hv : (A - s.token.totalSupply).toNat = A.toNat - s.token.totalSupply.toNat := toNat_sub_of_ge hle
        generalize A - s.token.totalSupply = v at hv
        have hn : s.token.totalSupply.toNat + n.toNat = A.toNat ↔ n = v := by
          constructor
          · intro h; exact BitVec.eq_of_toNat_eq (by omega)
          · rintro rfl; omega
        show (if 0#256 < v then _ else _) = _ ↔ _
        rw [hn]
        by_cases h0 : 0#256 < v
        · have h0' : 0 < v.toNat := BitVec.lt_def.mp h0
          have room : s.token.totalSupply.toNat + v.toNat < 2 ^ 256 := by have := A.isLt; omega
          rw [if_pos h0]
          simp only [bind_eq_ok, lift_ok, liftErc20_ok, pure, Except.pure, Except.ok.injEq, Prod.mk.injEq]
          constructor
          · rintro ⟨u, hu, rfl, rfl⟩
            obtain ⟨k1, _, k3⟩ := (Vault.minted_iff hs).mp hu
            exact ⟨rfl, .inr ⟨h0', k1, u, k3, rfl⟩⟩
          · rintro ⟨rfl, ⟨h, _⟩ | ⟨_, k1, u, k3, rfl⟩⟩
            · omega
            · exact ⟨u, (Vault.minted_iff hs).mpr ⟨k1, room, k3⟩, rfl, rfl⟩
        · have h0' : v.toNat = 0 := by
            by_contra hc
            exact h0 (BitVec.lt_def.mpr (Nat.pos_of_ne_zero hc))
          rw [if_neg h0]
          simp only [pure, Except.pure, Except.ok.injEq, Prod.mk.injEq]
          constructor
          · rintro ⟨rfl, rfl⟩; exact ⟨rfl, .inl ⟨h0', rfl⟩⟩
          · rintro ⟨rfl, ⟨_, rfl⟩ | ⟨h, _⟩⟩
            · exact ⟨rfl, rfl⟩
            · omega
      · rw [if_neg hle]
        constructor
        · intro h; cases h
        · rintro ⟨h, _⟩; omega
    · rw [if_neg (by omega)]; rfl
  · have hq := ask_none.mpr hA
    refine ⟨.invalidUnderlying s.self_, ?_, ?_⟩
    · unfold recover
      rw [hq]
      rfl
    · unfold revert errReply
      exact error_bytes "ERC20InvalidUnderlying" _ "ERC20InvalidUnderlying(address)" rfl rfl

/-! ### The wrapper and its underlying token, both as contracts on bytes -/

/-- The state of `Verif.Wrapper`. -/
def toModel (s : State Erc20.State) : Verif.Wrapper.State := { self_ := s.self_, token := s.token, underlying := s.world }

/-- Back. -/
def ofModel (under : Address) (d : U8) (s : Verif.Wrapper.State) : State Erc20.State :=
  { self_ := s.self_, underlying := under, decimals := d, token := s.token, world := s.underlying }

variable (D : Decoder) (m : Entry.Strings)

theorem settled_std (x : Erc20.State × Except SafeErc20.Err Unit) :
    settled (fun e => Err.wrapper (.safeErc20 e)) x = lift (Verif.Wrapper.liftSafe x) := by
  obtain ⟨t, e | u⟩ := x <;> rfl

theorem depositFor_std (s : State Erc20.State) (c a : Address) (v : U256) :
    depositFor (tokenWorld D m s.underlying) keccak256 s c a v =
      ofModel s.underlying s.decimals <$> lift (Verif.Wrapper.depositFor (toModel s) c a v) := by
  unfold depositFor Verif.Wrapper.depositFor
  rw [Vault.token_std, settled_std]
  show (if c = s.self_ then _ else _) = _ <$> lift (if c = s.self_ then _ else _)
  split
  · rfl
  · show (if a = s.self_ then _ else _) = _ <$> lift (if a = s.self_ then _ else _)
    split
    · rfl
    · show (lift (Verif.Wrapper.liftSafe (SafeErc20.safeTransferFrom (SafeErc20.standardToken s.self_) s.world c s.self_ v)) >>= _) =
        _ <$> lift (Verif.Wrapper.liftSafe (SafeErc20.safeTransferFrom (SafeErc20.standardToken s.self_) s.world c s.self_ v) >>= _)
      cases Verif.Wrapper.liftSafe (SafeErc20.safeTransferFrom (SafeErc20.standardToken s.self_) s.world c s.self_ v) with
      | error e => rfl
      | ok t =>
        show (lift (Verif.Wrapper.liftErc20 (Erc20.mint s.token a v)) >>= _) =
          _ <$> lift (Verif.Wrapper.liftErc20 (Erc20.mint s.token a v) >>= _)
        cases Verif.Wrapper.liftErc20 (Erc20.mint s.token a v) <;> rfl

theorem withdrawTo_std (s : State Erc20.State) (c a : Address) (v : U256) :
    withdrawTo (tokenWorld D m s.underlying) keccak256 s c a v =
      ofModel s.underlying s.decimals <$> lift (Verif.Wrapper.withdrawTo (toModel s) c a v) := by
  unfold withdrawTo Verif.Wrapper.withdrawTo
  rw [Vault.token_std, settled_std]
  show (if a = s.self_ then _ else _) = _ <$> lift (if a = s.self_ then _ else _)
  split
  · rfl
  · show (lift (Verif.Wrapper.liftErc20 (Erc20.burnInternal s.token c v)) >>= _) =
      _ <$> lift (Verif.Wrapper.liftErc20 (Erc20.burnInternal s.token c v) >>= _)
    cases Verif.Wrapper.liftErc20 (Erc20.burnInternal s.token c v) with
    | error e => rfl
    | ok u =>
      show (lift (Verif.Wrapper.liftSafe (SafeErc20.safeTransfer (SafeErc20.standardToken s.self_) s.world a v)) >>= _) =
        _ <$> lift (Verif.Wrapper.liftSafe (SafeErc20.safeTransfer (SafeErc20.standardToken s.self_) s.world a v) >>= _)
      cases Verif.Wrapper.liftSafe (SafeErc20.safeTransfer (SafeErc20.standardToken s.self_) s.world a v) <;> rfl

/-- The call in the model of C17 and C18. -/
def Op.model : Op → Verif.Wrapper.Call
  | .depositFor a v => .depositFor a v
  | .withdrawTo a v => .withdrawTo a v
  | .transfer dst v => .token (.transfer dst v)
  | .transferFrom src dst v => .token (.transferFrom src dst v)
  | .approve p v => .token (.approve p v)

theorem act_std (s : State Erc20.State) (c : Address) (op : Op) (hc : c ≠ s.self_) :
    act (tokenWorld D m s.underlying) c s op =
      ofModel s.underlying s.decimals <$> lift (Verif.Wrapper.exec (toModel s) (c, op.model)) := by
  have hn : ¬ c = (toModel s).self_ := hc
  have share : ∀ x : Except Erc20.Err Erc20.State,
      inner (fun e => Err.wrapper (.erc20 e)) (fun u => { s with token := u }) x =
        ofModel s.underlying s.decimals <$> lift (Verif.Wrapper.liftErc20 x >>= fun u => pure { toModel s with token := u }) := by
    rintro (e | u) <;> rfl
  unfold Verif.Wrapper.exec
  rw [if_neg hn]
  cases op with
  | depositFor a v => exact depositFor_std D m s c a v
  | withdrawTo a v => exact withdrawTo_std D m s c a v
  | transfer dst v => exact share _
  | transferFrom src dst v => exact share _
  | approve p v => exact share _

theorem step_std (s : State Erc20.State) (x : Tx) (hc : x.sender ≠ s.self_) :
    ∃ ks, toModel (wrapperAfter (tokenWorld D m s.underlying) D s [x.step D m]) = Verif.Wrapper.run (toModel s) ks ∧
      ∀ k ∈ ks, ∀ a, k.2 ≠ .recover a := by
  have one : ∀ {op t}, Verif.Wrapper.exec (toModel s) op = .ok t → t = Verif.Wrapper.run (toModel s) [op] := by
    intro op t h
    show t = stepOf Verif.Wrapper.exec (toModel s) op
    rw [stepOf_ok h]
  cases x with
  | contract c v i =>
    show ∃ ks, toModel ((wrapper (tokenWorld D m s.underlying) D c s v i).after s) = _ ∧ _
    rcases C106_wrapper_no_other_effect (tokenWorld D m s.underlying) D c s v i with ⟨d, h⟩ | ⟨d, h⟩ | ⟨op, s', r, he, h, _, _⟩
    · rw [h]; exact ⟨[], rfl, by simp⟩
    · rw [h]; exact ⟨[], rfl, by simp⟩
    · rw [h]
      have he := (giving_eq_ok.mp he).1
      rw [act_std D m s c op hc] at he
      cases hx : Verif.Wrapper.exec (toModel s) (c, op.model) with
      | error e => rw [hx] at he; cases he
      | ok t =>
        rw [hx] at he
        cases he
        refine ⟨[(c, op.model)], one hx, ?_⟩
        intro k hk a
        rw [List.mem_singleton.mp hk]
        cases op <;> simp [Op.model]
  | token c v i =>
    show ∃ ks, toModel { s with world := (Entry.basicTokenEntry keccak256 D m c s.world v i).after s.world } = _ ∧ _
    rcases Props.Contracts.BasicTokenContract.C103_basic_token_no_other_effect D m c s.world v i with
      ⟨d, h⟩ | ⟨d, h⟩ | ⟨op, s', r, he, h, _, _⟩
    · have h : Entry.basicTokenEntry keccak256 D m c s.world v i = _ := h
      rw [h]; exact ⟨[], rfl, by simp⟩
    · have h : Entry.basicTokenEntry keccak256 D m c s.world v i = _ := h
      rw [h]; exact ⟨[], rfl, by simp⟩
    · have h : Entry.basicTokenEntry keccak256 D m c s.world v i = _ := h
      rw [h]
      refine ⟨[(c, .underlying op.call)], one ?_, by simp⟩
      unfold Verif.Wrapper.exec
      rw [if_neg (show ¬ c = (toModel s).self_ from hc)]
      show (Verif.Wrapper.liftErc20 (Erc20.exec s.world (c, op.call)) >>= _) = _
      rw [(giving_eq_ok.mp he).1]
      rfl

/-- **C106** The wrapper and its underlying token, that of `examples/basic/token`, both as contracts on bytes: after any list of
raw transactions to the two, from any senders but the wrapper itself, the two are in a state of the model of C17 and C18, reached
by some list of its operations without `recover` (which the example does not offer). -/
theorem C106_system (s : State Erc20.State) (txs : List Tx) (h : ∀ x ∈ txs, x.sender ≠ s.self_) :
    ∃ ks, toModel (wrapperAfter (tokenWorld D m s.underlying) D s (txs.map (Tx.step D m))) = Verif.Wrapper.run (toModel s) ks ∧
      ∀ k ∈ ks, ∀ a, k.2 ≠ .recover a := by
  induction txs generalizing s with
  | nil => exact ⟨[], rfl, by simp⟩
  | cons x l ih =>
    obtain ⟨ks, hk, hn⟩ := step_std D m s x (h x (by simp))
    have hf := C106_fixed (tokenWorld D m s.underlying) D [x.step D m] s
    simp only at hf
    generalize hs' : wrapperAfter (tokenWorld D m s.underlying) D s [x.step D m] = s' at *
    obtain ⟨ls, hl, hm⟩ := ih s' fun y hy => by rw [hf.1]; exact h y (by simp [hy])
    rw [hf.2.1] at hl
    refine ⟨ks ++ ls, ?_, fun k hk => (List.mem_append.mp hk).elim (hn k) (hm k)⟩
    have e : wrapperAfter (tokenWorld D m s.underlying) D s ((x :: l).map (Tx.step D m)) =
        wrapperAfter (tokenWorld D m s.underlying) D s' (l.map (Tx.step D m)) := by rw [← hs']; rfl
    rw [e, hl, hk]
    exact (runOf_append _ _ _ _).symm

/-- What the underlying token answers anyone about a balance. -/
theorem token_balance (asker a : Address) (t : Erc20.State) :
    answer (Entry.basicTokenEntry keccak256 D m) asker t "balanceOf(address)" [.address a] = some (values [.uint256 (t.balances a)]) := by
  unfold answer
  have h : Entry.basicTokenEntry keccak256 D m asker t 0#256 (message "balanceOf(address)" [.address a]) = _ :=
    (Props.Contracts.BasicTokenContract.C103_basic_token_views D m asker t a 0#160).2.1
  rw [h]; rfl

/-- **C106** Seen from outside, with bytes only: for a new wrapper over this token, after any transactions, what the underlying
token answers for the balance of the wrapper is at least what the wrapper answers for its total supply. -/
theorem C106_backed (self_ under : Address) (d : U8) (h0 : self_ ≠ ZERO) (txs : List Tx) (h : ∀ x ∈ txs, x.sender ≠ self_)
    (asker asker' : Address) :
    let W := tokenWorld D m under
    let s := wrapperAfter W D (newWrapper self_ under d Erc20.init) (txs.map (Tx.step D m))
    ∃ held supply : U256,
      answer (Entry.basicTokenEntry keccak256 D m) asker s.world "balanceOf(address)" [.address self_] =
        some (values [.uint256 held]) ∧
      answer (wrapper W D) asker' s "totalSupply()" [] = some (values [.uint256 supply]) ∧
      supply.toNat ≤ held.toNat := by
  intro W s
  obtain ⟨ks, hk, _⟩ := C106_system D m (newWrapper self_ under d Erc20.init) txs h
  have hf : s.self_ = self_ := (C106_fixed W D (txs.map (Tx.step D m)) (newWrapper self_ under d Erc20.init)).1
  refine ⟨s.world.balances self_, s.token.totalSupply, token_balance D m asker self_ s.world, ?_, ?_⟩
  · unfold answer
    rw [(C106_wrapper_views W D asker' s 0#160 0#160).2.2.1]; rfl
  · have := Props.Wrapper.C17_always_backed (toModel s) ⟨self_, ks, h0, hk⟩
    rw [← hf]
    exact this

/-- A call of one of the two contracts, by its sender. -/
inductive Msg where
  | wrapper (caller : Address) (op : Op)
  | token (caller : Address) (op : Props.Contracts.BasicTokenContract.Op)

/-- The call as bytes. -/
def Msg.tx : Msg → Tx
  | .wrapper c op => .contract c 0#256 (message (abi op).1 (abi op).2)
  | .token c op => .token c 0#256 (message (Props.Contracts.BasicTokenContract.abi op).1 (Props.Contracts.BasicTokenContract.abi op).2)

/-- The call in the model of C17 and C18. -/
def Msg.model : Msg → Address × Verif.Wrapper.Call
  | .wrapper c op => (c, op.model)
  | .token c op => (c, .underlying op.call)

set_option maxRecDepth 100000 in
/-- **C106** Any calls of the wrapper and the token, sent as the ABI defines them by anyone but the wrapper, have exactly the
effect of the operations of the model of C17 and C18. -/
theorem C106_system_sends (s : State Erc20.State) (l : List Msg) (h : ∀ x ∈ l, x.tx.sender ≠ s.self_) :
    wrapperAfter (tokenWorld D m s.underlying) D s ((l.map Msg.tx).map (Tx.step D m)) =
      ofModel s.underlying s.decimals (Verif.Wrapper.run (toModel s) (l.map Msg.model)) := by
  induction l generalizing s with
  | nil => rfl
  | cons x l ih =>
    have e : wrapperAfter (tokenWorld D m s.underlying) D s [x.tx.step D m] =
        ofModel s.underlying s.decimals (stepOf Verif.Wrapper.exec (toModel s) x.model) := by
      have hc := h x (by simp)
      cases x with
      | wrapper c op =>
        show (wrapper (tokenWorld D m s.underlying) D c s 0#256 (message (abi op).1 (abi op).2)).after s = _
        rw [C106_wrapper_call]
        unfold exec
        rw [act_std D m s c op hc]
        show _ = ofModel s.underlying s.decimals (stepOf Verif.Wrapper.exec (toModel s) (c, op.model))
        unfold stepOf
        cases Verif.Wrapper.exec (toModel s) (c, op.model) <;> rfl
      | token c op =>
        have hl : (message (Props.Contracts.BasicTokenContract.abi op).1 (Props.Contracts.BasicTokenContract.abi op).2).length < 2 ^ 256 := by
          cases op <;>
            exact words_lt _ _ (by simp [Props.Contracts.BasicTokenContract.abi, arg]) (by simp [Props.Contracts.BasicTokenContract.abi])
        have hx : Entry.basicTokenEntry keccak256 D m c s.world 0#256 _ = _ :=
          Props.Contracts.BasicTokenContract.C103_basic_token_call D m c s.world op hl
        show ({ s with world := (Entry.basicTokenEntry keccak256 D m c s.world 0#256 _).after s.world } : State Erc20.State) = _
        rw [hx]
        show _ = ofModel s.underlying s.decimals (stepOf Verif.Wrapper.exec (toModel s) (c, .underlying op.call))
        have he : Verif.Wrapper.exec (toModel s) (c, .underlying op.call) =
            (Verif.Wrapper.liftErc20 (Erc20.exec s.world (c, op.call)) >>= fun t => pure { toModel s with underlying := t }) := by
          unfold Verif.Wrapper.exec
          rw [if_neg (show ¬ c = (toModel s).self_ from hc)]
          rfl
        unfold stepOf Props.Contracts.BasicTokenContract.exec
        rw [he]
        cases Erc20.exec s.world (c, op.call) <;> rfl
    have hf := C106_fixed (tokenWorld D m s.underlying) D [x.tx.step D m] s
    simp only at hf
    show wrapperAfter (tokenWorld D m s.underlying) D (wrapperAfter (tokenWorld D m s.underlying) D s [x.tx.step D m])
      ((l.map Msg.tx).map (Tx.step D m)) = _
    generalize hs' : wrapperAfter (tokenWorld D m s.underlying) D s [x.tx.step D m] = s' at *
    have := ih s' fun y hy => by rw [hf.1]; exact h y (by simp [hy])
    rw [hf.2.1, hf.2.2, e] at this
    rw [e]
    exact this

/-! ### The hypotheses are met -/

open Verif.Props.Vault (alice bob me token)

/-- Alice has 100 of the token, wraps 50, a donation of 10, Alice unwraps 20 to Bob. -/
def sample : List Msg :=
  [.token alice (.mint alice 100#256), .token alice (.approve me 50#256), .wrapper alice (.depositFor alice 50#256),
   .token alice (.transfer me 10#256), .wrapper alice (.withdrawTo bob 20#256)]

theorem sample_foreign : ∀ x ∈ sample, x.tx.sender ≠ me := by
  intro x hx
  simp only [sample, List.mem_cons, List.not_mem_nil, or_false] at hx
  rcases hx with rfl | rfl | rfl | rfl | rfl <;> decide

-- C106_system, C106_backed: the token says that the wrapper has 40, the wrapper that there are 30 wrapped tokens
example (asker : Address) :
    let s := wrapperAfter (tokenWorld D m token) D (newWrapper me token 6#8 Erc20.init) ((sample.map Msg.tx).map (Tx.step D m))
    answer (Entry.basicTokenEntry keccak256 D m) asker s.world "balanceOf(address)" [.address me] =
      some (values [.uint256 40#256]) ∧
    answer (Entry.basicTokenEntry keccak256 D m) asker s.world "balanceOf(address)" [.address bob] =
      some (values [.uint256 20#256]) ∧
    answer (wrapper (tokenWorld D m token) D) asker s "totalSupply()" [] = some (values [.uint256 30#256]) := by
  intro s
  have hs : s = ofModel token 6#8 (Verif.Wrapper.run (Verif.Wrapper.init me) (sample.map Msg.model)) :=
    C106_system_sends D m (newWrapper me token 6#8 Erc20.init) sample sample_foreign
  have b1 : s.world.balances me = 40#256 := by rw [hs]; decide +kernel
  have b2 : s.world.balances bob = 20#256 := by rw [hs]; decide +kernel
  have b3 : s.token.totalSupply = 30#256 := by rw [hs]; decide +kernel
  refine ⟨?_, ?_, ?_⟩
  · rw [token_balance, b1]
  · rw [token_balance, b2]
  · unfold answer
    rw [(C106_wrapper_views _ D asker s 0#160 0#160).2.2.1, b3]; rfl

-- C106_depositFor, C106_one_for_one: over the token that answers nothing to a transfer
example : ∃ s', wrapper Vault.quiet D alice (newWrapper me token 6#8 0) 0#256
      (message "depositFor(address,uint256)" [.address bob, .uint256 17#256]) = .returned s' (values [.bool true]) ∧
    s'.world = 1 ∧ s'.token.balances bob = 17#256 :=
  ⟨_, (C106_depositFor Vault.quiet D alice (s := newWrapper me token 6#8 0) ⟨_, _, _, _, [], rfl⟩ bob 17#256 _ _).mpr
    ⟨1, { Erc20.init with balances := upd Erc20.init.balances bob 17#256, totalSupply := 17#256, log := [.transfer ZERO bob 17#256] },
      by decide, by decide, ⟨rfl, [], rfl, .inl rfl⟩, by decide, by decide,
      ⟨by decide, fun a => by
        show (upd _ bob 17#256 a).toNat = 0 + _
        unfold upd
        split <;> rfl, rfl, rfl⟩, rfl, rfl⟩, rfl, by
    show upd Erc20.init.balances bob 17#256 bob = _
    decide +kernel⟩

-- C106_recover: the token that says 7 for every balance, over a new wrapper
example : ∃ u s', recover Vault.quiet keccak256 D (newWrapper me token 6#8 0) bob = .ok (7#256, s') ∧
    Created Erc20.init u bob 7#256 ∧ s'.token = u := by
  have c : Created Erc20.init { Erc20.init with balances := upd Erc20.init.balances bob 7#256, totalSupply := 7#256, log := [.transfer ZERO bob 7#256] }
      bob 7#256 := ⟨by decide, fun a => by
        show (upd _ bob 7#256 a).toNat = 0 + _
        unfold upd
        split <;> rfl, rfl, rfl⟩
  refine ⟨_, _, (((C106_recover Vault.quiet D (s := newWrapper me token 6#8 0) ⟨_, _, _, _, [], rfl⟩ bob).1 7#256
    (Vault.quiet_reports D _ _ _ _)).1 7#256 _).mpr ⟨by decide, .inr ⟨by decide, by decide, _, c, rfl⟩⟩, c, rfl⟩

end Verif.Props.WrapperBytes
