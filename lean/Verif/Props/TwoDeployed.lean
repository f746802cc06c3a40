import Verif.Proofs.TwoDeployed
import Verif.Props.BasicDeployed
import Verif.Props.WrapperDeployed
import Verif.Props.VaultDeployed
/-!
# C126: a wrapper or a vault and the token it holds, both as deployed, both as words of storage

`Token` is `examples/basic/token` on words.  The other contract is `examples/erc20-wrapper` or `examples/erc4626` on words, and its calls
go to the token as bytes.  `S` are the accounts that take part, the contract itself among them.
-/
namespace Verif.Props.TwoDeployed
open Verif Verif.Storage Verif.Outside Verif.Spec.TwoDeployed Verif.Spec.OnWords Verif.Proofs.TwoDeployed
open Verif.OnWords (Chained)
open Verif.Deployed (Utf8)
open Verif.Abi (Val Decoder Outcome)
open Verif.Spec.Keccak (keccak256)
open Verif.Spec.Contracts (message values)
open Verif.Spec.Outside (Tx tokenWorld newWrapper newVault)

/-! ### The wrapper -/

namespace Wrapper
open Verif.Props.WrapperBytes (abi Op act toModel)
open Verif.Proofs.TwoDeployed.Wrapper (Over)

variable {n : Nat} {S : List Address} {name symbol : List Char} {self under : Address} {decimals : U8}
  {w : Chained WrapperDeployed.Ev Token} {D : Decoder} {U : Utf8}

/-- The wrapper answers an account that asks with a number. -/
abbrev Tells (D : Decoder) (U : Utf8) (under asker : Address) (w : Chained WrapperDeployed.Ev Token) (sg : String) (args : List Val) (x : U256) :
    Prop := Spec.Contracts.answer (WrapperDeployed.run (wordsWorld D U under) keccak256 D) asker w sg args = some (values [.uint256 x])

/-- The token answers an account that asks with a number. -/
abbrev TokenTells (D : Decoder) (U : Utf8) (asker : Address) (w : Chained WrapperDeployed.Ev Token) (sg : String) (args : List Val) (x : U256) :
    Prop := Spec.Contracts.answer (BasicDeployed.entry keccak256 D U) asker w.world sg args = some (values [.uint256 x])

/-- Both contracts agree with those with mappings. -/
def Joint (S : List Address) (name symbol : List Char) (w : Chained WrapperDeployed.Ev Token) (s : Outside.Wrapper.State Erc20.State) : Prop :=
  ∃ s1, Proofs.WrapperDeployed.Agrees keccak256 S w s1 ∧ Over (Agree S name symbol) s1 s

/-- The wrapper and the token with mappings after the same transactions. -/
abbrev past (D : Decoder) (name symbol : List Char) (self under : Address) (decimals : U8) (txs : List Tx) : Outside.Wrapper.State Erc20.State :=
  Spec.Outside.wrapperAfter (tokenWorld D ⟨name, symbol⟩ under) D (newWrapper self under decimals Erc20.init)
    (txs.map (Tx.step D ⟨name, symbol⟩))

theorem over_play (h : Spec.BasicDeployed.Setting keccak256 n S name symbol) : ∀ (txs : List Tx) {s : Outside.Wrapper.State Token}
    {s' : Outside.Wrapper.State Erc20.State} (_ : Over (Agree S name symbol) s s') (_ : s.self_ ∈ S)
    (_ : ∀ x ∈ txs, About D Router.erc20WrapperExample S x),
    Over (Agree S name symbol) (Spec.Outside.wrapperAfter (wordsWorld D U under) D s (txs.map (step D U)))
      (Spec.Outside.wrapperAfter (tokenWorld D ⟨name, symbol⟩ under) D s' (txs.map (Tx.step D ⟨name, symbol⟩)))
  | [], _, _, hs, _, _ => hs
  | x :: l, s, s', hs, hm, hx => by
    have hf := WrapperBytes.C106_fixed (wordsWorld D U under) D [step D U x] s
    refine over_play h l (s := Spec.Outside.wrapperAfter (wordsWorld D U under) D s [step D U x])
      (s' := Spec.Outside.wrapperAfter (tokenWorld D ⟨name, symbol⟩ under) D s' [x.step D ⟨name, symbol⟩]) ?_ (by rw [hf.1]; exact hm)
      fun y hy => hx y (List.mem_cons_of_mem _ hy)
    have h1 := hx x List.mem_cons_self
    cases x with
    | contract c v b => exact (wrapper_step h hs hm h1).after hs
    | token c v b =>
      obtain ⟨self, u, d, k, t⟩ := s
      obtain ⟨ht, t', rfl⟩ := hs
      exact Wrapper.over ((token_same h ht h1).after ht)

theorem about_steps {txs : List Tx} (hx : ∀ x ∈ txs, About D Router.erc20WrapperExample S x) :
    ∀ y ∈ txs.map (step D U), Spec.WrapperDeployed.About keccak256 D S y := by
  intro y hy
  obtain ⟨x, hm, rfl⟩ := List.mem_map.mp hy
  have := hx x hm
  cases x with
  | contract c v b => exact this
  | token c v b => trivial

theorem joint (h : WrapperSetting n S name symbol self under decimals w) {txs : List Tx}
    (hx : ∀ x ∈ txs, About D Router.erc20WrapperExample S x) :
    Joint S name symbol (wrapperAfter D U under w txs) (past D name symbol self under decimals txs) := by
  obtain ⟨t, h1, h2⟩ := h.deployed
  exact ⟨_, Props.WrapperDeployed.play_agree h.apart _ (Proofs.WrapperDeployed.inv_deploy h.apart h2) (about_steps hx),
    over_play h.token txs (Wrapper.over (Props.BasicDeployed.start h.token h1)) h.mem hx⟩

theorem joint_self {s : Outside.Wrapper.State Erc20.State} (hj : Joint S name symbol w s) : w.self_ = s.self_ := by
  obtain ⟨s1, h1, _, t', rfl⟩ := hj
  exact Props.WrapperDeployed.self_eq h1

/-- One transaction to the wrapper. -/
theorem joint_step (h : WrapperSetting n S name symbol self under decimals w) {w' : Chained WrapperDeployed.Ev Token}
    {s : Outside.Wrapper.State Erc20.State} (hj : Joint S name symbol w' s) (hs : s.self_ ∈ S) {c : Address} {v : U256} {b : Bytes}
    (hx : Within keccak256 D Router.erc20WrapperExample S ⟨c, v, b⟩) :
    Same (Joint S name symbol) (WrapperDeployed.run (wordsWorld D U under) keccak256 D c w' v b)
      (Outside.Wrapper.run (tokenWorld D ⟨name, symbol⟩ under) keccak256 D c s v b) := by
  obtain ⟨s1, h1, h2⟩ := hj
  have hs1 : s1.self_ ∈ S := by
    obtain ⟨_, t', rfl⟩ := h2; exact hs
  have e1 := Proofs.WrapperDeployed.inv_run h.apart (wordsWorld D U under) D h1 hx
  have e2 := wrapper_step (U := U) (asset := under) h.token h2 hs1 hx
  exact same_of (e1.1.trans e2.answer) ⟨_, e1.2, e2.after h2⟩

/-- What both contracts answer. -/
theorem asks (h : WrapperSetting n S name symbol self under decimals w) {w' : Chained WrapperDeployed.Ev Token}
    {s : Outside.Wrapper.State Erc20.State} (hj : Joint S name symbol w' s) {asker a b : Address} (hc : asker ∈ S) (ha : a ∈ S) (hb : b ∈ S) :
    Tells D U under asker w' "totalSupply()" [] s.token.totalSupply ∧
    Tells D U under asker w' "balanceOf(address)" [.address a] (s.token.balances a) ∧
    Tells D U under asker w' "allowance(address,address)" [.address a, .address b] (s.token.allowances a b) ∧
    TokenTells D U asker w' "totalSupply()" [] s.world.totalSupply ∧
    TokenTells D U asker w' "balanceOf(address)" [.address a] (s.world.balances a) ∧
    TokenTells D U asker w' "allowance(address,address)" [.address a, .address b] (s.world.allowances a b) := by
  obtain ⟨s1, h1, ht, t', rfl⟩ := hj
  rw [← Props.WrapperDeployed.world_eq h1] at ht
  obtain ⟨_, _, a1, a2, a3⟩ := Props.WrapperDeployed.asks (W := wordsWorld D U under) (D := D) h.apart h1 hc ha hb
  obtain ⟨b1, b2, b3, _⟩ := Props.BasicDeployed.asks (D := D) (U := U) h.token ht hc ha hb
  exact ⟨a1, a2, a3, b1, b2, b3⟩

theorem told {w : Chained WrapperDeployed.Ev Token} {asker : Address} {sg : String} {args : List Val} {x y : U256}
    (h : Tells D U under asker w sg args x) (h' : Tells D U under asker w sg args y) : x = y :=
  Proofs.Contracts.uint256_inj (Option.some.inj (h.symm.trans h'))

theorem token_told {w : Chained WrapperDeployed.Ev Token} {asker : Address} {sg : String} {args : List Val} {x y : U256}
    (h : TokenTells D U asker w sg args x) (h' : TokenTells D U asker w sg args y) : x = y :=
  Proofs.Contracts.uint256_inj (Option.some.inj (h.symm.trans h'))

theorem past_fixed (txs : List Tx) : (past D name symbol self under decimals txs).self_ = self ∧
    (past D name symbol self under decimals txs).underlying = under := by
  have := WrapperBytes.C106_fixed (tokenWorld D ⟨name, symbol⟩ under) D (txs.map (Tx.step D ⟨name, symbol⟩))
    (newWrapper self under decimals Erc20.init)
  exact ⟨this.1, this.2.1⟩

theorem past_reachable (h0 : self ≠ ZERO) {txs : List Tx} (hs : ∀ x ∈ txs, x.sender ≠ self) :
    Spec.Wrapper.Reachable (toModel (past D name symbol self under decimals txs)) := by
  obtain ⟨ks, hk, _⟩ := WrapperBytes.C106_system D ⟨name, symbol⟩ (newWrapper self under decimals Erc20.init) txs hs
  exact ⟨self, ks, h0, hk⟩

/-- **C126** Bytes in, bytes out, with nothing between but the words of two storages: after any transactions to either contract, a
transaction to either is answered with the same bytes as by the wrapper of C106 over the token of C103, and the events of both contracts
are the same. -/
theorem C126_wrapper_answers (h : WrapperSetting n S name symbol self under decimals w) (txs : List Tx) (tx : Spec.Contracts.Raw Address)
    (hx : ∀ x ∈ txs, About D Router.erc20WrapperExample S x) :
    let w' := wrapperAfter D U under w txs
    let s := past D name symbol self under decimals txs
    (Within keccak256 D Router.erc20WrapperExample S tx →
      Spec.Deployed.answer (WrapperDeployed.run (wordsWorld D U under) keccak256 D tx.env w' tx.value tx.input) =
        Spec.Deployed.answer (Outside.Wrapper.run (tokenWorld D ⟨name, symbol⟩ under) keccak256 D tx.env s tx.value tx.input)) ∧
    (Within keccak256 D Router.basicToken S tx →
      Spec.Deployed.answer (BasicDeployed.entry keccak256 D U tx.env w'.world tx.value tx.input) =
        Spec.Deployed.answer (Entry.basicTokenEntry keccak256 D ⟨name, symbol⟩ tx.env s.world tx.value tx.input)) ∧
    Spec.WrapperDeployed.transfers w' = s.token.log ∧ w'.world.log = s.world.log := by
  intro w' s
  have hj := joint (U := U) h hx
  refine ⟨fun hw => (joint_step h hj (by rw [(past_fixed txs).1]; exact h.mem) hw).answer, fun hw => ?_, ?_, ?_⟩
  · obtain ⟨s1, h1, ht, _⟩ := hj
    rw [← Props.WrapperDeployed.world_eq h1] at ht
    exact (token_same h.token ht hw).answer
  · obtain ⟨s1, h1, ht, t', e⟩ := hj
    exact (Props.WrapperDeployed.transfers_eq h1).trans (congrArg (fun s => s.token.log) e).symm
  · obtain ⟨s1, h1, ht, _⟩ := hj
    rw [← Props.WrapperDeployed.world_eq h1] at ht
    exact Proofs.BasicDeployed.agrees_log ht

/-- **C126** The wrapper is backed, both contracts being words of storage: after any transactions to either from anybody but the wrapper,
what the token answers for the balance of the wrapper is at least what the wrapper answers for its total supply. -/
theorem C126_backed (h : WrapperSetting n S name symbol self under decimals w) {txs : List Tx}
    (hx : ∀ x ∈ txs, About D Router.erc20WrapperExample S x) (hs : ∀ x ∈ txs, x.sender ≠ self) {asker : Address} (hc : asker ∈ S) :
    let w' := wrapperAfter D U under w txs
    ∃ held supply : U256, TokenTells D U asker w' "balanceOf(address)" [.address self] held ∧
      Tells D U under asker w' "totalSupply()" [] supply ∧ supply.toNat ≤ held.toNat := by
  intro w'
  have hj := joint (U := U) h hx
  obtain ⟨a1, _, _, _, b2, _⟩ := asks (D := D) (U := U) h hj hc h.mem hc
  refine ⟨_, _, b2, a1, ?_⟩
  have := Props.Wrapper.C17_always_backed _ (past_reachable (D := D) (name := name) (symbol := symbol) (under := under) (decimals := decimals) h.nonzero hs)
  unfold Spec.Wrapper.held at this
  rw [show (toModel (past D name symbol self under decimals txs)).self_ = self from (past_fixed txs).1] at this
  exact this

/-- What a call of the wrapper does, in terms of the model of C17 and C18. -/
theorem calls (h : WrapperSetting n S name symbol self under decimals w) {txs : List Tx}
    (hx : ∀ x ∈ txs, About D Router.erc20WrapperExample S x) {caller : Address} (hcal : caller ∈ S) (hcs : caller ≠ self) (op : Op)
    (ha : ∀ a, Val.address a ∈ (abi op).2 → a ∈ S) :
    let k := toModel (past D name symbol self under decimals txs)
    let out := WrapperDeployed.run (wordsWorld D U under) keccak256 D caller (wrapperAfter D U under w txs) 0#256 (message (abi op).1 (abi op).2)
    ((∃ w2 d, out = .returned w2 d) ↔ ∃ k', Verif.Wrapper.exec k (caller, op.model) = .ok k') ∧
    ∀ w2 d, out = .returned w2 d → ∃ s', Verif.Wrapper.exec k (caller, op.model) = .ok (toModel s') ∧ d = values [.bool true] ∧
      Joint S name symbol w2 s' := by
  intro k out
  obtain ⟨f1, f2⟩ := past_fixed (D := D) (name := name) (symbol := symbol) (self := self) (under := under) (decimals := decimals) txs
  have hj := joint (U := U) h hx
  have e := joint_step (D := D) (U := U) h hj (by rw [f1]; exact h.mem) (Props.WrapperDeployed.C120_call_within hcal op 0#256 ha)
  have hcall := WrapperBytes.C106_wrapper_call (tokenWorld D ⟨name, symbol⟩ under) D caller (past D name symbol self under decimals txs) op
  unfold WrapperBytes.wrapper WrapperBytes.exec at hcall
  rw [hcall] at e
  have hstd := WrapperBytes.act_std D ⟨name, symbol⟩ (past D name symbol self under decimals txs) caller op (by rw [f1]; exact hcs)
  rw [f2] at hstd
  rw [hstd] at e
  change Same _ out _ at e
  change ((∃ w2 d, out = .returned w2 d) ↔ ∃ k', Verif.Wrapper.exec (toModel _) (caller, op.model) = .ok k') ∧
    ∀ w2 d, out = .returned w2 d → ∃ s', Verif.Wrapper.exec (toModel _) (caller, op.model) = .ok (toModel s') ∧ _
  revert e
  cases Verif.Wrapper.exec (toModel (past D name symbol self under decimals txs)) (caller, op.model) with
  | error er =>
    intro e
    have no : ∀ w2 d, out ≠ .returned w2 d := fun w2 d ho => by rw [ho] at e; cases e
    exact ⟨⟨fun ⟨w2, d, ho⟩ => absurd ho (no w2 d), fun ⟨_, h⟩ => by cases h⟩, fun w2 d ho => absurd ho (no w2 d)⟩
  | ok k' =>
    intro e
    cases ho : out with
    | reverted d => rw [ho] at e; cases e
    | returned w2 d =>
      rw [ho] at e
      refine ⟨⟨fun _ => ⟨k', rfl⟩, fun _ => ⟨w2, d, rfl⟩⟩, fun w3 d' e' => ?_⟩
      injection e' with e1 e2
      subst e1 e2
      cases e with
      | returned d hq => exact ⟨_, rfl, rfl, hq⟩

/-- **C126** Everybody can leave: after any transactions to either contract from anybody but the wrapper, `withdrawTo(a, v)` by `caller`
goes through exactly if neither is the zero address, `a` is not the wrapper, and `caller` has `v` wrapped tokens, as the wrapper answers.
The token cannot be the obstacle.  Then the token answers `v` more for `a` and `v` fewer for the wrapper, the wrapper answers `v` fewer
for `caller` and in all, and the other balances stay, in both. -/
theorem C126_withdraw (h : WrapperSetting n S name symbol self under decimals w) {txs : List Tx}
    (hx : ∀ x ∈ txs, About D Router.erc20WrapperExample S x) (hs : ∀ x ∈ txs, x.sender ≠ self) {asker caller a : Address} (hc : asker ∈ S)
    (hcal : caller ∈ S) (hcs : caller ≠ self) (ha : a ∈ S) (v : U256) {has : U256} :
    let w' := wrapperAfter D U under w txs
    let out := WrapperDeployed.run (wordsWorld D U under) keccak256 D caller w' 0#256
      (message "withdrawTo(address,uint256)" [.address a, .uint256 v])
    Tells D U under asker w' "balanceOf(address)" [.address caller] has →
    ((∃ w2 d, out = .returned w2 d) ↔ a ≠ self ∧ caller ≠ ZERO ∧ a ≠ ZERO ∧ v.toNat ≤ has.toNat) ∧
    ∀ w2 d, out = .returned w2 d → d = values [.bool true] ∧
      (∀ x, Tells D U under asker w' "totalSupply()" [] x → ∃ x' : U256, Tells D U under asker w2 "totalSupply()" [] x' ∧
        x'.toNat + v.toNat = x.toNat) ∧
      (∀ b ∈ S, ∀ x, Tells D U under asker w' "balanceOf(address)" [.address b] x → ∃ x' : U256,
        Tells D U under asker w2 "balanceOf(address)" [.address b] x' ∧ x'.toNat + (if b = caller then v.toNat else 0) = x.toNat) ∧
      ∀ b ∈ S, ∀ x, TokenTells D U asker w' "balanceOf(address)" [.address b] x → ∃ x' : U256,
        TokenTells D U asker w2 "balanceOf(address)" [.address b] x' ∧
        x'.toNat + (if b = self then v.toNat else 0) = x.toNat + (if b = a then v.toNat else 0) := by
  intro w' out ht
  obtain ⟨f1, f2⟩ := past_fixed (D := D) (name := name) (symbol := symbol) (self := self) (under := under) (decimals := decimals) txs
  have hj := joint (U := U) h hx
  have hr := past_reachable (D := D) (name := name) (symbol := symbol) (under := under) (decimals := decimals) h.nonzero hs
  obtain ⟨c1, c2⟩ := calls (U := U) h hx hcal hcs (.withdrawTo a v) (by simp [abi, ha])
  have hn : ¬ caller = (toModel (past D name symbol self under decimals txs)).self_ := by
    show ¬ caller = (past D name symbol self under decimals txs).self_
    rw [f1]; exact hcs
  have hex : Verif.Wrapper.exec (toModel (past D name symbol self under decimals txs)) (caller, Op.model (.withdrawTo a v)) =
      Verif.Wrapper.withdrawTo (toModel (past D name symbol self under decimals txs)) caller a v := by
    unfold Verif.Wrapper.exec
    rw [if_neg hn]; rfl
  rw [hex] at c1 c2
  have hm : (toModel (past D name symbol self under decimals txs)).self_ = self := f1
  have e := told ht (asks h hj hc hcal hc).2.1
  refine ⟨c1.trans ?_, fun w2 d ho => ?_⟩
  · rw [Props.Wrapper.C18_withdraw_succeeds_iff _ hr, hm, e]; rfl
  · obtain ⟨s', e1, e2, hj2⟩ := c2 w2 d ho
    obtain ⟨_, g1, g2, g3⟩ := Props.Wrapper.C18_withdraw_effect _ _ hr caller a v e1
    rw [hm] at g2
    refine ⟨e2, fun x hxx => ?_, fun b hb x hxx => ?_, fun b hb x hxx => ?_⟩
    · rw [told hxx (asks h hj hc hc hc).1]; exact ⟨_, (asks h hj2 hc hc hc).1, g1⟩
    · rw [told hxx (asks h hj hc hb hc).2.1]; exact ⟨_, (asks h hj2 hc hb hc).2.1, g3 b⟩
    · rw [token_told hxx (asks (under := under) h hj hc hb hc).2.2.2.2.1]; exact ⟨_, (asks (under := under) h hj2 hc hb hc).2.2.2.2.1, g2 b⟩

/-- **C126** Wrapping: after any transactions to either contract from anybody but the wrapper, `depositFor(a, v)` by `caller` goes through
exactly if neither is the zero address, `a` is not the wrapper, and `caller` has `v` tokens and lets the wrapper spend `v` of them, as the
token answers.  Then the token answers `v` fewer for `caller` and `v` more for the wrapper, the wrapper answers `v` more for `a` and in
all, and the other balances stay, in both. -/
theorem C126_deposit (h : WrapperSetting n S name symbol self under decimals w) {txs : List Tx}
    (hx : ∀ x ∈ txs, About D Router.erc20WrapperExample S x) (hs : ∀ x ∈ txs, x.sender ≠ self) {asker caller a : Address} (hc : asker ∈ S)
    (hcal : caller ∈ S) (hcs : caller ≠ self) (ha : a ∈ S) (v : U256) {has may : U256} :
    let w' := wrapperAfter D U under w txs
    let out := WrapperDeployed.run (wordsWorld D U under) keccak256 D caller w' 0#256
      (message "depositFor(address,uint256)" [.address a, .uint256 v])
    TokenTells D U asker w' "balanceOf(address)" [.address caller] has →
    TokenTells D U asker w' "allowance(address,address)" [.address caller, .address self] may →
    ((∃ w2 d, out = .returned w2 d) ↔ a ≠ self ∧ caller ≠ ZERO ∧ a ≠ ZERO ∧ v.toNat ≤ may.toNat ∧ v.toNat ≤ has.toNat) ∧
    ∀ w2 d, out = .returned w2 d → d = values [.bool true] ∧
      (∀ x, Tells D U under asker w' "totalSupply()" [] x → ∃ x' : U256, Tells D U under asker w2 "totalSupply()" [] x' ∧
        x'.toNat = x.toNat + v.toNat) ∧
      (∀ b ∈ S, ∀ x, Tells D U under asker w' "balanceOf(address)" [.address b] x → ∃ x' : U256,
        Tells D U under asker w2 "balanceOf(address)" [.address b] x' ∧ x'.toNat = x.toNat + (if b = a then v.toNat else 0)) ∧
      ∀ b ∈ S, ∀ x, TokenTells D U asker w' "balanceOf(address)" [.address b] x → ∃ x' : U256,
        TokenTells D U asker w2 "balanceOf(address)" [.address b] x' ∧
        x'.toNat + (if b = caller then v.toNat else 0) = x.toNat + (if b = self then v.toNat else 0) := by
  intro w' out ht htm
  obtain ⟨f1, f2⟩ := past_fixed (D := D) (name := name) (symbol := symbol) (self := self) (under := under) (decimals := decimals) txs
  have hj := joint (U := U) h hx
  have hr := past_reachable (D := D) (name := name) (symbol := symbol) (under := under) (decimals := decimals) h.nonzero hs
  obtain ⟨c1, c2⟩ := calls (U := U) h hx hcal hcs (.depositFor a v) (by simp [abi, ha])
  have hn : ¬ caller = (toModel (past D name symbol self under decimals txs)).self_ := by
    show ¬ caller = (past D name symbol self under decimals txs).self_
    rw [f1]; exact hcs
  have hex : Verif.Wrapper.exec (toModel (past D name symbol self under decimals txs)) (caller, Op.model (.depositFor a v)) =
      Verif.Wrapper.depositFor (toModel (past D name symbol self under decimals txs)) caller a v := by
    unfold Verif.Wrapper.exec
    rw [if_neg hn]; rfl
  rw [hex] at c1 c2
  have hm : (toModel (past D name symbol self under decimals txs)).self_ = self := f1
  have e := token_told ht (asks (under := under) h hj hc hcal hc).2.2.2.2.1
  have e' := token_told htm (asks (under := under) h hj hc hcal h.mem).2.2.2.2.2
  refine ⟨c1.trans ?_, fun w2 d ho => ?_⟩
  · rw [Props.Wrapper.C18_deposit_succeeds_iff _ hr, hm, e, e']
    exact ⟨fun h => h.2, fun h => ⟨hcs, h⟩⟩
  · obtain ⟨s', e1, e2, hj2⟩ := c2 w2 d ho
    obtain ⟨_, g1, g2, g3⟩ := Props.Wrapper.C18_deposit_effect _ _ hr caller a v e1
    rw [hm] at g2
    refine ⟨e2, fun x hxx => ?_, fun b hb x hxx => ?_, fun b hb x hxx => ?_⟩
    · rw [told hxx (asks h hj hc hc hc).1]; exact ⟨_, (asks h hj2 hc hc hc).1, g1⟩
    · rw [told hxx (asks h hj hc hb hc).2.1]; exact ⟨_, (asks h hj2 hc hb hc).2.1, g3 b⟩
    · rw [token_told hxx (asks (under := under) h hj hc hb hc).2.2.2.2.1]; exact ⟨_, (asks (under := under) h hj2 hc hb hc).2.2.2.2.1, g2 b⟩

end Wrapper

/-! ### The vault -/

namespace Vault
open Verif.Props.Vault (abi Op toModel ofModel pair)
open Verif.Proofs.TwoDeployed.Vault (Over)
open Verif.Proofs.Outside (numbered)
open Verif.Outside.Vault (lift)
open Verif.Spec.Outside (Floor)
open Verif.Spec.VaultDeployed (Room)
open Verif.Spec.Erc4626 (Fits Reachable supply assetsHeld sharesOf assetsOf virtualShares)
open Verif.Erc4626 (liftErc20_ok safeTransfer_ok safeTransferFrom_ok)

variable {n : Nat} {S : List Address} {name symbol name' symbol' : List Char} {self asset : Address} {offset : U8} {t : Token}
  {w : Chained VaultDeployed.Ev Token} {D : Decoder} {U : Utf8}

/-- The vault answers an account that asks with a number. -/
abbrev Tells (D : Decoder) (U : Utf8) (asset asker : Address) (w : Chained VaultDeployed.Ev Token) (sg : String) (args : List Val) (x : U256) :
    Prop := Spec.Contracts.answer (VaultDeployed.run (wordsWorld D U asset) keccak256 D U) asker w sg args = some (values [.uint256 x])

/-- The token answers an account that asks with a number. -/
abbrev TokenTells (D : Decoder) (U : Utf8) (asker : Address) (w : Chained VaultDeployed.Ev Token) (sg : String) (args : List Val) (x : U256) :
    Prop := Spec.Contracts.answer (BasicDeployed.entry keccak256 D U) asker w.world sg args = some (values [.uint256 x])

/-- Both contracts agree with those with mappings. -/
def Joint (S : List Address) (name symbol name' symbol' : List Char) (w : Chained VaultDeployed.Ev Token)
    (s : Outside.Vault.State Erc20.State) : Prop :=
  ∃ s1, Proofs.VaultDeployed.Agrees keccak256 S name' symbol' w s1 ∧ Over (Agree S name symbol) s1 s

/-- The vault and the token with mappings after the same transactions. -/
abbrev past (D : Decoder) (name symbol name' symbol' : List Char) (self asset : Address) (offset : U8) (txs : List Tx) :
    Outside.Vault.State Erc20.State :=
  Spec.Outside.vaultAfter (tokenWorld D ⟨name, symbol⟩ asset) D ⟨name', symbol'⟩ (newVault self asset 18#8 offset Erc20.init)
    (txs.map (Tx.step D ⟨name, symbol⟩))

theorem over_play (h : Spec.BasicDeployed.Setting keccak256 n S name symbol) (m : Entry.Strings) : ∀ (txs : List Tx)
    {s : Outside.Vault.State Token} {s' : Outside.Vault.State Erc20.State} (_ : Over (Agree S name symbol) s s') (_ : s.self_ ∈ S)
    (_ : ∀ x ∈ txs, About D Router.erc4626Example S x),
    Over (Agree S name symbol) (Spec.Outside.vaultAfter (wordsWorld D U asset) D m s (txs.map (step D U)))
      (Spec.Outside.vaultAfter (tokenWorld D ⟨name, symbol⟩ asset) D m s' (txs.map (Tx.step D ⟨name, symbol⟩)))
  | [], _, _, hs, _, _ => hs
  | x :: l, s, s', hs, hm, hx => by
    have hf := Props.Vault.C105_fixed (wordsWorld D U asset) D m [step D U x] s
    refine over_play h m l (s := Spec.Outside.vaultAfter (wordsWorld D U asset) D m s [step D U x])
      (s' := Spec.Outside.vaultAfter (tokenWorld D ⟨name, symbol⟩ asset) D m s' [x.step D ⟨name, symbol⟩]) ?_ (by rw [hf.1]; exact hm)
      fun y hy => hx y (List.mem_cons_of_mem _ hy)
    have h1 := hx x List.mem_cons_self
    cases x with
    | contract c v b => exact (vault_step h hs hm h1).after hs
    | token c v b =>
      obtain ⟨self, u, d, o, k, log, t⟩ := s
      obtain ⟨ht, t', rfl⟩ := hs
      exact Proofs.TwoDeployed.Vault.over ((token_same h ht h1).after ht)

theorem about_steps {txs : List Tx} (hx : ∀ x ∈ txs, About D Router.erc4626Example S x) :
    ∀ y ∈ txs.map (step D U), Spec.VaultDeployed.About keccak256 D S y := by
  intro y hy
  obtain ⟨x, hm, rfl⟩ := List.mem_map.mp hy
  have := hx x hm
  cases x with
  | contract c v b => exact this
  | token c v b => trivial

theorem joint (h : VaultSetting n S name symbol name' symbol' self asset offset t w) {txs : List Tx}
    (hx : ∀ x ∈ txs, About D Router.erc4626Example S x) :
    Joint S name symbol name' symbol' (vaultAfter D U asset w txs) (past D name symbol name' symbol' self asset offset txs) :=
  ⟨_, Props.VaultDeployed.play_agree h.vault _ D U _ (about_steps hx),
    over_play h.token _ txs (Proofs.TwoDeployed.Vault.over (Props.BasicDeployed.start h.token h.deployed)) h.mem hx⟩

/-- One transaction to the vault. -/
theorem joint_step (h : VaultSetting n S name symbol name' symbol' self asset offset t w) {w' : Chained VaultDeployed.Ev Token}
    {s : Outside.Vault.State Erc20.State} (hj : Joint S name symbol name' symbol' w' s) (hs : s.self_ ∈ S) {c : Address} {v : U256} {b : Bytes}
    (hx : Within keccak256 D Router.erc4626Example S ⟨c, v, b⟩) :
    Same (Joint S name symbol name' symbol') (VaultDeployed.run (wordsWorld D U asset) keccak256 D U c w' v b)
      (Outside.Vault.run (tokenWorld D ⟨name, symbol⟩ asset) keccak256 D ⟨name', symbol'⟩ c s v b) := by
  obtain ⟨s1, h1, h2⟩ := hj
  have hs1 : s1.self_ ∈ S := by
    obtain ⟨_, t', rfl⟩ := h2; exact hs
  have e1 := Proofs.VaultDeployed.inv_run h.vault.apart h.vault.name_fits h.vault.symbol_fits (wordsWorld D U asset) D U h1 hx
  have e2 := vault_step (U := U) (asset := asset) (m := ⟨name', symbol'⟩) h.token h2 hs1 hx
  exact same_of (e1.1.trans e2.answer) ⟨_, e1.2, e2.after h2⟩

/-- What both contracts answer. -/
theorem asks (h : VaultSetting n S name symbol name' symbol' self asset offset t w) {w' : Chained VaultDeployed.Ev Token}
    {s : Outside.Vault.State Erc20.State} (hj : Joint S name symbol name' symbol' w' s) {asker a b : Address} (hc : asker ∈ S) (ha : a ∈ S)
    (hb : b ∈ S) :
    Tells D U asset asker w' "totalSupply()" [] s.shares.totalSupply ∧
    Tells D U asset asker w' "balanceOf(address)" [.address a] (s.shares.balances a) ∧
    Tells D U asset asker w' "allowance(address,address)" [.address a, .address b] (s.shares.allowances a b) ∧
    TokenTells D U asker w' "totalSupply()" [] s.world.totalSupply ∧
    TokenTells D U asker w' "balanceOf(address)" [.address a] (s.world.balances a) ∧
    TokenTells D U asker w' "allowance(address,address)" [.address a, .address b] (s.world.allowances a b) := by
  obtain ⟨s1, h1, ht, t', rfl⟩ := hj
  rw [← Props.VaultDeployed.world_eq h1] at ht
  obtain ⟨_, a1, a2, a3, _⟩ := Props.VaultDeployed.asks (W := wordsWorld D U asset) (D := D) (U := U) h.vault h1 hc ha hb
  obtain ⟨b1, b2, b3, _⟩ := Props.BasicDeployed.asks (D := D) (U := U) h.token ht hc ha hb
  exact ⟨a1, a2, a3, b1, b2, b3⟩

theorem told {w : Chained VaultDeployed.Ev Token} {asker : Address} {sg : String} {args : List Val} {x y : U256}
    (h : Tells D U asset asker w sg args x) (h' : Tells D U asset asker w sg args y) : x = y :=
  Proofs.Contracts.uint256_inj (Option.some.inj (h.symm.trans h'))

theorem token_told {w : Chained VaultDeployed.Ev Token} {asker : Address} {sg : String} {args : List Val} {x y : U256}
    (h : TokenTells D U asker w sg args x) (h' : TokenTells D U asker w sg args y) : x = y :=
  Proofs.Contracts.uint256_inj (Option.some.inj (h.symm.trans h'))

theorem past_fixed (txs : List Tx) : (past D name symbol name' symbol' self asset offset txs).self_ = self ∧
    (past D name symbol name' symbol' self asset offset txs).asset = asset ∧
    (past D name symbol name' symbol' self asset offset txs).offset = offset := by
  have := Props.Vault.C105_fixed (tokenWorld D ⟨name, symbol⟩ asset) D ⟨name', symbol'⟩ (txs.map (Tx.step D ⟨name, symbol⟩))
    (newVault self asset 18#8 offset Erc20.init)
  exact ⟨this.1, this.2.1, this.2.2.1⟩

theorem past_reachable (h0 : self ≠ ZERO) {txs : List Tx} (hs : ∀ x ∈ txs, x.sender ≠ self) :
    Reachable (toModel (past D name symbol name' symbol' self asset offset txs)) := by
  obtain ⟨ks, hk⟩ := Props.Vault.C105_system D ⟨name, symbol⟩ ⟨name', symbol'⟩ (newVault self asset 18#8 offset Erc20.init) txs hs
  exact ⟨self, 18#8, offset, ks, h0, hk⟩

/-- **C126** Bytes in, bytes out, with nothing between but the words of two storages: after any transactions to either contract, a
transaction to either is answered with the same bytes as by the vault of C105 over the token of C103, and the events of both contracts
are the same. -/
theorem C126_vault_answers (h : VaultSetting n S name symbol name' symbol' self asset offset t w) (txs : List Tx)
    (tx : Spec.Contracts.Raw Address) (hx : ∀ x ∈ txs, About D Router.erc4626Example S x) :
    let w' := vaultAfter D U asset w txs
    let s := past D name symbol name' symbol' self asset offset txs
    (Within keccak256 D Router.erc4626Example S tx →
      Spec.Deployed.answer (VaultDeployed.run (wordsWorld D U asset) keccak256 D U tx.env w' tx.value tx.input) =
        Spec.Deployed.answer (Outside.Vault.run (tokenWorld D ⟨name, symbol⟩ asset) keccak256 D ⟨name', symbol'⟩ tx.env s tx.value tx.input)) ∧
    (Within keccak256 D Router.basicToken S tx →
      Spec.Deployed.answer (BasicDeployed.entry keccak256 D U tx.env w'.world tx.value tx.input) =
        Spec.Deployed.answer (Entry.basicTokenEntry keccak256 D ⟨name, symbol⟩ tx.env s.world tx.value tx.input)) ∧
    Spec.VaultDeployed.transfers w' = s.shares.log ∧ Spec.VaultDeployed.deposits w' = s.log ∧ w'.world.log = s.world.log := by
  intro w' s
  have hj := joint (U := U) h hx
  refine ⟨fun hw => (joint_step h hj (by rw [(past_fixed txs).1]; exact h.mem) hw).answer, fun hw => ?_, ?_, ?_, ?_⟩
  · obtain ⟨s1, h1, ht, _⟩ := hj
    rw [← Props.VaultDeployed.world_eq h1] at ht
    exact (token_same h.token ht hw).answer
  · obtain ⟨s1, h1, ht, t', e⟩ := hj
    exact (Props.VaultDeployed.transfers_eq h1).trans (congrArg (fun s => s.shares.log) e).symm
  · obtain ⟨s1, h1, ht, t', e⟩ := hj
    exact (Props.VaultDeployed.deposits_eq h1).trans (congrArg (fun s => s.log) e).symm
  · obtain ⟨s1, h1, ht, _⟩ := hj
    rw [← Props.VaultDeployed.world_eq h1] at ht
    exact Proofs.BasicDeployed.agrees_log ht

/-- **C126** The rate never falls, both contracts being words of storage: after any transactions `txs` to either from anybody but the
vault, and any further ones `more`, the answers to `totalAssets` and `totalSupply` satisfy: `(assets + 1) / (supply + 10 ^ offset)` has
not fallen. -/
theorem C126_rate (h : VaultSetting n S name symbol name' symbol' self asset offset t w) {txs more : List Tx}
    (hx : ∀ x ∈ txs ++ more, About D Router.erc4626Example S x) (hs : ∀ x ∈ txs ++ more, x.sender ≠ self) {asker : Address} (hc : asker ∈ S) :
    let w1 := vaultAfter D U asset w txs
    let w2 := vaultAfter D U asset w (txs ++ more)
    ∃ assets supply assets' supply' : U256,
      Tells D U asset asker w1 "totalAssets()" [] assets ∧ Tells D U asset asker w1 "totalSupply()" [] supply ∧
      Tells D U asset asker w2 "totalAssets()" [] assets' ∧ Tells D U asset asker w2 "totalSupply()" [] supply' ∧
      (assets.toNat + 1) * (supply'.toNat + 10 ^ offset.toNat) ≤ (assets'.toNat + 1) * (supply.toNat + 10 ^ offset.toNat) := by
  intro w1 w2
  have h1 := joint (U := U) h fun x hm => hx x (List.mem_append_left _ hm)
  have h2 := joint (U := U) h hx
  obtain ⟨a, s, a', s', k1, k2, k3, k4, k5⟩ := Props.Vault.C105_rate D ⟨name, symbol⟩ ⟨name', symbol'⟩ self asset 18#8 offset h.nonzero
    txs more hs asker asker
  have q := Props.VaultDeployed.question_within (D := D) (asker := asker) 0#256 hc hc hc
  have ask {l : List Tx} {w3 : Chained VaultDeployed.Ev Token} {sg : String} (hj : Joint S name symbol name' symbol' w3
      (past D name symbol name' symbol' self asset offset l)) (hm : (sg, []) ∈ Props.VaultDeployed.Questions asker asker 0#256) :=
    (joint_step (U := U) h hj (by rw [(past_fixed l).1]; exact h.mem) (q _ hm)).reply
  exact ⟨a, s, a', s', (ask h1 (by simp [Props.VaultDeployed.Questions])).trans k1, (ask h1 (by simp [Props.VaultDeployed.Questions])).trans k2,
    (ask h2 (by simp [Props.VaultDeployed.Questions])).trans k3, (ask h2 (by simp [Props.VaultDeployed.Questions])).trans k4, k5⟩

/-- What a call of the vault does, in terms of the model of C19 to C24. -/
theorem calls (h : VaultSetting n S name symbol name' symbol' self asset offset t w) {txs : List Tx}
    (hx : ∀ x ∈ txs, About D Router.erc4626Example S x) {caller : Address} (hcal : caller ∈ S) (op : Op)
    (ha : ∀ a, Val.address a ∈ (abi op).2 → a ∈ S) {x : Except Erc4626.Err (U256 × Erc4626.State)}
    (hop : Props.Vault.exec (tokenWorld D ⟨name, symbol⟩ asset) D caller (past D name symbol name' symbol' self asset offset txs) op =
      numbered (pair asset <$> lift x)) :
    let out := VaultDeployed.run (wordsWorld D U asset) keccak256 D U caller (vaultAfter D U asset w txs) 0#256 (message (abi op).1 (abi op).2)
    (∀ p, x = .ok p → ∃ w2, out = .returned w2 (values [.uint256 p.1])) ∧
    ∀ w2 d, out = .returned w2 d → ∃ p, x = .ok p ∧ d = values [.uint256 p.1] ∧ Joint S name symbol name' symbol' w2 (ofModel asset p.2) := by
  intro out
  have hj := joint (U := U) h hx
  have e := joint_step (D := D) (U := U) h hj (by rw [(past_fixed txs).1]; exact h.mem)
    (Props.VaultDeployed.C121_call_within hcal op 0#256 ha)
  have hcall := Props.Vault.C105_vault_call (tokenWorld D ⟨name, symbol⟩ asset) D ⟨name', symbol'⟩ caller
    (past D name symbol name' symbol' self asset offset txs) op
  unfold Props.Vault.vault at hcall
  rw [hcall, hop] at e
  change Same _ out _ at e
  revert e
  cases x with
  | error er =>
    intro e
    exact ⟨fun p hp => (by cases hp), fun w2 d ho => (by rw [ho] at e; cases e)⟩
  | ok p =>
    intro e
    cases ho : out with
    | reverted d => rw [ho] at e; cases e
    | returned w2 d =>
      rw [ho] at e
      cases e with
      | returned d hq =>
        refine ⟨fun p' hp => ⟨w2, ?_⟩, fun w3 d' e' => ?_⟩
        · cases hp; rfl
        · injection e' with e1 e2
          subst e1 e2
          exact ⟨p, rfl, rfl, hq⟩

/-- When `deposit` of the model goes through. -/
theorem deposit_iff {s : Erc4626.State} (hs : Reachable s) {c r : Address} {a x : U256} :
    (∃ s', Erc4626.deposit s c a r = .ok (x, s')) ↔
      Fits s ∧ Floor (a.toNat * (supply s + virtualShares s)) (assetsHeld s + 1) x.toNat ∧ c ≠ ZERO ∧ r ≠ ZERO ∧
      a.toNat ≤ (s.asset.allowances c s.self_).toNat ∧ a.toNat ≤ assetsOf s c ∧ supply s + x.toNat < 2 ^ 256 := by
  have h0 := (Erc4626.wf_reachable hs).self_
  have hd : (∃ s', Erc4626.depositInternal s c r a x = .ok s') ↔ (∃ as, Erc20.transferFrom s.asset s.self_ c s.self_ a = .ok as) ∧
      ∃ k, Erc20.mint s.shares r x = .ok k := by
    unfold Erc4626.depositInternal
    simp only [bind_eq_ok, safeTransferFrom_ok, liftErc20_ok]
    exact ⟨fun ⟨_, as, h1, k, h2, _⟩ => ⟨⟨as, h1⟩, k, h2⟩, fun ⟨⟨as, h1⟩, k, h2⟩ => ⟨_, as, h1, k, h2, rfl⟩⟩
  have hp := (Props.Erc4626.C19_shares_floor s a x)
  simp only [Erc4626.deposit_ok, hp.2, hp.1, exists_and_left, hd, Props.C03_transferFrom_succeeds_iff s.asset h0, Proofs.Outside.mint_iff]
  constructor
  · rintro ⟨⟨f, g⟩, ⟨c1, _, c2, c3⟩, c4, c5⟩
    exact ⟨f, g, c1, c4, c2, c3, c5⟩
  · rintro ⟨f, g, c1, c4, c2, c3, c5⟩
    exact ⟨⟨f, g⟩, ⟨c1, h0, c2, c3⟩, c4, c5⟩

/-- When `redeem` of the model goes through. -/
theorem redeem_iff {s : Erc4626.State} (hs : Reachable s) {c r o : Address} (hc : c ≠ ZERO) {a x : U256} :
    (∃ s', Erc4626.redeem s c x r o = .ok (a, s')) ↔
      Fits s ∧ Floor (x.toNat * (assetsHeld s + 1)) (supply s + virtualShares s) a.toNat ∧ o ≠ ZERO ∧ r ≠ ZERO ∧
      x.toNat ≤ sharesOf s o ∧ (c = o ∨ x.toNat ≤ (s.shares.allowances o c).toNat) := by
  have hw := Erc4626.wf_reachable hs
  have hp := Props.Erc4626.C19_assets_floor s x a
  constructor
  · rintro ⟨s', h⟩
    obtain ⟨h1, h2, h3⟩ := Erc4626.redeem_ok.mp h
    obtain ⟨f, g⟩ := hp.1.mp (hp.2 ▸ h2)
    have e := (Erc4626.withdrawInternal_effect hw h3).1
    refine ⟨f, g, e.owner_ne, e.receiver_ne, h1, ?_⟩
    rcases e.allowance with c1 | c1 | c1
    · exact .inl c1
    · exact .inr (by rw [c1, maxU256_toNat]; have := x.isLt; omega)
    · exact .inr c1
  · rintro ⟨f, g, c1, c2, c3, c4⟩
    obtain ⟨a', s', h⟩ := Props.Erc4626.C23_redeem_succeeds s hs f o r x c1 c2 c3
    obtain ⟨h1, h2, h3⟩ := Erc4626.redeem_ok.mp h
    have h4 : Erc4626.previewRedeem s x = .ok a := by rw [hp.2]; exact hp.1.mpr ⟨f, g⟩
    cases h2.symm.trans h4
    unfold Erc4626.withdrawInternal at h3
    simp only [bind_eq_ok, safeTransfer_ok, liftErc20_ok] at h3
    obtain ⟨_, _, _, _, as, h5, _⟩ := h3
    obtain ⟨u1, s1, hb⟩ : ∃ u1, Erc4626.spendFor s c o x = .ok u1 ∧ u1.balances = s.shares.balances := by
      unfold Erc4626.spendFor
      by_cases e : c = o
      · exact ⟨_, by rw [if_neg (not_not.mpr e)], rfl⟩
      · rw [if_pos e]
        simp only [liftErc20_ok]
        by_cases hm : s.shares.allowances o c = maxU256
        · exact ⟨_, Erc20.spend_eq_ok.mpr (.inl ⟨hm, rfl⟩), rfl⟩
        · exact ⟨_, Erc20.spend_eq_ok.mpr (.inr ⟨hm, c4.resolve_left e, c1, hc, rfl⟩), rfl⟩
    obtain ⟨u2, s2⟩ := Proofs.Outside.burn_iff.mpr (⟨c1, hb ▸ c3⟩ : o ≠ ZERO ∧ x.toNat ≤ (u1.balances o).toNat)
    have : ∃ s', Erc4626.withdrawInternal s c r o a x = .ok s' := by
      unfold Erc4626.withdrawInternal
      simp only [bind_eq_ok, safeTransfer_ok, liftErc20_ok]
      exact ⟨_, u1, s1, u2, s2, as, h5, rfl⟩
    obtain ⟨s'', h6⟩ := this
    exact ⟨s'', Erc4626.redeem_ok.mpr ⟨c3, h4, h6⟩⟩

/-- **C126** Depositing: after any transactions to either contract from anybody but the vault, `deposit(a, r)` by `caller` goes through
and answers `x` exactly if the numbers fit, `x` is `a * (total + 10 ^ offset) / (held + 1)` rounded down, neither address is zero, `caller`
has `a` of the asset and lets the vault spend `a` of it, as the token answers, and the shares can be counted.  Then the token answers `a`
fewer for `caller` and `a` more for the vault, the vault answers `x` more for `r` and in all, and the other balances stay, in both. -/
theorem C126_vault_deposit (h : VaultSetting n S name symbol name' symbol' self asset offset t w) {txs : List Tx}
    (hx : ∀ x ∈ txs, About D Router.erc4626Example S x) (hs : ∀ x ∈ txs, x.sender ≠ self) {asker caller r : Address} (hc : asker ∈ S)
    (hcal : caller ∈ S) (hcs : caller ≠ self) (hr : r ∈ S) (a : U256) {total held has may : U256} :
    let w' := vaultAfter D U asset w txs
    let out := VaultDeployed.run (wordsWorld D U asset) keccak256 D U caller w' 0#256
      (message "deposit(uint256,address)" [.uint256 a, .address r])
    Tells D U asset asker w' "totalSupply()" [] total → TokenTells D U asker w' "balanceOf(address)" [.address self] held →
    TokenTells D U asker w' "balanceOf(address)" [.address caller] has →
    TokenTells D U asker w' "allowance(address,address)" [.address caller, .address self] may →
    (∀ x : U256, (∃ w2, out = .returned w2 (values [.uint256 x])) ↔
      Room total offset held ∧ Floor (a.toNat * (total.toNat + 10 ^ offset.toNat)) (held.toNat + 1) x.toNat ∧ caller ≠ ZERO ∧ r ≠ ZERO ∧
      a.toNat ≤ may.toNat ∧ a.toNat ≤ has.toNat ∧ total.toNat + x.toNat < 2 ^ 256) ∧
    ∀ w2 d, out = .returned w2 d → ∃ x : U256, d = values [.uint256 x] ∧
      (∀ v, Tells D U asset asker w' "totalSupply()" [] v → ∃ v' : U256, Tells D U asset asker w2 "totalSupply()" [] v' ∧
        v'.toNat = v.toNat + x.toNat) ∧
      (∀ b ∈ S, ∀ v, Tells D U asset asker w' "balanceOf(address)" [.address b] v → ∃ v' : U256,
        Tells D U asset asker w2 "balanceOf(address)" [.address b] v' ∧ v'.toNat = v.toNat + (if b = r then x.toNat else 0)) ∧
      ∀ b ∈ S, ∀ v, TokenTells D U asker w' "balanceOf(address)" [.address b] v → ∃ v' : U256,
        TokenTells D U asker w2 "balanceOf(address)" [.address b] v' ∧
        v'.toNat + (if b = caller then a.toNat else 0) = v.toNat + (if b = self then a.toNat else 0) := by
  intro w' out ht hh hb hm
  obtain ⟨f1, f2, f3⟩ := past_fixed (D := D) (name := name) (symbol := symbol) (name' := name') (symbol' := symbol') (self := self)
    (asset := asset) (offset := offset) txs
  have hj := joint (U := U) h hx
  have hre := past_reachable (D := D) (name := name) (symbol := symbol) (name' := name') (symbol' := symbol') (asset := asset)
    (offset := offset) h.nonzero hs
  have hop := Props.Vault.deposit_std D ⟨name, symbol⟩ (past D name symbol name' symbol' self asset offset txs) caller a r
  rw [f2] at hop
  obtain ⟨c1, c2⟩ := calls (U := U) h hx hcal (.deposit a r) (by simp [abi, hr]) (congrArg numbered hop)
  have hself : (toModel (past D name symbol name' symbol' self asset offset txs)).self_ = self := f1
  have e1 := told ht (asks h hj hc hc hc).1
  have e2 := token_told hh (asks (asset := asset) h hj hc h.mem hc).2.2.2.2.1
  have e3 := token_told hb (asks (asset := asset) h hj hc hcal hc).2.2.2.2.1
  have e4 := token_told hm (asks (asset := asset) h hj hc hcal h.mem).2.2.2.2.2
  refine ⟨fun x => ⟨fun ⟨w2, ho⟩ => ?_, fun hk => ?_⟩, fun w2 d ho => ?_⟩
  · obtain ⟨⟨y, s'⟩, k1, k2, _⟩ := c2 _ _ ho
    cases Proofs.Contracts.uint256_inj k2
    have := (deposit_iff hre).mp ⟨s', k1⟩
    simp only [Fits, supply, assetsHeld, assetsOf, virtualShares, hself] at this
    change _ ∧ Floor (_ * (_ + 10 ^ (past D name symbol name' symbol' self asset offset txs).offset.toNat)) _ _ ∧ _ at this
    rw [show (toModel (past D name symbol name' symbol' self asset offset txs)).offset = offset from f3, f3] at this
    subst e1 e2 e3 e4
    exact this
  · obtain ⟨s', k⟩ := (deposit_iff hre (c := caller) (r := r) (a := a) (x := x)).mpr (by
      simp only [Fits, supply, assetsHeld, assetsOf, virtualShares, hself]
      rw [show (toModel (past D name symbol name' symbol' self asset offset txs)).offset = offset from f3]
      subst e1 e2 e3 e4
      exact hk)
    exact c1 (x, s') k
  · obtain ⟨⟨x, s'⟩, k1, k2, hj2⟩ := c2 _ _ ho
    obtain ⟨_, _, g1, g2, g3, _⟩ := Props.Erc4626.C20_deposit _ s' hre caller r a x (by rw [hself]; exact hcs) k1
    rw [hself] at g1
    refine ⟨x, k2, fun v hv => ?_, fun b hb v hv => ?_, fun b hb v hv => ?_⟩
    · rw [told hv (asks h hj hc hc hc).1]; exact ⟨_, (asks h hj2 hc hc hc).1, g2⟩
    · rw [told hv (asks h hj hc hb hc).2.1]; exact ⟨_, (asks h hj2 hc hb hc).2.1, g3 b⟩
    · rw [token_told hv (asks (asset := asset) h hj hc hb hc).2.2.2.2.1]
      exact ⟨_, (asks (asset := asset) h hj2 hc hb hc).2.2.2.2.1, g1 b⟩

/-- **C126** Everybody can leave: after any transactions to either contract from anybody but the vault, `redeem(x, r, o)` by `caller`, who
is not the zero address, goes through and answers `a` exactly if the numbers fit, `a` is `x * (held + 1) / (total + 10 ^ offset)` rounded
down, neither `o` nor `r` is zero, `o` has `x` shares, and `caller` is `o` or may spend `x` of them.  The token cannot be the obstacle.
Then the token answers `a` more for `r` and `a` fewer for the vault, the vault answers `x` fewer for `o` and in all, and the other
balances stay, in both. -/
theorem C126_vault_redeem (h : VaultSetting n S name symbol name' symbol' self asset offset t w) {txs : List Tx}
    (hx : ∀ x ∈ txs, About D Router.erc4626Example S x) (hs : ∀ x ∈ txs, x.sender ≠ self) {asker caller r o : Address} (hc : asker ∈ S)
    (hcal : caller ∈ S) (h0 : caller ≠ ZERO) (hr : r ∈ S) (ho : o ∈ S) (x : U256) {total held has may : U256} :
    let w' := vaultAfter D U asset w txs
    let out := VaultDeployed.run (wordsWorld D U asset) keccak256 D U caller w' 0#256
      (message "redeem(uint256,address,address)" [.uint256 x, .address r, .address o])
    Tells D U asset asker w' "totalSupply()" [] total → TokenTells D U asker w' "balanceOf(address)" [.address self] held →
    Tells D U asset asker w' "balanceOf(address)" [.address o] has →
    Tells D U asset asker w' "allowance(address,address)" [.address o, .address caller] may →
    (∀ a : U256, (∃ w2, out = .returned w2 (values [.uint256 a])) ↔
      Room total offset held ∧ Floor (x.toNat * (held.toNat + 1)) (total.toNat + 10 ^ offset.toNat) a.toNat ∧ o ≠ ZERO ∧ r ≠ ZERO ∧
      x.toNat ≤ has.toNat ∧ (caller = o ∨ x.toNat ≤ may.toNat)) ∧
    ∀ w2 d, out = .returned w2 d → ∃ a : U256, d = values [.uint256 a] ∧
      (∀ v, Tells D U asset asker w' "totalSupply()" [] v → ∃ v' : U256, Tells D U asset asker w2 "totalSupply()" [] v' ∧
        v'.toNat + x.toNat = v.toNat) ∧
      (∀ b ∈ S, ∀ v, Tells D U asset asker w' "balanceOf(address)" [.address b] v → ∃ v' : U256,
        Tells D U asset asker w2 "balanceOf(address)" [.address b] v' ∧ v'.toNat + (if b = o then x.toNat else 0) = v.toNat) ∧
      ∀ b ∈ S, ∀ v, TokenTells D U asker w' "balanceOf(address)" [.address b] v → ∃ v' : U256,
        TokenTells D U asker w2 "balanceOf(address)" [.address b] v' ∧
        v'.toNat + (if b = self then a.toNat else 0) = v.toNat + (if b = r then a.toNat else 0) := by
  intro w' out ht hh hb hm
  obtain ⟨f1, f2, f3⟩ := past_fixed (D := D) (name := name) (symbol := symbol) (name' := name') (symbol' := symbol') (self := self)
    (asset := asset) (offset := offset) txs
  have hj := joint (U := U) h hx
  have hre := past_reachable (D := D) (name := name) (symbol := symbol) (name' := name') (symbol' := symbol') (asset := asset)
    (offset := offset) h.nonzero hs
  have hop := Props.Vault.redeem_std D ⟨name, symbol⟩ (past D name symbol name' symbol' self asset offset txs) caller x r o
  rw [f2] at hop
  obtain ⟨c1, c2⟩ := calls (U := U) h hx hcal (.redeem x r o) (by simp [abi, hr, ho]) (congrArg numbered hop)
  have hself : (toModel (past D name symbol name' symbol' self asset offset txs)).self_ = self := f1
  have e1 := told ht (asks h hj hc hc hc).1
  have e2 := token_told hh (asks (asset := asset) h hj hc h.mem hc).2.2.2.2.1
  have e3 := told hb (asks h hj hc ho hc).2.1
  have e4 := told hm (asks h hj hc ho hcal).2.2.1
  refine ⟨fun a => ⟨fun ⟨w2, ho⟩ => ?_, fun hk => ?_⟩, fun w2 d ho => ?_⟩
  · obtain ⟨⟨y, s'⟩, k1, k2, _⟩ := c2 _ _ ho
    cases Proofs.Contracts.uint256_inj k2
    have := (redeem_iff hre h0).mp ⟨s', k1⟩
    simp only [Fits, supply, assetsHeld, sharesOf, virtualShares, hself] at this
    rw [show (toModel (past D name symbol name' symbol' self asset offset txs)).offset = offset from f3] at this
    subst e1 e2 e3 e4
    exact this
  · obtain ⟨s', k⟩ := (redeem_iff hre h0 (r := r) (o := o) (a := a) (x := x)).mpr (by
      simp only [Fits, supply, assetsHeld, sharesOf, virtualShares, hself]
      rw [show (toModel (past D name symbol name' symbol' self asset offset txs)).offset = offset from f3]
      subst e1 e2 e3 e4
      exact hk)
    exact c1 (a, s') k
  · obtain ⟨⟨a, s'⟩, k1, k2, hj2⟩ := c2 _ _ ho
    obtain ⟨_, g1, g2, g3, _⟩ := Props.Erc4626.C20_redeem _ s' hre caller r o a x k1
    rw [hself] at g1
    refine ⟨a, k2, fun v hv => ?_, fun b hb v hv => ?_, fun b hb v hv => ?_⟩
    · rw [told hv (asks h hj hc hc hc).1]; exact ⟨_, (asks h hj2 hc hc hc).1, g2⟩
    · rw [told hv (asks h hj hc hb hc).2.1]; exact ⟨_, (asks h hj2 hc hb hc).2.1, g3 b⟩
    · rw [token_told hv (asks (asset := asset) h hj hc hb hc).2.2.2.2.1]
      exact ⟨_, (asks (asset := asset) h hj2 hc hb hc).2.2.2.2.1, g1 b⟩

end Vault

/-! ### The hypotheses are met -/

section
open Verif.Props.BasicDeployed (sampleName sampleSymbol)

/-- Alice. -/
def alice : Address := 1#160
/-- The wrapper, or the vault. -/
def me : Address := 2#160
/-- The token. -/
def token : Address := 0xa55e7#160

theorem sample_wrapper : ∃ w, WrapperSetting 10 [0#160, 1#160, 2#160] sampleName sampleSymbol me token 6#8 w := by
  obtain ⟨t, ht⟩ := Props.BasicDeployed.C125_deploy keccak256 sampleName sampleSymbol
  obtain ⟨w, hw⟩ : ∃ w, Verif.WrapperDeployed.deploy keccak256 me token 6#8 t = some w :=
    Option.ne_none_iff_exists'.mp fun h => absurd ((Props.WrapperDeployed.C120_deploy keccak256 me token 6#8 t).mp h) (by decide)
  exact ⟨w, Props.BasicDeployed.sample_setting, Props.WrapperDeployed.sample_setting, by decide, by decide, t, ht, hw⟩

theorem sample_vault : ∃ t w, VaultSetting 10 [0#160, 1#160, 2#160] sampleName sampleSymbol ['V'] ['v', 'v'] me token 1#8 t w := by
  obtain ⟨t, ht⟩ := Props.BasicDeployed.C125_deploy keccak256 sampleName sampleSymbol
  obtain ⟨w, hw⟩ := Props.VaultDeployed.C121_deploy Props.VaultDeployed.sample_apart me token 1#8 t
  exact ⟨t, w, Props.BasicDeployed.sample_setting, ht, ⟨hw, by decide, by decide, Props.VaultDeployed.sample_apart⟩, by decide, by decide⟩

/-- Alice has 100 tokens, lets the wrapper spend 50, wraps 30, and sends 10 more to it. -/
def wraps : List WrapperBytes.Msg :=
  [.token alice (.mint alice 100#256), .token alice (.approve me 50#256), .wrapper alice (.depositFor alice 30#256),
   .token alice (.transfer me 10#256)]

/-- Alice has 100 tokens, lets the vault spend 80, deposits 50, and sends 10 more to it. -/
def deposits : List Props.Vault.Msg :=
  [.token alice (.mint alice 100#256), .token alice (.approve me 80#256), .vault alice (.deposit 50#256 alice),
   .token alice (.transfer me 10#256)]

theorem wraps_ok (D : Decoder) : (∀ x ∈ wraps.map WrapperBytes.Msg.tx, About D Router.erc20WrapperExample [0#160, 1#160, 2#160] x) ∧
    ∀ x ∈ wraps.map WrapperBytes.Msg.tx, x.sender ≠ me := by
  simp only [wraps, List.map_cons, List.map_nil, List.forall_mem_cons]
  refine ⟨⟨?_, ?_, ?_, ?_, by simp⟩, ⟨by decide, by decide, by decide, by decide, by simp⟩⟩
  · exact Props.BasicDeployed.C125_call_within (by decide) (.mint alice 100#256) 0#256
      (by simp [Props.Contracts.BasicTokenContract.abi]; decide)
  · exact Props.BasicDeployed.C125_call_within (by decide) (.approve me 50#256) 0#256
      (by simp [Props.Contracts.BasicTokenContract.abi]; decide)
  · exact Props.WrapperDeployed.C120_call_within (by decide) (.depositFor alice 30#256) 0#256 (by simp [WrapperBytes.abi]; decide)
  · exact Props.BasicDeployed.C125_call_within (by decide) (.transfer me 10#256) 0#256
      (by simp [Props.Contracts.BasicTokenContract.abi]; decide)

theorem deposits_ok (D : Decoder) : (∀ x ∈ deposits.map Props.Vault.Msg.tx, About D Router.erc4626Example [0#160, 1#160, 2#160] x) ∧
    ∀ x ∈ deposits.map Props.Vault.Msg.tx, x.sender ≠ me := by
  simp only [deposits, List.map_cons, List.map_nil, List.forall_mem_cons]
  refine ⟨⟨?_, ?_, ?_, ?_, by simp⟩, ⟨by decide, by decide, by decide, by decide, by simp⟩⟩
  · exact Props.BasicDeployed.C125_call_within (by decide) (.mint alice 100#256) 0#256
      (by simp [Props.Contracts.BasicTokenContract.abi]; decide)
  · exact Props.BasicDeployed.C125_call_within (by decide) (.approve me 80#256) 0#256
      (by simp [Props.Contracts.BasicTokenContract.abi]; decide)
  · exact Props.VaultDeployed.C121_call_within (by decide) (.deposit 50#256 alice) 0#256 (by simp [Props.Vault.abi]; decide)
  · exact Props.BasicDeployed.C125_call_within (by decide) (.transfer me 10#256) 0#256
      (by simp [Props.Contracts.BasicTokenContract.abi]; decide)

-- C126_wrapper_answers, C126_backed, C126_deposit, C126_withdraw: there are 30 wrapped tokens and the wrapper has 40; Alice can wrap 20
-- more, and unwrap 30
example (D : Decoder) (U : Utf8) : ∃ w, WrapperSetting 10 [0#160, 1#160, 2#160] sampleName sampleSymbol me token 6#8 w ∧
    let w' := wrapperAfter D U token w (wraps.map WrapperBytes.Msg.tx)
    Wrapper.TokenTells D U alice w' "balanceOf(address)" [.address me] 40#256 ∧
    Wrapper.Tells D U token alice w' "totalSupply()" [] 30#256 ∧
    (∃ w2 d, WrapperDeployed.run (wordsWorld D U token) keccak256 D alice w' 0#256
      (message "depositFor(address,uint256)" [.address alice, .uint256 20#256]) = .returned w2 d) ∧
    ∃ w2 d, WrapperDeployed.run (wordsWorld D U token) keccak256 D alice w' 0#256
      (message "withdrawTo(address,uint256)" [.address alice, .uint256 30#256]) = .returned w2 d := by
  obtain ⟨w, h⟩ := sample_wrapper
  obtain ⟨ha, hs⟩ := wraps_ok D
  have hj := Wrapper.joint (U := U) h ha
  have e : Wrapper.past D sampleName sampleSymbol me token 6#8 (wraps.map WrapperBytes.Msg.tx) =
      WrapperBytes.ofModel token 6#8 (Verif.Wrapper.run (Verif.Wrapper.init me) (wraps.map WrapperBytes.Msg.model)) :=
    WrapperBytes.C106_system_sends D ⟨sampleName, sampleSymbol⟩ (newWrapper me token 6#8 Erc20.init) wraps
      fun x hx => hs _ (List.mem_map_of_mem hx)
  rw [e] at hj
  obtain ⟨a1, a2, _, _, b1, b2⟩ := Wrapper.asks (D := D) (U := U) h hj (asker := alice) (a := alice) (b := me) (by decide) (by decide) (by decide)
  obtain ⟨_, _, _, _, b3, _⟩ := Wrapper.asks (D := D) (U := U) h hj (asker := alice) (a := me) (b := me) (by decide) (by decide) (by decide)
  refine ⟨w, h, ?_, ?_, ?_, ?_⟩
  · refine b3.trans ?_
    rw [show (WrapperBytes.ofModel token 6#8 (Verif.Wrapper.run (Verif.Wrapper.init me)
      (wraps.map WrapperBytes.Msg.model))).world.balances me = 40#256 by decide +kernel]
  · refine a1.trans ?_
    rw [show (WrapperBytes.ofModel token 6#8 (Verif.Wrapper.run (Verif.Wrapper.init me)
      (wraps.map WrapperBytes.Msg.model))).token.totalSupply = 30#256 by decide +kernel]
  · exact (Wrapper.C126_deposit h ha hs (by decide) (by decide) (by decide) (by decide) 20#256 b1 b2).1.mpr (by decide +kernel)
  · exact (Wrapper.C126_withdraw h ha hs (by decide) (by decide) (by decide) (by decide) 30#256 a2).1.mpr (by decide +kernel)

-- C126_vault_answers, C126_rate, C126_vault_deposit, C126_vault_redeem: there are 500 shares and the vault has 60; Alice can deposit 30
-- more for 30 * 510 / 61 = 250 shares, and redeem 500 for 500 * 61 / 510 = 59
example (D : Decoder) (U : Utf8) : ∃ t w, VaultSetting 10 [0#160, 1#160, 2#160] sampleName sampleSymbol ['V'] ['v', 'v'] me token 1#8 t w ∧
    let w' := vaultAfter D U token w (deposits.map Props.Vault.Msg.tx)
    Vault.TokenTells D U alice w' "balanceOf(address)" [.address me] 60#256 ∧
    Vault.Tells D U token alice w' "totalSupply()" [] 500#256 ∧
    (∃ w2, VaultDeployed.run (wordsWorld D U token) keccak256 D U alice w' 0#256
      (message "deposit(uint256,address)" [.uint256 30#256, .address alice]) = .returned w2 (values [.uint256 250#256])) ∧
    ∃ w2, VaultDeployed.run (wordsWorld D U token) keccak256 D U alice w' 0#256
      (message "redeem(uint256,address,address)" [.uint256 500#256, .address alice, .address alice]) =
        .returned w2 (values [.uint256 59#256]) := by
  obtain ⟨t, w, h⟩ := sample_vault
  obtain ⟨ha, hs⟩ := deposits_ok D
  have hj := Vault.joint (U := U) h ha
  have e : Vault.past D sampleName sampleSymbol ['V'] ['v', 'v'] me token 1#8 (deposits.map Props.Vault.Msg.tx) =
      Props.Vault.ofModel token (Erc4626.run (Erc4626.init me 18#8 1#8) (deposits.map Props.Vault.Msg.model)) :=
    Props.Vault.C105_system_sends D ⟨sampleName, sampleSymbol⟩ ⟨['V'], ['v', 'v']⟩ (newVault me token 18#8 1#8 Erc20.init) deposits
      fun x hx => hs _ (List.mem_map_of_mem hx)
  rw [e] at hj
  obtain ⟨a1, a2, _, _, b1, b2⟩ := Vault.asks (D := D) (U := U) h hj (asker := alice) (a := alice) (b := me) (by decide) (by decide) (by decide)
  obtain ⟨_, _, a3, _, b3, _⟩ := Vault.asks (D := D) (U := U) h hj (asker := alice) (a := me) (b := me) (by decide) (by decide) (by decide)
  obtain ⟨_, _, a4, _⟩ := Vault.asks (D := D) (U := U) h hj (asker := alice) (a := alice) (b := alice) (by decide) (by decide) (by decide)
  rw [show (Props.Vault.ofModel token (Erc4626.run (Erc4626.init me 18#8 1#8)
    (deposits.map Props.Vault.Msg.model))).shares.totalSupply = 500#256 by decide +kernel] at a1
  rw [show (Props.Vault.ofModel token (Erc4626.run (Erc4626.init me 18#8 1#8)
    (deposits.map Props.Vault.Msg.model))).world.balances me = 60#256 by decide +kernel] at b3
  refine ⟨t, w, h, b3, a1, ?_, ?_⟩
  · exact ((Vault.C126_vault_deposit h ha hs (by decide) (by decide) (by decide) (by decide) 30#256 a1 b3 b1 b2).1 250#256).mpr
      ⟨⟨by decide, by decide⟩, ⟨by decide, by decide⟩, by decide, by decide, by decide +kernel, by decide +kernel, by decide⟩
  · exact ((Vault.C126_vault_redeem h ha hs (by decide) (by decide) (by decide) (by decide) (by decide) 500#256 a1 b3 a2 a4).1 59#256).mpr
      ⟨⟨by decide, by decide⟩, ⟨by decide, by decide⟩, by decide, by decide, by decide +kernel, .inl rfl⟩

end

end Verif.Props.TwoDeployed
