import Verif.Proofs.WrapperDeployed
import Verif.Props.OnWords
import Verif.Props.GatesDeployed
import Verif.Props.WrapperBytes
import Verif.Proofs.Separate
/-!
# C120: `examples/erc20-wrapper` as deployed: constructor, calldata, storage words, and any program as the wrapped token

Nothing of the other models is left in the statements but the wrapper on words (`Verif.Model.WrapperDeployed`) and the rest of the chain
(`World` of `Verif.Model.Outside`), except that `C120_answers` compares the wrapper with that of C106.  `S` are the accounts that take
part.  Of them it is asked that the hash values of their storage cells do not coincide (`Apart`), as in C98, C104 and C115.
-/
namespace Verif.Props.WrapperDeployed
open Verif Verif.Storage Verif.Outside Verif.WrapperDeployed Verif.Spec.WrapperDeployed Verif.Spec.OnWords
open Verif.Proofs.WrapperDeployed Verif.Props.OnWords
open Verif.OnWords (Chained)
open Verif.Abi (Val Decoder Outcome)
open Verif.Spec.Keccak (keccak256)
open Verif.Spec.Contracts (Raw message values Says)
open Verif.Spec.Outside (Step Takes Created Destroyed newWrapper wrapperAfter WrapperReached tokenWorld Tx)
open Verif.Props.WrapperBytes (abi Op mem)

variable {τ : Type}

/-- What an account gets to know that asks a question: the bytes of the answer, `none` if it is refused. -/
abbrev ask (W : World τ) (D : Decoder) := Spec.Contracts.answer (run W keccak256 D)

/-- A number that is answered. -/
abbrev Tells (W : World τ) (D : Decoder) (asker : Address) (w : Chained Ev τ) (sg : String) (args : List Val) (x : U256) : Prop :=
  ask W D asker w sg args = some (values [.uint256 x])

/-- **C120** Deployment is refused if the wrapped token is the wrapper itself, and for no other. -/
theorem C120_deploy (K : Hash) (self under : Address) (decimals : U8) (t : τ) :
    deploy K self under decimals t = none ↔ under = self := deploys self under decimals t

section
variable {n : Nat} {S : List Address} {W : World τ} {D : Decoder}

theorem play_agree (h : Apart keccak256 n erc20WrapperExample (Cells S)) (l : List (Step τ)) {w : Chained Ev τ} {s : Outside.Wrapper.State τ}
    (hi : Agrees keccak256 S w s) (hx : ∀ x ∈ l, About keccak256 D S x) :
    Agrees keccak256 S (play W keccak256 D w l) (wrapperAfter W D s l) := inv_play h W D l hi hx

/-- **C120** Bytes in, bytes out, with nothing between but words of storage: after any transactions and anything that others do, a
transaction is answered with the same bytes as by the wrapper with independent mappings that C106 is about, the rest of the chain is
the same before and after it, and so are the events. -/
theorem C120_answers (h : Apart keccak256 n erc20WrapperExample (Cells S)) {self under : Address} {decimals : U8} {t : τ}
    {w : Chained Ev τ} (hd : deploy keccak256 self under decimals t = some w) (l : List (Step τ)) (tx : Raw Address)
    (hl : ∀ x ∈ l, About keccak256 D S x) (hx : Within keccak256 D Router.erc20WrapperExample S tx) :
    let s := wrapperAfter W D (newWrapper self under decimals t) l
    let w' := play W keccak256 D w l
    let out := run W keccak256 D tx.env w' tx.value tx.input
    let out' := Outside.Wrapper.run W keccak256 D tx.env s tx.value tx.input
    Spec.Deployed.answer out = Spec.Deployed.answer out' ∧ w'.world = s.world ∧ (out.after w').world = (out'.after s).world ∧
    transfers w' = s.token.log := by
  intro s w' out out'
  have hi := play_agree (W := W) h l (inv_deploy h hd) hl
  obtain ⟨h1, _, _, h2, _⟩ := inv_run h W D hi hx
  obtain ⟨c, _, h3, _⟩ := hi
  exact ⟨h1, congrArg Outside.Wrapper.State.world h3, congrArg Outside.Wrapper.State.world h2, congrArg (fun s => s.token.log) h3⟩

set_option maxRecDepth 100000 in
/-- **C120** A call of a function that changes the state is about its sender and the addresses among its arguments. -/
theorem C120_call_within {caller : Address} (hc : caller ∈ S) (op : Op) (value : U256) (ha : ∀ a, Val.address a ∈ (abi op).2 → a ∈ S) :
    Within keccak256 D Router.erc20WrapperExample S ⟨caller, value, message (abi op).1 (abi op).2⟩ := by
  cases op <;> exact within mem (by simp [abi, Spec.Router.erc20WrapperExample]) rfl rfl
    (Proofs.Contracts.words_lt _ _ (by simp [abi, Spec.Contracts.arg]) (by simp [abi])) hc ha

set_option maxRecDepth 100000 in
theorem question_within {asker a b : Address} (hc : asker ∈ S) (ha : a ∈ S) (hb : b ∈ S) :
    Within keccak256 D Router.erc20WrapperExample S ⟨asker, 0#256, message "underlying()" []⟩ ∧
    Within keccak256 D Router.erc20WrapperExample S ⟨asker, 0#256, message "decimals()" []⟩ ∧
    Within keccak256 D Router.erc20WrapperExample S ⟨asker, 0#256, message "totalSupply()" []⟩ ∧
    Within keccak256 D Router.erc20WrapperExample S ⟨asker, 0#256, message "balanceOf(address)" [.address a]⟩ ∧
    Within keccak256 D Router.erc20WrapperExample S ⟨asker, 0#256, message "allowance(address,address)" [.address a, .address b]⟩ := by
  refine ⟨?_, ?_, ?_, ?_, ?_⟩ <;> exact within mem (by simp [Spec.Router.erc20WrapperExample]) rfl rfl
    (Proofs.Contracts.words_lt _ _ (by simp [Spec.Contracts.arg]) (by simp)) hc (by simp_all)

/-- Questions. -/
theorem ask_agree (h : Apart keccak256 n erc20WrapperExample (Cells S)) {w : Chained Ev τ} {s : Outside.Wrapper.State τ}
    (hi : Agrees keccak256 S w s) {asker : Address} {sg : String} {args : List Val}
    (hq : Within keccak256 D Router.erc20WrapperExample S ⟨asker, 0#256, message sg args⟩) :
    ask W D asker w sg args = Spec.Contracts.answer (Outside.Wrapper.run W keccak256 D) asker s sg args :=
  reply_of_answer (inv_run h W D hi hq).1

/-- What the questions answer. -/
theorem asks (h : Apart keccak256 n erc20WrapperExample (Cells S)) {w : Chained Ev τ} {s : Outside.Wrapper.State τ}
    (hi : Agrees keccak256 S w s) {asker a b : Address} (hc : asker ∈ S) (ha : a ∈ S) (hb : b ∈ S) :
    ask W D asker w "underlying()" [] = some (values [.address s.underlying]) ∧
    ask W D asker w "decimals()" [] = some (values [.uint8 s.decimals]) ∧
    Tells W D asker w "totalSupply()" [] s.token.totalSupply ∧
    Tells W D asker w "balanceOf(address)" [.address a] (s.token.balances a) ∧
    Tells W D asker w "allowance(address,address)" [.address a, .address b] (s.token.allowances a b) := by
  obtain ⟨q1, q2, q3, q4, q5⟩ := question_within (D := D) hc ha hb
  obtain ⟨v1, v2, v3, v4, v5⟩ := WrapperBytes.C106_wrapper_views W D asker s a b
  exact ⟨(ask_agree h hi q1).trans (congrArg Outcome.reply v1), (ask_agree h hi q2).trans (congrArg Outcome.reply v2),
    (ask_agree h hi q3).trans (congrArg Outcome.reply v3), (ask_agree h hi q4).trans (congrArg Outcome.reply v4),
    (ask_agree h hi q5).trans (congrArg Outcome.reply v5)⟩

theorem told {w : Chained Ev τ} {asker : Address} {sg : String} {args : List Val} {x y : U256} (h : Tells W D asker w sg args x)
    (h' : Tells W D asker w sg args y) : x = y := Proofs.Contracts.uint256_inj (Option.some.inj (h.symm.trans h'))

theorem world_eq {w : Chained Ev τ} {s : Outside.Wrapper.State τ} (hi : Agrees keccak256 S w s) : w.world = s.world := by
  obtain ⟨c, _, rfl, _⟩ := hi; rfl

theorem self_eq {w : Chained Ev τ} {s : Outside.Wrapper.State τ} (hi : Agrees keccak256 S w s) : w.self_ = s.self_ := by
  obtain ⟨c, _, rfl, _⟩ := hi; rfl

theorem transfers_eq {w : Chained Ev τ} {s : Outside.Wrapper.State τ} (hi : Agrees keccak256 S w s) : transfers w = s.token.log := by
  obtain ⟨c, _, rfl, _⟩ := hi; rfl

/-- Accounts that take no part have nothing. -/
theorem nothing {w : Chained Ev τ} {s : Outside.Wrapper.State τ} (hi : Agrees keccak256 S w s) {a : Address} (ha : a ∉ S) :
    s.token.balances a = 0#256 := by
  obtain ⟨c, _, rfl, hz⟩ := hi
  refine hz (Erc20Words.balance OnWords.token a) ?_
  rintro ((h | ⟨b, hb, h⟩ | ⟨b, _, d, _, h⟩) | h | h)
  · exact StoragePrograms.balance_ne_supply h
  · exact ha (StoragePrograms.balance_inj h ▸ hb)
  · exact StoragePrograms.balance_ne_allowance h
  · simp [Erc20Words.balance, OnWords.token] at h
  · simp [Erc20Words.balance, OnWords.token] at h

/-- The outcomes correspond. -/
theorem returned {w w' : Chained Ev τ} {s : Outside.Wrapper.State τ} (h : Apart keccak256 n erc20WrapperExample (Cells S))
    (hi : Agrees keccak256 S w s) {tx : Raw Address} (hx : Within keccak256 D Router.erc20WrapperExample S tx) {d : Bytes}
    (hr : run W keccak256 D tx.env w tx.value tx.input = .returned w' d) :
    ∃ s', Outside.Wrapper.run W keccak256 D tx.env s tx.value tx.input = .returned s' d ∧ Agrees keccak256 S w' s' := by
  obtain ⟨h1, h2⟩ := inv_run h W D hi hx
  rw [hr] at h1 h2
  revert h1 h2
  cases Outside.Wrapper.run W keccak256 D tx.env s tx.value tx.input with
  | reverted d' => exact fun h1 _ => by cases h1
  | returned w' d' => exact fun h1 h2 => ⟨w', by cases h1; rfl, h2⟩

theorem returns {w : Chained Ev τ} {s : Outside.Wrapper.State τ} (h : Apart keccak256 n erc20WrapperExample (Cells S))
    (hi : Agrees keccak256 S w s) {tx : Raw Address} (hx : Within keccak256 D Router.erc20WrapperExample S tx)
    {s' : Outside.Wrapper.State τ} {d : Bytes} (hr : Outside.Wrapper.run W keccak256 D tx.env s tx.value tx.input = .returned s' d) :
    ∃ w', run W keccak256 D tx.env w tx.value tx.input = .returned w' d ∧ Agrees keccak256 S w' s' := by
  obtain ⟨h1, h2⟩ := inv_run h W D hi hx
  rw [hr] at h1 h2
  revert h1 h2
  cases run W keccak256 D tx.env w tx.value tx.input with
  | reverted d' => exact fun h1 _ => by cases h1
  | returned w' d' => exact fun h1 h2 => ⟨w', by cases h1; rfl, h2⟩

theorem created {u : Erc20.State} (hs : Erc20.SumOk u) {r : Address} {x : U256} (h : r ≠ ZERO)
    (h' : u.totalSupply.toNat + x.toNat < 2 ^ 256) : ∃ u', Created u u' r x := by
  obtain ⟨u', h1⟩ := Proofs.Outside.mint_iff.mpr ⟨h, h'⟩
  exact ⟨u', Proofs.Outside.created_of_mint hs h1⟩

theorem destroyed {u : Erc20.State} (hs : Erc20.SumOk u) {o : Address} {x : U256} (h : o ≠ ZERO)
    (h' : x.toNat ≤ (u.balances o).toNat) : ∃ u', Destroyed u u' o o x := by
  obtain ⟨u', h1⟩ := Proofs.Outside.burn_iff.mpr ⟨h, h'⟩
  exact ⟨u', ((Proofs.Outside.Wrapper.burned_iff hs).mp h1).2.2⟩

section
variable {self under : Address} {decimals : U8} {t : τ} {w : Chained Ev τ}

/-- **C120** With bytes only: right after the deployment there are no wrapped tokens and no allowances. -/
theorem C120_start (h : Apart keccak256 n erc20WrapperExample (Cells S)) (hd : deploy keccak256 self under decimals t = some w)
    {asker a b : Address} (hc : asker ∈ S) (ha : a ∈ S) (hb : b ∈ S) :
    Tells W D asker w "totalSupply()" [] 0#256 ∧ Tells W D asker w "balanceOf(address)" [.address a] 0#256 ∧
    Tells W D asker w "allowance(address,address)" [.address a, .address b] 0#256 :=
  (asks h (inv_deploy h hd) hc ha hb).2.2

/-- **C120** With bytes only: whatever happens, the answers to `underlying` and `decimals` are those of the deployment. -/
theorem C120_fixed (h : Apart keccak256 n erc20WrapperExample (Cells S)) (hd : deploy keccak256 self under decimals t = some w)
    (l : List (Step τ)) (hl : ∀ x ∈ l, About keccak256 D S x) {asker : Address} (hc : asker ∈ S) :
    let w' := play W keccak256 D w l
    ask W D asker w' "underlying()" [] = some (values [.address under]) ∧
    ask W D asker w' "decimals()" [] = some (values [.uint8 decimals]) := by
  intro w'
  obtain ⟨h1, h2, _⟩ := asks (D := D) h (play_agree (W := W) h l (inv_deploy h hd) hl) hc hc hc
  obtain ⟨_, e2, e3⟩ := WrapperBytes.C106_fixed W D l (newWrapper self under decimals t)
  rw [e2] at h1
  rw [e3] at h2
  exact ⟨h1, h2⟩

/-- **C120** With bytes only: whatever happens, the answers to `balanceOf` for the accounts that take part add up to the answer to
`totalSupply`. -/
theorem C120_supply (h : Apart keccak256 n erc20WrapperExample (Cells S)) (hd : deploy keccak256 self under decimals t = some w)
    (l : List (Step τ)) (hl : ∀ x ∈ l, About keccak256 D S x) (hS : S.Nodup) {asker : Address} (hc : asker ∈ S) :
    let w' := play W keccak256 D w l
    ∃ (total : U256) (bal : Address → U256), Tells W D asker w' "totalSupply()" [] total ∧
      (∀ a ∈ S, Tells W D asker w' "balanceOf(address)" [.address a] (bal a)) ∧ (S.map fun a => (bal a).toNat).sum = total.toNat := by
  intro w'
  have hi := play_agree (W := W) h l (inv_deploy h hd) hl
  have hs := WrapperBytes.reached_sum (W := W) (D := D) ⟨self, under, decimals, t, l, rfl⟩
  refine ⟨_, _, (asks h hi hc hc hc).2.2.1, fun a ha => (asks h hi hc ha hc).2.2.2.1, ?_⟩
  rw [← hs, ← List.sum_toFinset _ hS]
  refine Finset.sum_subset (Finset.subset_univ _) fun a _ hna => ?_
  rw [nothing hi fun hm => hna (List.mem_toFinset.mpr hm)]
  rfl

theorem after_append (l : List (Step τ)) (x : Step τ) (s : Outside.Wrapper.State τ) :
    wrapperAfter W D s (l ++ [x]) = wrapperAfter W D (wrapperAfter W D s l) [x] := List.foldl_append

/-- **C120** With bytes only: if the answer to `balanceOf` falls over a step, the step is a transaction to the wrapper, and the holder
sent it or `allowance` had answered at least the difference for the sender. -/
theorem C120_no_theft (h : Apart keccak256 n erc20WrapperExample (Cells S)) (hd : deploy keccak256 self under decimals t = some w)
    (l : List (Step τ)) (x : Step τ) (hl : ∀ y ∈ l ++ [x], About keccak256 D S y) {asker a : Address} (hc : asker ∈ S) (ha : a ∈ S)
    {before after : U256} :
    let w1 := play W keccak256 D w l
    let w2 := play W keccak256 D w (l ++ [x])
    Tells W D asker w1 "balanceOf(address)" [.address a] before → Tells W D asker w2 "balanceOf(address)" [.address a] after →
    after.toNat < before.toNat →
    ∃ caller value input, x = .call caller value input ∧ (caller = a ∨ ∃ allowed : U256, before.toNat - after.toNat ≤ allowed.toNat ∧
      Tells W D asker w1 "allowance(address,address)" [.address a, .address caller] allowed) := by
  intro w1 w2 hb hf hlt
  have h1 := play_agree (W := W) h l (inv_deploy h hd) fun y hy => hl y (List.mem_append_left _ hy)
  have h2 := play_agree (W := W) h (l ++ [x]) (inv_deploy h hd) hl
  rw [after_append] at h2
  have e1 := told hb (asks h h1 hc ha hc).2.2.2.1
  have e2 := told hf (asks h h2 hc ha hc).2.2.2.1
  obtain ⟨caller, value, input, rfl, hk⟩ := WrapperBytes.C106_no_theft W D ⟨self, under, decimals, t, l, rfl⟩ x asker a before after
    (by rw [e1]; exact congrArg Outcome.reply (WrapperBytes.C106_wrapper_views W D asker _ a a).2.2.2.1)
    (by rw [e2]; exact congrArg Outcome.reply (WrapperBytes.C106_wrapper_views W D asker _ a a).2.2.2.1) hlt
  refine ⟨caller, value, input, rfl, hk.imp_right ?_⟩
  rintro ⟨allowed, h3, h4⟩
  have hcal : caller ∈ S := (hl (.call caller value input) (by simp)).sender
  have h4 := h4.symm.trans (congrArg Outcome.reply (WrapperBytes.C106_wrapper_views W D asker _ a caller).2.2.2.2)
  rw [Proofs.Contracts.uint256_inj (Option.some.inj h4)] at h3
  exact ⟨_, h3, (asks h h1 hc ha hcal).2.2.2.2⟩

/-- **C120** With bytes only: after any history, with the total supply as answered, `depositFor(a, v)` goes through exactly if neither
the sender nor `a` is the wrapper, `a` is not the zero address, there is room for `v` more tokens, and the wrapped token takes
`transferFrom(sender, wrapper, v)`.  Then it answers true, the chain is as the wrapped token left it, `v` more tokens are answered for
`a` and in all, all other answers stay, and there is one event about it. -/
theorem C120_depositFor (h : Apart keccak256 n erc20WrapperExample (Cells S)) (hd : deploy keccak256 self under decimals t = some w)
    (l : List (Step τ)) (hl : ∀ x ∈ l, About keccak256 D S x) {caller asker a : Address} (hcal : caller ∈ S) (hc : asker ∈ S)
    (ha : a ∈ S) (v : U256) {total : U256} :
    let w' := play W keccak256 D w l
    let out := run W keccak256 D caller w' 0#256 (message "depositFor(address,uint256)" [.address a, .uint256 v])
    let pull := message "transferFrom(address,address,uint256)" [.address caller, .address self, .uint256 v]
    Tells W D asker w' "totalSupply()" [] total →
    (∀ t', caller ≠ self → a ≠ self → a ≠ ZERO → total.toNat + v.toNat < 2 ^ 256 → Takes W w'.world self under pull t' →
      ∃ w2, out = .returned w2 (values [.bool true])) ∧
    ∀ w2 d, out = .returned w2 d →
      caller ≠ self ∧ a ≠ self ∧ a ≠ ZERO ∧ total.toNat + v.toNat < 2 ^ 256 ∧ Takes W w'.world self under pull w2.world ∧
      d = values [.bool true] ∧ transfers w2 = transfers w' ++ [.transfer ZERO a v] ∧
      (∃ total' : U256, Tells W D asker w2 "totalSupply()" [] total' ∧ total'.toNat = total.toNat + v.toNat) ∧
      (∀ b ∈ S, ∀ x, Tells W D asker w' "balanceOf(address)" [.address b] x →
        ∃ x' : U256, Tells W D asker w2 "balanceOf(address)" [.address b] x' ∧ x'.toNat = x.toNat + (if b = a then v.toNat else 0)) ∧
      ∀ b ∈ S, ∀ b' ∈ S, ∀ x, Tells W D asker w' "allowance(address,address)" [.address b, .address b'] x →
        Tells W D asker w2 "allowance(address,address)" [.address b, .address b'] x := by
  intro w' out pull ht
  have hi := play_agree (W := W) h l (inv_deploy h hd) hl
  have hx := C120_call_within (D := D) hcal (.depositFor a v) 0#256 (by simp [abi, ha])
  obtain ⟨f1, f2, _⟩ := WrapperBytes.C106_fixed W D l (newWrapper self under decimals t)
  have hk := WrapperBytes.C106_depositFor W D caller (s := wrapperAfter W D (newWrapper self under decimals t) l) ⟨self, under, decimals, t, l, rfl⟩ a v
  have e := told ht (asks h hi hc hc hc).2.2.1
  have hw : w'.world = _ := world_eq hi
  have hg : transfers w' = _ := transfers_eq hi
  rw [f1, f2, ← hw, ← e] at hk
  refine ⟨fun t' c1 c2 c3 c4 c5 => ?_, fun w2 d ho => ?_⟩
  · obtain ⟨u, hu⟩ := created (WrapperBytes.reached_sum (W := W) (D := D) ⟨self, under, decimals, t, l, rfl⟩) (r := a) (x := v) c3 (by rw [← e]; exact c4)
    obtain ⟨w2, h1, _⟩ := returns (tx := ⟨caller, _, _⟩) h hi hx ((hk _ _).mpr ⟨t', u, c1, c2, c5, c3, c4, hu, rfl, rfl⟩)
    exact ⟨w2, h1⟩
  · obtain ⟨s', h1, h2⟩ := returned (tx := ⟨caller, _, _⟩) h hi hx ho
    obtain ⟨t', u, c1, c2, c3, c4, c5, c6, rfl, rfl⟩ := (hk _ _).mp h1
    have hw2 : w2.world = t' := world_eq h2
    refine ⟨c1, c2, c4, c5, hw2 ▸ c3, rfl, ?_, ?_, fun b hb x hxb => ?_, fun b hb b' hb' x hxb => ?_⟩
    · rw [transfers_eq h2, hg]; exact c6.log
    · exact ⟨_, (asks h h2 hc hc hc).2.2.1, by rw [e]; exact c6.supply⟩
    · rw [told hxb (asks h hi hc hb hc).2.2.2.1]
      exact ⟨_, (asks h h2 hc hb hc).2.2.2.1, c6.balances b⟩
    · rw [told hxb (asks h hi hc hb hb').2.2.2.2]
      have := (asks (D := D) (W := W) h h2 hc hb hb').2.2.2.2
      rw [show ({ wrapperAfter W D (newWrapper self under decimals t) l with world := t', token := u } : Outside.Wrapper.State τ).token.allowances = _ from c6.allowances] at this
      exact this

/-- **C120** With bytes only: after any history, with the sender's balance as answered, `withdrawTo(a, v)` goes through exactly if `a` is
not the wrapper, the sender is not the zero address and has `v`, and the wrapped token takes `transfer(a, v)`.  Then it answers true,
the chain is as the wrapped token left it, `v` fewer tokens are answered for the sender and in all, all other answers stay, and there is
one event about it. -/
theorem C120_withdrawTo (h : Apart keccak256 n erc20WrapperExample (Cells S)) (hd : deploy keccak256 self under decimals t = some w)
    (l : List (Step τ)) (hl : ∀ x ∈ l, About keccak256 D S x) {caller asker a : Address} (hcal : caller ∈ S) (hc : asker ∈ S)
    (ha : a ∈ S) (v : U256) {has : U256} :
    let w' := play W keccak256 D w l
    let out := run W keccak256 D caller w' 0#256 (message "withdrawTo(address,uint256)" [.address a, .uint256 v])
    let push := message "transfer(address,uint256)" [.address a, .uint256 v]
    Tells W D asker w' "balanceOf(address)" [.address caller] has →
    (∀ t', a ≠ self → caller ≠ ZERO → v.toNat ≤ has.toNat → Takes W w'.world self under push t' →
      ∃ w2, out = .returned w2 (values [.bool true])) ∧
    ∀ w2 d, out = .returned w2 d →
      a ≠ self ∧ caller ≠ ZERO ∧ v.toNat ≤ has.toNat ∧ Takes W w'.world self under push w2.world ∧
      d = values [.bool true] ∧ transfers w2 = transfers w' ++ [.transfer caller ZERO v] ∧
      (∀ total, Tells W D asker w' "totalSupply()" [] total →
        ∃ total' : U256, Tells W D asker w2 "totalSupply()" [] total' ∧ total'.toNat + v.toNat = total.toNat) ∧
      (∀ b ∈ S, ∀ x, Tells W D asker w' "balanceOf(address)" [.address b] x →
        ∃ x' : U256, Tells W D asker w2 "balanceOf(address)" [.address b] x' ∧ x'.toNat + (if b = caller then v.toNat else 0) = x.toNat) ∧
      ∀ b ∈ S, ∀ b' ∈ S, ∀ x, Tells W D asker w' "allowance(address,address)" [.address b, .address b'] x →
        Tells W D asker w2 "allowance(address,address)" [.address b, .address b'] x := by
  intro w' out push ht
  have hi := play_agree (W := W) h l (inv_deploy h hd) hl
  have hx := C120_call_within (D := D) hcal (.withdrawTo a v) 0#256 (by simp [abi, ha])
  obtain ⟨f1, f2, _⟩ := WrapperBytes.C106_fixed W D l (newWrapper self under decimals t)
  have hk := WrapperBytes.C106_withdrawTo W D caller (s := wrapperAfter W D (newWrapper self under decimals t) l) ⟨self, under, decimals, t, l, rfl⟩ a v
  have e := told ht (asks h hi hc hcal hc).2.2.2.1
  have hw : w'.world = _ := world_eq hi
  have hg : transfers w' = _ := transfers_eq hi
  rw [f1, f2, ← hw, ← e] at hk
  refine ⟨fun t' c1 c2 c3 c4 => ?_, fun w2 d ho => ?_⟩
  · obtain ⟨u, hu⟩ := destroyed (WrapperBytes.reached_sum (W := W) (D := D) ⟨self, under, decimals, t, l, rfl⟩) (o := caller) (x := v) c2 (by rw [← e]; exact c3)
    obtain ⟨w2, h1, _⟩ := returns (tx := ⟨caller, _, _⟩) h hi hx ((hk _ _).mpr ⟨t', u, c1, c4, c2, c3, hu, rfl, rfl⟩)
    exact ⟨w2, h1⟩
  · obtain ⟨s', h1, h2⟩ := returned (tx := ⟨caller, _, _⟩) h hi hx ho
    obtain ⟨t', u, c1, c2, c3, c4, c5, rfl, rfl⟩ := (hk _ _).mp h1
    have hw2 : w2.world = t' := world_eq h2
    refine ⟨c1, c3, c4, hw2 ▸ c2, rfl, ?_, fun total hto => ?_, fun b hb x hxb => ?_, fun b hb b' hb' x hxb => ?_⟩
    · rw [transfers_eq h2, hg]; exact c5.log
    · rw [told hto (asks h hi hc hc hc).2.2.1]
      exact ⟨_, (asks h h2 hc hc hc).2.2.1, c5.supply⟩
    · rw [told hxb (asks h hi hc hb hc).2.2.2.1]
      exact ⟨_, (asks h h2 hc hb hc).2.2.2.1, c5.balances b⟩
    · rw [told hxb (asks h hi hc hb hb').2.2.2.2]
      have h3 := (asks (D := D) (W := W) h h2 hc hb hb').2.2.2.2
      have h4 := c5.allowances b b'
      rw [if_neg (by simp)] at h4
      rw [show u.allowances b b' = _ from BitVec.eq_of_toNat_eq h4] at h3
      exact h3

/-- **C120** With bytes only: after any history, a successful transaction that changes the answer to `totalSupply`, or anything else on
the chain, made the wrapped token take either `transferFrom` from the sender to the wrapper of exactly the amount by which the total
supply rose, or `transfer` of exactly the amount by which it fell. -/
theorem C120_one_for_one (h : Apart keccak256 n erc20WrapperExample (Cells S)) (hd : deploy keccak256 self under decimals t = some w)
    (l : List (Step τ)) (hl : ∀ x ∈ l, About keccak256 D S x) {tx : Raw Address} (hx : Within keccak256 D Router.erc20WrapperExample S tx)
    {asker : Address} (hc : asker ∈ S) {total total' : U256} :
    let w' := play W keccak256 D w l
    ∀ w2 d, run W keccak256 D tx.env w' tx.value tx.input = .returned w2 d →
      Tells W D asker w' "totalSupply()" [] total → Tells W D asker w2 "totalSupply()" [] total' →
      (total' ≠ total ∨ w2.world ≠ w'.world) →
    (∃ v : U256, Takes W w'.world self under
        (message "transferFrom(address,address,uint256)" [.address tx.env, .address self, .uint256 v]) w2.world ∧
      total'.toNat = total.toNat + v.toNat) ∨
    ∃ (a : Address) (v : U256), Takes W w'.world self under (message "transfer(address,uint256)" [.address a, .uint256 v]) w2.world ∧
      total'.toNat + v.toNat = total.toNat := by
  intro w' w2 d ho ht ht' hne
  have hi := play_agree (W := W) h l (inv_deploy h hd) hl
  obtain ⟨f1, f2, _⟩ := WrapperBytes.C106_fixed W D l (newWrapper self under decimals t)
  obtain ⟨s', h1, h2⟩ := returned h hi hx ho
  have hk := WrapperBytes.C106_one_for_one W D tx.env (s := wrapperAfter W D (newWrapper self under decimals t) l) ⟨self, under, decimals, t, l, rfl⟩ _ _ _ _ h1
  rw [f1, f2, ← show w'.world = _ from world_eq hi, ← world_eq h2, ← told ht (asks h hi hc hc hc).2.2.1,
    ← told ht' (asks h h2 hc hc hc).2.2.1] at hk
  exact hk hne

end

/-- **C120** With bytes only, both contracts as they are on the chain: for a new wrapper over the token of `examples/basic/token`, after
any transactions to either, what the token answers for the balance of the wrapper is at least what the wrapper answers for its total
supply. -/
theorem C120_backed (h : Apart keccak256 n erc20WrapperExample (Cells S)) (m : Entry.Strings) {self under : Address} {decimals : U8}
    {w : Chained Ev Erc20.State} (hd : deploy keccak256 self under decimals Erc20.init = some w) (h0 : self ≠ ZERO) (txs : List Tx)
    (hs : ∀ x ∈ txs, x.sender ≠ self) (hl : ∀ x ∈ txs, About keccak256 D S (x.step D m)) (asker : Address) {asker' : Address}
    (hc : asker' ∈ S) :
    let W := tokenWorld D m under
    let w' := play W keccak256 D w (txs.map (Tx.step D m))
    ∃ held supply : U256,
      Spec.Contracts.answer (Entry.basicTokenEntry keccak256 D m) asker w'.world "balanceOf(address)" [.address self] =
        some (values [.uint256 held]) ∧
      Tells W D asker' w' "totalSupply()" [] supply ∧ supply.toNat ≤ held.toNat := by
  intro W w'
  have hi := play_agree (W := W) h (txs.map (Tx.step D m)) (inv_deploy h hd) (by
    intro x hx
    obtain ⟨y, hy, rfl⟩ := List.mem_map.mp hx
    exact hl y hy)
  obtain ⟨held, supply, h1, h2, h3⟩ := WrapperBytes.C106_backed D m self under decimals h0 txs hs asker asker'
  refine ⟨held, supply, ?_, ?_, h3⟩
  · rw [show w'.world = _ from world_eq hi]; exact h1
  · exact (ask_agree h hi (question_within hc hc hc).2.2.1).trans h2

end

/-! ### The hypotheses are met -/

open Verif.Props.Vault (me token quiet)
open Verif.Props.WrapperBytes (Msg)

/-- Alice. -/
def alice : Address := 1#160
/-- Bob. -/
def bob : Address := 2#160

/-- Alice gets 100 tokens, lets the wrapper take 50, wraps them, gives the wrapper 10 more and unwraps 20 for Bob. -/
def sample : List Msg :=
  [.token alice (.mint alice 100#256), .token alice (.approve me 50#256), .wrapper alice (.depositFor alice 50#256),
   .token alice (.transfer me 10#256), .wrapper alice (.withdrawTo bob 20#256)]

theorem sample_foreign : ∀ x ∈ sample, x.tx.sender ≠ me := by
  intro x hx
  simp only [sample, List.mem_cons, List.not_mem_nil, or_false] at hx
  rcases hx with rfl | rfl | rfl | rfl | rfl <;> decide

/-- The cells of three accounts. -/
def sampleCells : List (List Storage.Step) := tokenCells ++ [underlyingCell, decimalsCell]

theorem sample_cells {p : List Storage.Step} (h : Cells [0#160, 1#160, 2#160] p) : p ∈ sampleCells := by
  rcases h with h | rfl | rfl
  · exact List.mem_append_left _ (token_cells h)
  · exact List.mem_append_right _ (by simp [underlyingCell])
  · exact List.mem_append_right _ (by simp [decimalsCell])

theorem sample_setting : Apart keccak256 10 erc20WrapperExample (Cells [0#160, 1#160, 2#160]) :=
  ⟨by decide, Proofs.Separate.separate sampleCells tokenTable (fun _ => sample_cells)
    (fun e he => OnWords.table_ok e (List.mem_append_left _ he)) (by decide +kernel) (by decide +kernel) (by decide +kernel)⟩

theorem sample_deploys {τ : Type} (t : τ) : ∃ w, deploy keccak256 me token 6#8 t = some w :=
  Option.ne_none_iff_exists'.mp fun h => absurd ((C120_deploy keccak256 me token 6#8 t).mp h) (by decide)

/-- One more transaction. -/
theorem play_call {W : World τ} {D : Decoder} (w : Chained Ev τ) (l : List (Step τ)) (c : Address) (v : U256) (i : Bytes) :
    play W keccak256 D w (l ++ [.call c v i]) =
      Outcome.after (play W keccak256 D w l) (run W keccak256 D c (play W keccak256 D w l) v i) := by
  simp only [play, Spec.Outside.play, List.foldl_append, List.foldl]

/-- A deposit and a withdrawal. -/
def deposit17 : Step Nat := .call alice 0#256 (message "depositFor(address,uint256)" [.address bob, .uint256 17#256])
def withdraw5 : Step Nat := .call bob 0#256 (message "withdrawTo(address,uint256)" [.address alice, .uint256 5#256])

-- C120_answers, C120_start, C120_depositFor, C120_withdrawTo, C120_fixed, C120_supply: over a token that answers nothing to a
-- transfer, 17 wrapped for Bob, who unwraps 5
example (D : Decoder) : ∃ w, deploy keccak256 me token 6#8 0 = some w ∧
    (∀ x ∈ [deposit17, withdraw5], About keccak256 D [0#160, 1#160, 2#160] x) ∧
    let w' := play quiet keccak256 D w [deposit17, withdraw5]
    ∃ x : U256, Tells quiet D alice w' "balanceOf(address)" [.address bob] x ∧ x.toNat = 12 := by
  obtain ⟨w, hd⟩ := sample_deploys (0 : Nat)
  have a1 : About keccak256 D [0#160, 1#160, 2#160] deposit17 :=
    C120_call_within (by decide) (.depositFor bob 17#256) 0#256 (by simp [abi]; decide)
  have a2 : About keccak256 D [0#160, 1#160, 2#160] withdraw5 :=
    C120_call_within (by decide) (.withdrawTo alice 5#256) 0#256 (by simp [abi]; decide)
  refine ⟨w, hd, by simp [a1, a2], ?_⟩
  obtain ⟨s1, s2, _⟩ := C120_start (W := quiet) (D := D) sample_setting hd (asker := alice) (a := bob) (b := bob) (by decide) (by decide) (by decide)
  obtain ⟨d1, d2⟩ := C120_depositFor (W := quiet) (D := D) sample_setting hd [] (by simp) (caller := alice) (asker := alice) (a := bob)
    (by decide) (by decide) (by decide) 17#256 s1
  obtain ⟨w1, o1⟩ := d1 _ (by decide) (by decide) (by decide) (by decide) ⟨rfl, [], rfl, .inl rfl⟩
  obtain ⟨x1, b1, e1⟩ := (d2 _ _ o1).2.2.2.2.2.2.2.2.1 bob (by decide) _ s2
  have p1 : play quiet keccak256 D w [deposit17] = w1 := (play_call w [] _ _ _).trans (congrArg (Outcome.after (play quiet keccak256 D w [])) o1)
  rw [← p1] at b1
  obtain ⟨d1, d2⟩ := C120_withdrawTo (W := quiet) (D := D) sample_setting hd [deposit17] (by simp [a1]) (caller := bob) (asker := alice)
    (a := alice) (by decide) (by decide) (by decide) 5#256 b1
  obtain ⟨w2, o2⟩ := d1 _ (by decide) (by decide) (by rw [e1]; decide) ⟨rfl, [], rfl, .inl rfl⟩
  obtain ⟨x2, b2, e2⟩ := (d2 _ _ o2).2.2.2.2.2.2.2.1 bob (by decide) _ b1
  have p2 : play quiet keccak256 D w [deposit17, withdraw5] = w2 :=
    (play_call w [deposit17] _ _ _).trans (congrArg (Outcome.after (play quiet keccak256 D w [deposit17])) o2)
  intro w'
  refine ⟨x2, by rw [show w' = w2 from p2]; exact b2, ?_⟩
  rw [if_pos rfl, e1] at e2
  exact Nat.add_right_cancel (e2.trans (by decide) : x2.toNat + 5 = 12 + 5)

-- C120_backed: the token says that the wrapper has 40, the wrapper that there are 30 wrapped tokens
example (D : Decoder) (m : Entry.Strings) : ∃ w, deploy keccak256 me token 6#8 Erc20.init = some w ∧
    let txs := sample.map Msg.tx
    (∀ x ∈ txs, x.sender ≠ me) ∧ (∀ x ∈ txs, About keccak256 D [0#160, 1#160, 2#160] (x.step D m)) ∧
    let w' := play (tokenWorld D m token) keccak256 D w (txs.map (Tx.step D m))
    Tells (tokenWorld D m token) D alice w' "totalSupply()" [] 30#256 ∧ w'.world.balances me = 40#256 := by
  obtain ⟨w, hd⟩ := sample_deploys Erc20.init
  have hf := sample_foreign
  have hs : wrapperAfter (tokenWorld D m token) D (newWrapper me token 6#8 Erc20.init)
      ((sample.map Msg.tx).map (Tx.step D m)) =
      WrapperBytes.ofModel token 6#8 (Verif.Wrapper.run (Verif.Wrapper.init me) (sample.map Msg.model)) :=
    WrapperBytes.C106_system_sends D m (newWrapper me token 6#8 Erc20.init) sample sample_foreign
  have ha : ∀ x ∈ sample.map Msg.tx, About keccak256 D [0#160, 1#160, 2#160] (x.step D m) := by
    intro x hx
    simp only [sample, List.map_cons, List.map_nil, List.mem_cons, List.not_mem_nil, or_false] at hx
    rcases hx with rfl | rfl | rfl | rfl | rfl
    · trivial
    · trivial
    · exact C120_call_within (by decide) (.depositFor alice 50#256) 0#256 (by simp [abi]; decide)
    · trivial
    · exact C120_call_within (by decide) (.withdrawTo bob 20#256) 0#256 (by simp [abi]; decide)
  refine ⟨w, hd, ?_, ha, ?_⟩
  · intro x hx
    obtain ⟨y, hy, rfl⟩ := List.mem_map.mp hx
    exact hf y hy
  · have hi := play_agree (W := tokenWorld D m token) sample_setting ((sample.map Msg.tx).map (Tx.step D m))
      (inv_deploy sample_setting hd) (by
      intro x hx
      obtain ⟨y, hy, rfl⟩ := List.mem_map.mp hx
      exact ha y hy)
    rw [hs] at hi
    have h1 := (asks (W := tokenWorld D m token) (D := D) sample_setting hi (asker := alice) (a := alice) (b := alice) (by decide) (by decide) (by decide)).2.2.1
    refine ⟨?_, ?_⟩
    · refine h1.trans ?_
      rw [show (WrapperBytes.ofModel token 6#8 (Verif.Wrapper.run (Verif.Wrapper.init me)
        (sample.map Msg.model))).token.totalSupply = 30#256 by decide +kernel]
    · rw [world_eq hi]
      decide +kernel

end Verif.Props.WrapperDeployed
