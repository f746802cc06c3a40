import Verif.Proofs.FlashDeployed
import Verif.Props.OnWords
import Verif.Props.GatesDeployed
import Verif.Props.FlashBytes
import Verif.Proofs.Separate
/-!
# C122: `examples/erc20-flash-mint` as deployed: constructor, calldata, storage words, and borrowers that call it again

Nothing of the other models is left in the statements but the token on words (`Verif.Model.FlashDeployed`) and the programs of others
(`Others`, `Program` and `play` of `Verif.Model.FlashBytes`), except that `C122_answers` compares the token with that of C110.  `S` are
the accounts that take part.  Of them it is asked that the hash values of their storage cells do not coincide, as in C98, C104 and C115,
and that the programs of others send the token messages between them only.
-/
namespace Verif.Props.FlashDeployed
open Verif Verif.Storage Verif.Reenter Verif.FlashDeployed Verif.Spec.FlashDeployed Verif.Spec.OnWords
open Verif.Proofs.FlashDeployed Verif.Props.OnWords
open Verif.Abi (Val Decoder Outcome)
open Verif.Spec.Keccak (keccak256)
open Verif.Spec.Contracts (message values Says)
open Verif.Spec.Calls (call)
open Verif.Spec.Revert (addr)
open Verif.Spec.FlashBytes (Tx Sends NoMint newToken yes Repaid burnt Reached)
open Verif.Outside (Flash.State)
open Verif.Props.FlashBytes (abi Op mem)

variable {τ : Type}

/-- What an account gets to know that asks a question: the bytes of the answer, `none` if it is refused. -/
abbrev ask (W : Others τ) (D : Decoder) := Spec.Contracts.answer (run W keccak256 D 1)

/-- A number that is answered. -/
abbrev Tells (W : Others τ) (D : Decoder) (asker : Address) (w : Lender × τ) (sg : String) (args : List Val) (x : U256) : Prop :=
  ask W D asker w sg args = some (values [.uint256 x])

/-- **C122** Deployment is never refused. -/
theorem C122_deploy (K : Hash) (self receiver : Address) (fee : U256) : ∃ w, deploy K self receiver fee = some w :=
  deploys self receiver fee

section
variable {n : Nat} {S : List Address} {W : Others τ} {D : Decoder}

set_option maxRecDepth 100000 in
/-- **C122** A call of a function that changes the state is about its sender and the addresses among its arguments. -/
theorem C122_call_within {caller : Address} (hc : caller ∈ S) (op : Op) (value : U256)
    (hl : (message (abi op).1 (abi op).2).length < 2 ^ 256) (ha : ∀ a, Val.address a ∈ (abi op).2 → a ∈ S) :
    About keccak256 D S caller value (message (abi op).1 (abi op).2) := by
  cases op <;> exact within mem (by simp [abi, Spec.Router.erc20FlashMintExample]) rfl rfl hl hc ha

set_option maxRecDepth 100000 in
theorem question_within {asker a b : Address} (hc : asker ∈ S) (ha : a ∈ S) (hb : b ∈ S) (v : U256) :
    About keccak256 D S asker 0#256 (message "maxFlashLoan(address)" [.address a]) ∧
    About keccak256 D S asker 0#256 (message "flashFee(address,uint256)" [.address a, .uint256 v]) ∧
    About keccak256 D S asker 0#256 (message "totalSupply()" []) ∧
    About keccak256 D S asker 0#256 (message "balanceOf(address)" [.address a]) ∧
    About keccak256 D S asker 0#256 (message "allowance(address,address)" [.address a, .address b]) := by
  refine ⟨?_, ?_, ?_, ?_, ?_⟩ <;> exact within mem (by simp [Spec.Router.erc20FlashMintExample]) rfl rfl
    (Proofs.Contracts.words_lt _ _ (by simp [Spec.Contracts.arg]) (by simp)) hc (by simp_all)

variable {here receiver : Address} {fee : U256} {w : Lender}

/-- After a history. -/
theorem agree (h : Setting W keccak256 D n S here receiver fee w) (l : List (Tx τ))
    (hl : ∀ x ∈ l, About keccak256 D S x.sender x.value x.input) (t : τ) :
    Both keccak256 S (after W keccak256 D (w, t) l) (Spec.FlashBytes.after W D (newToken here fee receiver, t) l) :=
  same_after h.apart W D h.among l (both_deploy h.apart h.here_in h.receiver_in h.deployed t) hl

theorem answer_of_same {o : Outcome (Lender × τ)} {o' : Outcome (Flash.State × τ)} (h : Same keccak256 S o o') :
    Spec.Deployed.answer o = Spec.Deployed.answer o' := by
  cases o <;> cases o'
  · exact congrArg Except.ok h.1
  · exact h.elim
  · exact h.elim
  · exact congrArg Except.error h

/-- **C122** Bytes in, bytes out, with nothing between but words of storage: after any transactions, in which the token may be called
again at any depth, a transaction is answered with the same bytes as by the token with independent mappings that C110 is about, the rest
of the chain is the same before and after it, and so are the events. -/
theorem C122_answers (h : Setting W keccak256 D n S here receiver fee w) (l : List (Tx τ)) (x : Tx τ)
    (hl : ∀ y ∈ l ++ [x], About keccak256 D S y.sender y.value y.input) (t : τ) :
    let s := Spec.FlashBytes.after W D (newToken here fee receiver, t) l
    let w' := after W keccak256 D (w, t) l
    let p := (w'.1, x.meanwhile w'.2)
    let q := (s.1, x.meanwhile s.2)
    let out := run W keccak256 D x.depth x.sender p x.value x.input
    let out' := Outside.Flash.run W keccak256 D x.depth x.sender q x.value x.input
    Spec.Deployed.answer out = Spec.Deployed.answer out' ∧ p.2 = q.2 ∧ (out.after p).2 = (out'.after q).2 ∧
    transfers w'.1 = s.1.token.log := by
  intro s w' p q out out'
  have hb := agree h l (fun y hy => hl y (List.mem_append_left _ hy)) t
  have hb' : Both keccak256 S p q := ⟨hb.agrees, congrArg _ hb.world, hb.self_, hb.receiver⟩
  have hs := same_run h.apart W D h.among x.depth x.sender p q x.value x.input hb' (hl x (by simp))
  obtain ⟨c, _, h3, _⟩ := hb.agrees
  exact ⟨answer_of_same hs, hb'.world, (both_after hs hb').world, congrArg (fun s => s.token.log) h3⟩

set_option maxRecDepth 100000 in
/-- Questions. -/
theorem ask_agree (h : Setting W keccak256 D n S here receiver fee w) {p : Lender × τ} {s : Flash.State × τ}
    (hb : Both keccak256 S p s) {asker : Address} {sg : String} {args : List Val} (hq : About keccak256 D S asker 0#256 (message sg args)) :
    ask W D asker p sg args = Spec.Contracts.answer (Outside.Flash.run W keccak256 D 1) asker s sg args :=
  reply_of_answer (answer_of_same (same_run h.apart W D h.among 1 asker p s 0#256 (message sg args) hb hq))

/-- What the questions answer. -/
theorem asks (h : Setting W keccak256 D n S here receiver fee w) {p : Lender × τ} {s : Flash.State × τ} (hb : Both keccak256 S p s)
    {asker a b : Address} (hc : asker ∈ S) (ha : a ∈ S) (hb' : b ∈ S) (v : U256) :
    Tells W D asker p "maxFlashLoan(address)" [.address a]
      (if a = s.1.self_ then BitVec.ofNat 256 (2 ^ 256 - 1 - s.1.token.totalSupply.toNat) else 0#256) ∧
    ask W D asker p "flashFee(address,uint256)" [.address a, .uint256 v] =
      (if a = s.1.self_ then some (values [.uint256 s.1.fee]) else none) ∧
    Tells W D asker p "totalSupply()" [] s.1.token.totalSupply ∧
    Tells W D asker p "balanceOf(address)" [.address a] (s.1.token.balances a) ∧
    Tells W D asker p "allowance(address,address)" [.address a, .address b] (s.1.token.allowances a b) := by
  obtain ⟨q1, q2, q3, q4, q5⟩ := question_within (D := D) hc ha hb' v
  obtain ⟨v1, v2, v3, v4, v5⟩ := FlashBytes.C110_views W D 0 asker s a b v
  refine ⟨(ask_agree h hb q1).trans (congrArg Outcome.reply v1), (ask_agree h hb q2).trans ((congrArg Outcome.reply v2).trans ?_),
    (ask_agree h hb q3).trans (congrArg Outcome.reply v3), (ask_agree h hb q4).trans (congrArg Outcome.reply v4),
    (ask_agree h hb q5).trans (congrArg Outcome.reply v5)⟩
  by_cases e : a = s.1.self_
  · rw [if_pos e, if_pos e]; rfl
  · rw [if_neg e, if_neg e]; rfl

theorem told {p : Lender × τ} {asker : Address} {sg : String} {args : List Val} {x y : U256} (h : Tells W D asker p sg args x)
    (h' : Tells W D asker p sg args y) : x = y := Proofs.Contracts.uint256_inj (Option.some.inj (h.symm.trans h'))

theorem transfers_eq {p : Lender} {s : Flash.State} (hi : Agrees keccak256 S p s) : transfers p = s.token.log := by
  obtain ⟨c, _, rfl, _⟩ := hi; rfl

/-- Accounts that take no part have nothing, and are allowed nothing. -/
theorem nothing {p : Lender} {s : Flash.State} (hi : Agrees keccak256 S p s) {a : Address} (ha : a ∉ S) : s.token.balances a = 0#256 := by
  obtain ⟨c, _, rfl, hz⟩ := hi
  refine hz (Erc20Words.balance OnWords.token a) ?_
  rintro ((h | ⟨b, hb, h⟩ | ⟨b, _, d, _, h⟩) | h | h)
  · exact StoragePrograms.balance_ne_supply h
  · exact ha (StoragePrograms.balance_inj h ▸ hb)
  · exact StoragePrograms.balance_ne_allowance h
  · simp [Erc20Words.balance, OnWords.token] at h
  · simp [Erc20Words.balance, OnWords.token] at h

theorem allowed_nothing {p : Lender} {s : Flash.State} (hi : Agrees keccak256 S p s) (o : Address) {a : Address} (ha : a ∉ S) :
    s.token.allowances o a = 0#256 := by
  obtain ⟨c, _, rfl, hz⟩ := hi
  refine hz (Erc20Words.allowance OnWords.token o a) ?_
  rintro ((h | ⟨b, hb, h⟩ | ⟨b, _, d, hd, h⟩) | h | h)
  · exact StoragePrograms.allowance_ne_supply h
  · exact StoragePrograms.balance_ne_allowance h.symm
  · exact ha ((StoragePrograms.allowance_inj h).2 ▸ hd)
  · simp [Erc20Words.allowance, OnWords.token] at h
  · simp [Erc20Words.allowance, OnWords.token] at h

/-- The outcomes correspond. -/
theorem returned {o : Outcome (Lender × τ)} {o' : Outcome (Flash.State × τ)} (h : Same keccak256 S o o') {p : Lender × τ} {d : Bytes}
    (hr : o = .returned p d) : ∃ s, o' = .returned s d ∧ Both keccak256 S p s := by
  subst hr
  cases o' with
  | reverted d' => exact h.elim
  | returned s d' => exact ⟨s, by rw [h.1], h.2⟩

theorem returns {o : Outcome (Lender × τ)} {o' : Outcome (Flash.State × τ)} (h : Same keccak256 S o o') {s : Flash.State × τ} {d : Bytes}
    (hr : o' = .returned s d) : ∃ p, o = .returned p d ∧ Both keccak256 S p s := by
  subst hr
  cases o with
  | reverted d' => exact h.elim
  | returned p d' => exact ⟨p, by rw [h.1], h.2⟩

theorem refuses {o : Outcome (Lender × τ)} {o' : Outcome (Flash.State × τ)} (h : Same keccak256 S o o') {d : Bytes}
    (hr : o' = .reverted d) : o = .reverted d := by
  subst hr
  cases o with
  | reverted d' => exact congrArg _ h
  | returned p d' => exact h.elim

section
variable (t : τ) (l : List (Tx τ))

/-- **C122** With bytes only: right after the deployment there are no tokens and no allowances. -/
theorem C122_start (h : Setting W keccak256 D n S here receiver fee w) {asker a b : Address} (hc : asker ∈ S) (ha : a ∈ S) (hb : b ∈ S) :
    Tells W D asker (w, t) "totalSupply()" [] 0#256 ∧ Tells W D asker (w, t) "balanceOf(address)" [.address a] 0#256 ∧
    Tells W D asker (w, t) "allowance(address,address)" [.address a, .address b] 0#256 :=
  (asks h (agree h [] (by simp) t) hc ha hb 0#256).2.2

/-- **C122** With bytes only: whatever happens, the fee for a loan of this token is that of the deployment, whatever is lent, and other
tokens are refused. -/
theorem C122_fixed (h : Setting W keccak256 D n S here receiver fee w) (hl : ∀ x ∈ l, About keccak256 D S x.sender x.value x.input)
    {asker a : Address} (hc : asker ∈ S) (ha : a ∈ S) (v : U256) :
    ask W D asker (after W keccak256 D (w, t) l) "flashFee(address,uint256)" [.address a, .uint256 v] =
      if a = here then some (values [.uint256 fee]) else none := by
  have := (asks h (agree h l hl t) hc ha hc v).2.1
  obtain ⟨e1, e2, _⟩ := FlashBytes.C110_fixed W D l (newToken here fee receiver, t)
  rw [e1, e2] at this
  exact this

/-- **C122** With bytes only: whatever happens, what is answered for the largest loan of this token and the total supply add up to
2^256 - 1, and nothing of other tokens is lent. -/
theorem C122_max_loan (h : Setting W keccak256 D n S here receiver fee w) (hl : ∀ x ∈ l, About keccak256 D S x.sender x.value x.input)
    {asker a : Address} (hc : asker ∈ S) (ha : a ∈ S) :
    let w' := after W keccak256 D (w, t) l
    ∃ most total : U256, Tells W D asker w' "maxFlashLoan(address)" [.address a] most ∧ Tells W D asker w' "totalSupply()" [] total ∧
      most.toNat = if a = here then 2 ^ 256 - 1 - total.toNat else 0 := by
  intro w'
  obtain ⟨h1, _, h2, _⟩ := asks h (agree h l hl t) hc ha hc 0#256
  obtain ⟨e1, _, _⟩ := FlashBytes.C110_fixed W D l (newToken here fee receiver, t)
  rw [e1] at h1
  refine ⟨_, _, h1, h2, ?_⟩
  by_cases e : a = here
  · rw [if_pos (show a = (newToken here fee receiver, t).1.self_ from e), if_pos e, BitVec.toNat_ofNat, Nat.mod_eq_of_lt (by omega)]
  · rw [if_neg (show ¬ a = (newToken here fee receiver, t).1.self_ from e), if_neg e]; rfl

/-- **C122** With bytes only: whatever happens, the answers to `balanceOf` for the accounts that take part add up to the answer to
`totalSupply`. -/
theorem C122_supply (h : Setting W keccak256 D n S here receiver fee w) (hl : ∀ x ∈ l, About keccak256 D S x.sender x.value x.input)
    (hS : S.Nodup) {asker : Address} (hc : asker ∈ S) :
    let w' := after W keccak256 D (w, t) l
    ∃ (total : U256) (bal : Address → U256), Tells W D asker w' "totalSupply()" [] total ∧
      (∀ a ∈ S, Tells W D asker w' "balanceOf(address)" [.address a] (bal a)) ∧ (S.map fun a => (bal a).toNat).sum = total.toNat := by
  intro w'
  have hb := agree h l hl t
  have hs := FlashBytes.reached_sum (W := W) (D := D) ⟨here, fee, receiver, t, l, rfl⟩
  refine ⟨_, _, (asks h hb hc hc hc 0#256).2.2.1, fun a ha => (asks h hb hc ha hc 0#256).2.2.2.1, ?_⟩
  rw [← hs, ← List.sum_toFinset _ hS]
  refine Finset.sum_subset (Finset.subset_univ _) fun a _ hna => ?_
  rw [nothing hb.agrees fun hm => hna (List.mem_toFinset.mpr hm)]
  rfl

theorem created_sum {u u' : Erc20.State} (hs : Erc20.SumOk u) {r : Address} {x : U256} (h0 : r ≠ ZERO)
    (hv : u.totalSupply.toNat + x.toNat < 2 ^ 256) (hc : Spec.Outside.Created u u' r x) : Erc20.SumOk u' :=
  Props.FlashMint.sumOk_exec (FlashBytes.env' ⟨ZERO, 0#256, ZERO, u⟩) (.call r (.mint r x)) _ _ hs (by
    simp only [FlashMint.exec, Props.FlashMint.lift_ok]
    exact (Proofs.Outside.Vault.minted_iff hs).mpr ⟨h0, hv, hc⟩)

theorem created_unique {u x y : Erc20.State} {r : Address} {v : U256} (h : Spec.Outside.Created u x r v)
    (h' : Spec.Outside.Created u y r v) : x = y := by
  obtain ⟨xb, xa, xs, xl⟩ := x
  obtain ⟨yb, ya, ys, yl⟩ := y
  have e1 : xb = yb := funext fun a => BitVec.eq_of_toNat_eq ((h.balances a).trans (h'.balances a).symm)
  have e2 : xa = ya := h.allowances.trans h'.allowances.symm
  have e3 : xs = ys := BitVec.eq_of_toNat_eq (h.supply.trans h'.supply.symm)
  have e4 : xl = yl := h.log.trans h'.log.symm
  rw [e1, e2, e3, e4]

/-- The words after the loan is created. -/
theorem lends (h : Setting W keccak256 D n S here receiver fee w) {p : Lender × τ} {s : Flash.State × τ} (hb : Both keccak256 S p s)
    (hs : Erc20.SumOk s.1.token) {r : Address} (hr : r ∈ S) (hc : W.hasCode s.2 r = true) (h0 : r ≠ ZERO) {v : U256}
    (hv : s.1.token.totalSupply.toNat + v.toNat < 2 ^ 256) :
    ∃ lent u, Agrees keccak256 S lent { s.1 with token := u } ∧ Spec.Outside.Created s.1.token u r v := by
  obtain ⟨p, t⟩ := p
  obtain ⟨s, t2⟩ := s
  obtain ⟨⟨c, hag, hq, hz⟩, ht, _, _⟩ := hb
  dsimp only at hag hq ht hs hc hv
  subst ht
  subst hq
  obtain ⟨u, hu⟩ := Proofs.Outside.mint_iff.mpr ⟨h0, hv⟩
  have hk := (Props.FlashMint.begin_ok (E := Outside.Flash.env W keccak256 (view p.self_ c p.log) t) (f := (view p.self_ c p.log).fee)).mpr
    ⟨rfl, rfl, hc, hv, hu⟩
  obtain ⟨_, o2⟩ := on_run h.apart hag hz (Proofs.Deployed.used_of_uses _ _ (uses_lend (self := p.self_) (W.hasCode t) hr p.self_ v))
  rcases acts_lend (c := c) (log := p.log) (self := p.self_) (wide_token keccak256) W keccak256 t r p.self_ v with
    ⟨e, _, b2⟩ | ⟨f, c1, ev, b1, b2, b3⟩
  · cases b2.symm.trans hk
  · obtain ⟨lent, _, b5⟩ := o2 _ _ _ b1
    have e := b2.symm.trans hk
    injection e with e
    injection e with _ e
    rw [frame ev b3, e] at b5
    exact ⟨lent, u, b5, Proofs.Outside.created_of_mint hs hu⟩

set_option maxRecDepth 100000 in
/-- **C122** With bytes only: after any history, a loan of this token to a borrower that has code and is not the zero address, for which
there is room, is created first: `v` more tokens are answered for the borrower and in all.  Then the borrower's program runs, which may
call the token again, `m` calls deep.  The loan goes through exactly if this program returns the word that the standard prescribes, and
then the token answers at least loan and fee for the borrower's balance and for the token's allowance; without this word the error is
`ERC3156InvalidReceiver`.  Loan and fee are taken: the loan is destroyed, and the fee goes to its receiver, or is destroyed if there is
none. -/
theorem C122_loan (h : Setting W keccak256 D n S here receiver fee w) (hl : ∀ x ∈ l, About keccak256 D S x.sender x.value x.input)
    {caller asker r : Address} (hcal : caller ∈ S) (hc : asker ∈ S) (hr : r ∈ S) (v : U256) (data : Bytes)
    (hlen : (message "flashLoan(address,address,uint256,bytes)"
      [.address r, .address here, .uint256 v, .bytes data]).length < 2 ^ 256) (m : Nat) {total : U256} :
    let w' := after W keccak256 D (w, t) l
    let out := run W keccak256 D (m + 1) caller w' 0#256 (message "flashLoan(address,address,uint256,bytes)"
      [.address r, .address here, .uint256 v, .bytes data])
    Tells W D asker w' "totalSupply()" [] total → here ≠ ZERO → W.hasCode w'.2 r = true → r ≠ ZERO → total.toNat + v.toNat < 2 ^ 256 →
    ∃ lent : Lender,
      (∃ total' : U256, Tells W D asker (lent, w'.2) "totalSupply()" [] total' ∧ total'.toNat = total.toNat + v.toNat) ∧
      (∀ b ∈ S, ∀ x, Tells W D asker w' "balanceOf(address)" [.address b] x → ∃ x' : U256,
        Tells W D asker (lent, w'.2) "balanceOf(address)" [.address b] x' ∧ x'.toNat = x.toNat + (if b = r then v.toNat else 0)) ∧
      (∀ b ∈ S, ∀ b' ∈ S, ∀ x, Tells W D asker w' "allowance(address,address)" [.address b, .address b'] x →
        Tells W D asker (lent, w'.2) "allowance(address,address)" [.address b, .address b'] x) ∧
      transfers lent = transfers w'.1 ++ [.transfer ZERO r v] ∧
      let back := play (run W keccak256 D m) lent (W.react w'.2 here r (message "onFlashLoan(address,address,uint256,uint256,bytes)"
        [.address caller, .address here, .uint256 v, .uint256 fee, .bytes data]))
      (∀ k t' d x y, back = .returned (k, t') d → D.read [.bytes32] d = some [.bytes32 yes] →
        Tells W D asker (k, t') "balanceOf(address)" [.address r] x → v.toNat + fee.toNat ≤ x.toNat →
        Tells W D asker (k, t') "allowance(address,address)" [.address r, .address here] y → v.toNat + fee.toNat ≤ y.toNat →
        ∃ w2, out = .returned w2 (values [.bool true])) ∧
      ((∀ k t' d, back = .returned (k, t') d → D.read [.bytes32] d ≠ some [.bytes32 yes]) →
        out = .reverted (call "ERC3156InvalidReceiver(address)" [addr r])) ∧
      ∀ w2 d2, out = .returned w2 d2 → d2 = values [.bool true] ∧ ∃ k d, back = .returned (k, w2.2) d ∧
        D.read [.bytes32] d = some [.bytes32 yes] ∧
        (∀ x, Tells W D asker (k, w2.2) "totalSupply()" [] x → ∃ x' : U256, Tells W D asker w2 "totalSupply()" [] x' ∧
          x'.toNat + v.toNat + (if receiver = ZERO then fee.toNat else 0) = x.toNat) ∧
        (∀ b ∈ S, ∀ x, Tells W D asker (k, w2.2) "balanceOf(address)" [.address b] x → (b = r → v.toNat + fee.toNat ≤ x.toNat) ∧
          ∃ x' : U256, Tells W D asker w2 "balanceOf(address)" [.address b] x' ∧
            x'.toNat + (if b = r then v.toNat + fee.toNat else 0) = x.toNat + (if b = receiver ∧ receiver ≠ ZERO then fee.toNat else 0)) ∧
        (∀ b ∈ S, ∀ b' ∈ S, ∀ y, Tells W D asker (k, w2.2) "allowance(address,address)" [.address b, .address b'] y →
          (b = r → b' = here → v.toNat + fee.toNat ≤ y.toNat) ∧
          ∃ y' : U256, Tells W D asker w2 "allowance(address,address)" [.address b, .address b'] y' ∧
            y'.toNat + (if b = r ∧ b' = here ∧ y.toNat ≠ 2 ^ 256 - 1 then v.toNat + fee.toNat else 0) = y.toNat) ∧
        transfers w2.1 = transfers k ++ (if fee.toNat = 0 ∨ receiver = ZERO then [.transfer r ZERO (v + fee)]
          else [.transfer r ZERO v, .transfer r receiver fee]) := by
  intro w' out ht hself hcode h0 hv
  obtain ⟨s, hb, hre, f1, f2, f3⟩ : ∃ s, Both keccak256 S w' s ∧ Reached W D s ∧ s.1.self_ = here ∧ s.1.fee = fee ∧ s.1.feeReceiver = receiver :=
    ⟨_, agree h l hl t, ⟨here, fee, receiver, t, l, rfl⟩, FlashBytes.C110_fixed W D l (newToken here fee receiver, t)⟩
  have hx : About keccak256 D S caller 0#256 (message "flashLoan(address,address,uint256,bytes)"
      [.address r, .address here, .uint256 v, .bytes data]) :=
    C122_call_within (D := D) hcal (.flashLoan r here v data) 0#256 hlen (by simp [abi, hr, h.here_in])
  have hrun : Same keccak256 S out _ := same_run h.apart W D h.among (m + 1) caller _ _ 0#256 _ hb hx
  clear_value out w'
  have hk := FlashBytes.C110_loan W D m caller hre (by rw [f1]; exact hself) r here v data hlen
  have hlog := transfers_eq hb.agrees
  have hsum := FlashBytes.reached_sum hre
  have e := told ht (asks h hb hc hc hc 0#256).2.2.1
  rw [hb.world] at hcode
  obtain ⟨lent, u, g1, g2⟩ := lends h hb hsum hr hcode h0 (v := v) (by rw [← e]; exact hv)
  have hb1 : Both keccak256 S (lent, w'.2) ({ s.1 with token := u }, s.2) := ⟨g1, hb.world, hb.self_, hb.receiver⟩
  have hplay := same_play (fun c w s v i hb hp => same_run h.apart W D h.among m c w s v i hb hp)
    (W.react w'.2 here r (message "onFlashLoan(address,address,uint256,uint256,bytes)"
      [.address caller, .address here, .uint256 v, .uint256 fee, .bytes data])) g1 hb.self_ hb.receiver (h.among _ _ _ _)
  refine ⟨lent, ⟨_, (asks h hb1 hc hc hc 0#256).2.2.1, by rw [e]; exact g2.supply⟩, fun b hbS x hxb => ?_, fun b hbS b' hbS' x hxb => ?_, ?_,
    fun k t' d x y hp hy hx1 hx2 hy1 hy2 => ?_, fun hbad => ?_, fun w2 d2 ho => ?_⟩
  · rw [told hxb (asks h hb hc hbS hc 0#256).2.2.2.1]
    exact ⟨_, (asks h hb1 hc hbS hc 0#256).2.2.2.1, g2.balances b⟩
  · rw [told hxb (asks h hb hc hbS hbS' 0#256).2.2.2.2]
    have := (asks h hb1 hc hbS hbS' 0#256).2.2.2.2
    rw [show ({ s.1 with token := u } : Flash.State).token.allowances = _ from g2.allowances] at this
    exact this
  · rw [transfers_eq g1, hlog]; exact g2.log
  · obtain ⟨⟨k', t2⟩, q1, q2⟩ := returned hplay hp
    have hx3 := told hx1 (asks h q2 hc hr hc 0#256).2.2.2.1
    have hy3 := told hy1 (asks h q2 hc hr h.here_in 0#256).2.2.2.2
    have e2 : t' = t2 := q2.world
    subst e2
    have hs2 : Erc20.SumOk k'.token := (FlashBytes.play_any W D m _ q1).sum
      (created_sum hsum h0 (by rw [← e]; exact hv) g2)
    obtain ⟨u2, h3⟩ := FlashBytes.finish_exists (k := s.1) (v := v) hs2 h0 (by rw [f1]; exact hself)
      (by rw [f1, f2, ← hy3]; exact hy2) (by rw [f2, ← hx3]; exact hx2)
    have rp := (FlashBytes.finish_repaid hs2 h3).2
    obtain ⟨w2, o1, _⟩ := returns hrun ((hk _ _).mpr ⟨f1.symm, hcode, h0, by rw [← e]; exact hv, u, k', t', d, u2, g2,
      by rw [f1, f2, ← hb.world]; exact q1, hy, rp, rfl, rfl⟩)
    exact ⟨w2, o1⟩
  · refine refuses hrun ?_
    have := FlashBytes.C110_bad_answer W D m caller hre r v data (by rw [f1]; exact hlen) hcode h0 (by rw [← e]; exact hv)
      fun u1 k' t' d c1 c2 => by
        rw [created_unique c1 g2, f1, f2, ← hb.world] at c2
        obtain ⟨⟨k, t2⟩, q3, _⟩ := returns hplay c2
        exact hbad k t2 d q3
    rw [f1] at this
    exact this
  · obtain ⟨s2, q1, q2⟩ := returned hrun ho
    obtain ⟨_, _, _, _, u1, k', t', d, u2, c1, c2, c3, c4, rfl, rfl⟩ := (hk _ _).mp q1
    rw [created_unique c1 g2, f1, f2, ← hb.world] at c2
    obtain ⟨⟨k, t2⟩, q3, q4⟩ := returns hplay c2
    have e2 : t2 = t' := q4.world
    subst e2
    have e3 : w2.2 = t2 := q2.world
    refine ⟨rfl, k, d, by rw [e3]; exact q3, c3, fun x hx => ?_, fun b hbS x hx => ?_, fun b hbS b' hbS' y hy => ?_, ?_⟩
    · rw [e3] at hx
      rw [told hx (asks h q4 hc hc hc 0#256).2.2.1]
      refine ⟨_, (asks h q2 hc hc hc 0#256).2.2.1, ?_⟩
      have := c4.supply
      unfold burnt at this
      rw [f2, f3] at this
      exact this
    · rw [e3] at hx
      rw [told hx (asks h q4 hc hbS hc 0#256).2.2.2.1]
      refine ⟨fun eb => ?_, _, (asks h q2 hc hbS hc 0#256).2.2.2.1, ?_⟩
      · have := c4.has
        rw [f2] at this
        rw [eb]; exact this
      · have := c4.balances b
        rw [f2, f3] at this
        exact this
    · rw [e3] at hy
      rw [told hy (asks h q4 hc hbS hbS' 0#256).2.2.2.2]
      refine ⟨fun eb eb' => ?_, _, (asks h q2 hc hbS hbS' 0#256).2.2.2.2, ?_⟩
      · have := c4.allows
        rw [f1, f2] at this
        rw [eb, eb']; exact this
      · have := c4.allowances b b'
        rw [f1, f2] at this
        exact this
    · have := c4.log
      rw [f2, f3] at this
      rw [transfers_eq q2.agrees, transfers_eq q4.agrees]; exact this

set_option maxRecDepth 100000 in
/-- **C122** With bytes only: after any history, loans are refused with exactly these errors: of other tokens, beyond what there is room
for, to a borrower without code, and to the zero address. -/
theorem C122_refused (h : Setting W keccak256 D n S here receiver fee w) (hl : ∀ x ∈ l, About keccak256 D S x.sender x.value x.input)
    {caller asker r a : Address} (hcal : caller ∈ S) (hc : asker ∈ S) (hr : r ∈ S) (ha : a ∈ S) (v : U256) (data : Bytes)
    (hlen : (message "flashLoan(address,address,uint256,bytes)"
      [.address r, .address a, .uint256 v, .bytes data]).length < 2 ^ 256) (m : Nat) {total : U256} :
    let w' := after W keccak256 D (w, t) l
    let out := run W keccak256 D (m + 1) caller w' 0#256 (message "flashLoan(address,address,uint256,bytes)"
      [.address r, .address a, .uint256 v, .bytes data])
    Tells W D asker w' "totalSupply()" [] total →
    (a ≠ here → out = .reverted (if v.toNat = 0 then call "ERC3156UnsupportedToken(address)" [addr a]
      else call "ERC3156ExceededMaxLoan(uint256)" [0#256])) ∧
    (a = here → 2 ^ 256 ≤ total.toNat + v.toNat → out = .reverted
      (call "ERC3156ExceededMaxLoan(uint256)" [BitVec.ofNat 256 (2 ^ 256 - 1 - total.toNat)])) ∧
    (a = here → total.toNat + v.toNat < 2 ^ 256 → W.hasCode w'.2 r = false →
      out = .reverted (call "ERC3156InvalidReceiver(address)" [addr r])) ∧
    (a = here → total.toNat + v.toNat < 2 ^ 256 → W.hasCode w'.2 r = true → r = ZERO →
      out = .reverted (call "ERC20InvalidReceiver(address)" [0#256])) := by
  intro w' out ht
  obtain ⟨s, hb, f1⟩ : ∃ s, Both keccak256 S w' s ∧ s.1.self_ = here :=
    ⟨_, agree h l hl t, (FlashBytes.C110_fixed W D l (newToken here fee receiver, t)).1⟩
  have hx : About keccak256 D S caller 0#256 (message "flashLoan(address,address,uint256,bytes)"
      [.address r, .address a, .uint256 v, .bytes data]) :=
    C122_call_within (D := D) hcal (.flashLoan r a v data) 0#256 hlen (by simp [abi, hr, ha])
  have hrun : Same keccak256 S out _ := same_run h.apart W D h.among (m + 1) caller _ _ 0#256 _ hb hx
  have e := told ht (asks h hb hc hc hc 0#256).2.2.1
  have hk := FlashBytes.C110_refused W D m caller s r a v data hlen
  rw [f1, ← hb.world, ← e] at hk
  exact ⟨fun a1 => refuses hrun (hk.1 a1), fun a1 a2 => refuses hrun (hk.2.1 a1 a2), fun a1 a2 a3 => refuses hrun (hk.2.2.1 a1 a2 a3),
    fun a1 a2 a3 a4 => refuses hrun (hk.2.2.2 a1 a2 a3 a4)⟩

theorem after_append (l' : List (Tx τ)) (s : Flash.State × τ) :
    Spec.FlashBytes.after W D s (l ++ l') = Spec.FlashBytes.after W D (Spec.FlashBytes.after W D s l) l' := List.foldl_append

/-- **C122** With bytes only: if from some time on nobody calls `mint`, in any transaction or inside any loan at any depth, then
whatever loans are taken, the answer to `totalSupply` stays as it is, or falls by the fee once for each of some loans, if nobody
receives the fees. -/
theorem C122_supply_restored (h : Setting W keccak256 D n S here receiver fee w) (l' : List (Tx τ))
    (hl : ∀ x ∈ l ++ l', About keccak256 D S x.sender x.value x.input)
    (hW : ∀ t a b c, Sends (fun _ _ i => NoMint D i) (W.react t a b c)) (hn : ∀ x ∈ l', NoMint D x.input)
    {asker : Address} (hc : asker ∈ S) {before afterwards : U256} :
    Tells W D asker (after W keccak256 D (w, t) l) "totalSupply()" [] before →
    Tells W D asker (after W keccak256 D (w, t) (l ++ l')) "totalSupply()" [] afterwards →
    ∃ j, afterwards.toNat + j * (if receiver = ZERO then fee.toNat else 0) = before.toNat := by
  intro h1 h2
  rw [told h1 (asks h (agree h l (fun x hx => hl x (List.mem_append_left _ hx)) t) hc hc hc 0#256).2.2.1,
    told h2 (asks h (agree h (l ++ l') hl t) hc hc hc 0#256).2.2.1, after_append]
  obtain ⟨j, hj⟩ := FlashBytes.C110_supply_restored W D (s := Spec.FlashBytes.after W D (newToken here fee receiver, t) l)
    ⟨here, fee, receiver, t, l, rfl⟩ hW l' hn
  obtain ⟨_, f2, f3⟩ := FlashBytes.C110_fixed W D l (newToken here fee receiver, t)
  refine ⟨j, ?_⟩
  unfold burnt at hj
  rw [f2, f3] at hj
  exact hj

/-- **C122** With bytes only: an account for which the token answers that it allows nothing, and in whose name nobody calls, loses
nothing: the answer to `balanceOf` never falls, whatever the programs are and however deep their calls are nested. -/
theorem C122_nothing_lost (h : Setting W keccak256 D n S here receiver fee w) (l' : List (Tx τ))
    (hl : ∀ x ∈ l ++ l', About keccak256 D S x.sender x.value x.input) {holder asker : Address} (hh : holder ∈ S) (hc : asker ∈ S)
    (hW : ∀ t a b c, Sends (fun c _ _ => c ≠ holder) (W.react t a b c)) (hn : ∀ x ∈ l', x.sender ≠ holder)
    {before afterwards : U256} :
    let w1 := after W keccak256 D (w, t) l
    let w2 := after W keccak256 D (w, t) (l ++ l')
    (∀ p ∈ S, Tells W D asker w1 "allowance(address,address)" [.address holder, .address p] 0#256) →
    Tells W D asker w1 "balanceOf(address)" [.address holder] before →
    Tells W D asker w2 "balanceOf(address)" [.address holder] afterwards → before.toNat ≤ afterwards.toNat := by
  intro w1 w2 h0 h1 h2
  have hb := agree h l (fun x hx => hl x (List.mem_append_left _ hx)) t
  rw [told h1 (asks h hb hc hh hc 0#256).2.2.2.1, told h2 (asks h (agree h (l ++ l') hl t) hc hh hc 0#256).2.2.2.1, after_append]
  refine FlashBytes.C110_nothing_lost W D ⟨here, fee, receiver, t, l, rfl⟩ holder (fun p => ?_) hW l' hn
  by_cases hp : p ∈ S
  · rw [← told (h0 p hp) (asks h hb hc hh hp 0#256).2.2.2.2]; rfl
  · rw [allowed_nothing hb.agrees holder hp]; rfl

set_option maxRecDepth 100000 in
/-- **C122** With bytes only: after any history, a loan for a borrower that has the fee, allows the token to take loan and fee, and
answers as it should, always goes through.  It costs them the fee. -/
theorem C122_careful_borrower (h : Setting W keccak256 D n S here receiver fee w)
    (hl : ∀ x ∈ l, About keccak256 D S x.sender x.value x.input) {caller asker r : Address} (hcal : caller ∈ S) (hc : asker ∈ S)
    (hr : r ∈ S) (v : U256) (data : Bytes) (hlen : (message "flashLoan(address,address,uint256,bytes)"
      [.address r, .address here, .uint256 v, .bytes data]).length < 2 ^ 256) (m : Nat) {total has : U256} :
    let w' := after W keccak256 D (w, t) l
    Tells W D asker w' "totalSupply()" [] total → Tells W D asker w' "balanceOf(address)" [.address r] has →
    here ≠ ZERO → W.hasCode w'.2 r = true → r ≠ ZERO → total.toNat + v.toNat < 2 ^ 256 → v.toNat + fee.toNat < 2 ^ 256 →
    fee.toNat ≤ has.toNat →
    W.react w'.2 here r (message "onFlashLoan(address,address,uint256,uint256,bytes)"
      [.address caller, .address here, .uint256 v, .uint256 fee, .bytes data]) =
      .call w'.2 r 0#256 (message "approve(address,uint256)" [.address here, .uint256 (v + fee)]) (fun ok _ t =>
        if ok then .stop t (values [.bytes32 yes]) else .fail []) →
    ∃ w2, run W keccak256 D (m + 2) caller w' 0#256 (message "flashLoan(address,address,uint256,bytes)"
        [.address r, .address here, .uint256 v, .bytes data]) = .returned w2 (values [.bool true]) ∧ w2.2 = w'.2 ∧
      (∀ b ∈ S, ∀ x, Tells W D asker w' "balanceOf(address)" [.address b] x → ∃ x' : U256,
        Tells W D asker w2 "balanceOf(address)" [.address b] x' ∧ x'.toNat + (if b = r then fee.toNat else 0) =
          x.toNat + (if b = receiver ∧ receiver ≠ ZERO then fee.toNat else 0)) ∧
      ∃ total' : U256, Tells W D asker w2 "totalSupply()" [] total' ∧
        total'.toNat + (if receiver = ZERO then fee.toNat else 0) = total.toNat := by
  intro w' ht hh hself hcode h0 hv hfit hfee hp
  obtain ⟨s, hb, hre, f1, f2, f3⟩ : ∃ s, Both keccak256 S w' s ∧ Reached W D s ∧ s.1.self_ = here ∧ s.1.fee = fee ∧ s.1.feeReceiver = receiver :=
    ⟨_, agree h l hl t, ⟨here, fee, receiver, t, l, rfl⟩, FlashBytes.C110_fixed W D l (newToken here fee receiver, t)⟩
  have hx : About keccak256 D S caller 0#256 (message "flashLoan(address,address,uint256,bytes)"
      [.address r, .address here, .uint256 v, .bytes data]) :=
    C122_call_within (D := D) hcal (.flashLoan r here v data) 0#256 hlen (by simp [abi, hr, h.here_in])
  have hrun := same_run h.apart W D h.among (m + 2) caller w' s 0#256 _ hb hx
  have e1 := told ht (asks h hb hc hc hc 0#256).2.2.1
  have e2 := told hh (asks h hb hc hr hc 0#256).2.2.2.1
  clear_value w'
  have hk := FlashBytes.C110_careful_borrower W D m caller hre (by rw [f1]; exact hself) r v data (by rw [f1]; exact hlen)
    (by rw [← hb.world]; exact hcode) h0 (by rw [← e1]; exact hv) (by rw [f2]; exact hfit) (by rw [f2, ← e2]; exact hfee)
    (by rw [f1, f2, ← hb.world]; exact hp)
  unfold burnt at hk
  rw [f1, f2, f3] at hk
  obtain ⟨u, k1, k2, k3⟩ := hk
  obtain ⟨w2, o1, o2⟩ := returns hrun k1
  refine ⟨w2, o1, o2.world.trans hb.world.symm, fun b hbS x hxb => ?_, _, (asks h o2 hc hc hc 0#256).2.2.1, by rw [e1]; exact k3⟩
  rw [told hxb (asks h hb hc hbS hc 0#256).2.2.2.1]
  exact ⟨_, (asks h o2 hc hbS hc 0#256).2.2.2.1, k2 b⟩

end
end

/-! ## The hypotheses can be met -/

/-- The token. -/
def me : Address := 1#160
/-- The borrower. -/
def bob : Address := 2#160

/-- Bob's program takes a loan of 7 in the first loan it gets, and repays; the chain counts what happened. -/
def twice : Others Nat where
  hasCode _ a := a = bob
  react t sender target _ :=
    if sender = me ∧ target = bob then
      if t = 0 then
        .call 1 bob 0#256 (message "flashLoan(address,address,uint256,bytes)"
          [.address bob, .address me, .uint256 7#256, .bytes []]) fun _ _ t => FlashBytes.repay t bob me 1001#256
      else FlashBytes.repay t bob me 8#256
    else .fail []

theorem sends_repay {p : Address → U256 → Bytes → Prop} {x : U256} (h : p bob 0#256 (message "approve(address,uint256)" [.address me, .uint256 x]))
    (t : Nat) : Sends p (FlashBytes.repay t bob me x) := by
  unfold FlashBytes.repay
  refine ⟨h, fun b d t => ?_⟩
  cases b <;> trivial

theorem sends_twice {p : Address → U256 → Bytes → Prop}
    (h1 : p bob 0#256 (message "flashLoan(address,address,uint256,bytes)" [.address bob, .address me, .uint256 7#256, .bytes []]))
    (h2 : ∀ x, p bob 0#256 (message "approve(address,uint256)" [.address me, .uint256 x])) (t : Nat) (a b : Address) (c : Bytes) :
    Sends p (twice.react t a b c) := by
  unfold twice
  dsimp only
  split
  · split
    · exact ⟨h1, fun _ _ t => sends_repay (h2 _) t⟩
    · exact sends_repay (h2 _) t
  · trivial

/-- The accounts of the sample. -/
def all : List Address := [0#160, 1#160, 2#160]

theorem loan_short (v : U256) : (message "flashLoan(address,address,uint256,bytes)"
    [.address bob, .address me, .uint256 v, .bytes []]).length < 2 ^ 256 := by
  rw [Proofs.Contracts.message_length]
  simp [Spec.Contracts.values, Spec.Contracts.heads, Spec.Contracts.tails, Spec.Contracts.arg]
  have : (Spec.Calls.tail []).length = 32 := by decide +kernel
  simp only [Spec.Revert.word, this]
  simp

theorem about_loan {D : Decoder} (v : U256) : About keccak256 D all bob 0#256
    (message "flashLoan(address,address,uint256,bytes)" [.address bob, .address me, .uint256 v, .bytes []]) :=
  C122_call_within (by decide) (.flashLoan bob me v []) 0#256 (loan_short v) (by simp [abi, all, bob, me])

theorem about_mint {D : Decoder} {a : Address} (ha : a ∈ all) (v : U256) : About keccak256 D all bob 0#256
    (message "mint(address,uint256)" [.address a, .uint256 v]) :=
  C122_call_within (by decide) (.mint a v) 0#256 (Proofs.Contracts.words_lt _ _ (by simp [abi, Spec.Contracts.arg]) (by simp [abi]))
    (by simp [abi, ha])

theorem about_approve {D : Decoder} (v : U256) : About keccak256 D all bob 0#256
    (message "approve(address,uint256)" [.address me, .uint256 v]) :=
  C122_call_within (by decide) (.approve me v) 0#256 (Proofs.Contracts.words_lt _ _ (by simp [abi, Spec.Contracts.arg]) (by simp [abi]))
    (by simp [abi, all, me])

/-- The storage cells of the accounts 0, 1 and 2. -/
def sampleCells : List (List Storage.Step) := tokenCells ++ [feeCell, receiverCell]

theorem sample_cells {p : List Storage.Step} (h : Cells all p) : p ∈ sampleCells := by
  rcases h with h | rfl | rfl
  · exact List.mem_append_left _ (token_cells h)
  · exact List.mem_append_right _ (by simp [feeCell])
  · exact List.mem_append_right _ (by simp [receiverCell])

theorem sample_apart : Apart keccak256 10 erc20FlashMintExample (Cells all) :=
  ⟨by decide, Proofs.Separate.separate sampleCells tokenTable (fun _ => sample_cells)
    (fun e he => OnWords.table_ok e (List.mem_append_left _ he)) (by decide +kernel) (by decide +kernel) (by decide +kernel)⟩

theorem sample_setting (D : Decoder) : ∃ w, Setting twice keccak256 D 10 all me ZERO 1#256 w := by
  obtain ⟨w, hd⟩ := C122_deploy keccak256 me ZERO 1#256
  exact ⟨w, hd, by decide, by decide, sends_twice (about_loan 7#256) about_approve, sample_apart⟩

/-- 5 tokens are created for Bob. -/
def first : Tx Nat := ⟨bob, 0#256, message "mint(address,uint256)" [.address bob, .uint256 5#256], 1, id⟩

theorem first_about {D : Decoder} : ∀ x ∈ [first], About keccak256 D all x.sender x.value x.input := by
  intro x hx
  obtain rfl := List.mem_singleton.mp hx
  exact about_mint (by decide) 5#256

/-- The token when Bob has 5. -/
def five : Flash.State := { newToken me 1#256 ZERO with
  token := { Erc20.init with balances := upd (fun _ => 0#256) bob 5#256, totalSupply := 5#256, log := [.transfer ZERO bob 5#256] } }

set_option maxRecDepth 100000 in
theorem five_after (D : Decoder) (t : Nat) : Spec.FlashBytes.after twice D (newToken me 1#256 ZERO, t) [first] = (five, t) := by
  have h := FlashBytes.C110_call twice D 0 bob (newToken me 1#256 ZERO, t) (.mint bob 5#256)
    (Proofs.Contracts.words_lt _ _ (by simp [abi, Spec.Contracts.arg]) (by simp [abi]))
  unfold Spec.FlashBytes.after
  simp only [List.foldl, Spec.FlashBytes.step, id, first]
  rw [show Outside.Flash.run twice keccak256 D 1 bob (newToken me 1#256 ZERO, t) 0#256
    (message "mint(address,uint256)" [.address bob, .uint256 5#256]) = _ from h]
  rfl

/-- Bob has 5 tokens, and there are no others. -/
theorem sample_five {D : Decoder} {w : Lender} (h : Setting twice keccak256 D 10 all me ZERO 1#256 w) (t : Nat) :
    let w' := after twice keccak256 D (w, t) [first]
    Tells twice D bob w' "totalSupply()" [] 5#256 ∧ Tells twice D bob w' "balanceOf(address)" [.address bob] 5#256 ∧ w'.2 = t ∧
    ∀ p ∈ all, Tells twice D bob w' "allowance(address,address)" [.address me, .address p] 0#256 := by
  have hb := agree h [first] first_about t
  rw [five_after] at hb
  have hc : bob ∈ all := by decide
  exact ⟨(asks h hb hc hc hc 0#256).2.2.1, (asks h hb hc hc hc 0#256).2.2.2.1, hb.world,
    fun p hp => (asks h hb hc (by decide) hp 0#256).2.2.2.2⟩

-- C122_careful_borrower, and with it C122_loan, whose hypotheses on the state are the same: a loan of 7 costs Bob 1
example (D : Decoder) : ∃ w, Setting twice keccak256 D 10 all me ZERO 1#256 w ∧
    ∃ w2, run twice keccak256 D 2 bob (after twice keccak256 D (w, 1) [first]) 0#256 (message "flashLoan(address,address,uint256,bytes)"
        [.address bob, .address me, .uint256 7#256, .bytes []]) = .returned w2 (values [.bool true]) ∧
      ∃ x : U256, Tells twice D bob w2 "balanceOf(address)" [.address bob] x ∧ x.toNat = 4 := by
  obtain ⟨w, h⟩ := sample_setting D
  obtain ⟨s1, s2, s3, _⟩ := sample_five h 1
  obtain ⟨w2, o1, _, o2, _⟩ := C122_careful_borrower 1 [first] h first_about (caller := bob) (by decide) (by decide) (r := bob) (by decide)
    7#256 [] (loan_short _) 0 s1 s2 (by decide) rfl (by decide) (by decide) (by decide) (by decide)
    (by rw [s3]; rfl)
  obtain ⟨x, x1, x2⟩ := o2 bob (by decide) _ s2
  refine ⟨w, h, w2, o1, x, x1, ?_⟩
  rw [if_pos rfl, if_neg (fun h => h.2 rfl)] at x2
  have : (1#256 : U256).toNat = 1 := by decide
  have : (5#256 : U256).toNat = 5 := by decide
  omega

/-- Bob takes a loan of 1000, and in it another one of 7. -/
def second : Tx Nat := ⟨bob, 0#256, message "flashLoan(address,address,uint256,bytes)"
  [.address bob, .address me, .uint256 1000#256, .bytes []], 3, id⟩

theorem both_about {D : Decoder} : ∀ x ∈ [first] ++ [second], About keccak256 D all x.sender x.value x.input := by
  intro x hx
  rcases List.mem_append.mp hx with hx | hx
  · exact first_about x hx
  · obtain rfl := List.mem_singleton.mp hx
    exact about_loan 1000#256

theorem no_mint {D : Decoder} {sg : String} {args : List Val} (h4 : (Spec.Calls.sel sg).length = 4 ∧
    (Spec.Calls.sel "mint(address,uint256)").length = 4 ∧ Spec.Calls.sel "mint(address,uint256)" ≠ Spec.Calls.sel sg) :
    NoMint D (message sg args) := by
  intro a v hs
  have h1 := hs.selector
  unfold message at h1
  have h2 := List.prefix_of_prefix_length_le h1 (List.prefix_append _ _) (by rw [h4.1, h4.2.1])
  exact h4.2.2 (h2.eq_of_length (by rw [h4.1, h4.2.1]))

theorem sel_loan : (Spec.Calls.sel "flashLoan(address,address,uint256,bytes)").length = 4 ∧
    (Spec.Calls.sel "mint(address,uint256)").length = 4 ∧
    Spec.Calls.sel "mint(address,uint256)" ≠ Spec.Calls.sel "flashLoan(address,address,uint256,bytes)" := by
  unfold Spec.Calls.sel
  rw [Proofs.KeccakFast.keccak256_eq]
  decide +kernel

theorem sel_approve : (Spec.Calls.sel "approve(address,uint256)").length = 4 ∧
    (Spec.Calls.sel "mint(address,uint256)").length = 4 ∧
    Spec.Calls.sel "mint(address,uint256)" ≠ Spec.Calls.sel "approve(address,uint256)" := by
  unfold Spec.Calls.sel
  rw [Proofs.KeccakFast.keccak256_eq]
  decide +kernel

-- C122_supply_restored and C122_nothing_lost: what there is after a loan in a loan
example (D : Decoder) : ∃ w, Setting twice keccak256 D 10 all me ZERO 1#256 w ∧
    (∀ t a b c, Sends (fun _ _ i => NoMint D i) (twice.react t a b c)) ∧
    (∀ t a b c, Sends (fun c _ _ => c ≠ me) (twice.react t a b c)) ∧
    ∃ x : U256, Tells twice D bob (after twice keccak256 D (w, 0) ([first] ++ [second])) "totalSupply()" [] x ∧ x.toNat ≤ 5 := by
  obtain ⟨w, h⟩ := sample_setting D
  obtain ⟨s1, s2, s3, s4⟩ := sample_five h 0
  have n1 := no_mint (D := D) (args := [.address bob, .address me, .uint256 7#256, .bytes []])
    sel_loan
  have hW : ∀ t a b c, Sends (fun _ _ i => NoMint D i) (twice.react t a b c) :=
    sends_twice n1 fun x => no_mint sel_approve
  have hm : ∀ t a b c, Sends (fun c _ _ => c ≠ me) (twice.react t a b c) := sends_twice (by decide) fun _ => by decide
  have hb := (asks h (agree h ([first] ++ [second]) both_about 0) (asker := bob) (a := bob) (b := bob) (by decide) (by decide) (by decide)
    0#256).2.2.1
  obtain ⟨j, hj⟩ := C122_supply_restored 0 [first] h [second] both_about hW
    (by intro x hx; obtain rfl := List.mem_singleton.mp hx; exact no_mint sel_loan) (by decide) s1 hb
  have hn := fun b a => C122_nothing_lost 0 [first] h [second] both_about (holder := me) (asker := bob) (by decide) (by decide) hm
    (by decide) (before := b) (afterwards := a) s4
  have : (5#256 : U256).toNat = 5 := by decide
  exact ⟨w, h, hW, hm, _, hb, by omega⟩

-- C122_refused: a loan of another token, and one that there is no room for
example (D : Decoder) : ∃ w, Setting twice keccak256 D 10 all me ZERO 1#256 w ∧
    let w' := after twice keccak256 D (w, 0) [first]
    run twice keccak256 D 1 bob w' 0#256 (message "flashLoan(address,address,uint256,bytes)"
      [.address bob, .address me, .uint256 (-5#256), .bytes []]) = .reverted (call "ERC3156ExceededMaxLoan(uint256)" [-6#256]) := by
  obtain ⟨w, h⟩ := sample_setting D
  obtain ⟨s1, _, s3, _⟩ := sample_five h 0
  exact ⟨w, h, (C122_refused 0 [first] h first_about (caller := bob) (by decide) (by decide) (r := bob) (by decide) (by decide) (-5#256) []
    (loan_short _) 0 s1).2.1 rfl (by decide)⟩

end Verif.Props.FlashDeployed
