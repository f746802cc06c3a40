import Verif.Proofs.VaultDeployed
import Verif.Props.OnWords
import Verif.Props.GatesDeployed
import Verif.Props.VaultSystem
import Verif.Proofs.Separate
/-!
# C121: `examples/erc4626` as deployed: constructor, calldata, storage words, and any program as the asset

Nothing of the other models is left in the statements but the vault on words (`Verif.Model.VaultDeployed`) and the rest of the chain
(`World` of `Verif.Model.Outside`), except that `C121_answers` compares the vault with that of C105.  `S` are the accounts that take
part.  Of them it is asked that the hash values of their storage cells do not coincide (`Apart`), as in C98, C104 and C115.
-/
namespace Verif.Props.VaultDeployed
open Verif Verif.Storage Verif.Outside Verif.VaultDeployed Verif.Spec.VaultDeployed Verif.Spec.OnWords
open Verif.Proofs.VaultDeployed Verif.Props.OnWords
open Verif.OnWords (Chained)
open Verif.Deployed (Utf8)
open Verif.Abi (Val Decoder Outcome)
open Verif.Spec.Keccak (keccak256)
open Verif.Spec.Calls (call)
open Verif.Spec.Revert (addr)
open Verif.Spec.Contracts (Raw message values Says)
open Verif.Spec.Outside (Step Takes Reports Floor Ceil Created Destroyed Fits newVault vaultAfter VaultReached tokenWorld Tx)
open Verif.Props.Vault (abi Op mem)

variable {τ : Type}

/-- What an account gets to know that asks a question: the bytes of the answer, `none` if it is refused. -/
abbrev ask (W : World τ) (D : Decoder) (U : Utf8) := Spec.Contracts.answer (run W keccak256 D U)

/-- A number that is answered. -/
abbrev Tells (W : World τ) (D : Decoder) (U : Utf8) (asker : Address) (w : Chained Ev τ) (sg : String) (args : List Val) (x : U256) : Prop :=
  ask W D U asker w sg args = some (values [.uint256 x])

/-- `x` more shares are answered for `r` and in all, all other answers stay, and there is one event about it. -/
structure Issued (W : World τ) (D : Decoder) (U : Utf8) (S : List Address) (asker : Address) (w w2 : Chained Ev τ) (r : Address) (x : U256) : Prop where
  supply : ∀ v, Tells W D U asker w "totalSupply()" [] v →
    ∃ v' : U256, Tells W D U asker w2 "totalSupply()" [] v' ∧ v'.toNat = v.toNat + x.toNat
  balances : ∀ b ∈ S, ∀ v, Tells W D U asker w "balanceOf(address)" [.address b] v →
    ∃ v' : U256, Tells W D U asker w2 "balanceOf(address)" [.address b] v' ∧ v'.toNat = v.toNat + (if b = r then x.toNat else 0)
  allowances : ∀ b ∈ S, ∀ b' ∈ S, ∀ v, Tells W D U asker w "allowance(address,address)" [.address b, .address b'] v →
    Tells W D U asker w2 "allowance(address,address)" [.address b, .address b'] v
  events : transfers w2 = transfers w ++ [.transfer ZERO r x]

/-- `x` shares fewer are answered for `o` and in all; if the sender is not `o`, their allowance is `x` less unless it is unlimited; all
other answers stay, and there is one event about it. -/
structure Redeemed (W : World τ) (D : Decoder) (U : Utf8) (S : List Address) (asker : Address) (w w2 : Chained Ev τ) (caller o : Address)
    (x : U256) : Prop where
  supply : ∀ v, Tells W D U asker w "totalSupply()" [] v →
    ∃ v' : U256, Tells W D U asker w2 "totalSupply()" [] v' ∧ v'.toNat + x.toNat = v.toNat
  balances : ∀ b ∈ S, ∀ v, Tells W D U asker w "balanceOf(address)" [.address b] v →
    ∃ v' : U256, Tells W D U asker w2 "balanceOf(address)" [.address b] v' ∧ v'.toNat + (if b = o then x.toNat else 0) = v.toNat
  allowances : ∀ b ∈ S, ∀ b' ∈ S, ∀ v, Tells W D U asker w "allowance(address,address)" [.address b, .address b'] v →
    ∃ v' : U256, Tells W D U asker w2 "allowance(address,address)" [.address b, .address b'] v' ∧
      v'.toNat + (if b = o ∧ b' = caller ∧ caller ≠ o ∧ v.toNat ≠ 2 ^ 256 - 1 then x.toNat else 0) = v.toNat
  events : transfers w2 = transfers w ++ [.transfer o ZERO x]

/-- **C121** Deployment is never refused: not for any asset, and not for any offset. -/
theorem C121_deploy {n : Nat} {S : List Address} {name symbol : List Char} (h : Apart keccak256 n erc4626Example (Cells S name symbol))
    (self asset : Address) (offset : U8) (t : τ) : ∃ w, deploy keccak256 self name symbol asset offset t = some w := by
  obtain ⟨w, h, _⟩ := deploys h self asset offset t
  exact ⟨w, h⟩

section
variable {n : Nat} {S : List Address} {W : World τ} {D : Decoder} {U : Utf8} {name symbol : List Char}

/-- The vault of C105 with the same past. -/
abbrev past (W : World τ) (D : Decoder) (name symbol : List Char) (self asset : Address) (offset : U8) (t : τ) (l : List (Step τ)) :
    Outside.Vault.State τ := vaultAfter W D ⟨name, symbol⟩ (newVault self asset 18#8 offset t) l

section
variable {self asset : Address} {offset : U8} {t : τ} {w : Chained Ev τ}

theorem reached (l : List (Step τ)) : VaultReached W D ⟨name, symbol⟩ (past W D name symbol self asset offset t l) :=
  ⟨_, _, _, _, _, l, rfl⟩

theorem play_agree (h : Setting keccak256 n S self name symbol asset offset t w) (W : World τ) (D : Decoder) (U : Utf8) (l : List (Step τ))
    (hx : ∀ x ∈ l, About keccak256 D S x) :
    Agrees keccak256 S name symbol (play W keccak256 D U w l) (past W D name symbol self asset offset t l) := by
  obtain ⟨w1, h1, h2⟩ := deploys h.apart self asset offset t
  cases h.deployed.symm.trans h1
  exact inv_play h.apart h.name_fits h.symbol_fits W D U l h2 hx

/-- **C121** Bytes in, bytes out, with nothing between but words of storage: after any transactions and anything that others do, a
transaction is answered with the same bytes as by the vault with independent mappings that C105 is about, the rest of the chain is
the same before and after it, and so are the events. -/
theorem C121_answers (h : Setting keccak256 n S self name symbol asset offset t w) (l : List (Step τ)) (tx : Raw Address)
    (hl : ∀ x ∈ l, About keccak256 D S x) (hx : Within keccak256 D Router.erc4626Example S tx) :
    let s := vaultAfter W D ⟨name, symbol⟩ (newVault self asset 18#8 offset t) l
    let w' := play W keccak256 D U w l
    let out := run W keccak256 D U tx.env w' tx.value tx.input
    let out' := Outside.Vault.run W keccak256 D ⟨name, symbol⟩ tx.env s tx.value tx.input
    Spec.Deployed.answer out = Spec.Deployed.answer out' ∧ w'.world = s.world ∧ (out.after w').world = (out'.after s).world ∧
    transfers w' = s.shares.log ∧ deposits w' = s.log := by
  intro s w' out out'
  have hi := play_agree h W D U l hl
  obtain ⟨h1, _, _, _, _, _, h2, _⟩ := inv_run h.apart h.name_fits h.symbol_fits W D U hi hx
  obtain ⟨_, _, _, c, _, h3, _⟩ := hi
  have h2 := congrArg Prod.snd h2
  have h3 := congrArg Prod.snd h3
  exact ⟨h1, congrArg Outside.Vault.State.world h3, congrArg Outside.Vault.State.world h2, congrArg (fun s => s.shares.log) h3,
    congrArg Outside.Vault.State.log h3⟩

set_option maxRecDepth 100000 in
/-- **C121** A call of a function that changes the state is about its sender and the addresses among its arguments. -/
theorem C121_call_within {caller : Address} (hc : caller ∈ S) (op : Op) (value : U256) (ha : ∀ a, Val.address a ∈ (abi op).2 → a ∈ S) :
    Within keccak256 D Router.erc4626Example S ⟨caller, value, message (abi op).1 (abi op).2⟩ := by
  cases op <;> exact within mem (by simp [abi, Spec.Router.erc4626Example]) rfl rfl
    (Proofs.Contracts.words_lt _ _ (by simp [abi, Spec.Contracts.arg]) (by simp [abi])) hc ha

/-- The questions without an argument, and those about one account, two accounts and a number. -/
def Questions (a b : Address) (x : U256) : List (String × List Val) :=
  [("asset()", []), ("decimals()", []), ("name()", []), ("symbol()", []), ("totalSupply()", []), ("totalAssets()", []),
   ("balanceOf(address)", [.address a]), ("maxRedeem(address)", [.address a]), ("maxDeposit(address)", [.address a]),
   ("maxMint(address)", [.address a]), ("maxWithdraw(address)", [.address a]),
   ("allowance(address,address)", [.address a, .address b]),
   ("convertToShares(uint256)", [.uint256 x]), ("previewDeposit(uint256)", [.uint256 x]), ("previewWithdraw(uint256)", [.uint256 x]),
   ("convertToAssets(uint256)", [.uint256 x]), ("previewRedeem(uint256)", [.uint256 x]), ("previewMint(uint256)", [.uint256 x])]

set_option maxRecDepth 100000 in
theorem question_within {asker a b : Address} (x : U256) (hc : asker ∈ S) (ha : a ∈ S) (hb : b ∈ S) : ∀ q ∈ Questions a b x,
    Within keccak256 D Router.erc4626Example S ⟨asker, 0#256, message q.1 q.2⟩ := by
  simp only [Questions, List.forall_mem_cons]
  refine ⟨?_, ?_, ?_, ?_, ?_, ?_, ?_, ?_, ?_, ?_, ?_, ?_, ?_, ?_, ?_, ?_, ?_, ?_, by simp⟩ <;>
  exact within mem (by simp [Spec.Router.erc4626Example]) rfl rfl
    (Proofs.Contracts.words_lt _ _ (by simp [Spec.Contracts.arg]) (by simp)) hc (by simp_all)

/-- Questions. -/
theorem ask_agree (h : Setting keccak256 n S self name symbol asset offset t w) {w' : Chained Ev τ} {s : Outside.Vault.State τ}
    (hi : Agrees keccak256 S name symbol w' s) {asker : Address} {sg : String} {args : List Val}
    (hq : Within keccak256 D Router.erc4626Example S ⟨asker, 0#256, message sg args⟩) :
    ask W D U asker w' sg args = Spec.Contracts.answer (Vault.vault W D ⟨name, symbol⟩) asker s sg args :=
  reply_of_answer (inv_run h.apart h.name_fits h.symbol_fits W D U hi hq).1

/-- What the questions about the shares answer. -/
theorem asks (h : Setting keccak256 n S self name symbol asset offset t w) {w' : Chained Ev τ} {s : Outside.Vault.State τ}
    (hi : Agrees keccak256 S name symbol w' s) {asker a b : Address} (hc : asker ∈ S) (ha : a ∈ S) (hb : b ∈ S) :
    ask W D U asker w' "asset()" [] = some (values [.address s.asset]) ∧
    Tells W D U asker w' "totalSupply()" [] s.shares.totalSupply ∧
    Tells W D U asker w' "balanceOf(address)" [.address a] (s.shares.balances a) ∧
    Tells W D U asker w' "allowance(address,address)" [.address a, .address b] (s.shares.allowances a b) ∧
    Tells W D U asker w' "maxRedeem(address)" [.address a] (s.shares.balances a) ∧
    Tells W D U asker w' "maxDeposit(address)" [.address a] (-1#256) ∧
    Tells W D U asker w' "maxMint(address)" [.address a] (-1#256) ∧
    ask W D U asker w' "name()" [] = some (values [.string name]) ∧
    ask W D U asker w' "symbol()" [] = some (values [.string symbol]) := by
  obtain ⟨v1, v2, v3, v4, v5, v6, v7, v8, v9⟩ := Vault.C105_vault_views W D ⟨name, symbol⟩ asker s a b
  have q := question_within (D := D) 0#256 hc ha hb
  have k {sg : String} {args : List Val} {d : Bytes} (hm : (sg, args) ∈ Questions a b 0#256)
      (hv : Vault.vault W D ⟨name, symbol⟩ asker s 0#256 (message sg args) = .returned s d) : ask W D U asker w' sg args = some d :=
    (ask_agree h hi (q _ hm)).trans (congrArg Outcome.reply hv)
  exact ⟨k (by simp [Questions]) v1, k (by simp [Questions]) v2, k (by simp [Questions]) v3, k (by simp [Questions]) v4,
    k (by simp [Questions]) v5, k (by simp [Questions]) v6, k (by simp [Questions]) v7, k (by simp [Questions]) v8, k (by simp [Questions]) v9⟩

theorem told {w : Chained Ev τ} {asker : Address} {sg : String} {args : List Val} {x y : U256} (h : Tells W D U asker w sg args x)
    (h' : Tells W D U asker w sg args y) : x = y := Proofs.Contracts.uint256_inj (Option.some.inj (h.symm.trans h'))

theorem world_eq {w : Chained Ev τ} {s : Outside.Vault.State τ} (hi : Agrees keccak256 S name symbol w s) : w.world = s.world := by
  obtain ⟨_, _, _, c, _, hv, _⟩ := hi; cases hv; rfl

theorem transfers_eq {w : Chained Ev τ} {s : Outside.Vault.State τ} (hi : Agrees keccak256 S name symbol w s) : transfers w = s.shares.log := by
  obtain ⟨_, _, _, c, _, hv, _⟩ := hi; cases hv; rfl

theorem deposits_eq {w : Chained Ev τ} {s : Outside.Vault.State τ} (hi : Agrees keccak256 S name symbol w s) : deposits w = s.log := by
  obtain ⟨_, _, _, c, _, hv, _⟩ := hi; cases hv; rfl

/-- Accounts that take no part have nothing. -/
theorem nothing {w : Chained Ev τ} {s : Outside.Vault.State τ} (hi : Agrees keccak256 S name symbol w s) {a : Address} (ha : a ∉ S) :
    s.shares.balances a = 0#256 := by
  obtain ⟨_, _, _, c, _, hv, hz⟩ := hi
  cases hv
  refine hz (Erc20Words.balance OnWords.token a) ?_
  rintro (((h | ⟨b, hb, h⟩ | ⟨b, _, d, _, h⟩) | h | h | h) | h | h)
  · exact StoragePrograms.balance_ne_supply h
  · exact ha (StoragePrograms.balance_inj h ▸ hb)
  · exact StoragePrograms.balance_ne_allowance h
  · simp [Erc20Words.balance, OnWords.token] at h
  · simp [Erc20Words.balance, OnWords.token] at h
  · simp [Erc20Words.balance, OnWords.token] at h
  · obtain ⟨e, he, h⟩ := List.mem_map.mp h
    rcases Proofs.Constructors.text_mem he with e1 | ⟨i, hi, e1⟩ <;> rw [e1] at h <;> simp [Erc20Words.balance, OnWords.token] at h
  · obtain ⟨e, he, h⟩ := List.mem_map.mp h
    rcases Proofs.Constructors.text_mem he with e1 | ⟨i, hi, e1⟩ <;> rw [e1] at h <;> simp [Erc20Words.balance, OnWords.token] at h

/-- The outcomes correspond. -/
theorem returned (h : Setting keccak256 n S self name symbol asset offset t w) {w1 w2 : Chained Ev τ} {s : Outside.Vault.State τ}
    (hi : Agrees keccak256 S name symbol w1 s) {tx : Raw Address} (hx : Within keccak256 D Router.erc4626Example S tx) {d : Bytes}
    (hr : run W keccak256 D U tx.env w1 tx.value tx.input = .returned w2 d) :
    ∃ s', Vault.vault W D ⟨name, symbol⟩ tx.env s tx.value tx.input = .returned s' d ∧ Agrees keccak256 S name symbol w2 s' := by
  obtain ⟨h1, h2⟩ := inv_run h.apart h.name_fits h.symbol_fits W D U hi hx
  rw [hr] at h1 h2
  revert h1 h2
  unfold Vault.vault
  cases Outside.Vault.run W keccak256 D ⟨name, symbol⟩ tx.env s tx.value tx.input with
  | reverted d' => exact fun h1 _ => by cases h1
  | returned w' d' => exact fun h1 h2 => ⟨w', by cases h1; rfl, h2⟩

theorem returns (h : Setting keccak256 n S self name symbol asset offset t w) {w1 : Chained Ev τ} {s : Outside.Vault.State τ}
    (hi : Agrees keccak256 S name symbol w1 s) {tx : Raw Address} (hx : Within keccak256 D Router.erc4626Example S tx)
    {s' : Outside.Vault.State τ} {d : Bytes} (hr : Vault.vault W D ⟨name, symbol⟩ tx.env s tx.value tx.input = .returned s' d) :
    ∃ w2, run W keccak256 D U tx.env w1 tx.value tx.input = .returned w2 d ∧ Agrees keccak256 S name symbol w2 s' := by
  obtain ⟨h1, h2⟩ := inv_run h.apart h.name_fits h.symbol_fits W D U hi hx
  unfold Vault.vault at hr
  rw [hr] at h1 h2
  revert h1 h2
  cases run W keccak256 D U tx.env w1 tx.value tx.input with
  | reverted d' => exact fun h1 _ => by cases h1
  | returned w' d' => exact fun h1 h2 => ⟨w', by cases h1; rfl, h2⟩

theorem refused (h : Setting keccak256 n S self name symbol asset offset t w) {w1 : Chained Ev τ} {s : Outside.Vault.State τ}
    (hi : Agrees keccak256 S name symbol w1 s) {tx : Raw Address} (hx : Within keccak256 D Router.erc4626Example S tx) {d : Bytes}
    (hr : Vault.vault W D ⟨name, symbol⟩ tx.env s tx.value tx.input = .reverted d) :
    run W keccak256 D U tx.env w1 tx.value tx.input = .reverted d := by
  obtain ⟨h1, _⟩ := inv_run h.apart h.name_fits h.symbol_fits W D U hi hx
  unfold Vault.vault at hr
  rw [hr] at h1
  revert h1
  cases run W keccak256 D U tx.env w1 tx.value tx.input with
  | reverted d' => exact fun h1 => by cases h1; rfl
  | returned w' d' => exact fun h1 => by cases h1

theorem created {u : Erc20.State} (hs : Erc20.SumOk u) {r : Address} {x : U256} (h : r ≠ ZERO)
    (h' : u.totalSupply.toNat + x.toNat < 2 ^ 256) : ∃ u', Created u u' r x := by
  obtain ⟨u', h1⟩ := Proofs.Outside.mint_iff.mpr ⟨h, h'⟩
  exact ⟨u', Proofs.Outside.created_of_mint hs h1⟩

/-- What was created is answered. -/
theorem issued (h : Setting keccak256 n S self name symbol asset offset t w) {w1 w2 : Chained Ev τ} {s s' : Outside.Vault.State τ}
    (h1 : Agrees keccak256 S name symbol w1 s) (h2 : Agrees keccak256 S name symbol w2 s') {asker r : Address} (hc : asker ∈ S) {x : U256}
    (hk : Created s.shares s'.shares r x) : Issued W D U S asker w1 w2 r x where
  supply v hv := ⟨_, (asks h h2 hc hc hc).2.1, by rw [told hv (asks h h1 hc hc hc).2.1]; exact hk.supply⟩
  balances b hb v hv := ⟨_, (asks h h2 hc hb hc).2.2.1, by rw [told hv (asks h h1 hc hb hc).2.2.1]; exact hk.balances b⟩
  allowances b hb b' hb' v hv := by
    have := (asks (W := W) (D := D) (U := U) h h2 hc hb hb').2.2.2.1
    rwa [hk.allowances, ← told hv (asks h h1 hc hb hb').2.2.2.1] at this
  events := by rw [transfers_eq h2, transfers_eq h1]; exact hk.log

/-- What was destroyed is answered. -/
theorem redeemed (h : Setting keccak256 n S self name symbol asset offset t w) {w1 w2 : Chained Ev τ} {s s' : Outside.Vault.State τ}
    (h1 : Agrees keccak256 S name symbol w1 s) (h2 : Agrees keccak256 S name symbol w2 s') {asker caller o : Address} (hc : asker ∈ S)
    {x : U256} (hk : Destroyed s.shares s'.shares caller o x) : Redeemed W D U S asker w1 w2 caller o x where
  supply v hv := ⟨_, (asks h h2 hc hc hc).2.1, by rw [told hv (asks h h1 hc hc hc).2.1]; exact hk.supply⟩
  balances b hb v hv := ⟨_, (asks h h2 hc hb hc).2.2.1, by rw [told hv (asks h h1 hc hb hc).2.2.1]; exact hk.balances b⟩
  allowances b hb b' hb' v hv := by
    refine ⟨_, (asks h h2 hc hb hb').2.2.2.1, ?_⟩
    rw [told hv (asks h h1 hc hb hb').2.2.2.1]
    have e := hk.allowances b b'
    by_cases c : b = o ∧ b' = caller
    · obtain ⟨rfl, rfl⟩ := c
      exact e
    · rw [if_neg fun k => c ⟨k.1, k.2.1⟩] at e ⊢
      exact e
  events := by rw [transfers_eq h2, transfers_eq h1]; exact hk.log

/-- Shares can be destroyed. -/
theorem destroyed {s : Outside.Vault.State τ} (hs : Erc20.SumOk s.shares) {caller o : Address} {x : U256} (hc : caller ≠ ZERO) (h : o ≠ ZERO)
    (h' : x.toNat ≤ (s.shares.balances o).toNat) (ha : caller = o ∨ x.toNat ≤ (s.shares.allowances o caller).toNat) :
    ∃ u', Destroyed s.shares u' caller o x := by
  obtain ⟨u1, h1, hb⟩ : ∃ u1, Proofs.Outside.Vault.Spent s caller o x u1 ∧ u1.balances = s.shares.balances := by
    unfold Proofs.Outside.Vault.Spent
    by_cases c : caller = o
    · exact ⟨_, by rw [if_pos c], rfl⟩
    · simp only [if_neg c]
      by_cases hm : s.shares.allowances o caller = maxU256
      · exact ⟨_, Erc20.spend_eq_ok.mpr (.inl ⟨hm, rfl⟩), rfl⟩
      · exact ⟨_, Erc20.spend_eq_ok.mpr (.inr ⟨hm, ha.resolve_left c, h, hc, rfl⟩), rfl⟩
  obtain ⟨u2, h2⟩ := Proofs.Outside.burn_iff.mpr (⟨h, hb ▸ h'⟩ : o ≠ ZERO ∧ x.toNat ≤ (u1.balances o).toNat)
  exact ⟨u2, Proofs.Outside.Vault.destroyed_of_burn hs h1 h2⟩

/-- Address, asset and offset stay. -/
theorem past_fixed (l : List (Step τ)) : (past W D name symbol self asset offset t l).self_ = self ∧
    (past W D name symbol self asset offset t l).asset = asset ∧ (past W D name symbol self asset offset t l).offset = offset ∧
    (past W D name symbol self asset offset t l).underlyingDecimals = 18#8 :=
  Vault.C105_fixed W D ⟨name, symbol⟩ l (newVault self asset 18#8 offset t)

/-- **C121** With bytes only: right after the deployment there are no shares and no allowances. -/
theorem C121_start (h : Setting keccak256 n S self name symbol asset offset t w) {asker a b : Address} (hc : asker ∈ S) (ha : a ∈ S)
    (hb : b ∈ S) :
    Tells W D U asker w "totalSupply()" [] 0#256 ∧ Tells W D U asker w "balanceOf(address)" [.address a] 0#256 ∧
    Tells W D U asker w "allowance(address,address)" [.address a, .address b] 0#256 := by
  obtain ⟨_, h2, h3, h4, _⟩ := asks (W := W) (D := D) (U := U) h (play_agree h W D U [] (by simp)) hc ha hb
  exact ⟨h2, h3, h4⟩

set_option maxRecDepth 100000 in
/-- **C121** With bytes only: whatever happens, the answers to `asset`, `name` and `symbol` are those of the deployment, `decimals`
answers 18 plus the offset if that is below 256 and panics otherwise, `maxDeposit` and `maxMint` answer the largest number, and `maxRedeem`
answers the balance. -/
theorem C121_fixed (h : Setting keccak256 n S self name symbol asset offset t w) (l : List (Step τ)) (hl : ∀ x ∈ l, About keccak256 D S x)
    {asker a : Address} (hc : asker ∈ S) (ha : a ∈ S) :
    let w' := play W keccak256 D U w l
    ask W D U asker w' "asset()" [] = some (values [.address asset]) ∧
    ask W D U asker w' "name()" [] = some (values [.string name]) ∧
    ask W D U asker w' "symbol()" [] = some (values [.string symbol]) ∧
    ask W D U asker w' "decimals()" [] = (if 18 + offset.toNat < 256 then some (values [.uint8 (18#8 + offset)]) else none) ∧
    Tells W D U asker w' "maxDeposit(address)" [.address a] (-1#256) ∧ Tells W D U asker w' "maxMint(address)" [.address a] (-1#256) ∧
    ∀ x, Tells W D U asker w' "balanceOf(address)" [.address a] x → Tells W D U asker w' "maxRedeem(address)" [.address a] x := by
  intro w'
  have hi := play_agree h W D U l hl
  obtain ⟨h1, _, h3, _, h5, h6, h7, h8, h9⟩ := asks (W := W) (D := D) (U := U) h hi hc ha hc
  obtain ⟨_, e2, e3, e4⟩ := past_fixed (W := W) (D := D) (name := name) (symbol := symbol) (self := self) (asset := asset) (offset := offset) (t := t) l
  rw [e2] at h1
  refine ⟨h1, h8, h9, ?_, h6, h7, fun x hx => told hx h3 ▸ h5⟩
  refine (ask_agree h hi (question_within 0#256 hc hc hc ("decimals()", []) (by simp [Questions]))).trans ?_
  have := Vault.C105_decimals W D ⟨name, symbol⟩ asker (past W D name symbol self asset offset t l)
  rw [e3, e4] at this
  refine (congrArg Outcome.reply this).trans ?_
  show Outcome.reply (if 18 + offset.toNat < 256 then _ else _) = _
  split <;> rfl

/-- **C121** With bytes only: whatever happens, the answers to `balanceOf` for the accounts that take part add up to the answer to
`totalSupply`. -/
theorem C121_supply (h : Setting keccak256 n S self name symbol asset offset t w) (l : List (Step τ)) (hl : ∀ x ∈ l, About keccak256 D S x)
    (hS : S.Nodup) {asker : Address} (hc : asker ∈ S) :
    let w' := play W keccak256 D U w l
    ∃ (total : U256) (bal : Address → U256), Tells W D U asker w' "totalSupply()" [] total ∧
      (∀ a ∈ S, Tells W D U asker w' "balanceOf(address)" [.address a] (bal a)) ∧ (S.map fun a => (bal a).toNat).sum = total.toNat := by
  intro w'
  have hi := play_agree h W D U l hl
  have hs := Vault.reached_sum (reached (W := W) (D := D) (name := name) (symbol := symbol) (self := self) (asset := asset) (offset := offset) (t := t) l)
  refine ⟨_, _, (asks h hi hc hc hc).2.1, fun a ha => (asks h hi hc ha hc).2.2.1, ?_⟩
  rw [← hs, ← List.sum_toFinset _ hS]
  refine Finset.sum_subset (Finset.subset_univ _) fun a _ hna => ?_
  rw [nothing hi fun hm => hna (List.mem_toFinset.mpr hm)]
  rfl

theorem after_append (l : List (Step τ)) (x : Step τ) : past W D name symbol self asset offset t (l ++ [x]) =
    vaultAfter W D ⟨name, symbol⟩ (past W D name symbol self asset offset t l) [x] := List.foldl_append

/-- **C121** With bytes only: if the answer to `balanceOf` falls over a step, the step is a transaction to the vault, and the holder
sent it or `allowance` had answered at least the difference for the sender. -/
theorem C121_no_theft (h : Setting keccak256 n S self name symbol asset offset t w) (l : List (Step τ)) (x : Step τ)
    (hl : ∀ y ∈ l ++ [x], About keccak256 D S y) {asker a : Address} (hc : asker ∈ S) (ha : a ∈ S) {before after : U256} :
    let w1 := play W keccak256 D U w l
    let w2 := play W keccak256 D U w (l ++ [x])
    Tells W D U asker w1 "balanceOf(address)" [.address a] before → Tells W D U asker w2 "balanceOf(address)" [.address a] after →
    after.toNat < before.toNat →
    ∃ caller value input, x = .call caller value input ∧ (caller = a ∨ ∃ allowed : U256, before.toNat - after.toNat ≤ allowed.toNat ∧
      Tells W D U asker w1 "allowance(address,address)" [.address a, .address caller] allowed) := by
  intro w1 w2 hb hf hlt
  have h1 := play_agree h W D U l fun y hy => hl y (List.mem_append_left _ hy)
  have h2 := play_agree h W D U (l ++ [x]) hl
  rw [after_append] at h2
  have e1 := told hb (asks h h1 hc ha hc).2.2.1
  have e2 := told hf (asks h h2 hc ha hc).2.2.1
  obtain ⟨caller, value, input, rfl, hk⟩ := Vault.C105_no_theft W D ⟨name, symbol⟩ (reached l) x asker a before after
    (by rw [e1]; exact congrArg Outcome.reply (Vault.C105_vault_views W D _ asker _ a a).2.2.1)
    (by rw [e2]; exact congrArg Outcome.reply (Vault.C105_vault_views W D _ asker _ a a).2.2.1) hlt
  refine ⟨caller, value, input, rfl, hk.imp_right ?_⟩
  rintro ⟨allowed, h3, h4⟩
  have hcal : caller ∈ S := (hl (.call caller value input) (by simp)).sender
  have h4 := h4.symm.trans (congrArg Outcome.reply (Vault.C105_vault_views W D ⟨name, symbol⟩ asker _ a caller).2.2.2.1)
  rw [Proofs.Contracts.uint256_inj (Option.some.inj h4)] at h3
  exact ⟨_, h3, (asks h h1 hc ha hcal).2.2.2.1⟩

/-- A question that is answered with a number leaves the vault as it is. -/
theorem tells_iff (h : Setting keccak256 n S self name symbol asset offset t w) {w' : Chained Ev τ} {s : Outside.Vault.State τ}
    (hi : Agrees keccak256 S name symbol w' s) {asker : Address} {sg : String} {args : List Val} {x : U256}
    (hq : Within keccak256 D Router.erc4626Example S ⟨asker, 0#256, message sg args⟩) {y : Except Outside.Vault.Err U256}
    (hv : Vault.vault W D ⟨name, symbol⟩ asker s 0#256 (message sg args) = Abi.outcome (Contracts.view keccak256
      (Outside.Vault.errReply s.asset) s (Contracts.one .uint256 y))) :
    Tells W D U asker w' sg args x ↔ Vault.vault W D ⟨name, symbol⟩ asker s 0#256 (message sg args) = .returned s (values [.uint256 x]) := by
  rw [hv, Vault.view_iff]
  unfold Tells
  rw [ask_agree h hi hq]
  unfold Spec.Contracts.answer
  rw [hv]
  cases y with
  | error e =>
    refine ⟨fun h => ?_, fun h => ?_⟩ <;> cases h
  | ok z =>
    have e : Abi.outcome (Contracts.view keccak256 (Outside.Vault.errReply s.asset) s (Contracts.one Val.uint256 (.ok z))) =
      .returned s (values [.uint256 z]) := Proofs.Contracts.outcome_ok _ _
    rw [e]
    refine ⟨fun h => ?_, fun h => ?_⟩
    · rw [Proofs.Contracts.uint256_inj (Option.some.inj h)]
    · cases h; rfl

/-- **C121** With bytes only, whatever program the asset is: with the answer `A` it gives when the vault asks for its own balance, with
the answer `total` to `totalSupply` and `V = 10 ^ offset` virtual shares, `totalAssets` answers `A`, `convertToShares` and
`previewDeposit` answer `a * (total + V) / (A + 1)` rounded down, `previewWithdraw` the same rounded up, `convertToAssets` and
`previewRedeem` `a * (A + 1) / (total + V)` rounded down, `previewMint` the same rounded up, and `maxWithdraw` what `convertToAssets`
answers for the balance; they answer exactly if the numbers fit. -/
theorem C121_questions (h : Setting keccak256 n S self name symbol asset offset t w) (l : List (Step τ)) (hl : ∀ x ∈ l, About keccak256 D S x)
    {asker o : Address} (hc : asker ∈ S) (ho : o ∈ S) {A total has : U256} (a x : U256) :
    let w' := play W keccak256 D U w l
    let V := 10 ^ offset.toNat
    Reports W D w'.world 0 self asset A → Tells W D U asker w' "totalSupply()" [] total →
    Tells W D U asker w' "balanceOf(address)" [.address o] has →
    (Tells W D U asker w' "totalAssets()" [] x ↔ x = A) ∧
    (Tells W D U asker w' "convertToShares(uint256)" [.uint256 a] x ↔
      Room total offset A ∧ Floor (a.toNat * (total.toNat + V)) (A.toNat + 1) x.toNat) ∧
    (Tells W D U asker w' "previewDeposit(uint256)" [.uint256 a] x ↔
      Room total offset A ∧ Floor (a.toNat * (total.toNat + V)) (A.toNat + 1) x.toNat) ∧
    (Tells W D U asker w' "previewWithdraw(uint256)" [.uint256 a] x ↔
      Room total offset A ∧ Ceil (a.toNat * (total.toNat + V)) (A.toNat + 1) x.toNat) ∧
    (Tells W D U asker w' "convertToAssets(uint256)" [.uint256 a] x ↔
      Room total offset A ∧ Floor (a.toNat * (A.toNat + 1)) (total.toNat + V) x.toNat) ∧
    (Tells W D U asker w' "previewRedeem(uint256)" [.uint256 a] x ↔
      Room total offset A ∧ Floor (a.toNat * (A.toNat + 1)) (total.toNat + V) x.toNat) ∧
    (Tells W D U asker w' "previewMint(uint256)" [.uint256 a] x ↔
      Room total offset A ∧ Ceil (a.toNat * (A.toNat + 1)) (total.toNat + V) x.toNat) ∧
    (Tells W D U asker w' "maxWithdraw(address)" [.address o] x ↔
      Room total offset A ∧ Floor (has.toNat * (A.toNat + 1)) (total.toNat + V) x.toNat) := by
  intro w' V hA ht hb
  have hi := play_agree h W D U l hl
  obtain ⟨e1, e2, e3, e4⟩ := past_fixed (W := W) (D := D) (name := name) (symbol := symbol) (self := self) (asset := asset) (offset := offset) (t := t) l
  have k := Vault.C105_questions W D ⟨name, symbol⟩ asker (past W D name symbol self asset offset t l) A
    (by rw [e1, e2, ← world_eq hi]; exact hA) a x o
  have q := question_within (D := D) a hc ho ho
  have g := Vault.question W D ⟨name, symbol⟩ asker (past W D name symbol self asset offset t l) a o
  simp only [Fits, e3, ← told ht (asks h hi hc hc hc).2.1, ← told hb (asks h hi hc ho hc).2.2.1] at k
  obtain ⟨k1, k2, k3, k4, k5, k6, k7, k8⟩ := k
  obtain ⟨g1, g2, g3, g4, g5, g6, g7, g8⟩ := g
  exact ⟨(tells_iff h hi (q ("totalAssets()", []) (by simp [Questions])) g1).trans k1,
    (tells_iff h hi (q ("convertToShares(uint256)", _) (by simp [Questions])) g2).trans k2,
    (tells_iff h hi (q ("previewDeposit(uint256)", _) (by simp [Questions])) g3).trans k3,
    (tells_iff h hi (q ("previewWithdraw(uint256)", _) (by simp [Questions])) g4).trans k4,
    (tells_iff h hi (q ("convertToAssets(uint256)", _) (by simp [Questions])) g5).trans k5,
    (tells_iff h hi (q ("previewRedeem(uint256)", _) (by simp [Questions])) g6).trans k6,
    (tells_iff h hi (q ("previewMint(uint256)", _) (by simp [Questions])) g7).trans k7,
    (tells_iff h hi (q ("maxWithdraw(address)", _) (by simp [Questions])) g8).trans k8⟩

/-- **C121** With bytes only, whatever program the asset is: if it gives no number when the vault asks for its own balance, then every
function that needs this number reverts with `InvalidAsset(asset)`.  Before that, `redeem` refuses more shares than the owner has, and
those that turn assets into shares panic if the virtual supply does not fit. -/
theorem C121_no_answer (h : Setting keccak256 n S self name symbol asset offset t w) (l : List (Step τ)) (hl : ∀ x ∈ l, About keccak256 D S x)
    {caller r o : Address} (hc : caller ∈ S) (hr : r ∈ S) (ho : o ∈ S) {total has : U256} (a : U256) :
    let w' := play W keccak256 D U w l
    let fails (sig : String) (args : List Val) (data : Bytes) := run W keccak256 D U caller w' 0#256 (message sig args) = .reverted data
    let invalid := call "InvalidAsset(address)" [addr asset]
    let late := if total.toNat + 10 ^ offset.toNat < 2 ^ 256 then invalid else []
    (∀ A, ¬ Reports W D w'.world 0 self asset A) → Tells W D U caller w' "totalSupply()" [] total →
    Tells W D U caller w' "balanceOf(address)" [.address o] has →
    fails "totalAssets()" [] invalid ∧
    fails "convertToAssets(uint256)" [.uint256 a] invalid ∧
    fails "previewMint(uint256)" [.uint256 a] invalid ∧
    fails "previewRedeem(uint256)" [.uint256 a] invalid ∧
    fails "maxWithdraw(address)" [.address o] invalid ∧
    fails "mint(uint256,address)" [.uint256 a, .address r] invalid ∧
    fails "withdraw(uint256,address,address)" [.uint256 a, .address r, .address o] invalid ∧
    fails "redeem(uint256,address,address)" [.uint256 a, .address r, .address o]
      (if a.toNat ≤ has.toNat then invalid
      else call "ERC4626ExceededMaxRedeem(address,uint256,uint256)" [addr o, a, has]) ∧
    fails "convertToShares(uint256)" [.uint256 a] late ∧
    fails "previewDeposit(uint256)" [.uint256 a] late ∧
    fails "previewWithdraw(uint256)" [.uint256 a] late ∧
    fails "deposit(uint256,address)" [.uint256 a, .address r] late := by
  intro w' fails invalid late hA ht hb
  have hi := play_agree h W D U l hl
  obtain ⟨e1, e2, e3, e4⟩ := past_fixed (W := W) (D := D) (name := name) (symbol := symbol) (self := self) (asset := asset) (offset := offset) (t := t) l
  have k := Vault.C105_no_answer W D ⟨name, symbol⟩ caller (past W D name symbol self asset offset t l)
    (by rw [e1, e2, ← world_eq hi]; exact hA) a r o
  have q := question_within (D := D) a hc ho ho
  simp only [e2, e3, ← told ht (asks h hi hc hc hc).2.1, ← told hb (asks h hi hc ho hc).2.2.1] at k
  obtain ⟨k1, k2, k3, k4, k5, k6, k7, k8, k9, k10, k11, k12⟩ := k
  have asked {sg : String} {args : List Val} {d : Bytes} (hm : (sg, args) ∈ Questions o o a)
      (hv : Vault.vault W D ⟨name, symbol⟩ caller (past W D name symbol self asset offset t l) 0#256 (message sg args) = .reverted d) :
      fails sg args d := refused (tx := ⟨caller, _, _⟩) h hi (q _ hm) hv
  exact ⟨asked (by simp [Questions]) k1, asked (by simp [Questions]) k2, asked (by simp [Questions]) k3, asked (by simp [Questions]) k4,
    asked (by simp [Questions]) k5,
    refused (tx := ⟨caller, _, _⟩) h hi (C121_call_within hc (.mint a r) 0#256 (by simp [abi, hr])) k6,
    refused (tx := ⟨caller, _, _⟩) h hi (C121_call_within hc (.withdraw a r o) 0#256 (by simp [abi, hr, ho])) k7,
    refused (tx := ⟨caller, _, _⟩) h hi (C121_call_within hc (.redeem a r o) 0#256 (by simp [abi, hr, ho])) k8,
    asked (by simp [Questions]) k9, asked (by simp [Questions]) k10, asked (by simp [Questions]) k11,
    refused (tx := ⟨caller, _, _⟩) h hi (C121_call_within hc (.deposit a r) 0#256 (by simp [abi, hr])) k12⟩

/-- **C121** With bytes only: after any history, `deposit(a, r)` goes through exactly if the asset gives a number `A` for the vault's
balance, the numbers fit, the asset takes `transferFrom(sender, vault, a)`, `r` is not the zero address, and there is room for the
shares.  It creates `a * (total + V) / (A + 1)` shares, rounded down, for `r`, answers their number, and does nothing else. -/
theorem C121_deposit (h : Setting keccak256 n S self name symbol asset offset t w) (l : List (Step τ)) (hl : ∀ x ∈ l, About keccak256 D S x)
    {caller asker r : Address} (hcal : caller ∈ S) (hc : asker ∈ S) (hr : r ∈ S) (a : U256) {total : U256} :
    let w' := play W keccak256 D U w l
    let out := run W keccak256 D U caller w' 0#256 (message "deposit(uint256,address)" [.uint256 a, .address r])
    let pull := message "transferFrom(address,address,uint256)" [.address caller, .address self, .uint256 a]
    let Price (A x : U256) := Reports W D w'.world 0 self asset A ∧ Room total offset A ∧
      Floor (a.toNat * (total.toNat + 10 ^ offset.toNat)) (A.toNat + 1) x.toNat
    Tells W D U asker w' "totalSupply()" [] total →
    (∀ A x t', Price A x → Takes W w'.world self asset pull t' → r ≠ ZERO → total.toNat + x.toNat < 2 ^ 256 →
      ∃ w2, out = .returned w2 (values [.uint256 x])) ∧
    ∀ w2 d, out = .returned w2 d → ∃ A x, Price A x ∧ Takes W w'.world self asset pull w2.world ∧ r ≠ ZERO ∧
      total.toNat + x.toNat < 2 ^ 256 ∧ d = values [.uint256 x] ∧ Issued W D U S asker w' w2 r x ∧
      deposits w2 = deposits w' ++ [.deposit caller r a x] := by
  intro w' out pull Price ht
  have hi := play_agree h W D U l hl
  obtain ⟨e1, e2, e3, e4⟩ := past_fixed (W := W) (D := D) (name := name) (symbol := symbol) (self := self) (asset := asset) (offset := offset) (t := t) l
  have hx := C121_call_within (D := D) hcal (.deposit a r) 0#256 (by simp [abi, hr])
  have hk := Vault.C105_deposit W D ⟨name, symbol⟩ caller (reached (self := self) (asset := asset) (offset := offset) (t := t) l) a r
  have et := told ht (asks h hi hc hc hc).2.1
  have hs := Vault.reached_sum (reached (W := W) (D := D) (name := name) (symbol := symbol) (self := self) (asset := asset) (offset := offset) (t := t) l)
  simp only [Fits, e1, e2, e3, ← et, ← world_eq hi] at hk
  refine ⟨fun A x t' c1 c2 c3 c4 => ?_, fun w2 d ho => ?_⟩
  · obtain ⟨u, hu⟩ := created hs (r := r) (x := x) c3 (by rw [← et]; exact c4)
    obtain ⟨w2, h1, _⟩ := returns (tx := ⟨caller, _, _⟩) h hi hx ((hk _ _).mpr ⟨A, x, t', u, c1.1, c1.2.1, c1.2.2, c2, c3, c4, hu, rfl, rfl⟩)
    exact ⟨w2, h1⟩
  · obtain ⟨s', h1, h2⟩ := returned (tx := ⟨caller, _, _⟩) h hi hx ho
    obtain ⟨A, x, t', u, c1, c2, c3, c4, c5, c6, c7, rfl, rfl⟩ := (hk _ _).mp h1
    exact ⟨A, x, ⟨c1, c2, c3⟩, (show w2.world = t' from world_eq h2) ▸ c4, c5, c6, rfl, issued h hi h2 hc c7,
      (deposits_eq h2).trans (congrArg (· ++ _) (deposits_eq hi).symm)⟩

/-- **C121** With bytes only: `mint(x, r)` is the same with the number of shares given; it takes `x * (A + 1) / (total + V)` of the asset,
rounded up, and answers that. -/
theorem C121_mint (h : Setting keccak256 n S self name symbol asset offset t w) (l : List (Step τ)) (hl : ∀ x ∈ l, About keccak256 D S x)
    {caller asker r : Address} (hcal : caller ∈ S) (hc : asker ∈ S) (hr : r ∈ S) (x : U256) {total : U256} :
    let w' := play W keccak256 D U w l
    let out := run W keccak256 D U caller w' 0#256 (message "mint(uint256,address)" [.uint256 x, .address r])
    let pull (a : U256) := message "transferFrom(address,address,uint256)" [.address caller, .address self, .uint256 a]
    let Price (A a : U256) := Reports W D w'.world 0 self asset A ∧ Room total offset A ∧
      Ceil (x.toNat * (A.toNat + 1)) (total.toNat + 10 ^ offset.toNat) a.toNat
    Tells W D U asker w' "totalSupply()" [] total →
    (∀ A a t', Price A a → Takes W w'.world self asset (pull a) t' → r ≠ ZERO → total.toNat + x.toNat < 2 ^ 256 →
      ∃ w2, out = .returned w2 (values [.uint256 a])) ∧
    ∀ w2 d, out = .returned w2 d → ∃ A a, Price A a ∧ Takes W w'.world self asset (pull a) w2.world ∧ r ≠ ZERO ∧
      total.toNat + x.toNat < 2 ^ 256 ∧ d = values [.uint256 a] ∧ Issued W D U S asker w' w2 r x ∧
      deposits w2 = deposits w' ++ [.deposit caller r a x] := by
  intro w' out pull Price ht
  have hi := play_agree h W D U l hl
  obtain ⟨e1, e2, e3, e4⟩ := past_fixed (W := W) (D := D) (name := name) (symbol := symbol) (self := self) (asset := asset) (offset := offset) (t := t) l
  have hx := C121_call_within (D := D) hcal (.mint x r) 0#256 (by simp [abi, hr])
  have hk := Vault.C105_mint W D ⟨name, symbol⟩ caller (reached (self := self) (asset := asset) (offset := offset) (t := t) l) x r
  have et := told ht (asks h hi hc hc hc).2.1
  have hs := Vault.reached_sum (reached (W := W) (D := D) (name := name) (symbol := symbol) (self := self) (asset := asset) (offset := offset) (t := t) l)
  simp only [Fits, e1, e2, e3, ← et, ← world_eq hi] at hk
  refine ⟨fun A a t' c1 c2 c3 c4 => ?_, fun w2 d ho => ?_⟩
  · obtain ⟨u, hu⟩ := created hs (r := r) (x := x) c3 (by rw [← et]; exact c4)
    obtain ⟨w2, h1, _⟩ := returns (tx := ⟨caller, _, _⟩) h hi hx ((hk _ _).mpr ⟨A, a, t', u, c1.1, c1.2.1, c1.2.2, c2, c3, c4, hu, rfl, rfl⟩)
    exact ⟨w2, h1⟩
  · obtain ⟨s', h1, h2⟩ := returned (tx := ⟨caller, _, _⟩) h hi hx ho
    obtain ⟨A, a, t', u, c1, c2, c3, c4, c5, c6, c7, rfl, rfl⟩ := (hk _ _).mp h1
    exact ⟨A, a, ⟨c1, c2, c3⟩, (show w2.world = t' from world_eq h2) ▸ c4, c5, c6, rfl, issued h hi h2 hc c7,
      (deposits_eq h2).trans (congrArg (· ++ _) (deposits_eq hi).symm)⟩

/-- **C121** With bytes only: after any history, `withdraw(a, r, o)` asks the asset twice: the first answer bounds `a` by what the shares
of `o` are worth, the second gives the number of shares to destroy, rounded up.  It goes through exactly if both are numbers that fit,
`a` is within the bound, `o` has these shares, the sender is `o` or has the allowance, and the asset takes `transfer(r, a)`.  It answers
the number of shares. -/
theorem C121_withdraw (h : Setting keccak256 n S self name symbol asset offset t w) (l : List (Step τ)) (hl : ∀ x ∈ l, About keccak256 D S x)
    {caller asker r o : Address} (hcal : caller ∈ S) (hc : asker ∈ S) (hr : r ∈ S) (ho : o ∈ S) (h0 : caller ≠ ZERO) (a : U256)
    {total has allowed : U256} :
    let w' := play W keccak256 D U w l
    let out := run W keccak256 D U caller w' 0#256 (message "withdraw(uint256,address,address)" [.uint256 a, .address r, .address o])
    let push := message "transfer(address,uint256)" [.address r, .uint256 a]
    let V := 10 ^ offset.toNat
    let Price (A A' x : U256) := (Reports W D w'.world 0 self asset A ∧ Room total offset A ∧
        ∃ most, Floor (has.toNat * (A.toNat + 1)) (total.toNat + V) most ∧ most < 2 ^ 256 ∧ a.toNat ≤ most) ∧
      Reports W D w'.world 1 self asset A' ∧ Room total offset A' ∧ Ceil (a.toNat * (total.toNat + V)) (A'.toNat + 1) x.toNat
    let May (x : U256) := o ≠ ZERO ∧ x.toNat ≤ has.toNat ∧ (caller = o ∨ x.toNat ≤ allowed.toNat)
    Tells W D U asker w' "totalSupply()" [] total → Tells W D U asker w' "balanceOf(address)" [.address o] has →
    Tells W D U asker w' "allowance(address,address)" [.address o, .address caller] allowed →
    (∀ A A' x t', Price A A' x → Takes W w'.world self asset push t' → May x → ∃ w2, out = .returned w2 (values [.uint256 x])) ∧
    ∀ w2 d, out = .returned w2 d → ∃ A A' x, Price A A' x ∧ Takes W w'.world self asset push w2.world ∧ May x ∧
      d = values [.uint256 x] ∧ Redeemed W D U S asker w' w2 caller o x ∧ deposits w2 = deposits w' ++ [.withdraw caller r o a x] := by
  intro w' out push V Price May ht hb hal
  have hi := play_agree h W D U l hl
  obtain ⟨e1, e2, e3, e4⟩ := past_fixed (W := W) (D := D) (name := name) (symbol := symbol) (self := self) (asset := asset) (offset := offset) (t := t) l
  have hx := C121_call_within (D := D) hcal (.withdraw a r o) 0#256 (by simp [abi, hr, ho])
  have hk := Vault.C105_withdraw W D ⟨name, symbol⟩ caller h0 (reached (self := self) (asset := asset) (offset := offset) (t := t) l) a r o
  have et := told ht (asks h hi hc hc hc).2.1
  have eb := told hb (asks h hi hc ho hc).2.2.1
  have ea := told hal (asks h hi hc ho hcal).2.2.2.1
  have hs := Vault.reached_sum (reached (W := W) (D := D) (name := name) (symbol := symbol) (self := self) (asset := asset) (offset := offset) (t := t) l)
  simp only [Fits, e1, e2, e3, ← et, ← eb, ← ea, ← world_eq hi] at hk
  refine ⟨fun A A' x t' c1 c2 c3 => ?_, fun w2 d hout => ?_⟩
  · obtain ⟨u, hu⟩ := destroyed (x := x) hs h0 c3.1 (by rw [← eb]; exact c3.2.1) (by rw [← ea]; exact c3.2.2)
    obtain ⟨⟨c4, c5, most, c6, c7, c8⟩, c9, c10, c11⟩ := c1
    obtain ⟨w2, h1, _⟩ := returns (tx := ⟨caller, _, _⟩) h hi hx ((hk _ _).mpr ⟨A, most, A', x, t', u, c4, c5, c6, c7, c8, c9, c10, c11, c2,
      c3.1, c3.2.1, c3.2.2, hu, rfl, rfl⟩)
    exact ⟨w2, h1⟩
  · obtain ⟨s', h1, h2⟩ := returned (tx := ⟨caller, _, _⟩) h hi hx hout
    obtain ⟨A, most, A', x, t', u, c4, c5, c6, c7, c8, c9, c10, c11, c2, d1, d2, d3, d4, rfl, rfl⟩ := (hk _ _).mp h1
    exact ⟨A, A', x, ⟨⟨c4, c5, most, c6, c7, c8⟩, c9, c10, c11⟩, (show w2.world = t' from world_eq h2) ▸ c2, ⟨d1, d2, d3⟩, rfl,
      redeemed h hi h2 hc d4, (deposits_eq h2).trans (congrArg (· ++ _) (deposits_eq hi).symm)⟩

/-- **C121** With bytes only: after any history, `redeem(x, r, o)` goes through exactly if `o` has the shares, the asset gives a number,
the numbers fit, the sender is `o` or has the allowance, and the asset takes `transfer(r, a)` for `a = x * (A + 1) / (total + V)` rounded
down.  It answers `a`. -/
theorem C121_redeem (h : Setting keccak256 n S self name symbol asset offset t w) (l : List (Step τ)) (hl : ∀ x ∈ l, About keccak256 D S x)
    {caller asker r o : Address} (hcal : caller ∈ S) (hc : asker ∈ S) (hr : r ∈ S) (ho : o ∈ S) (h0 : caller ≠ ZERO) (x : U256)
    {total has allowed : U256} :
    let w' := play W keccak256 D U w l
    let out := run W keccak256 D U caller w' 0#256 (message "redeem(uint256,address,address)" [.uint256 x, .address r, .address o])
    let push (a : U256) := message "transfer(address,uint256)" [.address r, .uint256 a]
    let Price (A a : U256) := Reports W D w'.world 0 self asset A ∧ Room total offset A ∧
      Floor (x.toNat * (A.toNat + 1)) (total.toNat + 10 ^ offset.toNat) a.toNat
    let May := o ≠ ZERO ∧ x.toNat ≤ has.toNat ∧ (caller = o ∨ x.toNat ≤ allowed.toNat)
    Tells W D U asker w' "totalSupply()" [] total → Tells W D U asker w' "balanceOf(address)" [.address o] has →
    Tells W D U asker w' "allowance(address,address)" [.address o, .address caller] allowed →
    (∀ A a t', Price A a → Takes W w'.world self asset (push a) t' → May → ∃ w2, out = .returned w2 (values [.uint256 a])) ∧
    ∀ w2 d, out = .returned w2 d → ∃ A a, Price A a ∧ Takes W w'.world self asset (push a) w2.world ∧ May ∧
      d = values [.uint256 a] ∧ Redeemed W D U S asker w' w2 caller o x ∧ deposits w2 = deposits w' ++ [.withdraw caller r o a x] := by
  intro w' out push Price May ht hb hal
  have hi := play_agree h W D U l hl
  obtain ⟨e1, e2, e3, e4⟩ := past_fixed (W := W) (D := D) (name := name) (symbol := symbol) (self := self) (asset := asset) (offset := offset) (t := t) l
  have hx := C121_call_within (D := D) hcal (.redeem x r o) 0#256 (by simp [abi, hr, ho])
  have hk := Vault.C105_redeem W D ⟨name, symbol⟩ caller h0 (reached (self := self) (asset := asset) (offset := offset) (t := t) l) x r o
  have et := told ht (asks h hi hc hc hc).2.1
  have eb := told hb (asks h hi hc ho hc).2.2.1
  have ea := told hal (asks h hi hc ho hcal).2.2.2.1
  have hs := Vault.reached_sum (reached (W := W) (D := D) (name := name) (symbol := symbol) (self := self) (asset := asset) (offset := offset) (t := t) l)
  simp only [Fits, e1, e2, e3, ← et, ← eb, ← ea, ← world_eq hi] at hk
  refine ⟨fun A a t' c1 c2 c3 => ?_, fun w2 d hout => ?_⟩
  · obtain ⟨u, hu⟩ := destroyed (x := x) hs h0 c3.1 (by rw [← eb]; exact c3.2.1) (by rw [← ea]; exact c3.2.2)
    obtain ⟨w2, h1, _⟩ := returns (tx := ⟨caller, _, _⟩) h hi hx ((hk _ _).mpr ⟨A, a, t', u, c1.1, c1.2.1, c1.2.2, c2,
      c3.1, c3.2.1, c3.2.2, hu, rfl, rfl⟩)
    exact ⟨w2, h1⟩
  · obtain ⟨s', h1, h2⟩ := returned (tx := ⟨caller, _, _⟩) h hi hx hout
    obtain ⟨A, a, t', u, c4, c5, c6, c2, d1, d2, d3, d4, rfl, rfl⟩ := (hk _ _).mp h1
    exact ⟨A, a, ⟨c4, c5, c6⟩, (show w2.world = t' from world_eq h2) ▸ c2, ⟨d1, d2, d3⟩, rfl,
      redeemed h hi h2 hc d4, (deposits_eq h2).trans (congrArg (· ++ _) (deposits_eq hi).symm)⟩

/-- **C121** With bytes only, whatever is sent, and whatever the asset is: if the answer to `totalSupply` rises over a transaction, the
asset has taken `transferFrom(sender, vault, a)`, and the new shares cost the sender no less than the rate `(A + 1) / (total + V)` before. -/
theorem C121_shares_are_paid (h : Setting keccak256 n S self name symbol asset offset t w) (l : List (Step τ))
    (hl : ∀ x ∈ l, About keccak256 D S x) {tx : Raw Address} (hx : Within keccak256 D Router.erc4626Example S tx) {asker : Address}
    (hc : asker ∈ S) {total total' : U256} :
    let w' := play W keccak256 D U w l
    ∀ w2 d, run W keccak256 D U tx.env w' tx.value tx.input = .returned w2 d →
      Tells W D U asker w' "totalSupply()" [] total → Tells W D U asker w2 "totalSupply()" [] total' → total.toNat < total'.toNat →
    ∃ A a : U256, Reports W D w'.world 0 self asset A ∧
      Takes W w'.world self asset
        (message "transferFrom(address,address,uint256)" [.address tx.env, .address self, .uint256 a]) w2.world ∧
      (total'.toNat - total.toNat) * (A.toNat + 1) ≤ a.toNat * (total.toNat + 10 ^ offset.toNat) := by
  intro w' w2 d ho ht ht' hlt
  have hi := play_agree h W D U l hl
  obtain ⟨e1, e2, e3, e4⟩ := past_fixed (W := W) (D := D) (name := name) (symbol := symbol) (self := self) (asset := asset) (offset := offset) (t := t) l
  obtain ⟨s', h1, h2⟩ := returned h hi hx ho
  have hk := Vault.C105_shares_are_paid W D ⟨name, symbol⟩ tx.env (reached (self := self) (asset := asset) (offset := offset) (t := t) l)
    _ _ _ _ h1
  simp only [e1, e2, e3, ← told ht (asks h hi hc hc hc).2.1, ← told ht' (asks h h2 hc hc hc).2.1, ← world_eq hi, ← world_eq h2] at hk
  exact hk hlt

/-- **C121** With bytes only, whatever is sent, and whatever the asset is: if the rest of the chain changes over a transaction to the
vault, the vault has sent one message to the asset.  It is `transferFrom` from the sender of the transaction to the vault; or it is
`transfer(r, a)`, and the shares destroyed for it are worth at least `a` at the rate `(A + 1) / (total + V)` before. -/
theorem C121_assets_are_paid (h : Setting keccak256 n S self name symbol asset offset t w) (l : List (Step τ))
    (hl : ∀ x ∈ l, About keccak256 D S x) {tx : Raw Address} (hx : Within keccak256 D Router.erc4626Example S tx) {asker : Address}
    (hc : asker ∈ S) {total total' : U256} :
    let w' := play W keccak256 D U w l
    ∀ w2 d, run W keccak256 D U tx.env w' tx.value tx.input = .returned w2 d →
      Tells W D U asker w' "totalSupply()" [] total → Tells W D U asker w2 "totalSupply()" [] total' → w2.world ≠ w'.world →
    (∃ a : U256, Takes W w'.world self asset
        (message "transferFrom(address,address,uint256)" [.address tx.env, .address self, .uint256 a]) w2.world) ∨
    ∃ (k : Nat) (A a : U256) (r : Address), Reports W D w'.world k self asset A ∧
      Takes W w'.world self asset (message "transfer(address,uint256)" [.address r, .uint256 a]) w2.world ∧
      total'.toNat ≤ total.toNat ∧ a.toNat * (total.toNat + 10 ^ offset.toNat) ≤ (total.toNat - total'.toNat) * (A.toNat + 1) := by
  intro w' w2 d ho ht ht' hne
  have hi := play_agree h W D U l hl
  obtain ⟨e1, e2, e3, e4⟩ := past_fixed (W := W) (D := D) (name := name) (symbol := symbol) (self := self) (asset := asset) (offset := offset) (t := t) l
  obtain ⟨s', h1, h2⟩ := returned h hi hx ho
  have hk := Vault.C105_assets_are_paid W D ⟨name, symbol⟩ tx.env (reached (self := self) (asset := asset) (offset := offset) (t := t) l)
    _ _ _ _ h1
  simp only [e1, e2, e3, ← told ht (asks h hi hc hc hc).2.1, ← told ht' (asks h h2 hc hc hc).2.1, ← world_eq hi, ← world_eq h2] at hk
  exact hk hne

end

/-- **C121** With bytes only, both contracts as they are on the chain: for a new vault over the token of `examples/basic/token`, after any
transactions `txs` and any further ones `more`, to either, the answers to `totalAssets` and `totalSupply` satisfy: the rate
`(assets + 1) / (supply + 10 ^ offset)` has not fallen. -/
theorem C121_rate (m : Entry.Strings) {self asset : Address} {offset : U8} {w : Chained Ev Erc20.State}
    (h : Setting keccak256 n S self name symbol asset offset Erc20.init w) (h0 : self ≠ ZERO) (txs more : List Tx)
    (hs : ∀ x ∈ txs ++ more, x.sender ≠ self) (hl : ∀ x ∈ txs ++ more, About keccak256 D S (x.step D m)) {asker : Address} (hc : asker ∈ S) :
    let W := tokenWorld D m asset
    let w1 := play W keccak256 D U w (txs.map (Tx.step D m))
    let w2 := play W keccak256 D U w ((txs ++ more).map (Tx.step D m))
    ∃ assets supply assets' supply' : U256,
      Tells W D U asker w1 "totalAssets()" [] assets ∧ Tells W D U asker w1 "totalSupply()" [] supply ∧
      Tells W D U asker w2 "totalAssets()" [] assets' ∧ Tells W D U asker w2 "totalSupply()" [] supply' ∧
      (assets.toNat + 1) * (supply'.toNat + 10 ^ offset.toNat) ≤ (assets'.toNat + 1) * (supply.toNat + 10 ^ offset.toNat) := by
  intro W w1 w2
  have h1 := play_agree h W D U (txs.map (Tx.step D m)) (by
    intro x hx
    obtain ⟨y, hy, rfl⟩ := List.mem_map.mp hx
    exact hl y (List.mem_append_left _ hy))
  have h2 := play_agree h W D U ((txs ++ more).map (Tx.step D m)) (by
    intro x hx
    obtain ⟨y, hy, rfl⟩ := List.mem_map.mp hx
    exact hl y hy)
  obtain ⟨a, s, a', s', k1, k2, k3, k4, k5⟩ := Vault.C105_rate D m ⟨name, symbol⟩ self asset 18#8 offset h0 txs more hs asker asker
  have q := question_within (D := D) (asker := asker) 0#256 hc hc hc
  exact ⟨a, s, a', s', (ask_agree h h1 (q ("totalAssets()", []) (by simp [Questions]))).trans k1,
    (ask_agree h h1 (q ("totalSupply()", []) (by simp [Questions]))).trans k2,
    (ask_agree h h2 (q ("totalAssets()", []) (by simp [Questions]))).trans k3,
    (ask_agree h h2 (q ("totalSupply()", []) (by simp [Questions]))).trans k4, k5⟩

end

/-! ### The hypotheses are met -/

open Verif.Props.Vault (me token quiet quiet_reports Msg)

/-- Alice. -/
def alice : Address := 1#160
/-- Bob. -/
def bob : Address := 2#160

/-- Alice has 100 of the asset, deposits 50 and lets Bob spend 20 shares; 10 are donated; Bob redeems 20 of Alice's shares. -/
def sample : List Msg :=
  [.token alice (.mint alice 100#256), .token alice (.approve me 50#256), .vault alice (.deposit 50#256 alice),
   .vault alice (.approve bob 20#256), .token alice (.transfer me 10#256), .vault bob (.redeem 20#256 bob alice)]

theorem sample_foreign : ∀ x ∈ sample, x.tx.sender ≠ me := by
  intro x hx
  simp only [sample, List.mem_cons, List.not_mem_nil, or_false] at hx
  rcases hx with rfl | rfl | rfl | rfl | rfl | rfl <;> decide

/-- The cells of three accounts and two short texts. -/
def sampleCells : List (List Storage.Step) := tokenCells ++ [assetCell, decimalsCell, offsetCell, nameCell, symbolCell]

theorem sample_cells {p : List Storage.Step} (h : Cells [0#160, 1#160, 2#160] ['V'] ['v', 'v'] p) : p ∈ sampleCells := by
  rcases h with (h | rfl | rfl | rfl) | h | h
  · exact List.mem_append_left _ (token_cells h)
  · exact List.mem_append_right _ (by simp [assetCell])
  · exact List.mem_append_right _ (by simp [decimalsCell])
  · exact List.mem_append_right _ (by simp [offsetCell])
  · refine List.mem_append_right _ ?_
    change p ∈ [nameCell] at h
    simp only [List.mem_singleton] at h
    simp [h]
  · refine List.mem_append_right _ ?_
    change p ∈ [symbolCell] at h
    simp only [List.mem_singleton] at h
    simp [h]

theorem sample_apart : Apart keccak256 10 erc4626Example (Cells [0#160, 1#160, 2#160] ['V'] ['v', 'v']) :=
  ⟨by decide, Proofs.Separate.separate sampleCells tokenTable (fun _ => sample_cells)
    (fun e he => OnWords.table_ok e (List.mem_append_left _ he)) (by decide +kernel) (by decide +kernel) (by decide +kernel)⟩

/-- A vault with offset 1. -/
theorem sample_setting {τ : Type} (t : τ) :
    ∃ w, Setting keccak256 10 [0#160, 1#160, 2#160] me ['V'] ['v', 'v'] token 1#8 t w := by
  obtain ⟨w, hd⟩ := C121_deploy sample_apart me token 1#8 t
  exact ⟨w, hd, by decide, by decide, sample_apart⟩

/-- One more transaction. -/
theorem play_call {W : World τ} {D : Decoder} {U : Utf8} (w : Chained Ev τ) (l : List (Step τ)) (c : Address) (v : U256) (i : Bytes) :
    play W keccak256 D U w (l ++ [.call c v i]) =
      Outcome.after (play W keccak256 D U w l) (run W keccak256 D U c (play W keccak256 D U w l) v i) := by
  simp only [play, Spec.Outside.play, List.foldl_append, List.foldl]

/-- A deposit. -/
def deposit17 : Step Nat := .call alice 0#256 (message "deposit(uint256,address)" [.uint256 17#256, .address bob])

-- C121_answers, C121_start, C121_deposit, C121_redeem, C121_withdraw, C121_mint, C121_fixed, C121_supply, C121_questions,
-- C121_shares_are_paid, C121_assets_are_paid: over a token that says that every balance is 7 and takes every transfer, a deposit of 17
-- makes 17 * (0 + 10) / (7 + 1) = 21 shares for Bob; then Bob can redeem 5 of them for 5 * 8 / 31 = 1, or withdraw 2 for 8 shares,
-- and Alice can mint 3 shares for 1
example (D : Decoder) (U : Utf8) : ∃ w, Setting keccak256 10 [0#160, 1#160, 2#160] me ['V'] ['v', 'v'] token 1#8 (0 : Nat) w ∧
    About keccak256 D [0#160, 1#160, 2#160] deposit17 ∧
    let w1 := play quiet keccak256 D U w [deposit17]
    let answers (caller : Address) (sg : String) (args : List Val) (x : U256) :=
      ∃ w2, run quiet keccak256 D U caller w1 0#256 (message sg args) = .returned w2 (values [.uint256 x])
    Tells quiet D U alice w1 "balanceOf(address)" [.address bob] 21#256 ∧
    answers bob "redeem(uint256,address,address)" [.uint256 5#256, .address alice, .address bob] 1#256 ∧
    answers bob "withdraw(uint256,address,address)" [.uint256 2#256, .address alice, .address bob] 8#256 ∧
    answers alice "mint(uint256,address)" [.uint256 3#256, .address bob] 1#256 := by
  obtain ⟨w, h⟩ := sample_setting (0 : Nat)
  have a1 : About keccak256 D [0#160, 1#160, 2#160] deposit17 :=
    C121_call_within (by decide) (.deposit 17#256 bob) 0#256 (by simp [abi]; decide)
  refine ⟨w, h, a1, ?_⟩
  intro w1 answers
  obtain ⟨s1, s2, s3⟩ := C121_start (W := quiet) (D := D) (U := U) h (asker := alice) (a := bob) (b := bob) (by decide) (by decide) (by decide)
  obtain ⟨d1, d2⟩ := C121_deposit (W := quiet) (D := D) (U := U) h [] (by simp) (caller := alice) (asker := alice) (r := bob)
    (by decide) (by decide) (by decide) 17#256 s1
  obtain ⟨w2, o1⟩ := d1 7#256 21#256 _ ⟨quiet_reports D _ _ _ _, ⟨by decide, by decide⟩, ⟨by decide, by decide⟩⟩ ⟨rfl, [], rfl, .inl rfl⟩
    (by decide) (by decide)
  have p1 : w1 = w2 := (play_call w [] _ _ _).trans (congrArg (Outcome.after (play quiet keccak256 D U w [])) o1)
  obtain ⟨A, x, ⟨c1, -, c3⟩, -, -, -, c4, k, -⟩ := d2 _ _ o1
  have ex : x = 21#256 := (Proofs.Contracts.uint256_inj c4).symm
  subst ex
  rw [← p1] at k
  obtain ⟨b1, b2, b3⟩ := k.balances bob (by decide) _ s2
  obtain ⟨t1, t2, t3⟩ := k.supply _ s1
  have al := k.allowances bob (by decide) bob (by decide) _ s3
  have eb : b1 = 21#256 := BitVec.eq_of_toNat_eq b3
  have et : t1 = 21#256 := BitVec.eq_of_toNat_eq t3
  subst eb
  subst et
  have hl : ∀ x ∈ [deposit17], About keccak256 D [0#160, 1#160, 2#160] x := by simp [a1]
  refine ⟨b2, ?_, ?_, ?_⟩
  · exact (C121_redeem h [deposit17] hl (caller := bob) (asker := alice) (r := alice) (o := bob) (by decide) (by decide) (by decide)
      (by decide) (by decide) 5#256 t2 b2 al).1 7#256 1#256 _ ⟨quiet_reports D _ _ _ _, ⟨by decide, by decide⟩, ⟨by decide, by decide⟩⟩
      ⟨rfl, [], rfl, .inl rfl⟩ ⟨by decide, by decide, .inl rfl⟩
  · exact (C121_withdraw h [deposit17] hl (caller := bob) (asker := alice) (r := alice) (o := bob) (by decide) (by decide) (by decide)
      (by decide) (by decide) 2#256 t2 b2 al).1 7#256 7#256 8#256 _ ⟨⟨quiet_reports D _ _ _ _, ⟨by decide, by decide⟩, 5, ⟨by decide, by decide⟩,
        by decide, by decide⟩, quiet_reports D _ _ _ _, ⟨by decide, by decide⟩, by decide, fun q hq => by
          have : 62 ≤ q * 8 := hq
          show 8 ≤ q
          omega⟩ ⟨rfl, [], rfl, .inl rfl⟩ ⟨by decide, by decide, .inl rfl⟩
  · exact (C121_mint h [deposit17] hl (caller := alice) (asker := alice) (r := bob) (by decide) (by decide) (by decide)
      3#256 t2).1 7#256 1#256 _ ⟨quiet_reports D _ _ _ _, ⟨by decide, by decide⟩, by decide, fun q hq => by
          have : 24 ≤ q * 31 := hq
          show 1 ≤ q
          omega⟩ ⟨rfl, [], rfl, .inl rfl⟩ (by decide) (by decide)

-- C121_rate: before the donation the vault answers 50 assets and 500 shares, at the end 58 and 480
example (D : Decoder) (m : Entry.Strings) (U : Utf8) : ∃ w,
    Setting keccak256 10 [0#160, 1#160, 2#160] me ['V'] ['v', 'v'] token 1#8 Erc20.init w ∧
    let txs := (sample.take 4).map Msg.tx
    let more := (sample.drop 4).map Msg.tx
    (∀ x ∈ txs ++ more, x.sender ≠ me) ∧ (∀ x ∈ txs ++ more, About keccak256 D [0#160, 1#160, 2#160] (x.step D m)) ∧
    let W := tokenWorld D m token
    let w1 := play W keccak256 D U w (txs.map (Tx.step D m))
    let w2 := play W keccak256 D U w ((txs ++ more).map (Tx.step D m))
    Tells W D U alice w1 "totalSupply()" [] 500#256 ∧ w1.world.balances me = 50#256 ∧
    Tells W D U alice w2 "totalSupply()" [] 480#256 ∧ w2.world.balances me = 58#256 := by
  obtain ⟨w, h⟩ := sample_setting Erc20.init
  have ha : ∀ x ∈ sample.map Msg.tx, About keccak256 D [0#160, 1#160, 2#160] (x.step D m) := by
    intro x hx
    simp only [sample, List.map_cons, List.map_nil, List.mem_cons, List.not_mem_nil, or_false] at hx
    rcases hx with rfl | rfl | rfl | rfl | rfl | rfl
    · trivial
    · trivial
    · exact C121_call_within (by decide) (.deposit 50#256 alice) 0#256 (by simp [abi]; decide)
    · exact C121_call_within (by decide) (.approve bob 20#256) 0#256 (by simp [abi]; decide)
    · trivial
    · exact C121_call_within (by decide) (.redeem 20#256 bob alice) 0#256 (by simp [abi]; decide)
  have e : (sample.take 4).map Msg.tx ++ (sample.drop 4).map Msg.tx = sample.map Msg.tx := rfl
  have hs (l : List Msg) (hf : ∀ x ∈ l, x.tx.sender ≠ me) : vaultAfter (tokenWorld D m token) D ⟨['V'], ['v', 'v']⟩
      (newVault me token 18#8 1#8 Erc20.init) ((l.map Msg.tx).map (Tx.step D m)) =
      Vault.ofModel token (Erc4626.run (Erc4626.init me 18#8 1#8) (l.map Msg.model)) :=
    Vault.C105_system_sends D m ⟨['V'], ['v', 'v']⟩ (newVault me token 18#8 1#8 Erc20.init) l hf
  have go (l : List Msg) (hl : ∀ x ∈ l, x ∈ sample) : Agrees keccak256 [0#160, 1#160, 2#160] ['V'] ['v', 'v']
      (play (tokenWorld D m token) keccak256 D U w ((l.map Msg.tx).map (Tx.step D m)))
      (Vault.ofModel token (Erc4626.run (Erc4626.init me 18#8 1#8) (l.map Msg.model))) := by
    rw [← hs l fun x hx => sample_foreign x (hl x hx)]
    refine play_agree h _ D U _ fun x hx => ?_
    obtain ⟨y, hy, rfl⟩ := List.mem_map.mp hx
    obtain ⟨z, hz, rfl⟩ := List.mem_map.mp hy
    exact ha _ (List.mem_map_of_mem (hl z hz))
  refine ⟨w, h, ?_, ?_, ?_⟩
  · rw [e]
    intro x hx
    obtain ⟨y, hy, rfl⟩ := List.mem_map.mp hx
    exact sample_foreign y hy
  · rw [e]; exact ha
  · have g1 := go (sample.take 4) fun x hx => List.mem_of_mem_take hx
    have g2 := go sample fun x hx => hx
    have q (v : Chained Ev Erc20.State) (s : Outside.Vault.State Erc20.State) (g : Agrees keccak256 [0#160, 1#160, 2#160] ['V'] ['v', 'v'] v s)
        (x y : U256) (hx : s.shares.totalSupply = x) (hy : s.world.balances me = y) :
        Tells (tokenWorld D m token) D U alice v "totalSupply()" [] x ∧ v.world.balances me = y := by
      rw [world_eq g, ← hx, ← hy]
      exact ⟨(asks h g (asker := alice) (a := alice) (b := alice) (by decide) (by decide) (by decide)).2.1, rfl⟩
    obtain ⟨r1, r2⟩ := q _ _ g1 500#256 50#256 (by decide +kernel) (by decide +kernel)
    obtain ⟨r3, r4⟩ := q _ _ g2 480#256 58#256 (by decide +kernel) (by decide +kernel)
    rw [e]
    exact ⟨r1, r2, r3, r4⟩

-- C121_no_answer: an asset without code
example (D : Decoder) : ∃ w, Setting keccak256 10 [0#160, 1#160, 2#160] me ['V'] ['v', 'v'] token 1#8 (0 : Nat) w ∧
    ∀ A, ¬ Reports (τ := Nat) ⟨fun _ _ => false, fun t _ _ _ => .returned t [], fun _ _ _ _ _ => none⟩ D w.world 0 me token A := by
  obtain ⟨w, h⟩ := sample_setting (0 : Nat)
  exact ⟨w, h, fun A => Vault.C105_no_code _ D _ 0 me token A rfl⟩

end Verif.Props.VaultDeployed
