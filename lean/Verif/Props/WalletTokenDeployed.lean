import Verif.Proofs.WalletTokenDeployed
import Verif.Props.BasicDeployed
import Verif.Props.VestingDeployed
/-!
# C127: a vesting wallet, the token it releases and ether, both contracts as deployed, both as words of storage

The token is `examples/basic/token` on words, the wallet is `examples/vesting-wallet` on words, and its calls go to the token as bytes.
There is nothing else on the chain.  `S` are the addresses that take part, those of the wallet and of the token among them.
-/
namespace Verif.Props.WalletTokenDeployed
open Verif Verif.Storage Verif.Outside Verif.Spec.WalletTokenDeployed Verif.Spec.OnWords Verif.Proofs.TwoDeployed
open Verif.Proofs.WalletTokenDeployed
open Verif.OnWords (Chained)
open Verif.Outside.Wallet (Env)
open Verif.Deployed (Utf8)
open Verif.VestingWords (Ev)
open Verif.Abi (Val Decoder Outcome)
open Verif.Spec.Keccak (keccak256)
open Verif.Spec.Contracts (Raw message values after)
open Verif.Spec.VestingSystem (Tx plain move)
open Verif.Spec.VestingBytes (Fits etherOut tokenOut newWallet)
open Verif.Spec.VestingDeployed (releases)
open Verif.Spec.Vesting (curve)
open Verif.Props.VestingBytes (failed)

variable {n : Nat} {S : List Address} {name symbol : List Char} {self k beneficiary : Address} {start duration : U64}
  {before : List (Raw Address)} {purse : Address → U256} {w : Chained Ev World} {D : Decoder} {U : Utf8}

/-- What the wallet answers. -/
abbrev ask (D : Decoder) (U : Utf8) (k : Address) := VestingDeployed.ask (chain D U k) D

/-- The wallet answers with a number. -/
abbrev Tells (D : Decoder) (U : Utf8) (k : Address) (env : Env) (w : Chained Ev World) (sg : String) (args : List Val) (x : U256) : Prop :=
  ask D U k env w sg args = some (values [.uint256 x])

/-- The token answers with a number. -/
abbrev TokenTells (D : Decoder) (U : Utf8) (asker : Address) (w : Chained Ev World) (sg : String) (args : List Val) (x : U256) : Prop :=
  Spec.Contracts.answer (BasicDeployed.entry keccak256 D U) asker w.world.1 sg args = some (values [.uint256 x])

/-- Both contracts agree with those with mappings, and the ether is the same. -/
def Joint (S : List Address) (name symbol : List Char) (w : Chained Ev World) (s : Wallet.State Spec.VestingSystem.World) : Prop :=
  ∃ s1, Proofs.VestingDeployed.Agrees keccak256 S w s1 ∧ Over (· ∈ S) (AgreeWorld S name symbol) s1 s

/-- The wallet and the token with mappings after the same transactions. -/
abbrev past (D : Decoder) (name symbol : List Char) (self k beneficiary : Address) (start duration : U64) (before : List (Raw Address))
    (purse : Address → U256) (l : List (U64 × Tx)) : Wallet.State Spec.VestingSystem.World :=
  Spec.VestingSystem.acts D ⟨name, symbol⟩ k (newWallet self beneficiary start duration
    (after (Entry.basicTokenEntry keccak256 D ⟨name, symbol⟩) Erc20.init before, purse)) l

theorem self_eq {τ : Type} {w : Chained Ev τ} {s : Wallet.State τ} (hi : Proofs.VestingDeployed.Agrees keccak256 S w s) : w.self_ = s.self_ := by
  obtain ⟨c, _, rfl, _⟩ := hi; rfl

theorem set_world {τ : Type} {w : Chained Ev τ} {s : Wallet.State τ} (hi : Proofs.VestingDeployed.Agrees keccak256 S w s) (f : τ → τ) :
    Proofs.VestingDeployed.Agrees keccak256 S { w with world := f w.world } { s with world := f s.world } := by
  obtain ⟨c, h1, rfl, hz⟩ := hi
  exact ⟨c, h1, rfl, hz⟩

theorem joint_facts {s : Wallet.State Spec.VestingSystem.World} (hj : Joint S name symbol w s) :
    w.self_ = s.self_ ∧ w.world.2 = s.world.2 ∧ Agree S name symbol w.world.1 s.world.1 ∧ s.ownable.owner ∈ S ∧ releases w = s.log := by
  obtain ⟨s1, h1, ht, ho, t', rfl⟩ := hj
  rw [← Props.VestingDeployed.world_eq h1] at ht
  exact ⟨self_eq h1, ht.2, ht.1, ho, Props.VestingDeployed.releases_eq h1⟩

theorem joint_world {s : Wallet.State Spec.VestingSystem.World} (hj : Joint S name symbol w s) {t : World} {t' : Spec.VestingSystem.World}
    (ht : AgreeWorld S name symbol t t') : Joint S name symbol { w with world := t } { s with world := t' } := by
  obtain ⟨s1, h1, _, ho, t0, rfl⟩ := hj
  exact ⟨{ s1 with world := t }, set_world h1 fun _ => t, ht, ho, t', rfl⟩

/-- One transaction to the wallet. -/
theorem joint_step (h : Spec.BasicDeployed.Setting keccak256 n S name symbol)
    (ha : Apart keccak256 n vestingWalletExample (Spec.VestingDeployed.Cells S)) (hz : ZERO ∈ S)
    {s : Wallet.State Spec.VestingSystem.World} (hj : Joint S name symbol w s) (hs : s.self_ ∈ S) {env : Env} {v : U256} {b : Bytes}
    (hx : Spec.VestingDeployed.Within keccak256 D S ⟨env, v, b⟩) :
    Same (Joint S name symbol) (VestingDeployed.run (chain D U k) keccak256 D env w v b)
      (Wallet.run (plain D ⟨name, symbol⟩ k) keccak256 D env s v b) := by
  obtain ⟨s1, h1, h2⟩ := hj
  have hs1 : s1.self_ ∈ S := by
    obtain ⟨_, _, t', rfl⟩ := h2; exact hs
  have e1 := Proofs.VestingDeployed.inv_run ha (chain D U k) D h1 hx
  have e2 := wallet_step (U := U) (k := k) h h2 hs1 hz hx
  exact same_of (e1.1.trans e2.answer) ⟨_, e1.2, e2.after h2⟩

theorem joint_act (h : Spec.BasicDeployed.Setting keccak256 n S name symbol)
    (ha : Apart keccak256 n vestingWalletExample (Spec.VestingDeployed.Cells S)) (hz : ZERO ∈ S)
    {s : Wallet.State Spec.VestingSystem.World} (hj : Joint S name symbol w s) (hs : s.self_ ∈ S) (now : U64) {x : Tx} (hx : About D S x) :
    Joint S name symbol (act D U k w now x) (Spec.VestingSystem.act D ⟨name, symbol⟩ k s now x) := by
  obtain ⟨f1, f2, f3, _⟩ := joint_facts hj
  cases x with
  | wallet c v i =>
    unfold act Spec.VestingSystem.act
    dsimp only
    rw [f1, f2]
    cases move s.world.2 c s.self_ v with
    | none => exact hj
    | some e =>
      have hj2 := joint_world hj (t := (w.world.1, e)) (t' := (s.world.1, e)) ⟨f3, rfl⟩
      have e := joint_step (U := U) (k := k) h ha hz hj2 hs (hx now)
      show Joint S name symbol (Spec.VestingDeployed.step (chain D U k) keccak256 D w (.call ⟨c, now⟩ v i _))
        (Spec.VestingBytes.step (plain D ⟨name, symbol⟩ k) D s (.call ⟨c, now⟩ v i _))
      unfold Spec.VestingDeployed.step Spec.VestingBytes.step
      dsimp only
      revert e
      generalize VestingDeployed.run (chain D U k) keccak256 D ⟨c, now⟩ _ v i = x
      generalize Wallet.run (plain D ⟨name, symbol⟩ k) keccak256 D ⟨c, now⟩ _ v i = y
      intro e
      cases e with
      | reverted d => exact hj
      | returned d hq => exact hq
  | token c v i => exact joint_world hj ⟨(token_same (U := U) h f3 hx).after f3, f2⟩
  | pay c d v =>
    refine joint_world hj ⟨f3, ?_⟩
    dsimp only
    rw [f2]

theorem act_self (D : Decoder) (m : Entry.Strings) (k : Address) (s : Wallet.State Spec.VestingSystem.World) (now : U64) (x : Tx) :
    (Spec.VestingSystem.act D m k s now x).self_ = s.self_ ∧ (Spec.VestingSystem.act D m k s now x).start = s.start ∧
    (Spec.VestingSystem.act D m k s now x).duration = s.duration := by
  cases x with
  | wallet c v i =>
    unfold Spec.VestingSystem.act
    dsimp only
    split
    · exact VestingBytes.C109_fixed (plain D m k) D [.call ⟨c, now⟩ v i fun t => (t.1, _)] s
    · exact ⟨rfl, rfl, rfl⟩
  | token c v i => exact ⟨rfl, rfl, rfl⟩
  | pay c d v => exact ⟨rfl, rfl, rfl⟩

theorem joint_acts (h : Spec.BasicDeployed.Setting keccak256 n S name symbol)
    (ha : Apart keccak256 n vestingWalletExample (Spec.VestingDeployed.Cells S)) (hz : ZERO ∈ S) (l : List (U64 × Tx))
    {w : Chained Ev World} {s : Wallet.State Spec.VestingSystem.World} (hj : Joint S name symbol w s) (hs : s.self_ ∈ S)
    (hx : ∀ x ∈ l, About D S x.2) :
    Joint S name symbol (acts D U k w l) (Spec.VestingSystem.acts D ⟨name, symbol⟩ k s l) := by
  induction l generalizing w s with
  | nil => exact hj
  | cons x l ih =>
    exact ih (joint_act h ha hz hj hs x.1 (hx x List.mem_cons_self)) (by rw [(act_self D _ k s x.1 x.2).1]; exact hs)
      fun y hy => hx y (List.mem_cons_of_mem _ hy)

theorem joint (h : Setting D U n S name symbol self k beneficiary start duration before purse w) {l : List (U64 × Tx)}
    (hx : ∀ x ∈ l, About D S x.2) :
    Joint S name symbol (acts D U k w l) (past D name symbol self k beneficiary start duration before purse l) := by
  obtain ⟨t, h1, h2⟩ := h.deployed
  refine joint_acts h.token h.apart h.mem_zero l ⟨_, Proofs.VestingDeployed.inv_deploy h.apart h2, ?_, h.mem_first, _, rfl⟩ h.mem hx
  exact ⟨Proofs.BasicDeployed.inv_run h.token D U before (Props.BasicDeployed.start h.token h1) h.about, rfl⟩

/-- What both contracts answer. -/
theorem asks (h : Setting D U n S name symbol self k beneficiary start duration before purse w) {w' : Chained Ev World}
    {s : Wallet.State Spec.VestingSystem.World} (hj : Joint S name symbol w' s) (env : Env) {asker a : Address} (hc : asker ∈ S) (ha : a ∈ S) :
    ask D U k env w' "owner()" [] = some (values [.address s.ownable.owner]) ∧
    Tells D U k env w' "released()" [] s.released ∧
    Tells D U k env w' "released(address)" [.address k] (s.erc20Released k) ∧
    TokenTells D U asker w' "balanceOf(address)" [.address a] (s.world.1.balances a) := by
  obtain ⟨s1, h1, ht, _, t', rfl⟩ := hj
  rw [← Props.VestingDeployed.world_eq h1] at ht
  exact ⟨Props.VestingDeployed.ask_owner h.apart h1 env, Props.VestingDeployed.ask_released h.apart h1 env,
    Props.VestingDeployed.ask_token h.apart h1 env h.mem_token,
    (Props.BasicDeployed.asks (D := D) (U := U) h.token ht.1 hc ha hc).2.1⟩

theorem told {env : Env} {sg : String} {args : List Val} {x y : U256} (h : Tells D U k env w sg args x) (h' : Tells D U k env w sg args y) :
    x = y := Proofs.Contracts.uint256_inj (Option.some.inj (h.symm.trans h'))

theorem token_told {asker : Address} {sg : String} {args : List Val} {x y : U256} (h : TokenTells D U asker w sg args x)
    (h' : TokenTells D U asker w sg args y) : x = y := Proofs.Contracts.uint256_inj (Option.some.inj (h.symm.trans h'))

/-- What is true of the wallet with mappings at a time. -/
theorem past_inv (h : Setting D U n S name symbol self k beneficiary start duration before purse w) {l : List (U64 × Tx)}
    (hs : ∀ x ∈ l, x.2.sender ≠ self) {T : U64} (hl : (l.map Prod.fst ++ [T]).Pairwise fun a b => a.toNat ≤ b.toNat) :
    VestingSystem.Inv D ⟨name, symbol⟩ self k start duration T (past D name symbol self k beneficiary start duration before purse l) := by
  refine VestingSystem.inv_acts D ⟨name, symbol⟩ (now := 0#64) l (VestingSystem.inv_new D ⟨name, symbol⟩ h.others) hs ?_
  rw [List.cons_append, List.pairwise_cons]
  exact ⟨fun _ _ => Nat.zero_le _, hl⟩

theorem eth_ok {T : U64} {s : Wallet.State Spec.VestingSystem.World} (hi : VestingSystem.Inv D ⟨name, symbol⟩ self k start duration T s) :
    s.released.toNat ≤ curve start.toNat duration.toNat ((s.world.2 self).toNat + s.released.toNat) T.toNat := by
  obtain ⟨rfl, rfl, rfl, _, h, _⟩ := hi
  exact h.1

theorem token_ok {T : U64} {s : Wallet.State Spec.VestingSystem.World} (hi : VestingSystem.Inv D ⟨name, symbol⟩ self k start duration T s) :
    (s.erc20Released k).toNat ≤
      curve start.toNat duration.toNat ((s.world.1.balances self).toNat + (s.erc20Released k).toNat) T.toNat := by
  obtain ⟨rfl, rfl, rfl, _, _, h⟩ := hi
  exact h.1

/-- **C127** Bytes in, bytes out, with nothing between but the words of two storages: after any transactions to either contract and any
payments, a transaction to either is answered with the same bytes as by the wallet of C109 over the token of C103, everybody has the
same ether, and the events of both contracts are the same. -/
theorem C127_answers (h : Setting D U n S name symbol self k beneficiary start duration before purse w) (l : List (U64 × Tx))
    (hx : ∀ x ∈ l, About D S x.2) :
    let w' := acts D U k w l
    let s := past D name symbol self k beneficiary start duration before purse l
    (∀ tx : Raw Env, Spec.VestingDeployed.Within keccak256 D S tx →
      Spec.Deployed.answer (VestingDeployed.run (chain D U k) keccak256 D tx.env w' tx.value tx.input) =
        Spec.Deployed.answer (Wallet.run (plain D ⟨name, symbol⟩ k) keccak256 D tx.env s tx.value tx.input)) ∧
    (∀ tx : Raw Address, Within keccak256 D Router.basicToken S tx →
      Spec.Deployed.answer (BasicDeployed.entry keccak256 D U tx.env w'.world.1 tx.value tx.input) =
        Spec.Deployed.answer (Entry.basicTokenEntry keccak256 D ⟨name, symbol⟩ tx.env s.world.1 tx.value tx.input)) ∧
    w'.world.2 = s.world.2 ∧ releases w' = s.log ∧ w'.world.1.log = s.world.1.log := by
  intro w' s
  have hj := joint h hx
  obtain ⟨f1, f2, f3, f4, f5⟩ := joint_facts hj
  have hself : s.self_ ∈ S := by
    obtain ⟨t, h1, h2⟩ := h.deployed
    rw [show s.self_ = self by
      have : ∀ (l : List (U64 × Tx)) (s : Wallet.State Spec.VestingSystem.World), (Spec.VestingSystem.acts D ⟨name, symbol⟩ k s l).self_ = s.self_ := by
        intro l
        induction l with
        | nil => exact fun _ => rfl
        | cons x l ih => exact fun s => (ih _).trans (act_self D _ k s x.1 x.2).1
      exact this l _]
    exact h.mem
  exact ⟨fun tx hw => (joint_step h.token h.apart h.mem_zero hj hself hw).answer, fun tx hw => (token_same h.token f3 hw).answer, f2, f5,
    Proofs.BasicDeployed.agrees_log f3⟩

/-- **C127** Nothing is released early, both contracts being words of storage: after any transactions to either and any payments, in the
order of their times and from anybody but the wallet, at every later time `T` the wallet answers amounts of ether and of the token released
that are at most what the schedule allows at `T` of what the wallet has (of the token: as the token answers) and has released, and
they are the sums of its events. -/
theorem C127_schedule (h : Setting D U n S name symbol self k beneficiary start duration before purse w) {l : List (U64 × Tx)}
    (hx : ∀ x ∈ l, About D S x.2) (hs : ∀ x ∈ l, x.2.sender ≠ self) {T : U64}
    (hl : (l.map Prod.fst ++ [T]).Pairwise fun a b => a.toNat ≤ b.toNat) (env : Env) {asker : Address} (hc : asker ∈ S) :
    let w' := acts D U k w l
    ∃ r rk B : U256, Tells D U k env w' "released()" [] r ∧
      r.toNat ≤ curve start.toNat duration.toNat ((w'.world.2 self).toNat + r.toNat) T.toNat ∧ etherOut (releases w') = r.toNat ∧
      Tells D U k env w' "released(address)" [.address k] rk ∧ TokenTells D U asker w' "balanceOf(address)" [.address self] B ∧
      rk.toNat ≤ curve start.toNat duration.toNat (B.toNat + rk.toNat) T.toNat ∧ tokenOut k (releases w') = rk.toNat := by
  intro w'
  have hj := joint h hx
  obtain ⟨_, f2, _, _, f5⟩ := joint_facts hj
  obtain ⟨_, a2, a3, a4⟩ := asks h hj env hc h.mem
  have hi := past_inv h hs hl
  refine ⟨_, _, _, a2, ?_, ?_, a3, a4, ?_, ?_⟩
  · rw [show w'.world.2 = _ from f2]
    exact eth_ok hi
  · rw [show releases w' = _ from f5]; exact hi.eth.2
  · exact token_ok hi
  · rw [show releases w' = _ from f5]; exact hi.token.2

theorem succeeds {σ τ : Type} {P : σ → τ → Prop} {x : Outcome σ} {y : Outcome τ} (h : Same P x y) :
    (∃ s d, x = .returned s d) ↔ ∃ s d, y = .returned s d := by
  cases h with
  | reverted d =>
    constructor <;> (rintro ⟨_, _, h⟩; cases h)
  | returned d hp => exact ⟨fun _ => ⟨_, _, rfl⟩, fun _ => ⟨_, _, rfl⟩⟩

theorem succeeds_with {σ τ : Type} {P : σ → τ → Prop} {x : Outcome σ} {y : Outcome τ} (h : Same P x y) {s : σ} {d : Bytes}
    (hx : x = .returned s d) : ∃ t, y = .returned t d ∧ P s t := by
  cases h with
  | reverted d => cases hx
  | returned d hp => cases hx; exact ⟨_, rfl, hp⟩

theorem reverts {σ τ : Type} {P : σ → τ → Prop} {x : Outcome σ} {y : Outcome τ} (h : Same P x y) {d : Bytes} (hy : y = .reverted d) :
    x = .reverted d := by
  cases h with
  | reverted d => cases hy; rfl
  | returned d hp => cases hy

/-- `release(address)` on mappings. -/
theorem token_released {s : Wallet.State Spec.VestingSystem.World} {env : Env} (hz : self ≠ ZERO)
    (hi : VestingSystem.Inv D ⟨name, symbol⟩ self k start duration env.now s) :
    let r := s.erc20Released k
    let total := (s.world.1.balances self).toNat + r.toNat
    let due := curve start.toNat duration.toNat total env.now.toNat
    let out := Wallet.run (plain D ⟨name, symbol⟩ k) keccak256 D env s 0#256 (message "release(address)" [.address k])
    r.toNat ≤ due ∧
    ((∃ s2 d, out = .returned s2 d) ↔ Fits start.toNat duration.toNat total env.now.toNat ∧ s.ownable.owner ≠ ZERO) ∧
    (¬ Fits start.toNat duration.toNat total env.now.toNat → out = .reverted []) ∧
    (Fits start.toNat duration.toNat total env.now.toNat → s.ownable.owner = ZERO → out = .reverted (failed k)) ∧
    ∀ s2 d, out = .returned s2 d → d = [] ∧ (s2.erc20Released k).toNat = due ∧
      (∀ b, (s2.world.1.balances b).toNat + (if b = self then due - r.toNat else 0) =
        (s.world.1.balances b).toNat + (if b = s.ownable.owner then due - r.toNat else 0)) ∧
      s2.world.2 = s.world.2 ∧
      ∃ amount : U256, amount.toNat + r.toNat = due ∧ s2.log = s.log ++ [.erc20Released k amount] := by
  intro r total due out
  have hle : r.toNat ≤ due := token_ok hi
  obtain ⟨hself, hbeg, hlast, hfine, _, _⟩ := hi
  have hrep := (VestingSystem.holds D ⟨name, symbol⟩ k self).reports s.world
  obtain ⟨c1, c2, c3⟩ := VestingBytes.C109_release_token (plain D ⟨name, symbol⟩ k) D env s k (s.world.1.balances self)
    (by rw [hself]; exact hrep) (by unfold VestingBytes.State.curve; rw [hbeg, hlast]; exact hle)
  unfold VestingBytes.State.Fits at c1 c2 c3
  unfold VestingBytes.State.curve at c1 c3
  rw [hbeg, hlast] at c1 c2 c3
  have hdue : due ≤ total := Props.Vesting.curve_le_total _ _ _ _
  -- the token takes the transfer exactly if there is an owner
  have htake : ∀ amount : U256, amount.toNat + r.toNat = due → s.ownable.owner ≠ ZERO →
      ∃ u, Erc20.transfer s.world.1 self s.ownable.owner amount = .ok u := fun amount ha ho =>
    (Props.C02_transfer_succeeds_iff s.world.1 self s.ownable.owner amount).mpr ⟨hz, ho, by
      have : amount.toNat + r.toNat ≤ (s.world.1.balances self).toNat + r.toNat := ha.trans_le hdue
      exact Nat.le_of_add_le_add_right this⟩
  have hamount : Fits start.toNat duration.toNat total env.now.toNat → ∃ amount : U256, amount.toNat + r.toNat = due := fun hf => by
    refine ⟨BitVec.ofNat 256 (due - r.toNat), ?_⟩
    rw [BitVec.toNat_ofNat, Nat.mod_eq_of_lt (lt_of_le_of_lt (Nat.sub_le _ _) (lt_of_le_of_lt hdue hf.1))]
    exact Nat.sub_add_cancel hle
  have hno : ∀ amount : U256, s.ownable.owner = ZERO → ∀ t', ¬ Spec.Outside.Takes (plain D ⟨name, symbol⟩ k).toWorld s.world s.self_ k
      (message "transfer(address,uint256)" [.address s.ownable.owner, .uint256 amount]) t' := fun amount ho t' ht => by
    rw [hself] at ht
    exact ((Props.C02_transfer_succeeds_iff _ _ _ _).mp ⟨_, (VestingSystem.takes_plain D ⟨name, symbol⟩ ht).1⟩).2.1 ho
  refine ⟨hle, ⟨?_, ?_⟩, c2, fun hf ho => ?_, ?_⟩
  · rintro ⟨s2, d, ho⟩
    obtain ⟨hf, amount, _, t', _, ht, _⟩ := (c1 s2 d).mp ho
    exact ⟨hf, fun hz' => hno amount hz' t' ht⟩
  · rintro ⟨hf, ho⟩
    obtain ⟨amount, ha⟩ := hamount hf
    obtain ⟨u, hu⟩ := htake amount ha ho
    refine ⟨_, _, (c1 _ _).mpr ⟨hf, amount, BitVec.ofNat 256 due, (u, s.world.2), ha, ?_, ?_, rfl, rfl⟩⟩
    · rw [hself]; exact VestingSystem.plain_takes D ⟨name, symbol⟩ hu
    · rw [BitVec.toNat_ofNat, Nat.mod_eq_of_lt (lt_of_le_of_lt hdue hf.1)]
  · obtain ⟨amount, ha⟩ := hamount hf
    exact c3 amount hf ha (hno amount ho)
  · intro s2 d ho
    obtain ⟨hf, amount, released, t', ha, ht, hr, rfl, rfl⟩ := (c1 s2 d).mp ho
    rw [hself] at ht
    obtain ⟨t1, t2⟩ := VestingSystem.takes_plain D ⟨name, symbol⟩ ht
    have e := (Props.C02_transfer_effect hfine.1 t1).1
    have ea : amount.toNat = due - r.toNat := (Nat.sub_eq_of_eq_add ha.symm).symm
    refine ⟨rfl, ?_, fun b => ?_, t2, amount, ha, rfl⟩
    · show (upd s.erc20Released k released k).toNat = due
      unfold upd; rw [if_pos rfl]; exact hr
    · rw [← ea]; exact e b

/-- `release` of ether on mappings. -/
theorem ether_released {s : Wallet.State Spec.VestingSystem.World} {env : Env}
    (hi : VestingSystem.Inv D ⟨name, symbol⟩ self k start duration env.now s) :
    let r := s.released
    let owner := s.ownable.owner
    let total := (s.world.2 self).toNat + r.toNat
    let due := curve start.toNat duration.toNat total env.now.toNat
    let out := Wallet.run (plain D ⟨name, symbol⟩ k) keccak256 D env s 0#256 (message "release()" [])
    r.toNat ≤ due ∧
    ((∃ s2 d, out = .returned s2 d) ↔ Fits start.toNat duration.toNat total env.now.toNat ∧ owner ≠ k ∧ owner ≠ self ∧
      (s.world.2 owner).toNat + (due - r.toNat) < 2 ^ 256) ∧
    ((¬ ∃ s2 d, out = .returned s2 d) → out = .reverted []) ∧
    ∀ s2 d, out = .returned s2 d → d = [] ∧ s2.released.toNat = due ∧
      (∀ b, (s2.world.2 b).toNat + (if b = self then due - r.toNat else 0) =
        (s.world.2 b).toNat + (if b = owner then due - r.toNat else 0)) ∧
      s2.world.1 = s.world.1 ∧
      ∃ amount : U256, amount.toNat + r.toNat = due ∧ s2.log = s.log ++ [.etherReleased amount] := by
  intro r owner total due out
  have hle : r.toNat ≤ due := eth_ok hi
  obtain ⟨hself, hbeg, hlast, _, _, _⟩ := hi
  have heth : VestingBytes.eth (plain D ⟨name, symbol⟩ k) s = s.world.2 self := congrArg s.world.2 hself
  obtain ⟨c1, c2, c3⟩ := VestingBytes.C109_release_eth (plain D ⟨name, symbol⟩ k) D env s
    (by unfold VestingBytes.State.curve; rw [hbeg, hlast, heth]; exact hle)
  unfold VestingBytes.State.Fits at c1 c2 c3
  unfold VestingBytes.State.curve at c1 c3
  rw [hbeg, hlast, heth, hself] at c1
  rw [hbeg, hlast, heth] at c2
  rw [hbeg, hlast, heth, hself] at c3
  have hdue : due ≤ total := Props.Vesting.curve_le_total _ _ _ _
  have hamount : Fits start.toNat duration.toNat total env.now.toNat → ∃ amount : U256, amount.toNat + r.toNat = due := fun hf => by
    refine ⟨BitVec.ofNat 256 (due - r.toNat), ?_⟩
    rw [BitVec.toNat_ofNat, Nat.mod_eq_of_lt (lt_of_le_of_lt (Nat.sub_le _ _) (lt_of_le_of_lt hdue hf.1))]
    exact Nat.sub_add_cancel hle
  have hea : ∀ {amount : U256}, amount.toNat + r.toNat = due → amount.toNat = due - r.toNat := fun ha => (Nat.sub_eq_of_eq_add ha.symm).symm
  have hhas : ∀ {amount : U256}, amount.toNat + r.toNat = due → amount.toNat ≤ (s.world.2 self).toNat := fun {amount} ha => by
    have : amount.toNat + r.toNat ≤ (s.world.2 self).toNat + r.toNat := ha.trans_le hdue
    exact Nat.le_of_add_le_add_right this
  -- the payment succeeds exactly if ether can move
  have hpay : ∀ (amount : U256), (owner = k ∨ move s.world.2 self owner amount = none) →
      (plain D ⟨name, symbol⟩ k).pay s.world self owner amount [] = .reverted [] := fun amount hor => by
    unfold plain
    dsimp only
    by_cases hk : owner = k
    · rw [if_pos hk]
    · rw [if_neg hk, hor.resolve_left hk]
  have hmove : ∀ {amount : U256}, amount.toNat + r.toNat = due →
      ((∃ e, move s.world.2 self owner amount = some e) ↔ owner ≠ self ∧ (s.world.2 owner).toNat + (due - r.toNat) < 2 ^ 256) := by
    intro amount ha
    rw [← hea ha]
    unfold move
    constructor
    · rintro ⟨e, he⟩
      split at he
      · rename_i hc; exact ⟨hc.1.symm, hc.2.2⟩
      · cases he
    · rintro ⟨g1, g2⟩
      exact ⟨_, if_pos ⟨g1.symm, hhas ha, g2⟩⟩
  have hiff : (∃ s2 d, out = .returned s2 d) ↔ Fits start.toNat duration.toNat total env.now.toNat ∧ owner ≠ k ∧ owner ≠ self ∧
      (s.world.2 owner).toNat + (due - r.toNat) < 2 ^ 256 := by
    constructor
    · rintro ⟨s2, d, ho⟩
      obtain ⟨hf, amount, _, t', _, ha, hp, _⟩ := (c1 s2 d).mp ho
      have hk : owner ≠ k := fun hk => by
        rw [hpay amount (.inl hk)] at hp; cases hp
      refine ⟨hf, hk, (hmove ha).mp ?_⟩
      rcases hm : move s.world.2 self owner amount with _ | e
      · rw [hpay amount (.inr hm)] at hp; cases hp
      · exact ⟨e, rfl⟩
    · rintro ⟨hf, hk, g⟩
      obtain ⟨amount, ha⟩ := hamount hf
      obtain ⟨e, he⟩ := (hmove ha).mpr g
      exact ⟨_, _, (c1 _ _).mpr ⟨hf, amount, BitVec.ofNat 256 due, (s.world.1, e), [], ha, VestingSystem.plain_pay D ⟨name, symbol⟩ hk he,
        by rw [BitVec.toNat_ofNat, Nat.mod_eq_of_lt (lt_of_le_of_lt hdue hf.1)], rfl, rfl⟩⟩
  refine ⟨hle, hiff, fun hn => ?_, ?_⟩
  · by_cases hf : Fits start.toNat duration.toNat total env.now.toNat
    · obtain ⟨amount, ha⟩ := hamount hf
      refine c3 amount [] hf ha (hpay amount ?_)
      by_cases hk : owner = k
      · exact .inl hk
      · refine .inr ?_
        rcases hm : move s.world.2 self owner amount with _ | e
        · rfl
        · exact absurd (hiff.mpr ⟨hf, hk, (hmove ha).mp ⟨e, hm⟩⟩) hn
    · exact c2 hf
  · intro s2 d ho
    obtain ⟨hf, amount, released, t', _, ha, hp, hr, rfl, rfl⟩ := (c1 s2 d).mp ho
    have hk : owner ≠ k := fun hk => by
      rw [hpay amount (.inl hk)] at hp; cases hp
    rcases hm : move s.world.2 self owner amount with _ | e
    · rw [hpay amount (.inr hm)] at hp; cases hp
    · rw [VestingSystem.plain_pay D ⟨name, symbol⟩ hk hm] at hp
      injection hp with hp
      subst hp
      refine ⟨rfl, hr, fun b => ?_, rfl, amount, ha, rfl⟩
      rw [← hea ha]; exact VestingSystem.move_some hm b

/-- **C127** `release(address)` of the token, by anybody, after any transactions to either contract and any payments in the order of their
times and from anybody but the wallet: what was released is at most what is due by now.  If the numbers of the schedule fit and the
wallet has an owner, the call succeeds, the difference moves from the wallet to the owner in the token's answers, the wallet
answers that all that is due was released, its event says so, and no ether moves.  Otherwise it reverts: with nothing if the numbers
do not fit, with `SafeErc20FailedOperation` of the token if there is no owner. -/
theorem C127_release_token (h : Setting D U n S name symbol self k beneficiary start duration before purse w) {l : List (U64 × Tx)}
    (hx : ∀ x ∈ l, About D S x.2) (hs : ∀ x ∈ l, x.2.sender ≠ self) {env : Env}
    (hl : (l.map Prod.fst ++ [env.now]).Pairwise fun a b => a.toNat ≤ b.toNat) (env' : Env) {asker : Address} (hc : asker ∈ S)
    {owner : Address} {r B : U256} :
    let w' := acts D U k w l
    let total := B.toNat + r.toNat
    let due := curve start.toNat duration.toNat total env.now.toNat
    let out := VestingDeployed.run (chain D U k) keccak256 D env w' 0#256 (message "release(address)" [.address k])
    ask D U k env' w' "owner()" [] = some (values [.address owner]) →
    Tells D U k env' w' "released(address)" [.address k] r → TokenTells D U asker w' "balanceOf(address)" [.address self] B →
    r.toNat ≤ due ∧
    ((∃ w2 d, out = .returned w2 d) ↔ Fits start.toNat duration.toNat total env.now.toNat ∧ owner ≠ ZERO) ∧
    (¬ Fits start.toNat duration.toNat total env.now.toNat → out = .reverted []) ∧
    (Fits start.toNat duration.toNat total env.now.toNat → owner = ZERO → out = .reverted (failed k)) ∧
    ∀ w2 d, out = .returned w2 d → d = [] ∧
      (∃ r' : U256, Tells D U k env' w2 "released(address)" [.address k] r' ∧ r'.toNat = due) ∧
      (∀ b ∈ S, ∀ x : U256, TokenTells D U asker w' "balanceOf(address)" [.address b] x →
        ∃ x' : U256, TokenTells D U asker w2 "balanceOf(address)" [.address b] x' ∧
          x'.toNat + (if b = self then due - r.toNat else 0) = x.toNat + (if b = owner then due - r.toNat else 0)) ∧
      w2.world.2 = w'.world.2 ∧
      ∃ amount : U256, amount.toNat + r.toNat = due ∧ releases w2 = releases w' ++ [.erc20Released k amount] := by
  intro w' total due out h1 h2 h3
  have hj := joint h hx
  have hi := past_inv h hs hl
  obtain ⟨f1, f2, f3, f4, f5⟩ := joint_facts hj
  obtain ⟨a1, _, a3, a4⟩ := asks h hj env' hc h.mem
  obtain rfl := Props.VestingDeployed.address_eq (h1.symm.trans a1)
  obtain rfl := told h2 a3
  obtain rfl := token_told h3 a4
  have hwS : Spec.VestingDeployed.Within keccak256 D S ⟨env, 0#256, message "release(address)" [.address k]⟩ :=
    Props.VestingDeployed.C119_call_within (.releaseErc20 k) 0#256 (by simp [VestingBytes.abi, h.mem_token])
  have hsame := joint_step (U := U) (k := k) h.token h.apart h.mem_zero hj (by rw [hi.self_]; exact h.mem) hwS
  obtain ⟨g1, g2, g3, g4, g5⟩ := token_released h.nonzero hi
  refine ⟨g1, (succeeds hsame).trans g2, fun hf => reverts hsame (g3 hf), fun hf ho => reverts hsame (g4 hf ho), fun w2 d ho => ?_⟩
  obtain ⟨s2, ho2, hj2⟩ := succeeds_with hsame ho
  obtain ⟨k1, k2, k3, k4, amount, k5, k6⟩ := g5 s2 d ho2
  obtain ⟨_, e2, _, _, e5⟩ := joint_facts hj2
  refine ⟨k1, ⟨_, (asks h hj2 env' hc h.mem).2.2.1, k2⟩, fun b hb x hx => ⟨_, (asks h hj2 env' hc hb).2.2.2, ?_⟩, ?_, amount, k5, ?_⟩
  · rw [token_told hx (asks h hj env' hc hb).2.2.2]; exact k3 b
  · rw [e2, k4]; exact f2.symm
  · rw [e5, k6]; exact congrArg (· ++ _) f5.symm

/-- **C127** `release()` of ether, by anybody, after the same: what was released is at most what is due by now.  The call succeeds if and
only if the numbers of the schedule fit, the owner is neither the token nor the wallet itself and their ether does not overflow; then the
difference moves from the wallet to the owner, the wallet answers that all that is due was released, its event says so, and the
token does not change.  Otherwise it reverts with nothing. -/
theorem C127_release_eth (h : Setting D U n S name symbol self k beneficiary start duration before purse w) {l : List (U64 × Tx)}
    (hx : ∀ x ∈ l, About D S x.2) (hs : ∀ x ∈ l, x.2.sender ≠ self) {env : Env}
    (hl : (l.map Prod.fst ++ [env.now]).Pairwise fun a b => a.toNat ≤ b.toNat) (env' : Env) {asker : Address} (hc : asker ∈ S)
    {owner : Address} {r : U256} :
    let w' := acts D U k w l
    let total := (w'.world.2 self).toNat + r.toNat
    let due := curve start.toNat duration.toNat total env.now.toNat
    let out := VestingDeployed.run (chain D U k) keccak256 D env w' 0#256 (message "release()" [])
    ask D U k env' w' "owner()" [] = some (values [.address owner]) → Tells D U k env' w' "released()" [] r →
    r.toNat ≤ due ∧
    ((∃ w2 d, out = .returned w2 d) ↔ Fits start.toNat duration.toNat total env.now.toNat ∧ owner ≠ k ∧ owner ≠ self ∧
      (w'.world.2 owner).toNat + (due - r.toNat) < 2 ^ 256) ∧
    ((¬ ∃ w2 d, out = .returned w2 d) → out = .reverted []) ∧
    ∀ w2 d, out = .returned w2 d → d = [] ∧ (∃ r' : U256, Tells D U k env' w2 "released()" [] r' ∧ r'.toNat = due) ∧
      (∀ b, (w2.world.2 b).toNat + (if b = self then due - r.toNat else 0) =
        (w'.world.2 b).toNat + (if b = owner then due - r.toNat else 0)) ∧
      (∀ b ∈ S, ∀ x : U256, TokenTells D U asker w' "balanceOf(address)" [.address b] x →
        TokenTells D U asker w2 "balanceOf(address)" [.address b] x) ∧
      ∃ amount : U256, amount.toNat + r.toNat = due ∧ releases w2 = releases w' ++ [.etherReleased amount] := by
  intro w' total due out h1 h2
  have hj := joint h hx
  have hi := past_inv h hs hl
  obtain ⟨f1, f2, f3, f4, f5⟩ := joint_facts hj
  obtain ⟨a1, a2, _, _⟩ := asks h hj env' hc h.mem
  obtain rfl := Props.VestingDeployed.address_eq (h1.symm.trans a1)
  obtain rfl := told h2 a2
  have hwS : Spec.VestingDeployed.Within keccak256 D S ⟨env, 0#256, message "release()" []⟩ :=
    Props.VestingDeployed.C119_call_within .releaseEth 0#256 (by simp [VestingBytes.abi])
  have hsame := joint_step (U := U) (k := k) h.token h.apart h.mem_zero hj (by rw [hi.self_]; exact h.mem) hwS
  obtain ⟨g1, g2, g3, g5⟩ := ether_released hi
  rw [← f2] at g1 g2 g5
  refine ⟨g1, (succeeds hsame).trans g2, fun hn => reverts hsame (g3 fun he => hn ((succeeds hsame).mpr he)), fun w2 d ho => ?_⟩
  obtain ⟨s2, ho2, hj2⟩ := succeeds_with hsame ho
  obtain ⟨k1, k2, k3, k4, amount, k5, k6⟩ := g5 s2 d ho2
  obtain ⟨_, e2, _, _, e5⟩ := joint_facts hj2
  refine ⟨k1, ⟨_, (asks h hj2 env' hc h.mem).2.1, k2⟩, fun b => ?_, fun b hb x hx => ?_, amount, k5, ?_⟩
  · rw [e2]; exact k3 b
  · rw [token_told hx (asks h hj env' hc hb).2.2.2, ← k4]; exact (asks h hj2 env' hc hb).2.2.2
  · rw [e5, k6]; exact congrArg (· ++ _) f5.symm

/-! ### The hypotheses are met -/

section
open Verif.Props.OnWords
open Verif.Props.BasicDeployed (sampleName sampleSymbol)
open Verif.BasicDeployed (nameCell symbolCell)

/-- Nobody, the beneficiary, the wallet, the token. -/
abbrev four : List Address := [0#160, 1#160, 2#160, 3#160]

/-- The cells of the token that they use. -/
def tokenCells4 : List (List Step) :=
  ([Erc20Words.supply OnWords.token] ++ (four.map (Erc20Words.balance OnWords.token) ++
    four.flatMap fun a => four.map (Erc20Words.allowance OnWords.token a))) ++ [nameCell, symbolCell]

theorem token_cells4 {p : List Step} (h : Spec.BasicDeployed.Cells four sampleName sampleSymbol p) : p ∈ tokenCells4 := by
  rcases h with h | h | h
  · refine List.mem_append_left _ ?_
    rcases h with rfl | ⟨a, ha, rfl⟩ | ⟨a, ha, b, hb, rfl⟩
    · exact List.mem_append_left _ (by simp)
    · exact List.mem_append_right _ (List.mem_append_left _ (List.mem_map_of_mem ha))
    · exact List.mem_append_right _ (List.mem_append_right _ (List.mem_flatMap.mpr ⟨a, ha, List.mem_map_of_mem hb⟩))
  · rw [show (Constructors.text [.field "metadata", .field "metadata", .field "name"] (Logs.utf8 sampleName)).map Prod.fst = [nameCell] by decide +kernel] at h
    rw [List.mem_singleton.mp h]; exact List.mem_append_right _ (by simp)
  · rw [show (Constructors.text [.field "metadata", .field "metadata", .field "symbol"] (Logs.utf8 sampleSymbol)).map Prod.fst = [symbolCell] by decide +kernel] at h
    rw [List.mem_singleton.mp h]; exact List.mem_append_right _ (by simp)

/-- The hash values that place those of the fourth. -/
def fourthTable : List (Bytes × U256) :=
  [(be32 0x3#256 ++ be32 0x0#256, 0x101e368776582e57ab3d116ffe2517c0a585cd5b23174b01e275c2d8329c3d83#256),
   (be32 0x3#256 ++ be32 0xa6eef7e35abe7026729641147f7915573c7e97b47efa546f5f6e3230263bcb49#256, 0xc97a69e6e2de1bb9e27f629ecf2981a64edb688b55347fa4daae7dde857b7d91#256),
   (be32 0x3#256 ++ be32 0xcc69885fda6bcc1a4ace058b4a62bf5e179ea78fd58a1ccd71c22cc9b688792f#256, 0x158767340ba23d54c9df5ae99b956057eea7a83ae8538a2dc391c346fd5136e2#256),
   (be32 0x3#256 ++ be32 0xd9d16d34ffb15ba3a3d852f0d403e2ce1d691fb54de27ac87cd2f993f3ec330f#256, 0xc4660acc4bd0a40bb2aaddc291a83b2fbde6034df1730ebf08010adf2b678647#256),
   (be32 0x3#256 ++ be32 0x1#256, 0x7dfe757ecd65cbd7922a9c0161e935dd7fdbcc0e999689c7d31633896b1fc60b#256),
   (be32 0x0#256 ++ be32 0x7dfe757ecd65cbd7922a9c0161e935dd7fdbcc0e999689c7d31633896b1fc60b#256, 0x8272f7cf5ae04aea784b78e9bad38625f1cf45c192335b7c7e0361d2c3c2bfbf#256),
   (be32 0x1#256 ++ be32 0x7dfe757ecd65cbd7922a9c0161e935dd7fdbcc0e999689c7d31633896b1fc60b#256, 0xe274e030096b679b4f85765392b8d9c193468dcc79489f9ef2e4555d9913da5f#256),
   (be32 0x2#256 ++ be32 0x7dfe757ecd65cbd7922a9c0161e935dd7fdbcc0e999689c7d31633896b1fc60b#256, 0xc57d9bce4232b7d5f8cf6d73a7aca17cf0abf49995b3841141095bc9f1c96ced#256),
   (be32 0x3#256 ++ be32 0x7dfe757ecd65cbd7922a9c0161e935dd7fdbcc0e999689c7d31633896b1fc60b#256, 0xadcf0102a3b6ed77d2b232c66d6d760bb129429915f070489c73c0ce2ec87de0#256)]

/-- The cells of the wallet that they use. -/
def walletCells4 : List (List Step) :=
  [[.field "vesting_wallet", .field "ownable", .field "owner"], [.field "vesting_wallet", .field "released"],
   [.field "vesting_wallet", .field "start"], [.field "vesting_wallet", .field "duration"]] ++
  four.map fun a => [.field "vesting_wallet", .field "erc20_released", .key (a.setWidth 256)]

/-- The hash values that place them. -/
def walletTable : List (Bytes × U256) :=
  [(be32 0x0#256 ++ be32 0x2#256, 0xac33ff75c19e70fe83507db0d683fd3465c996598dc972688b7ace676c89077b#256),
   (be32 0x1#256 ++ be32 0x2#256, 0xe90b7bceb6e7df5418fb78d8ee546e97c83a08bbccc01a0644d599ccd2a7c2e0#256),
   (be32 0x2#256 ++ be32 0x2#256, 0x679795a0195a1b76cdebb7c51d74e058aee92919b8c3389af86ef24535e8a28c#256),
   (be32 0x3#256 ++ be32 0x2#256, 0x88601476d11616a71c5be67555bd1dff4b1cbf21533d2669b768b61518cfe1c3#256)]

theorem wallet_cells4 {p : List Step} (h : Spec.VestingDeployed.Cells four p) : p ∈ walletCells4 := by
  rcases h with rfl | rfl | rfl | rfl | ⟨a, ha, rfl⟩
  · exact List.mem_append_left _ (by simp)
  · exact List.mem_append_left _ (by simp)
  · exact List.mem_append_left _ (by simp)
  · exact List.mem_append_left _ (by simp)
  · exact List.mem_append_right _ (List.mem_map_of_mem ha)

set_option maxRecDepth 100000 in
theorem four_ok : ∀ e ∈ fourthTable ++ walletTable, keccak256 e.1 = e.2 := by
  rw [Proofs.KeccakFast.keccak256_eq]
  decide +kernel

theorem token_apart : Spec.BasicDeployed.Setting keccak256 10 four sampleName sampleSymbol :=
  ⟨⟨by decide, Proofs.Separate.separate tokenCells4 (tokenTable ++ fourthTable) (fun _ => token_cells4)
    (fun e he => (List.mem_append.mp he).elim (fun h => table_ok e (List.mem_append_left _ h)) fun h => four_ok e (List.mem_append_left _ h))
    (by decide +kernel) (by decide +kernel) (by decide +kernel)⟩,
   by decide +kernel, by decide +kernel⟩

theorem wallet_apart : Apart keccak256 10 vestingWalletExample (Spec.VestingDeployed.Cells four) :=
  ⟨by decide, Proofs.Separate.separate walletCells4 walletTable (fun _ => wallet_cells4) (fun e he => four_ok e (List.mem_append_right _ he))
    (by decide +kernel) (by decide +kernel) (by decide +kernel)⟩

/-- Account 1 gives the wallet 1000 of the token before it is deployed. -/
def given : Raw Address := ⟨1#160, 0#256, message "mint(address,uint256)" [.address 2#160, .uint256 1000#256]⟩

/-- Account 1 has 700 of ether. -/
def purse0 : Address → U256 := fun a => if a = 1#160 then 700#256 else 0#256

/-- With Keccak the hypotheses of the theorems hold of a wallet at account 2 for account 1, from time 100 to time 200. -/
theorem sample_setting (D : Decoder) (U : Utf8) :
    ∃ w, Setting D U 10 four sampleName sampleSymbol 2#160 3#160 1#160 100#64 100#64 [given] purse0 w := by
  obtain ⟨t, ht⟩ := Props.BasicDeployed.C125_deploy keccak256 sampleName sampleSymbol
  obtain ⟨w, hw⟩ : ∃ w, VestingDeployed.deploy keccak256 2#160 1#160 100#64 100#64
      (after (BasicDeployed.entry keccak256 D U) t [given], purse0) = some w :=
    Option.ne_none_iff_exists'.mp fun h => absurd ((Props.VestingDeployed.C119_deploy _ _ _ _ _ _).mp h) (by decide)
  exact ⟨w, token_apart, wallet_apart, by simp, by simp, by simp, by decide, by decide, by
    intro x hx
    rw [List.mem_singleton] at hx
    subst hx
    exact Props.BasicDeployed.C125_call_within (by simp) (.mint 2#160 1000#256) 0#256 (by simp [Contracts.BasicTokenContract.abi]), by
    intro x hx
    rw [List.mem_singleton] at hx
    subst hx
    decide, t, ht, hw⟩

/-- Account 1 sends the wallet 500 of ether. -/
def sent0 : List (U64 × Tx) := [(110#64, .pay 1#160 2#160 500#256)]

theorem sent_about (D : Decoder) : ∀ x ∈ sent0, About D four x.2 := by
  intro x hx
  rw [sent0, List.mem_singleton] at hx
  subst hx
  trivial

set_option maxRecDepth 100000 in
/-- What the token holds for the wallet then. -/
theorem sample_balance (D : Decoder) :
    (past D sampleName sampleSymbol 2#160 3#160 1#160 100#64 100#64 [given] purse0 sent0).world.1.balances 2#160 = 1000#256 := by
  have hc := Contracts.BasicTokenContract.C103_basic_token_call D ⟨sampleName, sampleSymbol⟩ 1#160 Erc20.init (.mint 2#160 1000#256)
    (Proofs.Contracts.words_lt _ _ (by simp [Contracts.BasicTokenContract.abi, Spec.Contracts.arg]) (by simp [Contracts.BasicTokenContract.abi]))
  have ha : after (Entry.basicTokenEntry keccak256 D ⟨sampleName, sampleSymbol⟩) Erc20.init [given] = _ := congrArg (Outcome.after Erc20.init) hc
  show (after (Entry.basicTokenEntry keccak256 D ⟨sampleName, sampleSymbol⟩) Erc20.init [given]).balances 2#160 = _
  rw [ha]
  decide +kernel

set_option maxRecDepth 100000 in
-- at a quarter of the time anyone makes the wallet pay the beneficiary a quarter of the token and of the ether
example (D : Decoder) (U : Utf8) : ∃ w, Setting D U 10 four sampleName sampleSymbol 2#160 3#160 1#160 100#64 100#64 [given] purse0 w ∧
    (∃ w2 d, VestingDeployed.run (chain D U 3#160) keccak256 D ⟨0xca501#160, 125#64⟩ (acts D U 3#160 w sent0) 0#256
        (message "release(address)" [.address 3#160]) = .returned w2 d ∧
      ∃ x : U256, TokenTells D U 0#160 w2 "balanceOf(address)" [.address 2#160] x ∧ x.toNat = 750) ∧
    (∃ w2 d, VestingDeployed.run (chain D U 3#160) keccak256 D ⟨0xca501#160, 125#64⟩ (acts D U 3#160 w sent0) 0#256
        (message "release()" []) = .returned w2 d ∧ (w2.world.2 1#160).toNat = 325 ∧ (w2.world.2 2#160).toNat = 375) := by
  obtain ⟨w, h⟩ := sample_setting D U
  have hj := joint h (sent_about D)
  have hs : ∀ x ∈ sent0, x.2.sender ≠ 2#160 := by
    intro x hx
    rw [sent0, List.mem_singleton] at hx
    subst hx
    decide
  have hl : (sent0.map Prod.fst ++ [125#64]).Pairwise fun a b => a.toNat ≤ b.toNat := by decide
  obtain ⟨a1, a2, a3, a4⟩ := asks h hj ⟨0#160, 0#64⟩ (asker := 0#160) (a := 2#160) (by simp) (by simp)
  rw [sample_balance] at a4
  have f2 : (acts D U 3#160 w sent0).world.2 = _ := (joint_facts hj).2.1
  have e1 : (acts D U 3#160 w sent0).world.2 1#160 = 200#256 := by rw [f2]; show (move purse0 1#160 2#160 500#256).getD purse0 1#160 = _; decide +kernel
  have e2 : (acts D U 3#160 w sent0).world.2 2#160 = 500#256 := by rw [f2]; show (move purse0 1#160 2#160 500#256).getD purse0 2#160 = _; decide +kernel
  obtain ⟨_, t1, _, _, t2⟩ := C127_release_token h (sent_about D) hs (env := ⟨0xca501#160, 125#64⟩) hl ⟨0#160, 0#64⟩ (asker := 0#160) (by simp)
    (owner := 1#160) (r := 0#256) (B := 1000#256) a1 a3 a4
  obtain ⟨_, g1, _, g2⟩ := C127_release_eth h (sent_about D) hs (env := ⟨0xca501#160, 125#64⟩) hl ⟨0#160, 0#64⟩ (asker := 0#160) (by simp)
    (owner := 1#160) (r := 0#256) a1 a2
  rw [e1, e2] at g1
  obtain ⟨w2, d2, o2⟩ := t1.mpr ⟨⟨by decide, fun _ _ => by decide⟩, by decide⟩
  obtain ⟨w3, d3, o3⟩ := g1.mpr ⟨⟨by decide, fun _ _ => by decide⟩, by decide, by decide, by decide +kernel⟩
  refine ⟨w, h, ⟨w2, d2, o2, ?_⟩, w3, d3, o3, ?_, ?_⟩
  · obtain ⟨_, _, b, _⟩ := t2 w2 d2 o2
    obtain ⟨x, hx, hv⟩ := b 2#160 (by simp) _ a4
    exact ⟨x, hx, Nat.add_right_cancel (hv.trans (by decide +kernel) : x.toNat + 250 = 750 + 250)⟩
  · obtain ⟨_, _, b, _⟩ := g2 w3 d3 o3
    have := b 1#160
    rw [e1, e2] at this
    exact this.trans (by decide +kernel)
  · obtain ⟨_, _, b, _⟩ := g2 w3 d3 o3
    have := b 2#160
    rw [e2] at this
    exact Nat.add_right_cancel (this.trans (by decide +kernel) : (w3.world.2 2#160).toNat + 125 = 375 + 125)

end

end Verif.Props.WalletTokenDeployed
