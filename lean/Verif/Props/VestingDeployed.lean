import Verif.Proofs.VestingDeployed
import Verif.Props.OnWords
import Verif.Props.VestingBytes
import Verif.Props.VestingSystem
import Verif.Proofs.Separate
/-!
# C119: `examples/vesting-wallet` as deployed: constructor, calldata, storage words, and any programs around it

Nothing of the other models is left in the statements but the wallet on words (`Verif.Model.VestingDeployed`) and the rest of the chain
(`Verif.Model.VestingBytes`), except that `C119_answers` compares the wallet with that of C109.  `S` are the addresses that the
wallet is asked about.  Of them it is asked that the hash values of their storage cells do not coincide (`Apart`), as in C98, C104 and
C115.
-/
namespace Verif.Props.VestingDeployed
open Verif Verif.Storage Verif.Outside Verif.VestingDeployed Verif.Spec.VestingDeployed Verif.Spec.OnWords
open Verif.Outside.Wallet (Chain Env)
open Verif.Proofs.VestingDeployed Verif.Props.OnWords
open Verif.OnWords (Chained)
open Verif.VestingWords (Ev)
open Verif.Abi (Val Decoder Outcome)
open Verif.Spec.Keccak (keccak256)
open Verif.Spec.Contracts (Raw message values Says)
open Verif.Spec.VestingBytes (Step Ether Holds Fits Clocked clock etherOut tokenOut newWallet)
open Verif.Spec.Outside (Reports Takes)
open Verif.Spec.Vesting (curve)
open Verif.Props.VestingBytes (abi Op mem failed invalid)

variable {τ : Type}

/-- What an account gets to know that asks a question: the bytes of the answer, `none` if it is refused. -/
abbrev ask (W : Chain τ) (D : Decoder) := Spec.Contracts.answer (run W keccak256 D)

/-- **C119** Deployment is refused for the zero address as beneficiary, and for no other. -/
theorem C119_deploy (K : Hash) (self beneficiary : Address) (start duration : U64) (t : τ) :
    deploy K self beneficiary start duration t = none ↔ beneficiary = ZERO := deploys self beneficiary start duration t

section
variable {n : Nat} {S : List Address} {W : Chain τ} {D : Decoder}

theorem play_agree (h : Apart keccak256 n vestingWalletExample (Cells S)) (l : List (Step τ)) {w : Chained Ev τ} {s : Wallet.State τ}
    (hi : Agrees keccak256 S w s) (hx : ∀ x ∈ l, About keccak256 D S x) :
    Agrees keccak256 S (play W keccak256 D w l) (Spec.VestingBytes.play W D s l) := by
  induction l generalizing w s with
  | nil => exact hi
  | cons x l ih =>
    have h1 := step_agree h W D hi (hx x List.mem_cons_self)
    refine ih (w := step W keccak256 D w x) (s := Spec.VestingBytes.step W D s x) ?_ fun y hy => hx y (List.mem_cons_of_mem _ hy)
    cases x <;> exact h1

/-- **C119** Bytes in, bytes out, with nothing between but words of storage: after any transactions and anything that others do, a
transaction is answered with the same bytes as by the wallet with independent mappings that C109 is about, the rest of the chain is
the same before and after it, and so are the events. -/
theorem C119_answers (h : Apart keccak256 n vestingWalletExample (Cells S)) {self beneficiary : Address} {start duration : U64} {t : τ}
    {w : Chained Ev τ} (hd : deploy keccak256 self beneficiary start duration t = some w) (l : List (Step τ)) (tx : Raw Env)
    (hl : ∀ x ∈ l, About keccak256 D S x) (hx : Within keccak256 D S tx) :
    let s := Spec.VestingBytes.play W D (newWallet self beneficiary start duration t) l
    let w' := play W keccak256 D w l
    let out := run W keccak256 D tx.env w' tx.value tx.input
    let out' := Wallet.run W keccak256 D tx.env s tx.value tx.input
    Spec.Deployed.answer out = Spec.Deployed.answer out' ∧ w'.world = s.world ∧ (out.after w').world = (out'.after s).world ∧
    w'.log.filterMap Sum.getLeft? = s.ownable.log ∧ w'.log.filterMap Sum.getRight? = s.log := by
  intro s w' out out'
  have hi := play_agree (W := W) h l (inv_deploy h hd) hl
  obtain ⟨h1, _, _, h2, _⟩ := inv_run h W D hi hx
  obtain ⟨c, _, h3, _⟩ := hi
  exact ⟨h1, congrArg Wallet.State.world h3, congrArg Wallet.State.world h2,
    congrArg (fun s => s.ownable.log) h3, congrArg Wallet.State.log h3⟩

set_option maxRecDepth 100000 in
/-- **C119** A call of a function that changes the state is about the addresses among its arguments. -/
theorem C119_call_within {env : Env} (op : Op) (value : U256) (ha : ∀ a, Val.address a ∈ (abi op).2 → a ∈ S) :
    Within keccak256 D S ⟨env, value, message (abi op).1 (abi op).2⟩ := by
  cases op <;> exact fun args h => by
    rw [arguments_message mem (by simp [abi, Spec.Router.vestingWalletExample]) rfl rfl
      (Proofs.Contracts.words_lt _ _ (by simp [abi, Spec.Contracts.arg]) (by simp [abi])) h]
    exact ha

set_option maxRecDepth 100000 in
/-- The questions are about no address. -/
theorem question_within {env : Env} {sg : String} (hs : sg ∈ ["owner()", "start()", "duration()", "end()", "released()"]) :
    Within keccak256 D S ⟨env, 0#256, message sg []⟩ := by
  simp only [List.mem_cons, List.not_mem_nil, or_false] at hs
  rcases hs with rfl | rfl | rfl | rfl | rfl <;> exact fun args h => by
    rw [arguments_message mem (by simp [Spec.Router.vestingWalletExample]) rfl rfl
      (Proofs.Contracts.words_lt _ _ (by simp [Spec.Contracts.arg]) (by simp)) h]
    simp

set_option maxRecDepth 100000 in
theorem token_within {env : Env} {k : Address} (hk : k ∈ S) :
    Within keccak256 D S ⟨env, 0#256, message "released(address)" [.address k]⟩ := by
  exact fun args h => by
    rw [arguments_message mem (by simp [Spec.Router.vestingWalletExample]) rfl rfl
      (Proofs.Contracts.words_lt _ _ (by simp [Spec.Contracts.arg]) (by simp)) h]
    simp [hk]

/-- Questions. -/
theorem ask_agree (h : Apart keccak256 n vestingWalletExample (Cells S)) {w : Chained Ev τ} {s : Wallet.State τ}
    (hi : Agrees keccak256 S w s) {env : Env} {sg : String} {args : List Val} (hq : Within keccak256 D S ⟨env, 0#256, message sg args⟩) :
    ask W D env w sg args = Spec.Contracts.answer (Wallet.run W keccak256 D) env s sg args :=
  reply_of_answer (inv_run h W D hi hq).1

theorem ask_owner (h : Apart keccak256 n vestingWalletExample (Cells S)) {w : Chained Ev τ} {s : Wallet.State τ}
    (hi : Agrees keccak256 S w s) (env : Env) : ask W D env w "owner()" [] = some (values [.address s.ownable.owner]) :=
  (ask_agree h hi (question_within (by simp))).trans (congrArg Outcome.reply (VestingBytes.C109_views W D env s 0#160).1)

theorem ask_released (h : Apart keccak256 n vestingWalletExample (Cells S)) {w : Chained Ev τ} {s : Wallet.State τ}
    (hi : Agrees keccak256 S w s) (env : Env) : ask W D env w "released()" [] = some (values [.uint256 s.released]) :=
  (ask_agree h hi (question_within (by simp))).trans (congrArg Outcome.reply (VestingBytes.C109_views W D env s 0#160).2.2.2.2.1)

theorem ask_token (h : Apart keccak256 n vestingWalletExample (Cells S)) {w : Chained Ev τ} {s : Wallet.State τ}
    (hi : Agrees keccak256 S w s) (env : Env) {k : Address} (hk : k ∈ S) :
    ask W D env w "released(address)" [.address k] = some (values [.uint256 (s.erc20Released k)]) :=
  (ask_agree h hi (token_within hk)).trans (congrArg Outcome.reply (VestingBytes.C109_views W D env s k).2.2.2.2.2)

/-- A successful transaction. -/
theorem returned {w : Chained Ev τ} {s : Wallet.State τ} (h : Apart keccak256 n vestingWalletExample (Cells S)) (hi : Agrees keccak256 S w s)
    {tx : Raw Env} (hx : Within keccak256 D S tx) {s' : Wallet.State τ} {d : Bytes}
    (hr : Wallet.run W keccak256 D tx.env s tx.value tx.input = .returned s' d) :
    ∃ w', run W keccak256 D tx.env w tx.value tx.input = .returned w' d ∧ Agrees keccak256 S w' s' := by
  obtain ⟨h1, h2⟩ := inv_run h W D hi hx
  rw [hr] at h1 h2
  revert h1 h2
  cases run W keccak256 D tx.env w tx.value tx.input with
  | reverted d' => exact fun h1 _ => by cases h1
  | returned w' d' => exact fun h1 h2 => ⟨w', by cases h1; rfl, h2⟩

theorem reverted {w : Chained Ev τ} {s : Wallet.State τ} (h : Apart keccak256 n vestingWalletExample (Cells S)) (hi : Agrees keccak256 S w s)
    {tx : Raw Env} (hx : Within keccak256 D S tx) {d : Bytes} (hr : Wallet.run W keccak256 D tx.env s tx.value tx.input = .reverted d) :
    run W keccak256 D tx.env w tx.value tx.input = .reverted d := by
  have h1 := (inv_run h W D hi hx).1
  rw [hr] at h1
  revert h1
  cases run W keccak256 D tx.env w tx.value tx.input with
  | reverted d' => exact fun h1 => by cases h1; rfl
  | returned w' d' => exact fun h1 => by cases h1

/-! ### What the wallet answers -/

section
variable {self beneficiary : Address} {start duration : U64} {t : τ} {w : Chained Ev τ}

/-- **C119** With bytes only: right after the deployment the owner is the beneficiary and nothing is released. -/
theorem C119_start (h : Apart keccak256 n vestingWalletExample (Cells S)) (hd : deploy keccak256 self beneficiary start duration t = some w)
    (env : Env) {k : Address} (hk : k ∈ S) :
    ask W D env w "owner()" [] = some (values [.address beneficiary]) ∧ ask W D env w "released()" [] = some (values [.uint256 0#256]) ∧
    ask W D env w "released(address)" [.address k] = some (values [.uint256 0#256]) :=
  ⟨ask_owner h (inv_deploy h hd) env, ask_released h (inv_deploy h hd) env, ask_token h (inv_deploy h hd) env hk⟩

/-- **C119** With bytes only: whatever happens, the answers to `start`, `duration` and `end` are those of the deployment. -/
theorem C119_fixed (h : Apart keccak256 n vestingWalletExample (Cells S)) (hd : deploy keccak256 self beneficiary start duration t = some w)
    (l : List (Step τ)) (hl : ∀ x ∈ l, About keccak256 D S x) (env : Env) :
    let w' := play W keccak256 D w l
    (∃ x, ask W D env w' "start()" [] = some (values [.uint256 x]) ∧ x.toNat = start.toNat) ∧
    (∃ x, ask W D env w' "duration()" [] = some (values [.uint256 x]) ∧ x.toNat = duration.toNat) ∧
    (∃ x, ask W D env w' "end()" [] = some (values [.uint256 x]) ∧ x.toNat = start.toNat + duration.toNat) := by
  intro w'
  have hi := play_agree (W := W) h l (inv_deploy h hd) hl
  obtain ⟨_, ⟨x, hx, hx'⟩, ⟨y, hy, hy'⟩, ⟨z, hz, hz'⟩, _⟩ := VestingBytes.C109_views W D env
    (Spec.VestingBytes.play W D (newWallet self beneficiary start duration t) l) 0#160
  obtain ⟨_, e2, e3⟩ := VestingBytes.C109_fixed W D l (newWallet self beneficiary start duration t)
  rw [e2] at hx' hz'
  rw [e3] at hy' hz'
  exact ⟨⟨x, (ask_agree h hi (question_within (by simp))).trans (congrArg Outcome.reply hx), hx'⟩,
    ⟨y, (ask_agree h hi (question_within (by simp))).trans (congrArg Outcome.reply hy), hy'⟩,
    ⟨z, (ask_agree h hi (question_within (by simp))).trans (congrArg Outcome.reply hz), hz'⟩⟩

theorem address_eq {a b : Address} (h : some (values [.address a]) = some (values [.address b])) : a = b :=
  Proofs.Contracts.address_inj (Option.some.inj h)

/-- **C119** With bytes only: if the answer to `owner` changes, then in a transaction without value that the owner sent; it is a call of
`transferOwnership` and the new owner is its argument, or of `renounceOwnership` and there is none. -/
theorem C119_owner_changes (h : Apart keccak256 n vestingWalletExample (Cells S))
    (hd : deploy keccak256 self beneficiary start duration t = some w) (l : List (Step τ)) (x : Step τ)
    (hl : ∀ y ∈ l ++ [x], About keccak256 D S y) (asker : Env) (new : Address) :
    let w1 := play W keccak256 D w l
    let w2 := play W keccak256 D w (l ++ [x])
    ask W D asker w2 "owner()" [] = some (values [.address new]) → ask W D asker w1 "owner()" [] ≠ some (values [.address new]) →
    ∃ env input f, x = .call env 0#256 input f ∧ ask W D asker w1 "owner()" [] = some (values [.address env.caller]) ∧
      ((new ≠ ZERO ∧ Says D input "transferOwnership(address)" [.address new]) ∨
       (new = ZERO ∧ Says D input "renounceOwnership()" [])) := by
  intro w1 w2 ha hb
  have h1 := play_agree (W := W) h l (inv_deploy h hd) fun y hy => hl y (List.mem_append_left _ hy)
  have h2 := play_agree (W := W) h (l ++ [x]) (inv_deploy h hd) hl
  rw [show Spec.VestingBytes.play W D (newWallet self beneficiary start duration t) (l ++ [x]) =
    Spec.VestingBytes.step W D (Spec.VestingBytes.play W D (newWallet self beneficiary start duration t) l) x from List.foldl_append] at h2
  rw [show ask W D asker w2 "owner()" [] = _ from ask_owner h h2 asker] at ha
  have e1 : ask W D asker w1 "owner()" [] = _ := ask_owner h h1 asker
  rw [e1] at hb ⊢
  have ha := address_eq ha
  obtain ⟨env, input, f, rfl, hc, hs⟩ := VestingBytes.C109_owner W D _ x (fun e => hb (by rw [← ha, e]))
  refine ⟨env, input, f, rfl, by rw [hc], ?_⟩
  rcases hs with ⟨a, hs, h0, hn⟩ | ⟨hs, hn⟩
  · rw [ha] at hn; subst hn; exact .inl ⟨h0, hs⟩
  · rw [ha] at hn; exact .inr ⟨hn, hs⟩

/-! ### What is released and when -/

theorem world_eq {w : Chained Ev τ} {s : Wallet.State τ} (hi : Agrees keccak256 S w s) : w.world = s.world := by
  obtain ⟨c, _, rfl, _⟩ := hi; rfl

theorem releases_eq {w : Chained Ev τ} {s : Wallet.State τ} (hi : Agrees keccak256 S w s) : releases w = s.log := by
  obtain ⟨c, _, rfl, _⟩ := hi; rfl

theorem safe_agree (h : Apart keccak256 n vestingWalletExample (Cells S)) {m : τ → U256} (l : List (Step τ)) {w : Chained Ev τ}
    {s : Wallet.State τ} (hi : Agrees keccak256 S w s) (hx : ∀ x ∈ l, About keccak256 D S x) (hs : Safe W keccak256 D m w l) :
    Spec.VestingBytes.Safe W D m s l := by
  induction l generalizing w s with
  | nil => trivial
  | cons x l ih =>
    have h1 := play_agree (W := W) h [x] hi fun y hy => hx y (List.mem_cons.mpr (.inl (List.mem_singleton.mp hy)))
    have e := world_eq hi
    cases x with
    | call env v i f => exact ⟨e ▸ hs.1, ih h1 (fun y hy => hx y (List.mem_cons_of_mem _ hy)) hs.2⟩
    | outside f => exact ⟨e ▸ hs.1, ih h1 (fun y hy => hx y (List.mem_cons_of_mem _ hy)) hs.2⟩

/-- **C119** With bytes only, over any chain where ether leaves the wallet only in its own payments: whatever happens while nobody else
takes the wallet's ether and the clock does not go back, the wallet answers an amount of ether released that is at most what the schedule
allows now of all that was received, and it is the sum of the amounts in its events. -/
theorem C119_eth_schedule (h : Apart keccak256 n vestingWalletExample (Cells S))
    (hd : deploy keccak256 self beneficiary start duration t = some w) (l : List (Step τ)) (hl : ∀ x ∈ l, About keccak256 D S x)
    (hW : Ether W self) (hs : Safe W keccak256 D (fun t => W.balance t self) w l) {now : U64} (hc : Clocked now l) (asker : Env) :
    let w' := play W keccak256 D w l
    ∃ r : U256, ask W D asker w' "released()" [] = some (values [.uint256 r]) ∧
      r.toNat ≤ curve start.toNat duration.toNat ((W.balance w'.world self).toNat + r.toNat) (clock now l).toNat ∧
      etherOut (releases w') = r.toNat := by
  intro w'
  have hi := play_agree (W := W) h l (inv_deploy h hd) hl
  have hk := VestingBytes.C109_eth_schedule W D self beneficiary start duration now t hW l (safe_agree h l (inv_deploy h hd) hl hs) hc
  refine ⟨_, ask_released h hi asker, ?_⟩
  rw [show w'.world = _ from world_eq hi, show releases w' = _ from releases_eq hi]
  exact hk

/-- **C119** With bytes only, over any chain with a token that lets go of the wallet's tokens only when it asks: the same for the
token. -/
theorem C119_token_schedule (h : Apart keccak256 n vestingWalletExample (Cells S))
    (hd : deploy keccak256 self beneficiary start duration t = some w) (l : List (Step τ)) (hl : ∀ x ∈ l, About keccak256 D S x)
    {k : Address} (hk : k ∈ S) {bal : τ → U256} (hW : Holds W D self k bal) (hs : Safe W keccak256 D bal w l) {now : U64}
    (hc : Clocked now l) (asker : Env) :
    let w' := play W keccak256 D w l
    ∃ r : U256, ask W D asker w' "released(address)" [.address k] = some (values [.uint256 r]) ∧
      r.toNat ≤ curve start.toNat duration.toNat ((bal w'.world).toNat + r.toNat) (clock now l).toNat ∧
      tokenOut k (releases w') = r.toNat := by
  intro w'
  have hi := play_agree (W := W) h l (inv_deploy h hd) hl
  have hq := VestingBytes.C109_token_schedule W D self beneficiary k start duration now t bal hW l
    (safe_agree h l (inv_deploy h hd) hl hs) hc
  refine ⟨_, ask_token h hi asker hk, ?_⟩
  rw [show w'.world = _ from world_eq hi, show releases w' = _ from releases_eq hi]
  exact hq

/-- **C119** With bytes only: after such a history, at any later time, anybody's call of `release()` pays the owner what the schedule
allows at this time of all that was received, less what was released already, or nothing at all.  With the owner and the amount
released before as answered, if the numbers fit in 256 bits: if the payment goes through, so does the call, with one event about it, and
the amount released after it is answered to be what the schedule allows; if the payment reverts, the call reverts with the same
data.  If the numbers do not fit, the call reverts. -/
theorem C119_release_eth (h : Apart keccak256 n vestingWalletExample (Cells S))
    (hd : deploy keccak256 self beneficiary start duration t = some w) (l : List (Step τ)) (hl : ∀ x ∈ l, About keccak256 D S x)
    (hW : Ether W self) (hs : Safe W keccak256 D (fun t => W.balance t self) w l) {now : U64} (hc : Clocked now l)
    {env : Env} (hn : (clock now l).toNat ≤ env.now.toNat) (asker : Env) {owner : Address} {r : U256} :
    let w' := play W keccak256 D w l
    let total := (W.balance w'.world self).toNat + r.toNat
    let due := curve start.toNat duration.toNat total env.now.toNat
    let out := run W keccak256 D env w' 0#256 (message "release()" [])
    ask W D asker w' "owner()" [] = some (values [.address owner]) → ask W D asker w' "released()" [] = some (values [.uint256 r]) →
    r.toNat ≤ due ∧
    (Fits start.toNat duration.toNat total env.now.toNat → ∀ amount : U256, amount.toNat + r.toNat = due →
      (∀ t' d, W.pay w'.world self owner amount [] = .returned t' d → ∃ w2, out = .returned w2 [] ∧ w2.world = t' ∧
        releases w2 = releases w' ++ [.etherReleased amount] ∧
        ∃ r' : U256, ask W D asker w2 "released()" [] = some (values [.uint256 r']) ∧ r'.toNat = due) ∧
      (∀ d, W.pay w'.world self owner amount [] = .reverted d → out = .reverted d)) ∧
    (¬ Fits start.toNat duration.toNat total env.now.toNat → out = .reverted []) := by
  intro w' total due out ho hr
  have hi : Agrees keccak256 S w' _ := play_agree (W := W) h l (inv_deploy h hd) hl
  have hk := (VestingBytes.C109_eth_schedule W D self beneficiary start duration now t hW l
    (safe_agree h l (inv_deploy h hd) hl hs) hc).1
  obtain ⟨e1, e2, e3⟩ := VestingBytes.C109_fixed W D l (newWallet self beneficiary start duration t)
  have hw := world_eq hi
  have hg := releases_eq hi
  rw [ask_owner h hi asker] at ho
  rw [ask_released h hi asker] at hr
  have ho := address_eq ho
  have hr := Proofs.Contracts.uint256_inj (Option.some.inj hr)
  have hx : Within keccak256 D S ⟨env, 0#256, message "release()" []⟩ := C119_call_within (S := S) (.releaseEth) 0#256 (by simp [abi])
  generalize Spec.VestingBytes.play W D (newWallet self beneficiary start duration t) l = s at *
  have e1 : s.self_ = self := e1
  have e2 : s.start = start := e2
  have e3 : s.duration = duration := e3
  subst e1 e2 e3 ho hr
  have hle : s.released.toNat ≤ due := by
    refine le_trans hk (le_trans (Props.Vesting.curve_mono _ _ (le_refl _) hn) ?_)
    show curve _ _ ((W.balance s.world s.self_).toNat + s.released.toNat) _ ≤ curve _ _ ((W.balance w'.world s.self_).toNat + s.released.toNat) _
    rw [hw]
  have hdue : due = VestingBytes.State.curve s ((VestingBytes.eth W s).toNat + s.released.toNat) env.now := by
    show curve _ _ ((W.balance w'.world s.self_).toNat + s.released.toNat) _ = _
    rw [hw]
  have htot : total = (VestingBytes.eth W s).toNat + s.released.toNat := by
    show (W.balance w'.world s.self_).toNat + s.released.toNat = _
    rw [hw]
  obtain ⟨c1, c2, c3⟩ := VestingBytes.C109_release_eth W D env s (hdue ▸ hle)
  refine ⟨hle, fun hf amount ha => ⟨fun t' d hp => ?_, fun d hp => ?_⟩, fun hf => ?_⟩
  · rw [hw] at hp
    have hlt : due < 2 ^ 256 := lt_of_le_of_lt (Props.Vesting.curve_le_total _ _ _ _) hf.1
    obtain ⟨w2, h1, h2⟩ := returned (tx := ⟨env, 0#256, message "release()" []⟩) h hi hx ((c1 _ _).mpr
      ⟨htot ▸ hf, amount, BitVec.ofNat 256 due, t', d, hdue ▸ ha, hp, by rw [BitVec.toNat_ofNat, Nat.mod_eq_of_lt hlt, hdue], rfl, rfl⟩)
    exact ⟨w2, h1, world_eq h2, by rw [releases_eq h2, hg], _, ask_released h h2 asker,
      by rw [BitVec.toNat_ofNat, Nat.mod_eq_of_lt hlt]⟩
  · rw [hw] at hp
    exact reverted (tx := ⟨env, 0#256, message "release()" []⟩) h hi hx (c3 amount d (htot ▸ hf) (hdue ▸ ha) hp)
  · exact reverted (tx := ⟨env, 0#256, message "release()" []⟩) h hi hx (c2 (htot ▸ hf))

/-- **C119** With bytes only: the same for `release(address)` and a token, which is sent one message, `transfer` to the owner of what
the schedule allows.  If the token does not take it, the call reverts with the error about the token. -/
theorem C119_release_token (h : Apart keccak256 n vestingWalletExample (Cells S))
    (hd : deploy keccak256 self beneficiary start duration t = some w) (l : List (Step τ)) (hl : ∀ x ∈ l, About keccak256 D S x)
    {k : Address} (hkS : k ∈ S) {bal : τ → U256} (hW : Holds W D self k bal) (hs : Safe W keccak256 D bal w l) {now : U64}
    (hc : Clocked now l) {env : Env} (hn : (clock now l).toNat ≤ env.now.toNat) (asker : Env) {owner : Address} {r : U256} :
    let w' := play W keccak256 D w l
    let total := (bal w'.world).toNat + r.toNat
    let due := curve start.toNat duration.toNat total env.now.toNat
    let out := run W keccak256 D env w' 0#256 (message "release(address)" [.address k])
    ask W D asker w' "owner()" [] = some (values [.address owner]) →
    ask W D asker w' "released(address)" [.address k] = some (values [.uint256 r]) →
    r.toNat ≤ due ∧
    (Fits start.toNat duration.toNat total env.now.toNat → ∀ amount : U256, amount.toNat + r.toNat = due →
      let ask' := message "transfer(address,uint256)" [.address owner, .uint256 amount]
      (∀ t', Takes W.toWorld w'.world self k ask' t' → ∃ w2, out = .returned w2 [] ∧ w2.world = t' ∧
        releases w2 = releases w' ++ [.erc20Released k amount] ∧
        ∃ r' : U256, ask W D asker w2 "released(address)" [.address k] = some (values [.uint256 r']) ∧ r'.toNat = due) ∧
      ((∀ t', ¬ Takes W.toWorld w'.world self k ask' t') → out = .reverted (failed k))) ∧
    (¬ Fits start.toNat duration.toNat total env.now.toNat → out = .reverted []) := by
  intro w' total due out ho hr
  have hi : Agrees keccak256 S w' _ := play_agree (W := W) h l (inv_deploy h hd) hl
  have hk := (VestingBytes.C109_token_schedule W D self beneficiary k start duration now t bal hW l
    (safe_agree h l (inv_deploy h hd) hl hs) hc).1
  obtain ⟨e1, e2, e3⟩ := VestingBytes.C109_fixed W D l (newWallet self beneficiary start duration t)
  have hw := world_eq hi
  have hg := releases_eq hi
  rw [ask_owner h hi asker] at ho
  rw [ask_token h hi asker hkS] at hr
  have ho := address_eq ho
  have hr := Proofs.Contracts.uint256_inj (Option.some.inj hr)
  have hx : Within keccak256 D S ⟨env, 0#256, message "release(address)" [.address k]⟩ :=
    C119_call_within (S := S) (.releaseErc20 k) 0#256 (by simp [abi, hkS])
  generalize Spec.VestingBytes.play W D (newWallet self beneficiary start duration t) l = s at *
  have e1 : s.self_ = self := e1
  have e2 : s.start = start := e2
  have e3 : s.duration = duration := e3
  subst e1 e2 e3 ho hr
  have hle : (s.erc20Released k).toNat ≤ due := by
    refine le_trans hk (le_trans (Props.Vesting.curve_mono _ _ (le_refl _) hn) ?_)
    show curve _ _ ((bal s.world).toNat + (s.erc20Released k).toNat) _ ≤ curve _ _ ((bal w'.world).toNat + (s.erc20Released k).toNat) _
    rw [hw]
  have hdue : due = VestingBytes.State.curve s ((bal s.world).toNat + (s.erc20Released k).toNat) env.now := by
    show curve _ _ ((bal w'.world).toNat + (s.erc20Released k).toNat) _ = _
    rw [hw]
  have htot : total = (bal s.world).toNat + (s.erc20Released k).toNat := by
    show (bal w'.world).toNat + (s.erc20Released k).toNat = _
    rw [hw]
  obtain ⟨c1, c2, c3⟩ := VestingBytes.C109_release_token W D env s k (bal s.world) (hW.reports s.world) (hdue ▸ hle)
  refine ⟨hle, fun hf amount ha => ⟨fun t' hp => ?_, fun hp => ?_⟩, fun hf => ?_⟩
  · rw [hw] at hp
    have hlt : due < 2 ^ 256 := lt_of_le_of_lt (Props.Vesting.curve_le_total _ _ _ _) hf.1
    obtain ⟨w2, h1, h2⟩ := returned (tx := ⟨env, 0#256, message "release(address)" [.address k]⟩) h hi hx ((c1 _ _).mpr
      ⟨htot ▸ hf, amount, BitVec.ofNat 256 due, t', hdue ▸ ha, hp, by rw [BitVec.toNat_ofNat, Nat.mod_eq_of_lt hlt, hdue], rfl, rfl⟩)
    refine ⟨w2, h1, world_eq h2, by rw [releases_eq h2, hg], _, ask_token h h2 asker hkS, ?_⟩
    show (upd s.erc20Released k (BitVec.ofNat 256 due) k).toNat = due
    rw [upd, if_pos rfl, BitVec.toNat_ofNat, Nat.mod_eq_of_lt hlt]
  · rw [hw] at hp
    exact reverted (tx := ⟨env, 0#256, message "release(address)" [.address k]⟩) h hi hx (c3 amount (htot ▸ hf) (hdue ▸ ha) hp)
  · exact reverted (tx := ⟨env, 0#256, message "release(address)" [.address k]⟩) h hi hx (c2 (htot ▸ hf))

/-- **C119** With bytes only: an address that does not report a balance is refused as a token, with the error that says so. -/
theorem C119_invalid_token (h : Apart keccak256 n vestingWalletExample (Cells S))
    (hd : deploy keccak256 self beneficiary start duration t = some w) (l : List (Step τ)) (hl : ∀ x ∈ l, About keccak256 D S x)
    {k : Address} (hkS : k ∈ S) (env : Env) :
    let w' := play W keccak256 D w l
    (∀ A, ¬ Reports W.toWorld D w'.world 0 self k A) →
    run W keccak256 D env w' 0#256 (message "release(address)" [.address k]) = .reverted (invalid k) := by
  intro w' hn
  have hi : Agrees keccak256 S w' _ := play_agree (W := W) h l (inv_deploy h hd) hl
  have e1 : _ = self := (VestingBytes.C109_fixed W D l (newWallet self beneficiary start duration t)).1
  refine reverted (tx := ⟨env, 0#256, message "release(address)" [.address k]⟩) h hi
    (C119_call_within (S := S) (.releaseErc20 k) 0#256 (by simp [abi, hkS])) ?_
  refine (VestingBytes.C109_invalid_token W D env _ k ?_).1
  rw [← world_eq hi, e1]
  exact hn

end
end

/-! ### The hypotheses are met -/

section
open Verif.Props.VestingSystem (me bob carol minted)
open Verif.Spec.VestingSystem (plain move)

/-- The cells of a wallet that is asked about one token. -/
def sampleCells : List (List Storage.Step) :=
  [[.field "vesting_wallet", .field "ownable", .field "owner"], [.field "vesting_wallet", .field "released"],
   [.field "vesting_wallet", .field "start"], [.field "vesting_wallet", .field "duration"],
   [.field "vesting_wallet", .field "erc20_released", .key 0x70ce4#256]]

/-- The hash value that places its released amount. -/
def table : List (Bytes × U256) :=
  [(be32 0x70ce4#256 ++ be32 0x2#256, 0x1afb1ab27073198a848cf4b620d84883b0a510ada51ce23e6de2ffdcc8cdc4cd#256)]

set_option maxRecDepth 100000 in
theorem table_ok : ∀ e ∈ table, keccak256 e.1 = e.2 := by
  rw [Proofs.KeccakFast.keccak256_eq]
  decide +kernel

theorem sample_cells {p : List Storage.Step} (h : Cells [0x70ce4#160] p) : p ∈ sampleCells := by
  unfold sampleCells
  rcases h with rfl | rfl | rfl | rfl | ⟨k, hk, rfl⟩
  · simp
  · simp
  · simp
  · simp
  · rw [List.mem_singleton] at hk; subst hk; simp

/-- With Keccak the hypotheses of the theorems hold. -/
theorem sample_setting : Apart keccak256 10 vestingWalletExample (Cells [VestingSystem.token]) :=
  ⟨by decide, Proofs.Separate.separate sampleCells table (fun _ => sample_cells) table_ok (by decide +kernel) (by decide +kernel)
    (by decide +kernel)⟩

/-- The rest of the chain when the wallet is deployed: it has 500 of ether and 1000 of the token. -/
def world : Spec.VestingSystem.World := (minted, fun a => if a = me then 500#256 else 0#256)

-- C119_release_eth, C119_eth_schedule: after nothing happened, at a quarter of the time Carol makes the wallet pay Bob a quarter
example (D : Decoder) (m : Entry.Strings) : ∃ w w2, deploy keccak256 me bob 100#64 100#64 world = some w ∧
    run (plain D m VestingSystem.token) keccak256 D ⟨carol, 125#64⟩ w 0#256 (message "release()" []) = .returned w2 [] ∧
    w2.world.2 bob = 125#256 ∧ w2.world.2 me = 375#256 ∧ releases w2 = [.etherReleased 125#256] := by
  obtain ⟨w, hd⟩ : ∃ w, deploy keccak256 me bob 100#64 100#64 world = some w :=
    Option.ne_none_iff_exists'.mp fun h => absurd ((C119_deploy _ _ _ _ _ _).mp h) (by decide)
  have hi := inv_deploy sample_setting hd
  have hw : w.world = world := world_eq hi
  have hp : ∃ e, move world.2 me bob 125#256 = some e ∧ e bob = 125#256 ∧ e me = 375#256 := ⟨_, if_pos (by decide), by decide, by decide⟩
  obtain ⟨e, hp, h1, h2⟩ := hp
  have hpay := VestingSystem.plain_pay D m (t := world) (k := VestingSystem.token) (by decide) hp
  obtain ⟨_, hf, _⟩ := C119_release_eth (W := plain D m VestingSystem.token) (D := D) sample_setting hd [] (by simp)
    (VestingSystem.ether D m _ _) trivial (now := 0#64) trivial (env := ⟨carol, 125#64⟩) (by decide) ⟨carol, 125#64⟩
    (owner := bob) (r := 0#256) (ask_owner sample_setting hi _) (ask_released sample_setting hi _)
  have hb : (plain D m VestingSystem.token).balance w.world me = 500#256 := by rw [hw]; show world.2 me = _; decide
  have hf := (hf (by
    show Fits 100 100 (((plain D m VestingSystem.token).balance w.world me).toNat + 0) 125
    rw [hb]; exact ⟨by decide, fun _ _ => by decide⟩) 125#256 (by
    show 125 = curve 100 100 (((plain D m VestingSystem.token).balance w.world me).toNat + 0) 125
    rw [hb]; decide +kernel)).1 (minted, e) [] (by
    show (plain D m VestingSystem.token).pay w.world _ _ _ _ = _
    rw [hw]; exact hpay)
  obtain ⟨w2, g1, g2, g3, _⟩ := hf
  refine ⟨w, w2, hd, g1, by rw [g2]; exact h1, by rw [g2]; exact h2, ?_⟩
  rw [g3, show releases (play _ _ D w []) = [] from releases_eq hi]; rfl

-- C119_release_token, C119_token_schedule
example (D : Decoder) (m : Entry.Strings) : ∃ w w2, deploy keccak256 me bob 100#64 100#64 world = some w ∧
    run (plain D m VestingSystem.token) keccak256 D ⟨carol, 125#64⟩ w 0#256 (message "release(address)" [.address VestingSystem.token]) =
      .returned w2 [] ∧
    w2.world.1.balances bob = 250#256 ∧ w2.world.1.balances me = 750#256 ∧
    releases w2 = [.erc20Released VestingSystem.token 250#256] := by
  obtain ⟨w, hd⟩ : ∃ w, deploy keccak256 me bob 100#64 100#64 world = some w :=
    Option.ne_none_iff_exists'.mp fun h => absurd ((C119_deploy _ _ _ _ _ _).mp h) (by decide)
  have hi := inv_deploy sample_setting hd
  have hw : w.world = world := world_eq hi
  have hx : ∃ u, Erc20.transfer minted me bob 250#256 = .ok u ∧ u.balances bob = 250#256 ∧ u.balances me = 750#256 := by
    refine ⟨_, rfl, by decide +kernel, by decide +kernel⟩
  obtain ⟨u, hu, h1, h2⟩ := hx
  have ht := VestingSystem.plain_takes D m (k := VestingSystem.token) (t := world) hu
  obtain ⟨_, hf, _⟩ := C119_release_token (W := plain D m VestingSystem.token) (D := D) sample_setting hd [] (by simp)
    (k := VestingSystem.token) (by simp) (VestingSystem.holds D m _ _) trivial (now := 0#64) trivial (env := ⟨carol, 125#64⟩) (by decide)
    ⟨carol, 125#64⟩ (owner := bob) (r := 0#256) (ask_owner sample_setting hi _) (ask_token sample_setting hi _ (by simp))
  have hb : w.world.1.balances me = 1000#256 := by rw [hw]; decide
  have hf := (hf (by
    show Fits 100 100 ((w.world.1.balances me).toNat + 0) 125
    rw [hb]; exact ⟨by decide, fun _ _ => by decide⟩) 250#256 (by
    show 250 = curve 100 100 ((w.world.1.balances me).toNat + 0) 125
    rw [hb]; decide +kernel)).1 (u, world.2) (by
    show Takes _ w.world _ _ _ _
    rw [hw]; exact ht)
  obtain ⟨w2, g1, g2, g3, _⟩ := hf
  refine ⟨w, w2, hd, g1, by rw [g2]; exact h1, by rw [g2]; exact h2, ?_⟩
  rw [g3, show releases (play _ _ D w []) = [] from releases_eq hi]; rfl

/-- Bob gives up the wallet. -/
def gone : List (Step Spec.VestingSystem.World) := [.call ⟨bob, 125#64⟩ 0#256 (message "renounceOwnership()" []) fun t => t]

theorem gone_about (D : Decoder) : ∀ x ∈ gone, About keccak256 D [VestingSystem.token] x := by
  intro x hx
  rw [gone, List.mem_singleton] at hx
  subst hx
  exact C119_call_within .renounceOwnership 0#256 (by simp [abi])

-- C119_answers, C119_owner_changes
example (D : Decoder) (m : Entry.Strings) (env : Env) : ∃ w, deploy keccak256 me bob 100#64 100#64 world = some w ∧
    ask (plain D m VestingSystem.token) D env w "owner()" [] = some (values [.address bob]) ∧
    ask (plain D m VestingSystem.token) D env (play (plain D m VestingSystem.token) keccak256 D w gone) "owner()" [] =
      some (values [.address ZERO]) := by
  obtain ⟨w, hd⟩ : ∃ w, deploy keccak256 me bob 100#64 100#64 world = some w :=
    Option.ne_none_iff_exists'.mp fun h => absurd ((C119_deploy _ _ _ _ _ _).mp h) (by decide)
  refine ⟨w, hd, ask_owner sample_setting (inv_deploy sample_setting hd) env, ?_⟩
  rw [ask_owner sample_setting (play_agree (W := plain D m VestingSystem.token) sample_setting gone (inv_deploy sample_setting hd)
    (gone_about D)) env]
  have h : Wallet.run (plain D m VestingSystem.token) keccak256 D ⟨bob, 125#64⟩ (newWallet me bob 100#64 100#64 world) 0#256
      (message "renounceOwnership()" []) = .returned _ [] :=
    (VestingBytes.act_iff (op := .renounceOwnership)).mpr ⟨rfl, rfl⟩
  simp only [gone, Spec.VestingBytes.play, List.foldl, Spec.VestingBytes.step]
  rw [show ({ newWallet me bob 100#64 100#64 world with world := (newWallet me bob 100#64 100#64 world).world } :
    Wallet.State Spec.VestingSystem.World) = newWallet me bob 100#64 100#64 world from rfl]
  rw [h]
  rfl

end
end Verif.Props.VestingDeployed
