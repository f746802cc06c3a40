import Verif.Spec.VestingBytes
import Verif.Proofs.Outside
import Verif.Props.Vesting
import Verif.Props.VaultSystem
import Verif.Props.SafeBytes
/-! # C109: `examples/vesting-wallet` on bytes, over any programs as tokens and as owner -/
namespace Verif.Props.VestingBytes
open Verif Verif.Abi Verif.Outside Verif.Outside.Wallet
open Verif.Spec.Keccak (keccak256)
open Verif.Spec.Contracts Verif.Spec.VestingBytes
open Verif.Spec.Outside (Reports Takes)
open Verif.Spec.Vesting (curve)
open Verif.Spec.Calls (call)
open Verif.Spec.Revert (addr)
open Verif.Proofs.Contracts Verif.Proofs.Outside

variable {τ : Type}

/-- The operations. -/
inductive Op where
  | transferOwnership (newOwner : Address)
  | renounceOwnership
  | releaseEth
  | releaseErc20 (token : Address)

/-- Signature and arguments of each operation. -/
def abi : Op → String × List Val
  | .transferOwnership a => ("transferOwnership(address)", [.address a])
  | .renounceOwnership => ("renounceOwnership()", [])
  | .releaseEth => ("release()", [])
  | .releaseErc20 k => ("release(address)", [.address k])

/-- The operation, for the sender and at the time of the block. -/
def act (W : Chain τ) (D : Decoder) (env : Env) (s : State τ) : Op → Except Err (State τ)
  | .transferOwnership a => owned s (Ownable.transferOwnership s.ownable env.caller a)
  | .renounceOwnership => owned s (Ownable.renounceOwnership s.ownable env.caller)
  | .releaseEth => releaseEth W keccak256 D env.now s
  | .releaseErc20 k => releaseErc20 W keccak256 D env.now s k

/-- They return nothing. -/
def exec (W : Chain τ) (D : Decoder) (env : Env) (s : State τ) (op : Op) : Except Err (State τ × List Val) :=
  giving (act W D env s op) []

/-- The wallet on bytes. -/
abbrev wallet (W : Chain τ) (D : Decoder) (env : Env) (s : State τ) (value : U256) (input : Bytes) : Outcome (State τ) :=
  Wallet.run W keccak256 D env s value input

/-- The revert data of an error. -/
def revert (e : Err) : Bytes := ((errReply e).data keccak256).getD []

abbrev spec : Spec.Router.Entry := ⟨Router.vestingWalletExample, Spec.Router.vestingWalletExample, [Spec.Router.erc173]⟩

theorem mem : spec ∈ Spec.Router.contracts := by simp [Spec.Router.contracts]

theorem abi_short (op : Op) : (message (abi op).1 (abi op).2).length < 2 ^ 256 := by
  cases op <;> exact words_lt _ _ (by simp [abi, arg]) (by simp [abi])

theorem message_ne (sg : String) (args : List Val) : message sg args ≠ [] := by
  intro h
  have := message_length sg args
  rw [h] at this
  simp only [List.length_nil] at this
  omega

theorem wallet_message (W : Chain τ) (D : Decoder) (env : Env) (s : State τ) (sg : String) (args : List Val) :
    wallet W D env s 0#256 (message sg args) =
      entry keccak256 D Router.vestingWalletExample (handler W keccak256 D env) s 0#256 (message sg args) := by
  unfold wallet Wallet.run
  rw [if_neg (message_ne sg args)]

set_option maxRecDepth 100000 in
/-- **C109** For every chain, operation, sender, time and state: the message of the call, as the ABI defines it, has exactly the effect
of the operation and answers nothing, or reverts with exactly the bytes of its error. -/
theorem C109_call (W : Chain τ) (D : Decoder) (env : Env) (s : State τ) (op : Op) :
    wallet W D env s 0#256 (message (abi op).1 (abi op).2) = reply revert (exec W D env s op) := by
  rw [wallet_message]
  cases op <;>
    exact run_message mem D _ s _ _ rfl rfl (outcome_finish _ _) (by simp [abi, Spec.Router.vestingWalletExample]) (abi_short _)

set_option maxRecDepth 100000 in
theorem ops (W : Chain τ) (D : Decoder) : Ops spec (handler W keccak256 D) abi (exec W D) where
  inv env s sg t n args s' r hm hh := by
    rows hh hm [abi, Spec.Router.vestingWalletExample] operations [.transferOwnership _, .renounceOwnership, .releaseEth,
      .releaseErc20 _]

/-- **C109** Whatever is sent: the call is refused, or it is answered and changes nothing, or it is a call of one of the
operations (its selector, its arguments, no value) that succeeds, with exactly its effect and its reply. -/
theorem C109_no_other_effect (W : Chain τ) (D : Decoder) (env : Env) (s : State τ) (value : U256) (input : Bytes) :
    (∃ data, wallet W D env s value input = .reverted data) ∨
    (∃ data, wallet W D env s value input = .returned s data) ∨
    ∃ op s' r, exec W D env s op = .ok (s', r) ∧ wallet W D env s value input = .returned s' (values r) ∧
      value = 0#256 ∧ Says D input (abi op).1 (abi op).2 := by
  by_cases h : input = []
  · exact .inr (.inl ⟨[], by unfold wallet Wallet.run; rw [if_pos h]⟩)
  · have := no_other_effect mem (ops W D) D env s value input
    unfold wallet Wallet.run
    rw [if_neg h]
    exact this

/-- **C109** Ether is taken without data, from everyone and in every state, and not with a call of a function. -/
theorem C109_receive (W : Chain τ) (D : Decoder) (env : Env) (s : State τ) (value : U256) :
    wallet W D env s value [] = .returned s [] ∧
    ∀ input, value ≠ 0#256 → input ≠ [] → wallet W D env s value input = .reverted [] := by
  constructor
  · unfold wallet Wallet.run; rw [if_pos rfl]
  · intro input hv hi
    unfold wallet Wallet.run entry
    rw [if_neg hi, if_pos hv]

/-! ### The numbers -/

theorem schedule_error {v : Verif.Vesting.State} {T : U256} {ts : U64} {e : Verif.Vesting.Err}
    (h : Verif.Vesting.vestingSchedule v T ts = .error e) : e = .panic := by
  unfold Verif.Vesting.vestingSchedule at h
  dsimp only at h
  split at h
  · cases h
  · split at h
    · cases h
    · cases hm : checkedMul T (ts.setWidth 256 - Verif.Vesting.start v) with
      | none => rw [hm] at h; cases h; rfl
      | some x => rw [hm] at h; cases h

/-- What the wallet computes as vested. -/
def vested (v : Verif.Vesting.State) (b rel : U256) (ts : U64) : Except Verif.Vesting.Err U256 := do
  let total ← orPanic .panic (checkedAdd b rel)
  Verif.Vesting.vestingSchedule v total ts

theorem vested_ok {v : Verif.Vesting.State} {b rel : U256} {ts : U64} :
    (∀ a, vested v b rel ts = .ok a ↔ Fits v.start.toNat v.duration.toNat (b.toNat + rel.toNat) ts.toNat ∧
      a.toNat = curve v.start.toNat v.duration.toNat (b.toNat + rel.toNat) ts.toNat) ∧
    (¬ Fits v.start.toNat v.duration.toNat (b.toNat + rel.toNat) ts.toNat → vested v b rel ts = .error .panic) := by
  unfold vested
  by_cases hT : b.toNat + rel.toNat < 2 ^ 256
  · have hadd : checkedAdd b rel = some (b + rel) := by unfold checkedAdd; rw [if_pos hT]
    have hn : (b + rel).toNat = b.toNat + rel.toNat := by rw [BitVec.toNat_add, Nat.mod_eq_of_lt hT]
    rw [hadd]
    show (∀ a, Verif.Vesting.vestingSchedule v (b + rel) ts = .ok a ↔ _) ∧
      (_ → Verif.Vesting.vestingSchedule v (b + rel) ts = _)
    have hc := fun r => Props.Vesting.C30_schedule_is_curve v (b + rel) ts r
    rw [hn] at hc
    cases hx : Verif.Vesting.vestingSchedule v (b + rel) ts with
    | error e =>
      obtain rfl := schedule_error hx
      have := (hc 0#256).2.mp ⟨_, hx⟩
      have hnf : ¬ Fits v.start.toNat v.duration.toNat (b.toNat + rel.toNat) ts.toNat := by
        intro hf
        have := hf.2 (by omega) (by omega)
        omega
      exact ⟨fun a => by simp [hnf], fun _ => rfl⟩
    | ok a =>
      have h1 := (hc a).1 hx
      have hf : Fits v.start.toNat v.duration.toNat (b.toNat + rel.toNat) ts.toNat := by
        refine ⟨hT, fun h2 h3 => ?_⟩
        by_contra h4
        obtain ⟨e, he⟩ := (hc a).2.mpr ⟨h2, h3, by omega⟩
        rw [hx] at he
        cases he
      refine ⟨fun a' => ⟨fun h => ?_, fun h => ?_⟩, fun h => absurd hf h⟩
      · cases h; exact ⟨hf, h1⟩
      · rw [BitVec.eq_of_toNat_eq (h.2.trans h1.symm)]
  · have hadd : checkedAdd b rel = none := by unfold checkedAdd; rw [if_neg hT]
    rw [hadd]
    have hnf : ¬ Fits v.start.toNat v.duration.toNat (b.toNat + rel.toNat) ts.toNat := fun hf => hT hf.1
    exact ⟨fun a => by
      show (Except.error _ = Except.ok a) ↔ _
      simp [hnf], fun _ => rfl⟩

/-- What the wallet computes as releasable. -/
def due (v : Verif.Vesting.State) (b rel : U256) (ts : U64) : Except Verif.Vesting.Err U256 := do
  let x ← vested v b rel ts
  return x - rel

theorem due_ok {v : Verif.Vesting.State} {b rel : U256} {ts : U64}
    (hle : rel.toNat ≤ curve v.start.toNat v.duration.toNat (b.toNat + rel.toNat) ts.toNat) :
    (∀ a, due v b rel ts = .ok a ↔ Fits v.start.toNat v.duration.toNat (b.toNat + rel.toNat) ts.toNat ∧
      a.toNat + rel.toNat = curve v.start.toNat v.duration.toNat (b.toNat + rel.toNat) ts.toNat) ∧
    (¬ Fits v.start.toNat v.duration.toNat (b.toNat + rel.toNat) ts.toNat → due v b rel ts = .error .panic) := by
  obtain ⟨h1, h2⟩ := vested_ok (v := v) (b := b) (rel := rel) (ts := ts)
  unfold due
  cases hx : vested v b rel ts with
  | error e =>
    refine ⟨fun a => ?_, fun h => ?_⟩
    · have hnf : ¬ Fits v.start.toNat v.duration.toNat (b.toNat + rel.toNat) ts.toNat := by
        intro hf
        have hlt : curve v.start.toNat v.duration.toNat (b.toNat + rel.toNat) ts.toNat < 2 ^ 256 :=
          lt_of_le_of_lt (Props.Vesting.curve_le_total _ _ _ _) hf.1
        have := (h1 (BitVec.ofNat 256 (curve v.start.toNat v.duration.toNat (b.toNat + rel.toNat) ts.toNat))).mpr
          ⟨hf, by rw [BitVec.toNat_ofNat, Nat.mod_eq_of_lt hlt]⟩
        rw [hx] at this
        cases this
      show (Except.error _ = Except.ok a) ↔ _
      simp [hnf]
    · have := h2 h
      rw [hx] at this
      cases this; rfl
  | ok x =>
    obtain ⟨hf, hc⟩ := (h1 x).mp hx
    refine ⟨fun a => ?_, fun h => absurd hf h⟩
    show Except.ok (x - rel) = Except.ok a ↔ _
    have hs : (x - rel).toNat + rel.toNat = x.toNat := by
      rw [BitVec.toNat_sub_of_le (by rw [BitVec.le_def]; omega)]; omega
    constructor
    · intro h; cases h; exact ⟨hf, by omega⟩
    · intro h; rw [show x - rel = a from BitVec.eq_of_toNat_eq (by omega)]

/-- The ether of the wallet. -/
abbrev eth (W : Chain τ) (s : State τ) : U256 := W.balance s.world s.self_

/-- What the schedule says about a total at a time. -/
abbrev State.curve (s : State τ) (total : Nat) (time : U64) : Nat :=
  Spec.Vesting.curve s.start.toNat s.duration.toNat total time.toNat

/-- Its numbers fit. -/
abbrev State.Fits (s : State τ) (total : Nat) (time : U64) : Prop :=
  Spec.VestingBytes.Fits s.start.toNat s.duration.toNat total time.toNat

/-- What a call about something that is not a token reverts with. -/
abbrev invalid (k : Address) : Bytes := call "InvalidToken(address)" [addr k]

/-- What a failed transfer reverts with. -/
abbrev failed (k : Address) : Bytes := call "SafeErc20FailedOperation(address)" [addr k]

theorem revert_invalid (k : Address) : revert (.vesting (.invalidToken k)) = invalid k :=
  error_bytes _ _ "InvalidToken(address)" rfl rfl

theorem revert_failed (k : Address) : revert (.safe k .failedOperation) = failed k :=
  error_bytes _ _ "SafeErc20FailedOperation(address)" rfl rfl

theorem vested_token {W : Chain τ} {D : Decoder} {now : U64} {s : State τ} {k : Address} {A : U256} {ts : U64}
    (h : Reports W.toWorld D s.world 0 s.self_ k A) :
    Verif.Vesting.vestedAmountErc20 (seen W keccak256 D now s) k ts = vested (seen W keccak256 D now s) A (s.erc20Released k) ts := by
  have h1 : (seen W keccak256 D now s).tokenBalance k = some A := ask_some.mpr h
  unfold Verif.Vesting.vestedAmountErc20
  rw [h1]; rfl

theorem vested_no_token {W : Chain τ} {D : Decoder} {now : U64} {s : State τ} {k : Address} {ts : U64}
    (h : ∀ A, ¬ Reports W.toWorld D s.world 0 s.self_ k A) :
    Verif.Vesting.vestedAmountErc20 (seen W keccak256 D now s) k ts = .error (.invalidToken k) := by
  have h1 : (seen W keccak256 D now s).tokenBalance k = none := ask_none.mpr h
  unfold Verif.Vesting.vestedAmountErc20
  rw [h1]; rfl

theorem due_token {W : Chain τ} {D : Decoder} {now : U64} {s : State τ} {k : Address} {A : U256}
    (h : Reports W.toWorld D s.world 0 s.self_ k A) :
    Verif.Vesting.releasableErc20 (seen W keccak256 D now s) k = due (seen W keccak256 D now s) A (s.erc20Released k) now := by
  unfold Verif.Vesting.releasableErc20
  rw [vested_token h]; rfl

theorem due_no_token {W : Chain τ} {D : Decoder} {now : U64} {s : State τ} {k : Address}
    (h : ∀ A, ¬ Reports W.toWorld D s.world 0 s.self_ k A) :
    Verif.Vesting.releasableErc20 (seen W keccak256 D now s) k = .error (.invalidToken k) := by
  unfold Verif.Vesting.releasableErc20
  rw [vested_no_token h]; rfl

set_option maxRecDepth 100000 in
/-- **C109** What the questions about the wallet answer, for every chain, sender, time and state. -/
theorem C109_views (W : Chain τ) (D : Decoder) (env : Env) (s : State τ) (k : Address) :
    wallet W D env s 0#256 (message "owner()" []) = .returned s (values [.address s.ownable.owner]) ∧
    (∃ x, wallet W D env s 0#256 (message "start()" []) = .returned s (values [.uint256 x]) ∧ x.toNat = s.start.toNat) ∧
    (∃ x, wallet W D env s 0#256 (message "duration()" []) = .returned s (values [.uint256 x]) ∧ x.toNat = s.duration.toNat) ∧
    (∃ x, wallet W D env s 0#256 (message "end()" []) = .returned s (values [.uint256 x]) ∧
      x.toNat = s.start.toNat + s.duration.toNat) ∧
    wallet W D env s 0#256 (message "released()" []) = .returned s (values [.uint256 s.released]) ∧
    wallet W D env s 0#256 (message "released(address)" [.address k]) = .returned s (values [.uint256 (s.erc20Released k)]) := by
  refine ⟨?_, ⟨_, ?_, Props.Vesting.setWidth_toNat _⟩, ⟨_, ?_, Props.Vesting.setWidth_toNat _⟩,
    ⟨_, ?_, Props.Vesting.end_toNat (seen W keccak256 D env.now s)⟩, ?_, ?_⟩ <;> rw [wallet_message] <;>
    refine run_message mem D _ s _ _ rfl rfl ?_ (by simp [Spec.Router.vestingWalletExample]) (words_lt _ _ (by simp [arg]) (by simp))
  all_goals exact outcome_ok _ _

/-- A question with a number as its answer. -/
theorem number_view {W : Chain τ} {D : Decoder} {env : Env} {s : State τ} {sg : String} {args : List Val} {x : Except Verif.Vesting.Err U256}
    (h : wallet W D env s 0#256 (message sg args) = outcome (Contracts.view keccak256 (Revert.vesting []) s (Contracts.one .uint256 x))) :
    (∀ a, x = .ok a → wallet W D env s 0#256 (message sg args) = .returned s (values [.uint256 a])) ∧
    (x = .error .panic → wallet W D env s 0#256 (message sg args) = .reverted []) ∧
    (∀ k, x = .error (.invalidToken k) → wallet W D env s 0#256 (message sg args) = .reverted (invalid k)) := by
  rw [h]
  refine ⟨fun a ha => ?_, fun ha => ?_, fun k ha => ?_⟩
  · subst ha; exact outcome_ok _ _
  · subst ha; rfl
  · subst ha
    rw [← revert_invalid]
    rfl

set_option maxRecDepth 100000 in
/-- **C109** `vestedAmount(ts)` answers the schedule for the ether of the wallet and what it has released, and reverts without data if
a number does not fit. -/
theorem C109_vested_eth (W : Chain τ) (D : Decoder) (env : Env) (s : State τ) (ts : U64) :
    let out := wallet W D env s 0#256 (message "vestedAmount(uint64)" [.uint64 ts])
    let total := (eth W s).toNat + s.released.toNat
    (State.Fits s total ts → ∃ x, out = .returned s (values [.uint256 x]) ∧ x.toNat = State.curve s total ts) ∧
    (¬ State.Fits s total ts → out = .reverted []) := by
  intro out total
  have h : out = outcome (Contracts.view keccak256 (Revert.vesting []) s (Contracts.one .uint256
      (vested (seen W keccak256 D env.now s) (eth W s) s.released ts))) := by
    show wallet W D env s 0#256 _ = _
    rw [wallet_message]
    exact run_message mem D _ s _ _ rfl rfl rfl (by simp [Spec.Router.vestingWalletExample]) (words_lt _ _ (by simp [arg]) (by simp))
  obtain ⟨h1, h2, _⟩ := number_view h
  obtain ⟨g1, g2⟩ := vested_ok (v := seen W keccak256 D env.now s) (b := eth W s) (rel := s.released) (ts := ts)
  refine ⟨fun hf => ?_, fun hf => h2 (g2 hf)⟩
  refine ⟨BitVec.ofNat 256 (State.curve s total ts), h1 _ ((g1 _).mpr ⟨hf, ?_⟩), ?_⟩ <;>
    exact (BitVec.toNat_ofNat _ _).trans (Nat.mod_eq_of_lt (lt_of_le_of_lt (Props.Vesting.curve_le_total _ _ _ _) hf.1))

set_option maxRecDepth 100000 in
/-- **C109** `vestedAmount(k, ts)` answers the schedule for the balance that `k` reports and what the wallet has released of it; it reverts
without data if a number does not fit, and with `InvalidToken(k)` if `k` reports no balance. -/
theorem C109_vested_token (W : Chain τ) (D : Decoder) (env : Env) (s : State τ) (k : Address) (ts : U64) :
    let out := wallet W D env s 0#256 (message "vestedAmount(address,uint64)" [.address k, .uint64 ts])
    (∀ A, Reports W.toWorld D s.world 0 s.self_ k A →
      let total := A.toNat + (s.erc20Released k).toNat
      (State.Fits s total ts → ∃ x, out = .returned s (values [.uint256 x]) ∧ x.toNat = State.curve s total ts) ∧
      (¬ State.Fits s total ts → out = .reverted [])) ∧
    ((∀ A, ¬ Reports W.toWorld D s.world 0 s.self_ k A) → out = .reverted (invalid k)) := by
  intro out
  have h : out = outcome (Contracts.view keccak256 (Revert.vesting []) s (Contracts.one .uint256
      (Verif.Vesting.vestedAmountErc20 (seen W keccak256 D env.now s) k ts))) := by
    show wallet W D env s 0#256 _ = _
    rw [wallet_message]
    exact run_message mem D _ s _ _ rfl rfl rfl (by simp [Spec.Router.vestingWalletExample]) (words_lt _ _ (by simp [arg]) (by simp))
  obtain ⟨h1, h2, h3⟩ := number_view h
  refine ⟨fun A hA => ?_, fun hn => h3 k (vested_no_token hn)⟩
  intro total
  rw [vested_token hA] at h1 h2
  obtain ⟨g1, g2⟩ := vested_ok (v := seen W keccak256 D env.now s) (b := A) (rel := s.erc20Released k) (ts := ts)
  refine ⟨fun hf => ?_, fun hf => h2 (g2 hf)⟩
  refine ⟨BitVec.ofNat 256 (State.curve s total ts), h1 _ ((g1 _).mpr ⟨hf, ?_⟩), ?_⟩ <;>
    exact (BitVec.toNat_ofNat _ _).trans (Nat.mod_eq_of_lt (lt_of_le_of_lt (Props.Vesting.curve_le_total _ _ _ _) hf.1))

/-! ### Releases -/

theorem act_iff {W : Chain τ} {D : Decoder} {env : Env} {s s' : State τ} {data : Bytes} (op : Op) :
    wallet W D env s 0#256 (message (abi op).1 (abi op).2) = .returned s' data ↔ act W D env s op = .ok s' ∧ data = [] := by
  rw [C109_call]
  unfold exec
  cases act W D env s op with
  | error e => simp [giving, reply]
  | ok x =>
    have : values [] = [] := rfl
    simp [giving, reply, this, eq_comm]

theorem act_error {W : Chain τ} {D : Decoder} {env : Env} {s : State τ} {e : Err} (op : Op) (h : act W D env s op = .error e) :
    wallet W D env s 0#256 (message (abi op).1 (abi op).2) = .reverted (revert e) := by
  rw [C109_call]
  unfold exec
  rw [h]
  rfl

theorem releaseEth_eq {W : Chain τ} {D : Decoder} {now : U64} {s : State τ} :
    releaseEth W keccak256 D now s = (do
      let amount ← lift (due (seen W keccak256 D now s) (eth W s) s.released now)
      let released ← lift (orPanic .panic (checkedAdd s.released amount))
      let t ← paid (W.pay s.world s.self_ s.ownable.owner amount [])
      return { s with released := released, world := t, log := s.log ++ [.etherReleased amount] }) := rfl

/-- **C109** `release()`, by anyone, when no more than the schedule allows has been released (`C109_eth_schedule`).  It succeeds exactly if
the numbers fit and the owner takes what the schedule allows and has not been released, sent in one call without data; then
this much more is released, an event says so, and nothing else happens to the wallet.  If a number does not fit it reverts without
data, if the owner refuses, with the data of the owner. -/
theorem C109_release_eth (W : Chain τ) (D : Decoder) (env : Env) (s : State τ)
    (hle : s.released.toNat ≤ State.curve s ((eth W s).toNat + s.released.toNat) env.now) :
    let out := wallet W D env s 0#256 (message "release()" [])
    let total := (eth W s).toNat + s.released.toNat
    (∀ s' data, out = .returned s' data ↔ State.Fits s total env.now ∧ ∃ (amount released : U256) (t' : τ) (d : Bytes),
      amount.toNat + s.released.toNat = State.curve s total env.now ∧
      W.pay s.world s.self_ s.ownable.owner amount [] = .returned t' d ∧
      released.toNat = State.curve s total env.now ∧
      s' = { s with released := released, world := t', log := s.log ++ [.etherReleased amount] } ∧ data = []) ∧
    (¬ State.Fits s total env.now → out = .reverted []) ∧
    (∀ (amount : U256) data, State.Fits s total env.now → amount.toNat + s.released.toNat = State.curve s total env.now →
      W.pay s.world s.self_ s.ownable.owner amount [] = .reverted data → out = .reverted data) := by
  intro out total
  obtain ⟨g1, g2⟩ := due_ok (v := seen W keccak256 D env.now s) (b := eth W s) (rel := s.released) (ts := env.now) hle
  have hlt : ∀ {x : Nat}, State.Fits s total env.now → x = State.curve s total env.now → x < 2 ^ 256 := fun hf h =>
    h ▸ lt_of_le_of_lt (Props.Vesting.curve_le_total _ _ _ _) hf.1
  have hadd : ∀ {a : U256}, State.Fits s total env.now → a.toNat + s.released.toNat = State.curve s total env.now →
      checkedAdd s.released a = some (s.released + a) ∧ (s.released + a).toNat = State.curve s total env.now := by
    intro a hf h
    have h' : s.released.toNat + a.toNat < 2 ^ 256 := by rw [Nat.add_comm]; exact hlt hf h
    constructor
    · unfold checkedAdd; rw [if_pos h']
    · rw [BitVec.toNat_add, Nat.mod_eq_of_lt h', Nat.add_comm]; exact h
  have hact : act W D env s .releaseEth = releaseEth W keccak256 D env.now s := rfl
  by_cases hf : State.Fits s total env.now
  · have ha : (BitVec.ofNat 256 (State.curve s total env.now - s.released.toNat)).toNat + s.released.toNat =
        State.curve s total env.now := by
      rw [BitVec.toNat_ofNat, Nat.mod_eq_of_lt (lt_of_le_of_lt (Nat.sub_le _ _) (hlt hf rfl))]
      exact Nat.sub_add_cancel hle
    generalize BitVec.ofNat 256 (State.curve s total env.now - s.released.toNat) = a at ha
    have hd := (g1 a).mpr ⟨hf, ha⟩
    obtain ⟨hc, hn⟩ := hadd hf ha
    have hu : ∀ {b : U256}, b.toNat + s.released.toNat = State.curve s total env.now → b = a := fun h =>
      BitVec.eq_of_toNat_eq (by omega)
    have he : releaseEth W keccak256 D env.now s = (do
        let t ← paid (W.pay s.world s.self_ s.ownable.owner a [])
        return { s with released := s.released + a, world := t, log := s.log ++ [.etherReleased a] }) := by
      rw [releaseEth_eq, hd]
      show (do let released ← lift (orPanic .panic (checkedAdd s.released a)); _) = _
      rw [hc]; rfl
    cases hp : W.pay s.world s.self_ s.ownable.owner a [] with
    | returned t' d =>
      rw [hp] at he
      have ho : ∀ s' data, out = .returned s' data ↔
          s' = { s with released := s.released + a, world := t', log := s.log ++ [.etherReleased a] } ∧ data = [] := by
        intro s' data
        refine (act_iff .releaseEth).trans (and_congr ?_ Iff.rfl)
        rw [hact, he]
        exact ⟨fun h => by cases h; rfl, fun h => by rw [h]; rfl⟩
      refine ⟨fun s' data => (ho s' data).trans ⟨?_, ?_⟩, fun h => absurd hf h, fun b data _ hb hr => ?_⟩
      · rintro ⟨h1, h2⟩
        exact ⟨hf, a, _, t', d, ha, hp, hn, h1, h2⟩
      · rintro ⟨_, b, r, t2, d2, hb, hp2, hr, h1, h2⟩
        obtain rfl := hu hb
        rw [hp] at hp2
        injection hp2 with h3 _
        subst h3
        refine ⟨?_, h2⟩
        rw [h1, show r = s.released + b from BitVec.eq_of_toNat_eq (hr.trans hn.symm)]
      · obtain rfl := hu hb
        rw [hp] at hr; cases hr
    | reverted data =>
      rw [hp] at he
      have ho : out = .reverted data := act_error .releaseEth (e := .ether data) (hact.trans he)
      refine ⟨fun s' data' => ?_, fun h => absurd hf h, fun b data' _ hb hr => ?_⟩
      · rw [ho]
        simp only [reduceCtorEq, false_iff, not_and]
        rintro _ ⟨b, r, t2, d2, hb, hp2, _⟩
        obtain rfl := hu hb
        rw [hp] at hp2; cases hp2
      · obtain rfl := hu hb
        rw [hp] at hr; cases hr
        exact ho
  · have he : releaseEth W keccak256 D env.now s = .error (.vesting .panic) := by
      rw [releaseEth_eq, g2 hf]; rfl
    have ho : out = .reverted [] := act_error .releaseEth (hact.trans he)
    refine ⟨fun s' data' => ?_, fun _ => ho, fun _ _ h => absurd h hf⟩
    rw [ho]
    simp only [reduceCtorEq, false_iff, not_and]
    exact fun h => absurd h hf

theorem releaseErc20_eq {W : Chain τ} {D : Decoder} {now : U64} {s : State τ} {k : Address} {A : U256}
    (h : Reports W.toWorld D s.world 0 s.self_ k A) :
    releaseErc20 W keccak256 D now s k = (do
      let amount ← lift (due (seen W keccak256 D now s) A (s.erc20Released k) now)
      let released ← lift (orPanic .panic (checkedAdd (s.erc20Released k) amount))
      let t ← settled (.safe k) (SafeErc20.safeTransfer (W.token keccak256 s.world s.self_ k) s.world s.ownable.owner amount)
      return { s with erc20Released := upd s.erc20Released k released, world := t,
                      log := s.log ++ [.erc20Released k amount] }) := by
  unfold releaseErc20
  rw [due_token h]

theorem transfer_cases {W : Chain τ} {s : State τ} {k dst : Address} {v : U256} :
    (∃ t', SafeErc20.safeTransfer (W.token keccak256 s.world s.self_ k) s.world dst v = (t', .ok ())) ∨
    ∃ t', SafeErc20.safeTransfer (W.token keccak256 s.world s.self_ k) s.world dst v = (t', .error .failedOperation) := by
  unfold SafeErc20.safeTransfer
  cases hx : SafeErc20.callOptionalReturn (W.token keccak256 s.world s.self_ k) s.world (.transfer dst v) with
  | mk t' x =>
    cases x with
    | ok u => exact .inl ⟨t', rfl⟩
    | error e => exact .inr ⟨t', by rw [Props.SafeBytes.cor_any_err hx]⟩

/-- **C109** `release(k)`, by anyone, when `k` reports a balance and no more than the schedule allows has been released
(`C109_token_schedule`).  It succeeds exactly if the numbers fit and `k` takes the message to transfer to the owner what the schedule
allows and has not been released; then this much more is released, an event says so, and nothing else happens to the wallet.  If a
number does not fit it reverts without data, if `k` does not take the message, with `SafeErc20FailedOperation(k)`. -/
theorem C109_release_token (W : Chain τ) (D : Decoder) (env : Env) (s : State τ) (k : Address) (A : U256)
    (hA : Reports W.toWorld D s.world 0 s.self_ k A)
    (hle : (s.erc20Released k).toNat ≤ State.curve s (A.toNat + (s.erc20Released k).toNat) env.now) :
    let out := wallet W D env s 0#256 (message "release(address)" [.address k])
    let total := A.toNat + (s.erc20Released k).toNat
    let ask := fun amount : U256 => message "transfer(address,uint256)" [.address s.ownable.owner, .uint256 amount]
    (∀ s' data, out = .returned s' data ↔ State.Fits s total env.now ∧ ∃ (amount released : U256) (t' : τ),
      amount.toNat + (s.erc20Released k).toNat = State.curve s total env.now ∧
      Takes W.toWorld s.world s.self_ k (ask amount) t' ∧
      released.toNat = State.curve s total env.now ∧
      s' = { s with erc20Released := upd s.erc20Released k released, world := t', log := s.log ++ [.erc20Released k amount] } ∧
      data = []) ∧
    (¬ State.Fits s total env.now → out = .reverted []) ∧
    (∀ amount : U256, State.Fits s total env.now → amount.toNat + (s.erc20Released k).toNat = State.curve s total env.now →
      (∀ t', ¬ Takes W.toWorld s.world s.self_ k (ask amount) t') → out = .reverted (failed k)) := by
  intro out total ask
  obtain ⟨g1, g2⟩ := due_ok (v := seen W keccak256 D env.now s) (b := A) (rel := s.erc20Released k) (ts := env.now) hle
  have hlt : ∀ {x : Nat}, State.Fits s total env.now → x = State.curve s total env.now → x < 2 ^ 256 := fun hf h =>
    h ▸ lt_of_le_of_lt (Props.Vesting.curve_le_total _ _ _ _) hf.1
  have hadd : ∀ {a : U256}, State.Fits s total env.now → a.toNat + (s.erc20Released k).toNat = State.curve s total env.now →
      checkedAdd (s.erc20Released k) a = some (s.erc20Released k + a) ∧
        (s.erc20Released k + a).toNat = State.curve s total env.now := by
    intro a hf h
    have h' : (s.erc20Released k).toNat + a.toNat < 2 ^ 256 := by rw [Nat.add_comm]; exact hlt hf h
    constructor
    · unfold checkedAdd; rw [if_pos h']
    · rw [BitVec.toNat_add, Nat.mod_eq_of_lt h', Nat.add_comm]; exact h
  have hact : act W D env s (.releaseErc20 k) = releaseErc20 W keccak256 D env.now s k := rfl
  by_cases hf : State.Fits s total env.now
  · have ha : (BitVec.ofNat 256 (State.curve s total env.now - (s.erc20Released k).toNat)).toNat + (s.erc20Released k).toNat =
        State.curve s total env.now := by
      rw [BitVec.toNat_ofNat, Nat.mod_eq_of_lt (lt_of_le_of_lt (Nat.sub_le _ _) (hlt hf rfl))]
      exact Nat.sub_add_cancel hle
    generalize BitVec.ofNat 256 (State.curve s total env.now - (s.erc20Released k).toNat) = a at ha
    have hd := (g1 a).mpr ⟨hf, ha⟩
    obtain ⟨hc, hn⟩ := hadd hf ha
    have hu : ∀ {b : U256}, b.toNat + (s.erc20Released k).toNat = State.curve s total env.now → b = a := fun h =>
      BitVec.eq_of_toNat_eq (by omega)
    have he : releaseErc20 W keccak256 D env.now s k = (do
        let t ← settled (.safe k) (SafeErc20.safeTransfer (W.token keccak256 s.world s.self_ k) s.world s.ownable.owner a)
        return { s with erc20Released := upd s.erc20Released k (s.erc20Released k + a), world := t,
                        log := s.log ++ [.erc20Released k a] }) := by
      rw [releaseErc20_eq hA, hd]
      show (do let released ← lift (orPanic .panic (checkedAdd (s.erc20Released k) a)); _) = _
      rw [hc]; rfl
    have hT : ∀ t', SafeErc20.safeTransfer (W.token keccak256 s.world s.self_ k) s.world s.ownable.owner a = (t', .ok ()) ↔
        Takes W.toWorld s.world s.self_ k (ask a) t' := fun t' => request_ok (r := .transfer s.ownable.owner a)
    rcases transfer_cases (W := W) (s := s) (k := k) (dst := s.ownable.owner) (v := a) with ⟨t', ht⟩ | ⟨t', ht⟩
    · have hk := (hT t').mp ht
      rw [ht] at he
      have ho : ∀ s' data, out = .returned s' data ↔
          s' = { s with erc20Released := upd s.erc20Released k (s.erc20Released k + a), world := t',
                        log := s.log ++ [.erc20Released k a] } ∧ data = [] := by
        intro s' data
        refine (act_iff (.releaseErc20 k)).trans (and_congr ?_ Iff.rfl)
        rw [hact, he]
        exact ⟨fun h => by cases h; rfl, fun h => by rw [h]; rfl⟩
      refine ⟨fun s' data => (ho s' data).trans ⟨?_, ?_⟩, fun h => absurd hf h, fun b _ hb hr => ?_⟩
      · rintro ⟨h1, h2⟩
        exact ⟨hf, a, _, t', ha, hk, hn, h1, h2⟩
      · rintro ⟨_, b, r, t2, hb, hp2, hr, h1, h2⟩
        obtain rfl := hu hb
        have h3 := (hT t2).mpr hp2
        rw [ht] at h3
        injection h3 with h3 _
        subst h3
        refine ⟨?_, h2⟩
        rw [h1, show r = s.erc20Released k + b from BitVec.eq_of_toNat_eq (hr.trans hn.symm)]
      · obtain rfl := hu hb
        exact absurd hk (hr t')
    · rw [ht] at he
      have hno : ∀ t2, ¬ Takes W.toWorld s.world s.self_ k (ask a) t2 := fun t2 h => by
        have := (hT t2).mpr h
        rw [ht] at this
        cases this
      have ho : out = .reverted (failed k) := by
        rw [← revert_failed]
        exact act_error (.releaseErc20 k) (hact.trans he)
      refine ⟨fun s' data' => ?_, fun h => absurd hf h, fun _ _ _ _ => ho⟩
      rw [ho]
      simp only [reduceCtorEq, false_iff, not_and]
      rintro _ ⟨b, r, t2, hb, hp2, _⟩
      obtain rfl := hu hb
      exact hno t2 hp2
  · have he : releaseErc20 W keccak256 D env.now s k = .error (.vesting .panic) := by
      rw [releaseErc20_eq hA, g2 hf]; rfl
    have ho : out = .reverted [] := act_error (.releaseErc20 k) (hact.trans he)
    refine ⟨fun s' data' => ?_, fun _ => ho, fun _ h => absurd h hf⟩
    rw [ho]
    simp only [reduceCtorEq, false_iff, not_and]
    exact fun h => absurd h hf

set_option maxRecDepth 100000 in
theorem releasable_view (W : Chain τ) (D : Decoder) (env : Env) (s : State τ) :
    wallet W D env s 0#256 (message "releasable()" []) = outcome (Contracts.view keccak256 (Revert.vesting []) s (Contracts.one .uint256
      (due (seen W keccak256 D env.now s) (eth W s) s.released env.now))) := by
  rw [wallet_message]
  exact run_message mem D _ s _ _ rfl rfl rfl (by simp [Spec.Router.vestingWalletExample]) (words_lt _ _ (by simp [arg]) (by simp))

set_option maxRecDepth 100000 in
theorem releasable_token_view (W : Chain τ) (D : Decoder) (env : Env) (s : State τ) (k : Address) :
    wallet W D env s 0#256 (message "releasable(address)" [.address k]) = outcome (Contracts.view keccak256 (Revert.vesting []) s
      (Contracts.one .uint256 (Verif.Vesting.releasableErc20 (seen W keccak256 D env.now s) k))) := by
  rw [wallet_message]
  exact run_message mem D _ s _ _ rfl rfl rfl (by simp [Spec.Router.vestingWalletExample]) (words_lt _ _ (by simp [arg]) (by simp))

/-- **C109** `releasable()` answers what the schedule allows beyond what has been released, and reverts without data if a number does not
fit. -/
theorem C109_releasable_eth (W : Chain τ) (D : Decoder) (env : Env) (s : State τ)
    (hle : s.released.toNat ≤ State.curve s ((eth W s).toNat + s.released.toNat) env.now) :
    let out := wallet W D env s 0#256 (message "releasable()" [])
    let total := (eth W s).toNat + s.released.toNat
    (State.Fits s total env.now → ∃ x, out = .returned s (values [.uint256 x]) ∧
      x.toNat + s.released.toNat = State.curve s total env.now) ∧
    (¬ State.Fits s total env.now → out = .reverted []) := by
  intro out total
  obtain ⟨h1, h2, _⟩ := number_view (releasable_view W D env s)
  obtain ⟨g1, g2⟩ := due_ok (v := seen W keccak256 D env.now s) (b := eth W s) (rel := s.released) (ts := env.now) hle
  refine ⟨fun hf => ?_, fun hf => h2 (g2 hf)⟩
  have ha : (BitVec.ofNat 256 (State.curve s total env.now - s.released.toNat)).toNat + s.released.toNat =
      State.curve s total env.now := by
    rw [BitVec.toNat_ofNat, Nat.mod_eq_of_lt (lt_of_le_of_lt (Nat.sub_le _ _) (lt_of_le_of_lt (Props.Vesting.curve_le_total _ _ _ _) hf.1))]
    exact Nat.sub_add_cancel hle
  exact ⟨_, h1 _ ((g1 _).mpr ⟨hf, ha⟩), ha⟩

/-- **C109** `releasable(k)` in the same way, if `k` reports a balance. -/
theorem C109_releasable_token (W : Chain τ) (D : Decoder) (env : Env) (s : State τ) (k : Address) (A : U256)
    (hA : Reports W.toWorld D s.world 0 s.self_ k A)
    (hle : (s.erc20Released k).toNat ≤ State.curve s (A.toNat + (s.erc20Released k).toNat) env.now) :
    let out := wallet W D env s 0#256 (message "releasable(address)" [.address k])
    let total := A.toNat + (s.erc20Released k).toNat
    (State.Fits s total env.now → ∃ x, out = .returned s (values [.uint256 x]) ∧
      x.toNat + (s.erc20Released k).toNat = State.curve s total env.now) ∧
    (¬ State.Fits s total env.now → out = .reverted []) := by
  intro out total
  obtain ⟨h1, h2, _⟩ := number_view (releasable_token_view W D env s k)
  rw [due_token hA] at h1 h2
  obtain ⟨g1, g2⟩ := due_ok (v := seen W keccak256 D env.now s) (b := A) (rel := s.erc20Released k) (ts := env.now) hle
  refine ⟨fun hf => ?_, fun hf => h2 (g2 hf)⟩
  have ha : (BitVec.ofNat 256 (State.curve s total env.now - (s.erc20Released k).toNat)).toNat + (s.erc20Released k).toNat =
      State.curve s total env.now := by
    rw [BitVec.toNat_ofNat, Nat.mod_eq_of_lt (lt_of_le_of_lt (Nat.sub_le _ _) (lt_of_le_of_lt (Props.Vesting.curve_le_total _ _ _ _) hf.1))]
    exact Nat.sub_add_cancel hle
  exact ⟨_, h1 _ ((g1 _).mpr ⟨hf, ha⟩), ha⟩

/-- **C109** `release(k)` and `releasable(k)` revert with `InvalidToken(k)` if `k` reports no balance. -/
theorem C109_invalid_token (W : Chain τ) (D : Decoder) (env : Env) (s : State τ) (k : Address)
    (hn : ∀ A, ¬ Reports W.toWorld D s.world 0 s.self_ k A) :
    wallet W D env s 0#256 (message "release(address)" [.address k]) = .reverted (invalid k) ∧
    wallet W D env s 0#256 (message "releasable(address)" [.address k]) = .reverted (invalid k) := by
  constructor
  · rw [← revert_invalid]
    refine act_error (.releaseErc20 k) ?_
    show releaseErc20 W keccak256 D env.now s k = _
    unfold releaseErc20
    rw [due_no_token hn]; rfl
  · exact (number_view (releasable_token_view W D env s k)).2.2 k (due_no_token hn)

/-! ### Histories -/

theorem releaseEth_ok {W : Chain τ} {D : Decoder} {now : U64} {s s' : State τ} (h : releaseEth W keccak256 D now s = .ok s') :
    ∃ (a rel : U256) (t : τ) (d : Bytes), due (seen W keccak256 D now s) (eth W s) s.released now = .ok a ∧
      checkedAdd s.released a = some rel ∧ W.pay s.world s.self_ s.ownable.owner a [] = .returned t d ∧
      s' = { s with released := rel, world := t, log := s.log ++ [.etherReleased a] } := by
  rw [releaseEth_eq] at h
  cases hd : due (seen W keccak256 D now s) (eth W s) s.released now with
  | error e => rw [hd] at h; cases h
  | ok a =>
    rw [hd] at h
    replace h : (do
      let released ← lift (orPanic .panic (checkedAdd s.released a))
      let t ← paid (W.pay s.world s.self_ s.ownable.owner a [])
      return { s with released := released, world := t, log := s.log ++ [.etherReleased a] } : Except Err (State τ)) = .ok s' := h
    cases hc : checkedAdd s.released a with
    | none => rw [hc] at h; cases h
    | some rel =>
      rw [hc] at h
      replace h : (do
        let t ← paid (W.pay s.world s.self_ s.ownable.owner a [])
        return { s with released := rel, world := t, log := s.log ++ [.etherReleased a] } : Except Err (State τ)) = .ok s' := h
      cases hp : W.pay s.world s.self_ s.ownable.owner a [] with
      | reverted d => rw [hp] at h; cases h
      | returned t d =>
        rw [hp] at h
        cases h
        exact ⟨a, rel, t, d, rfl, hc, hp, rfl⟩

theorem releaseErc20_ok {W : Chain τ} {D : Decoder} {now : U64} {s s' : State τ} {k : Address}
    (h : releaseErc20 W keccak256 D now s k = .ok s') :
    ∃ (A a rel : U256) (t : τ), Reports W.toWorld D s.world 0 s.self_ k A ∧
      due (seen W keccak256 D now s) A (s.erc20Released k) now = .ok a ∧ checkedAdd (s.erc20Released k) a = some rel ∧
      Takes W.toWorld s.world s.self_ k (message "transfer(address,uint256)" [.address s.ownable.owner, .uint256 a]) t ∧
      s' = { s with erc20Released := upd s.erc20Released k rel, world := t, log := s.log ++ [.erc20Released k a] } := by
  by_cases hA : ∃ A, Reports W.toWorld D s.world 0 s.self_ k A
  · obtain ⟨A, hA⟩ := hA
    rw [releaseErc20_eq hA] at h
    cases hd : due (seen W keccak256 D now s) A (s.erc20Released k) now with
    | error e => rw [hd] at h; cases h
    | ok a =>
      rw [hd] at h
      replace h : (do
        let released ← lift (orPanic .panic (checkedAdd (s.erc20Released k) a))
        let t ← settled (.safe k) (SafeErc20.safeTransfer (W.token keccak256 s.world s.self_ k) s.world s.ownable.owner a)
        return { s with erc20Released := upd s.erc20Released k released, world := t, log := s.log ++ [.erc20Released k a] } :
          Except Err (State τ)) = .ok s' := h
      cases hc : checkedAdd (s.erc20Released k) a with
      | none => rw [hc] at h; cases h
      | some rel =>
        rw [hc] at h
        replace h : (do
          let t ← settled (.safe k) (SafeErc20.safeTransfer (W.token keccak256 s.world s.self_ k) s.world s.ownable.owner a)
          return { s with erc20Released := upd s.erc20Released k rel, world := t, log := s.log ++ [.erc20Released k a] } :
            Except Err (State τ)) = .ok s' := h
        rcases transfer_cases (W := W) (s := s) (k := k) (dst := s.ownable.owner) (v := a) with ⟨t', ht⟩ | ⟨t', ht⟩
        · have hT := (request_ok (W := W.toWorld) (r := .transfer s.ownable.owner a)).mp ht
          rw [ht] at h
          cases h
          exact ⟨A, a, rel, t', hA, hd, hc, hT, rfl⟩
        · rw [ht] at h; cases h
  · unfold releaseErc20 at h
    rw [due_no_token (not_exists.mp hA)] at h
    cases h

/-- What a successful operation is. -/
theorem act_cases {W : Chain τ} {D : Decoder} {env : Env} {s s' : State τ} {op : Op} (h : act W D env s op = .ok s') :
    (∃ c o, Ownable.exec s.ownable (env.caller, c) = .ok o ∧ s' = { s with ownable := o }) ∨
    releaseEth W keccak256 D env.now s = .ok s' ∨ ∃ k, releaseErc20 W keccak256 D env.now s k = .ok s' := by
  have ho : ∀ {x : Except Ownable.Err Ownable.State}, owned s x = .ok s' → ∃ o, x = .ok o ∧ s' = { s with ownable := o } := by
    intro x hx
    cases x with
    | error e => cases hx
    | ok o => cases hx; exact ⟨o, rfl, rfl⟩
  cases op with
  | transferOwnership a =>
    obtain ⟨o, h1, h2⟩ := ho h
    exact .inl ⟨.transferOwnership a, o, h1, h2⟩
  | renounceOwnership =>
    obtain ⟨o, h1, h2⟩ := ho h
    exact .inl ⟨.renounceOwnership, o, h1, h2⟩
  | releaseEth => exact .inr (.inl h)
  | releaseErc20 k => exact .inr (.inr ⟨k, h⟩)

/-- What a transaction does, at most. -/
theorem step_call (W : Chain τ) (D : Decoder) (s : State τ) (env : Env) (v : U256) (i : Bytes) (f : τ → τ) :
    step W D s (.call env v i f) = s ∨ step W D s (.call env v i f) = { s with world := f s.world } ∨
    ∃ op, act W D env { s with world := f s.world } op = .ok (step W D s (.call env v i f)) := by
  unfold step
  rcases C109_no_other_effect W D env { s with world := f s.world } v i with ⟨d, h⟩ | ⟨d, h⟩ | ⟨op, s', r, he, h, _⟩
  · left; simp only [h]
  · right; left; simp only [h]
  · right; right
    refine ⟨op, ?_⟩
    simp only [h]
    exact (giving_eq_ok.mp he).1

/-- The same wallet. -/
def Same (s s' : State τ) : Prop := s'.self_ = s.self_ ∧ s'.start = s.start ∧ s'.duration = s.duration

theorem act_same {W : Chain τ} {D : Decoder} {env : Env} {s s' : State τ} {op : Op} (h : act W D env s op = .ok s') : Same s s' := by
  rcases act_cases h with ⟨c, o, _, rfl⟩ | h | ⟨k, h⟩
  · exact ⟨rfl, rfl, rfl⟩
  · obtain ⟨a, rel, t, d, _, _, _, rfl⟩ := releaseEth_ok h
    exact ⟨rfl, rfl, rfl⟩
  · obtain ⟨A, a, rel, t, _, _, _, _, rfl⟩ := releaseErc20_ok h
    exact ⟨rfl, rfl, rfl⟩

theorem step_same (W : Chain τ) (D : Decoder) (s : State τ) (x : Step τ) : Same s (step W D s x) := by
  cases x with
  | outside f => exact ⟨rfl, rfl, rfl⟩
  | call env v i f =>
    rcases step_call W D s env v i f with h | h | ⟨op, h⟩
    · rw [h]; exact ⟨rfl, rfl, rfl⟩
    · rw [h]; exact ⟨rfl, rfl, rfl⟩
    · have := act_same h
      exact this

/-- **C109** Address, start and duration of a wallet never change. -/
theorem C109_fixed (W : Chain τ) (D : Decoder) (l : List (Step τ)) (s : State τ) :
    let s' := play W D s l
    s'.self_ = s.self_ ∧ s'.start = s.start ∧ s'.duration = s.duration := by
  induction l generalizing s with
  | nil => exact ⟨rfl, rfl, rfl⟩
  | cons x l ih =>
    obtain ⟨h1, h2, h3⟩ := ih (step W D s x)
    obtain ⟨g1, g2, g3⟩ := step_same W D s x
    exact ⟨h1.trans g1, h2.trans g2, h3.trans g3⟩

/-- **C109** Whatever others do: the owner changes only in a transaction that the owner sends, whose input is a call of
`transferOwnership` (then the argument is the new owner, and it is not zero) or `renounceOwnership` (then zero is). -/
theorem C109_owner (W : Chain τ) (D : Decoder) (s : State τ) (x : Step τ)
    (h : (step W D s x).ownable.owner ≠ s.ownable.owner) :
    ∃ env input f, x = .call env 0#256 input f ∧ env.caller = s.ownable.owner ∧
      ((∃ a, Says D input "transferOwnership(address)" [.address a] ∧ a ≠ ZERO ∧ (step W D s x).ownable.owner = a) ∨
       (Says D input "renounceOwnership()" [] ∧ (step W D s x).ownable.owner = ZERO)) := by
  cases x with
  | outside f => exact absurd rfl h
  | call env v i f =>
    unfold step at h ⊢
    rcases C109_no_other_effect W D env { s with world := f s.world } v i with ⟨d, e⟩ | ⟨d, e⟩ | ⟨op, s', r, he, e, hv, hs⟩
    · simp only [e] at h; exact absurd rfl h
    · simp only [e] at h; exact absurd rfl h
    · simp only [e] at h ⊢
      have ha := (giving_eq_ok.mp he).1
      subst hv
      have ho : ∀ {x : Except Ownable.Err Ownable.State}, owned { s with world := f s.world } x = .ok s' →
          ∃ o, x = .ok o ∧ s'.ownable = o := by
        intro x hx
        cases x with
        | error e => cases hx
        | ok o => cases hx; exact ⟨o, rfl, rfl⟩
      have hown : ∀ {y : Except Ownable.Err Ownable.State}, (Ownable.onlyOwner s.ownable env.caller >>= fun _ => y) = .ok s'.ownable →
          env.caller = s.ownable.owner ∧ y = .ok s'.ownable := by
        intro y hy
        unfold Ownable.onlyOwner at hy
        split at hy
        · cases hy
        · rename_i hc
          exact ⟨(not_not.mp hc).symm, hy⟩
      cases op with
      | transferOwnership a =>
        obtain ⟨o, h1, rfl⟩ := ho ha
        obtain ⟨h2, h3⟩ := hown h1
        refine ⟨env, i, f, rfl, h2, .inl ⟨a, hs, ?_⟩⟩
        by_cases ha0 : a = ZERO
        · rw [if_pos ha0] at h3; cases h3
        · rw [if_neg ha0] at h3
          exact ⟨ha0, (congrArg Ownable.State.owner (Except.ok.inj h3)).symm⟩
      | renounceOwnership =>
        obtain ⟨o, h1, rfl⟩ := ho ha
        obtain ⟨h2, h3⟩ := hown h1
        exact ⟨env, i, f, rfl, h2, .inr ⟨hs, (congrArg Ownable.State.owner (Except.ok.inj h3)).symm⟩⟩
      | releaseEth =>
        obtain ⟨a, rel, t, d, _, _, _, rfl⟩ := releaseEth_ok ha
        exact absurd rfl h
      | releaseErc20 k =>
        obtain ⟨A, a, rel, t, _, _, _, _, rfl⟩ := releaseErc20_ok ha
        exact absurd rfl h

/-- What has been released in ether is what the schedule allows, at most, and what the events say. -/
def EthOk (W : Chain τ) (now : U64) (s : State τ) : Prop :=
  s.released.toNat ≤ State.curve s ((eth W s).toNat + s.released.toNat) now ∧ etherOut s.log = s.released.toNat

theorem etherOut_append (l m : List Verif.Vesting.Event) : etherOut (l ++ m) = etherOut l + etherOut m := by
  unfold etherOut; rw [List.map_append, List.sum_append]

theorem tokenOut_append (k : Address) (l m : List Verif.Vesting.Event) : tokenOut k (l ++ m) = tokenOut k l + tokenOut k m := by
  unfold tokenOut; rw [List.map_append, List.sum_append]

theorem ethOk_more {W : Chain τ} {now now' : U64} {s : State τ} {t : τ} (h : EthOk W now s) (ht : now.toNat ≤ now'.toNat)
    (hb : (eth W s).toNat ≤ (W.balance t s.self_).toNat) : EthOk W now' { s with world := t } :=
  ⟨le_trans h.1 (Props.Vesting.curve_mono _ _ (Nat.add_le_add_right hb _) ht), h.2⟩

theorem ethOk_act {W : Chain τ} {D : Decoder} {env : Env} {s s' : State τ} {op : Op} (hW : Ether W s.self_) (hi : EthOk W env.now s)
    (h : act W D env s op = .ok s') : EthOk W env.now s' := by
  rcases act_cases h with ⟨c, o, _, rfl⟩ | h | ⟨k, h⟩
  · exact hi
  · obtain ⟨a, rel, t, d, hd, hc, hp, rfl⟩ := releaseEth_ok h
    obtain ⟨hf, ha⟩ := ((due_ok (v := seen W keccak256 D env.now s) (b := eth W s) (rel := s.released) (ts := env.now) hi.1).1 a).mp hd
    obtain ⟨h1, h2⟩ := checkedAdd_eq_some.mp hc
    have hb := hW.pay _ _ _ _ _ _ hp
    have hb' : (eth W s).toNat ≤ (W.balance t s.self_).toNat + a.toNat := hb
    constructor
    · show rel.toNat ≤ Spec.Vesting.curve s.start.toNat s.duration.toNat ((W.balance t s.self_).toNat + rel.toNat) env.now.toNat
      have hr : rel.toNat = Spec.Vesting.curve s.start.toNat s.duration.toNat ((eth W s).toNat + s.released.toNat) env.now.toNat := by
        have : a.toNat + s.released.toNat =
          Spec.Vesting.curve s.start.toNat s.duration.toNat ((eth W s).toNat + s.released.toNat) env.now.toNat := ha
        omega
      refine le_trans (le_of_eq hr) (Props.Vesting.curve_mono _ _ (by omega) (le_refl _))
    · show etherOut (s.log ++ [.etherReleased a]) = rel.toNat
      rw [etherOut_append, hi.2]
      show s.released.toNat + (a.toNat + 0) = rel.toNat
      omega
  · obtain ⟨A, a, rel, t, _, _, _, ⟨_, d, hT, _⟩, rfl⟩ := releaseErc20_ok h
    have hb := hW.call _ _ _ _ _ hT
    obtain ⟨h1, h2⟩ := ethOk_more (now' := env.now) hi (le_refl _) hb
    refine ⟨h1, ?_⟩
    show etherOut (s.log ++ [.erc20Released k a]) = s.released.toNat
    rw [etherOut_append, hi.2]
    rfl

theorem ethOk_step {W : Chain τ} {D : Decoder} {s : State τ} {now : U64} {x : Step τ} {l : List (Step τ)} (hW : Ether W s.self_)
    (hi : EthOk W now s) (hs : Safe W D (fun t => W.balance t s.self_) s (x :: l)) (hc : Clocked now (x :: l)) :
    EthOk W (clock now [x]) (step W D s x) := by
  cases x with
  | outside f => exact ethOk_more hi (le_refl _) hs.1
  | call env v i f =>
    have hm : EthOk W env.now { s with world := f s.world } := ethOk_more hi hc.1 hs.1
    show EthOk W env.now _
    rcases step_call W D s env v i f with h | h | ⟨op, h⟩
    · rw [h]
      exact ethOk_more hi hc.1 (le_refl _)
    · rw [h]; exact hm
    · exact ethOk_act (s := { s with world := f s.world }) hW hm h

theorem clocked_tail {now : U64} {x : Step τ} {l : List (Step τ)} (h : Clocked now (x :: l)) : Clocked (clock now [x]) l := by
  cases x with
  | outside f => exact h
  | call env v i f => exact h.2

theorem safe_tail {W : Chain τ} {D : Decoder} {m : τ → U256} {s : State τ} {x : Step τ} {l : List (Step τ)} (h : Safe W D m s (x :: l)) :
    Safe W D m (step W D s x) l := by
  cases x with
  | outside f => exact h.2
  | call env v i f => exact h.2

theorem ethOk_play {W : Chain τ} {D : Decoder} (l : List (Step τ)) {s : State τ} {now : U64} (hW : Ether W s.self_)
    (hi : EthOk W now s) (hs : Safe W D (fun t => W.balance t s.self_) s l) (hc : Clocked now l) :
    EthOk W (clock now l) (play W D s l) := by
  induction l generalizing s now with
  | nil => exact hi
  | cons x l ih =>
    have e := (step_same W D s x).1
    have h1 := ethOk_step (D := D) hW hi hs hc
    have : EthOk W (clock (clock now [x]) l) (play W D (step W D s x) l) :=
      ih (by rw [e]; exact hW) h1 (by rw [e]; exact safe_tail hs) (clocked_tail hc)
    exact this

/-- **C109** Whatever the tokens, the owner and everybody else do, as long as ether leaves the wallet only in its payments: after any
transactions and anything else, the wallet has released no more than the schedule allows of the ether it holds and has released,
and exactly as much as its events say (each of them about one payment to the owner, `C109_release_eth`). -/
theorem C109_eth_schedule (W : Chain τ) (D : Decoder) (self_ owner : Address) (start duration now : U64) (t : τ)
    (hW : Ether W self_) (l : List (Step τ)) (hs : Safe W D (fun t => W.balance t self_) (newWallet self_ owner start duration t) l) (hc : Clocked now l) :
    let s := play W D (newWallet self_ owner start duration t) l
    s.released.toNat ≤ curve start.toNat duration.toNat ((W.balance s.world self_).toNat + s.released.toNat) (clock now l).toNat ∧
    etherOut s.log = s.released.toNat := by
  intro s
  have h := ethOk_play (W := W) (D := D) l (s := newWallet self_ owner start duration t) (now := now) hW ⟨Nat.zero_le _, rfl⟩ hs hc
  obtain ⟨e1, e2, e3⟩ := C109_fixed W D l (newWallet self_ owner start duration t)
  refine ⟨?_, h.2⟩
  have h1 := h.1
  unfold State.curve eth at h1
  rw [e1, e2, e3] at h1
  exact h1

/-! ### The same for a token -/

/-- What has been released of `k` is what the schedule allows, at most, and what the events say. -/
def TokenOk (bal : τ → U256) (k : Address) (now : U64) (s : State τ) : Prop :=
  (s.erc20Released k).toNat ≤ State.curve s ((bal s.world).toNat + (s.erc20Released k).toNat) now ∧
  tokenOut k s.log = (s.erc20Released k).toNat

theorem tokenOk_more {bal : τ → U256} {k : Address} {now now' : U64} {s : State τ} {t : τ} (h : TokenOk bal k now s)
    (ht : now.toNat ≤ now'.toNat) (hb : (bal s.world).toNat ≤ (bal t).toNat) : TokenOk bal k now' { s with world := t } :=
  ⟨le_trans h.1 (Props.Vesting.curve_mono _ _ (Nat.add_le_add_right hb _) ht), h.2⟩

theorem tokenOk_act {W : Chain τ} {D : Decoder} {bal : τ → U256} {k : Address} {env : Env} {s s' : State τ} {op : Op}
    (hW : Holds W D s.self_ k bal) (hi : TokenOk bal k env.now s) (h : act W D env s op = .ok s') : TokenOk bal k env.now s' := by
  rcases act_cases h with ⟨c, o, _, rfl⟩ | h | ⟨k', h⟩
  · exact hi
  · obtain ⟨a, rel, t, d, hd, hc, hp, rfl⟩ := releaseEth_ok h
    obtain ⟨h1, h2⟩ := tokenOk_more (now' := env.now) hi (le_refl _) (hW.pay _ _ _ _ _ _ hp)
    refine ⟨h1, ?_⟩
    show tokenOut k (s.log ++ [.etherReleased a]) = (s.erc20Released k).toNat
    rw [tokenOut_append, hi.2]
    rfl
  · obtain ⟨A, a, rel, t, hA, hd, hc, hT, rfl⟩ := releaseErc20_ok h
    by_cases hk : k' = k
    · subst hk
      obtain rfl := reports_unique hA (hW.reports s.world)
      obtain ⟨hf, ha⟩ := ((due_ok (v := seen W keccak256 D env.now s) (b := bal s.world) (rel := s.erc20Released k') (ts := env.now)
        hi.1).1 a).mp hd
      obtain ⟨h1, h2⟩ := checkedAdd_eq_some.mp hc
      have hb := hW.transfer _ _ _ _ hT
      have hu : upd s.erc20Released k' rel k' = rel := by simp [upd]
      constructor
      · show (upd s.erc20Released k' rel k').toNat ≤ Spec.Vesting.curve s.start.toNat s.duration.toNat
          ((bal t).toNat + (upd s.erc20Released k' rel k').toNat) env.now.toNat
        rw [hu]
        have hr : rel.toNat = Spec.Vesting.curve s.start.toNat s.duration.toNat
            ((bal s.world).toNat + (s.erc20Released k').toNat) env.now.toNat := by
          have : a.toNat + (s.erc20Released k').toNat = Spec.Vesting.curve s.start.toNat s.duration.toNat
            ((bal s.world).toNat + (s.erc20Released k').toNat) env.now.toNat := ha
          omega
        refine le_trans (le_of_eq hr) (Props.Vesting.curve_mono _ _ (by omega) (le_refl _))
      · show tokenOut k' (s.log ++ [.erc20Released k' a]) = (upd s.erc20Released k' rel k').toNat
        rw [tokenOut_append, hi.2, hu]
        show (s.erc20Released k').toNat + ((if k' = k' then a.toNat else 0) + 0) = rel.toNat
        rw [if_pos rfl]
        omega
    · obtain ⟨_, d, hT, _⟩ := hT
      obtain ⟨h1, h2⟩ := tokenOk_more (now' := env.now) hi (le_refl _) (hW.other _ _ _ _ _ hk hT)
      have hu : upd s.erc20Released k' rel k = s.erc20Released k := by simp [upd, Ne.symm hk]
      constructor
      · show (upd s.erc20Released k' rel k).toNat ≤ Spec.Vesting.curve s.start.toNat s.duration.toNat
          ((bal t).toNat + (upd s.erc20Released k' rel k).toNat) env.now.toNat
        rw [hu]
        exact h1
      · show tokenOut k (s.log ++ [.erc20Released k' a]) = (upd s.erc20Released k' rel k).toNat
        rw [tokenOut_append, hi.2, hu]
        show (s.erc20Released k).toNat + ((if k' = k then a.toNat else 0) + 0) = _
        rw [if_neg hk]
        rfl

theorem tokenOk_step {W : Chain τ} {D : Decoder} {bal : τ → U256} {k : Address} {s : State τ} {now : U64} {x : Step τ}
    {l : List (Step τ)} (hW : Holds W D s.self_ k bal) (hi : TokenOk bal k now s) (hs : Safe W D bal s (x :: l))
    (hc : Clocked now (x :: l)) : TokenOk bal k (clock now [x]) (step W D s x) := by
  cases x with
  | outside f => exact tokenOk_more hi (le_refl _) hs.1
  | call env v i f =>
    have hm : TokenOk bal k env.now { s with world := f s.world } := tokenOk_more hi hc.1 hs.1
    show TokenOk bal k env.now _
    rcases step_call W D s env v i f with h | h | ⟨op, h⟩
    · rw [h]
      exact tokenOk_more hi hc.1 (le_refl _)
    · rw [h]; exact hm
    · exact tokenOk_act (s := { s with world := f s.world }) hW hm h

theorem tokenOk_play {W : Chain τ} {D : Decoder} {bal : τ → U256} {k : Address} (l : List (Step τ)) {s : State τ} {now : U64}
    (hW : Holds W D s.self_ k bal) (hi : TokenOk bal k now s) (hs : Safe W D bal s l) (hc : Clocked now l) :
    TokenOk bal k (clock now l) (play W D s l) := by
  induction l generalizing s now with
  | nil => exact hi
  | cons x l ih =>
    have e := (step_same W D s x).1
    have h1 := tokenOk_step (D := D) hW hi hs hc
    have : TokenOk bal k (clock (clock now [x]) l) (play W D (step W D s x) l) :=
      ih (by rw [e]; exact hW) h1 (safe_tail hs) (clocked_tail hc)
    exact this

/-- **C109** Whatever everybody does, as long as the token `k` reports the balance of the wallet and only lowers it in transfers that the
wallet asks for: after any transactions and anything else, the wallet has released no more than the schedule allows of what it
holds and has released of `k`, and exactly as much as its events say. -/
theorem C109_token_schedule (W : Chain τ) (D : Decoder) (self_ owner k : Address) (start duration now : U64) (t : τ) (bal : τ → U256)
    (hW : Holds W D self_ k bal) (l : List (Step τ)) (hs : Safe W D bal (newWallet self_ owner start duration t) l) (hc : Clocked now l) :
    let s := play W D (newWallet self_ owner start duration t) l
    (s.erc20Released k).toNat ≤ curve start.toNat duration.toNat ((bal s.world).toNat + (s.erc20Released k).toNat) (clock now l).toNat ∧
    tokenOut k s.log = (s.erc20Released k).toNat := by
  intro s
  have h := tokenOk_play (W := W) (D := D) (k := k) l (s := newWallet self_ owner start duration t) (now := now) hW
    ⟨Nat.zero_le _, rfl⟩ hs hc
  obtain ⟨e1, e2, e3⟩ := C109_fixed W D l (newWallet self_ owner start duration t)
  refine ⟨?_, h.2⟩
  have h1 := h.1
  unfold State.curve at h1
  rw [e2, e3] at h1
  exact h1

end Verif.Props.VestingBytes
