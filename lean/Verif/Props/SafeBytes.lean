import Verif.Spec.SafeBytes
import Verif.Proofs.Outside
import Verif.Props.VaultSystem
import Verif.Props.ContractsErc20
/-! # C108: `examples/safe-erc20` on bytes, over any programs as tokens -/
namespace Verif.Props.SafeBytes
open Verif Verif.Abi Verif.Contracts Verif.Calls Verif.Outside Verif.Outside.Safe
open Verif.Spec.Keccak (keccak256)
open Verif.Spec.Contracts Verif.Spec.Outside Verif.Spec.SafeBytes
open Verif.Spec.Calls (call)
open Verif.Spec.Revert (addr)
open Verif.Proofs.Contracts Verif.Proofs.Outside
open Verif.Props.Calls (signatureOf)

variable {τ : Type}

/-- The operations. -/
inductive Op where
  | safeTransfer (token dst : Address) (value : U256)
  | safeTransferFrom (token src dst : Address) (value : U256)
  | safeIncreaseAllowance (token spender : Address) (value : U256)
  | safeDecreaseAllowance (token spender : Address) (value : U256)
  | forceApprove (token spender : Address) (value : U256)

/-- Signature and arguments of each operation. -/
def abi : Op → String × List Val
  | .safeTransfer k dst v => ("safeTransfer(address,address,uint256)", [.address k, .address dst, .uint256 v])
  | .safeTransferFrom k src dst v =>
    ("safeTransferFrom(address,address,address,uint256)", [.address k, .address src, .address dst, .uint256 v])
  | .safeIncreaseAllowance k p v => ("safeIncreaseAllowance(address,address,uint256)", [.address k, .address p, .uint256 v])
  | .safeDecreaseAllowance k p v => ("safeDecreaseAllowance(address,address,uint256)", [.address k, .address p, .uint256 v])
  | .forceApprove k p v => ("forceApprove(address,address,uint256)", [.address k, .address p, .uint256 v])

/-- The token an operation is about. -/
def Op.token : Op → Address
  | .safeTransfer k .. | .safeTransferFrom k .. | .safeIncreaseAllowance k .. | .safeDecreaseAllowance k .. | .forceApprove k .. => k

/-- The operation on the token it names. -/
def act (self_ : Address) (k : SafeErc20.Token τ) (s : τ) : Op → τ × Except SafeErc20.Err Unit
  | .safeTransfer _ dst v => SafeErc20.safeTransfer k s dst v
  | .safeTransferFrom _ src dst v => SafeErc20.safeTransferFrom k s src dst v
  | .safeIncreaseAllowance _ p v => SafeErc20.safeIncreaseAllowance k s self_ p v
  | .safeDecreaseAllowance _ p v => SafeErc20.safeDecreaseAllowance k s self_ p v
  | .forceApprove _ p v => SafeErc20.forceApprove k s p v

/-- The operation of the model. -/
def exec (W : World τ) (self_ : Address) (s : τ) (op : Op) : Except SafeErc20.Err (τ × List Val) :=
  giving (settled id (act self_ (W.token keccak256 s self_ op.token) s op)) []

/-- The contract on bytes. -/
abbrev safe (W : World τ) (D : Decoder) (self_ caller : Address) (s : τ) (value : U256) (input : Bytes) : Outcome τ :=
  Safe.run W keccak256 D self_ caller s value input

/-- The revert data of an error. -/
def revert (token : Address) (e : SafeErc20.Err) : Bytes := ((Revert.safeErc20 token e).data keccak256).getD []

abbrev spec : Spec.Router.Entry := ⟨Router.safeErc20Example, Spec.Router.safeErc20Example, []⟩

theorem mem : spec ∈ Spec.Router.contracts := by simp [Spec.Router.contracts]

theorem abi_short (op : Op) : (message (abi op).1 (abi op).2).length < 2 ^ 256 := by
  cases op <;> exact words_lt _ _ (by simp [abi, arg]) (by simp [abi])

set_option maxRecDepth 100000 in
/-- **C108** For every world, operation, sender and state: the message of the call, as the ABI defines it, has exactly the effect
of the operation and answers nothing, or reverts with exactly the bytes of its error. -/
theorem C108_call (W : World τ) (D : Decoder) (self_ caller : Address) (s : τ) (op : Op) :
    safe W D self_ caller s 0#256 (message (abi op).1 (abi op).2) = reply (revert op.token) (exec W self_ s op) := by
  cases op <;>
    exact run_message mem D _ s _ _ rfl rfl (outcome_finish _ _) (by simp [abi, Spec.Router.safeErc20Example]) (abi_short _)

set_option maxRecDepth 100000 in
theorem ops (W : World τ) : Ops spec (handler W keccak256) abi (exec W) where
  inv env s sg t n args s' r hm hh := by
    rows hh hm [abi, Spec.Router.safeErc20Example] operations [.safeTransfer _ _ _, .safeTransferFrom _ _ _ _,
      .safeIncreaseAllowance _ _ _, .safeDecreaseAllowance _ _ _, .forceApprove _ _ _]

/-- **C108** Whatever is sent: the call is refused, or it is answered and changes nothing, or it is a call of one of the
operations (its selector, its arguments, no value) that succeeds, with exactly its effect and its reply. -/
theorem C108_no_other_effect (W : World τ) (D : Decoder) (self_ caller : Address) (s : τ) (value : U256) (input : Bytes) :
    (∃ data, safe W D self_ caller s value input = .reverted data) ∨
    (∃ data, safe W D self_ caller s value input = .returned s data) ∨
    ∃ op s' r, exec W self_ s op = .ok (s', r) ∧ safe W D self_ caller s value input = .returned s' (values r) ∧
      value = 0#256 ∧ Says D input (abi op).1 (abi op).2 :=
  no_other_effect mem (ops W) D self_ s value input

/-! ### What each operation does with the token -/

/-- The bytes of a request. -/
abbrev bytesOf (r : SafeErc20.Req) : Bytes := message (signatureOf (request r)) (request r).args

/-- The code's match is `found`. -/
def found : Outcome τ → Option (τ × Bytes)
  | .returned t' data => some (t', data)
  | .reverted _ => none

theorem token_call {W : World τ} {t0 t : τ} {me k : Address} {r : SafeErc20.Req} (hc : W.hasCode t k = true) :
    (W.token keccak256 t0 me k).call t r = found (W.call t me k (bytesOf r)) := by
  unfold World.token bytesOf
  simp only [rawToken, World.send]
  rw [if_pos hc, bytes_message]
  cases W.call t me k (message (signatureOf (request r)) (request r).args) <;> rfl

theorem cor_ok {W : World τ} {t0 t t' : τ} {me k : Address} {r : SafeErc20.Req} (h0 : W.hasCode t0 k = true)
    (hc : W.hasCode t k = true) :
    SafeErc20.callOptionalReturn (W.token keccak256 t0 me k) t r = (t', .ok ()) ↔ Takes W t me k (bytesOf r) t' := by
  rw [Props.SafeErc20.call_ok_iff, token_call hc]
  unfold Takes
  rw [show (W.token keccak256 t0 me k).hasCode = true from h0, hc]
  refine and_congr_right fun _ => ?_
  cases W.call t me k (bytesOf r) with
  | returned t1 data => simp [found, and_assoc]
  | reverted data => simp [found]

theorem cor_err {W : World τ} {t0 t t' : τ} {me k : Address} {r : SafeErc20.Req} {e : SafeErc20.Err} (h0 : W.hasCode t0 k = true)
    (hc : W.hasCode t k = true) :
    SafeErc20.callOptionalReturn (W.token keccak256 t0 me k) t r = (t', .error e) ↔
      e = .failedOperation ∧ Declines W t me k (bytesOf r) t' := by
  have hk : (W.token keccak256 t0 me k).hasCode = true := h0
  unfold SafeErc20.callOptionalReturn Declines
  rw [if_neg (by rw [hk]; simp), token_call hc]
  cases W.call t me k (bytesOf r) with
  | returned t1 data =>
    have ha := Props.SafeErc20.accepted_code data
    simp only [found]
    split
    · rename_i h; have := ha.mp h; simp [this]
    · rename_i h
      have : ¬ Spec.SafeErc20.Accepted data := fun hh => h (ha.mpr hh)
      simp only [Prod.mk.injEq, Except.error.injEq, Outcome.returned.injEq, reduceCtorEq, false_and, exists_false, false_or]
      constructor
      · rintro ⟨rfl, rfl⟩; exact ⟨rfl, data, ⟨rfl, rfl⟩, this⟩
      · rintro ⟨rfl, d, ⟨rfl, rfl⟩, _⟩; exact ⟨rfl, rfl⟩
  | reverted data =>
    simp only [found, Prod.mk.injEq, Except.error.injEq, Outcome.reverted.injEq, reduceCtorEq, false_and, exists_false, or_false]
    constructor
    · rintro ⟨rfl, rfl⟩; exact ⟨rfl, data, rfl, rfl⟩
    · rintro ⟨rfl, d, _, rfl⟩; exact ⟨rfl, rfl⟩

theorem cor_nocode {W : World τ} {t : τ} {me k : Address} {r : SafeErc20.Req} (h0 : W.hasCode t k = false) (t1 : τ) :
    SafeErc20.callOptionalReturn (W.token keccak256 t me k) t1 r = (t1, .error .failedOperation) := by
  have hk : (W.token keccak256 t me k).hasCode = false := h0
  unfold SafeErc20.callOptionalReturn
  rw [if_pos hk]

theorem declines_code {W : World τ} (hW : Stays W) {t t' : τ} {me k a : Address} {b : Bytes} (h : Declines W t me k b t')
    (hc : W.hasCode t a = true) : W.hasCode t' a = true := by
  rcases h with ⟨_, _, rfl⟩ | ⟨_, h, _⟩
  · exact hc
  · exact hW _ _ _ _ _ _ _ h hc

theorem takes_code {W : World τ} (hW : Stays W) {t t' : τ} {me k a : Address} {b : Bytes} (h : Takes W t me k b t')
    (hc : W.hasCode t a = true) : W.hasCode t' a = true := by
  obtain ⟨_, _, h, _⟩ := h
  exact hW _ _ _ _ _ _ _ h hc

/-- `force_approve` succeeds exactly by setting the allowance. -/
theorem force_ok {W : World τ} (hW : Stays W) {t0 t t' : τ} {me k p : Address} {v : U256} (h0 : W.hasCode t0 k = true)
    (hc : W.hasCode t k = true) :
    SafeErc20.forceApprove (W.token keccak256 t0 me k) t p v = (t', .ok ()) ↔ Approves W t me k p v t' := by
  unfold SafeErc20.forceApprove
  cases h1 : SafeErc20.callOptionalReturn (W.token keccak256 t0 me k) t (.approve p v) with
  | mk t1 x =>
    cases x with
    | ok u =>
      have h2 := (cor_ok h0 hc).mp h1
      simp only [Prod.mk.injEq, and_true]
      constructor
      · rintro rfl; exact .inl h2
      · rintro (h | ⟨a, b, h, _⟩)
        · have := (cor_ok (r := .approve p v) h0 hc).mpr h
          rw [h1] at this
          cases this; rfl
        · have := (cor_err (r := .approve p v) (e := .failedOperation) h0 hc).mpr ⟨rfl, h⟩
          rw [h1] at this
          cases this
    | error e =>
      obtain ⟨rfl, h2⟩ := (cor_err h0 hc).mp h1
      have hc1 := declines_code hW h2 hc
      simp only
      cases h3 : SafeErc20.callOptionalReturn (W.token keccak256 t0 me k) t1 (.approve p 0#256) with
      | mk t2 y =>
        have hn : ¬ Takes W t me k (approval p v) t' := by
          intro h
          have := (cor_ok (r := .approve p v) h0 hc).mpr h
          rw [h1] at this
          cases this
        have hd : ∀ a, Declines W t me k (approval p v) a → a = t1 := by
          intro a h
          have := (cor_err (r := .approve p v) (e := .failedOperation) h0 hc).mpr ⟨rfl, h⟩
          rw [h1] at this
          cases this; rfl
        cases y with
        | error e =>
          simp only [Prod.mk.injEq, reduceCtorEq, and_false, false_iff]
          rintro (h | ⟨a, b, h, h4, _⟩)
          · exact hn h
          · obtain rfl := hd a h
            have := (cor_ok (r := .approve p 0#256) h0 hc1).mpr h4
            rw [h3] at this
            cases this
        | ok u =>
          have h4 := (cor_ok h0 hc1).mp h3
          have hc2 := takes_code hW h4 hc1
          simp only
          rw [cor_ok h0 hc2]
          constructor
          · intro h; exact .inr ⟨t1, t2, h2, h4, h⟩
          · rintro (h | ⟨a, b, h, h5, h6⟩)
            · exact absurd h hn
            · obtain rfl := hd a h
              have := (cor_ok (r := .approve p 0#256) h0 hc1).mpr h5
              rw [h3] at this
              cases this
              exact h6

theorem cor_any_err {k : SafeErc20.Token τ} {t t' : τ} {r : SafeErc20.Req} {e : SafeErc20.Err}
    (h : SafeErc20.callOptionalReturn k t r = (t', .error e)) : e = .failedOperation := by
  rcases Props.SafeErc20.call_result k t r with h1 | h1 <;> rw [h] at h1 <;> cases h1
  rfl

theorem force_err {W : World τ} {t0 t t' : τ} {me k p : Address} {v : U256} {e : SafeErc20.Err}
    (h : SafeErc20.forceApprove (W.token keccak256 t0 me k) t p v = (t', .error e)) : e = .failedOperation := by
  unfold SafeErc20.forceApprove at h
  split at h
  · cases h
  · split at h
    · rename_i h2; cases h; exact cor_any_err h2
    · exact cor_any_err h

theorem allowance_eq {W : World τ} {s : τ} {me k p : Address} (hc : W.hasCode s k = true) (t1 : τ) (n : U256) :
    SafeErc20.allowance (W.token keccak256 s me k) s me p = (t1, .ok n) ↔ Tells W s me k p n t1 := by
  have hk : (W.token keccak256 s me k).hasCode = true := hc
  unfold SafeErc20.allowance Tells
  rw [if_neg (by rw [hk]; simp), token_call hc]
  show _ ↔ ∃ data, W.call s me k (bytesOf (.allowance me p)) = _ ∧ _
  cases W.call s me k (bytesOf (.allowance me p)) with
  | reverted d => simp [found]
  | returned t2 data =>
    have hlt : SafeErc20.beNat (data.take SafeErc20.BOOL_TYPE_SIZE) < 2 ^ 256 := Props.SafeErc20.beNat_take_lt data
    simp only [found]
    rw [if_pos hlt]
    constructor
    · intro h
      cases h
      refine ⟨data, rfl, ?_⟩
      rw [BitVec.toNat_ofNat, Nat.mod_eq_of_lt hlt]
      rfl
    · rintro ⟨d, h, hn⟩
      cases h
      have hn' : n.toNat = SafeErc20.beNat (data.take SafeErc20.BOOL_TYPE_SIZE) := hn
      rw [← hn', BitVec.ofNat_toNat, BitVec.setWidth_eq]

theorem allowance_err {W : World τ} {s t1 : τ} {me k p : Address} {e : SafeErc20.Err}
    (h : SafeErc20.allowance (W.token keccak256 s me k) s me p = (t1, .error e)) : e = .failedOperation := by
  unfold SafeErc20.allowance at h
  split at h
  · cases h; rfl
  · split at h
    · cases h; rfl
    · rename_i t' ret _
      have hlt : SafeErc20.beNat (ret.take SafeErc20.BOOL_TYPE_SIZE) < 2 ^ 256 := Props.SafeErc20.beNat_take_lt ret
      simp only at h
      rw [if_pos hlt] at h
      cases h

theorem allowance_nocode {W : World τ} {s : τ} {me k p : Address} (hc : W.hasCode s k = false) :
    SafeErc20.allowance (W.token keccak256 s me k) s me p = (s, .error .failedOperation) := by
  have hk : (W.token keccak256 s me k).hasCode = false := hc
  unfold SafeErc20.allowance
  rw [if_pos hk]

theorem force_nocode {W : World τ} {s : τ} {me k p : Address} {v : U256} (hc : W.hasCode s k = false) (t : τ) :
    SafeErc20.forceApprove (W.token keccak256 s me k) t p v = (t, .error .failedOperation) := by
  unfold SafeErc20.forceApprove
  rw [cor_nocode hc]
  simp only
  rw [cor_nocode hc]

theorem act_iff {W : World τ} {D : Decoder} {self_ caller : Address} {s t' : τ} {data : Bytes} (op : Op) :
    safe W D self_ caller s 0#256 (message (abi op).1 (abi op).2) = .returned t' data ↔
      act self_ (W.token keccak256 s self_ op.token) s op = (t', .ok ()) ∧ data = [] := by
  rw [C108_call]
  unfold exec
  generalize act self_ (W.token keccak256 s self_ op.token) s op = x
  obtain ⟨t, e | u⟩ := x
  · simp [settled, giving, reply]
  · have : values [] = [] := rfl
    simp [settled, giving, reply, this, eq_comm]

theorem act_error {W : World τ} {D : Decoder} {self_ caller : Address} {s t' : τ} {e : SafeErc20.Err} (op : Op)
    (h : act self_ (W.token keccak256 s self_ op.token) s op = (t', .error e)) :
    safe W D self_ caller s 0#256 (message (abi op).1 (abi op).2) = .reverted (revert op.token e) := by
  rw [C108_call]
  unfold exec
  rw [h]
  rfl

/-- What a failed operation reverts with. -/
abbrev failed (token : Address) : Bytes := call "SafeErc20FailedOperation(address)" [addr token]

theorem revert_failed (token : Address) : revert token .failedOperation = failed token :=
  error_bytes _ _ "SafeErc20FailedOperation(address)" rfl rfl

/-- Whatever is not a success reverts with the only error there is. -/
theorem else_failed {W : World τ} {D : Decoder} {self_ caller : Address} {s : τ} (op : Op) {P : τ → Prop}
    (hP : ∀ t', act self_ (W.token keccak256 s self_ op.token) s op = (t', .ok ()) → P t')
    (he : ∀ t' e, act self_ (W.token keccak256 s self_ op.token) s op = (t', .error e) → e = .failedOperation)
    (hn : ∀ t', ¬ P t') :
    safe W D self_ caller s 0#256 (message (abi op).1 (abi op).2) = .reverted (failed op.token) := by
  cases hx : act self_ (W.token keccak256 s self_ op.token) s op with
  | mk t' x =>
    cases x with
    | ok u => exact absurd (hP t' hx) (hn t')
    | error e => rw [act_error op hx, he t' e hx, revert_failed]

/-- **C108** `safeTransfer(k, dst, v)` succeeds exactly if `k` takes the message `transfer(dst, v)` from the contract, and then nothing
else happens; otherwise it reverts with `SafeErc20FailedOperation(k)`. -/
theorem C108_safeTransfer (W : World τ) (D : Decoder) (self_ caller : Address) (s : τ) (k dst : Address) (v : U256) :
    let msg := message "transfer(address,uint256)" [.address dst, .uint256 v]
    let out := safe W D self_ caller s 0#256 (message (abi (.safeTransfer k dst v)).1 (abi (.safeTransfer k dst v)).2)
    (∀ t' data, out = .returned t' data ↔ Takes W s self_ k msg t' ∧ data = []) ∧
    ((∀ t', ¬ Takes W s self_ k msg t') → out = .reverted (failed k)) := by
  intro msg out
  have h : ∀ t', act self_ (W.token keccak256 s self_ k) s (.safeTransfer k dst v) = (t', .ok ()) ↔ Takes W s self_ k msg t' :=
    fun t' => request_ok (r := .transfer dst v)
  refine ⟨fun t' data => (act_iff _).trans (and_congr (h t') Iff.rfl), fun hn => ?_⟩
  refine else_failed (.safeTransfer k dst v) (fun t' => (h t').mp) (fun t' e he => ?_) hn
  exact cor_any_err (r := .transfer dst v) he

/-- **C108** `safeTransferFrom(k, src, dst, v)` in the same way, with the message `transferFrom(src, dst, v)`. -/
theorem C108_safeTransferFrom (W : World τ) (D : Decoder) (self_ caller : Address) (s : τ) (k src dst : Address) (v : U256) :
    let msg := message "transferFrom(address,address,uint256)" [.address src, .address dst, .uint256 v]
    let out := safe W D self_ caller s 0#256 (message (abi (.safeTransferFrom k src dst v)).1 (abi (.safeTransferFrom k src dst v)).2)
    (∀ t' data, out = .returned t' data ↔ Takes W s self_ k msg t' ∧ data = []) ∧
    ((∀ t', ¬ Takes W s self_ k msg t') → out = .reverted (failed k)) := by
  intro msg out
  have h : ∀ t', act self_ (W.token keccak256 s self_ k) s (.safeTransferFrom k src dst v) = (t', .ok ()) ↔
      Takes W s self_ k msg t' := fun t' => request_ok (r := .transferFrom src dst v)
  refine ⟨fun t' data => (act_iff _).trans (and_congr (h t') Iff.rfl), fun hn => ?_⟩
  refine else_failed (.safeTransferFrom k src dst v) (fun t' => (h t').mp) (fun t' e he => ?_) hn
  exact cor_any_err (r := .transferFrom src dst v) he

/-- **C108** `forceApprove(k, p, v)` succeeds exactly if `k` has code and the contract's allowance for `p` can be set to `v`, at once or by
way of zero, and then nothing else happens; otherwise it reverts with `SafeErc20FailedOperation(k)`. -/
theorem C108_forceApprove (W : World τ) (hW : Stays W) (D : Decoder) (self_ caller : Address) (s : τ) (k p : Address) (v : U256) :
    let out := safe W D self_ caller s 0#256 (message (abi (.forceApprove k p v)).1 (abi (.forceApprove k p v)).2)
    (∀ t' data, out = .returned t' data ↔ (W.hasCode s k = true ∧ Approves W s self_ k p v t') ∧ data = []) ∧
    ((∀ t', ¬ (W.hasCode s k = true ∧ Approves W s self_ k p v t')) → out = .reverted (failed k)) := by
  intro out
  have h : ∀ t', act self_ (W.token keccak256 s self_ k) s (.forceApprove k p v) = (t', .ok ()) ↔
      W.hasCode s k = true ∧ Approves W s self_ k p v t' := by
    intro t'
    show SafeErc20.forceApprove (W.token keccak256 s self_ k) s p v = _ ↔ _
    cases hc : W.hasCode s k with
    | true => rw [force_ok hW hc hc]; simp
    | false => rw [force_nocode hc]; simp
  refine ⟨fun t' data => (act_iff _).trans (and_congr (h t') Iff.rfl), fun hn => ?_⟩
  exact else_failed (.forceApprove k p v) (fun t' => (h t').mp) (fun t' e he => force_err he) hn

/-- **C108** `safeIncreaseAllowance(k, p, v)` succeeds exactly if `k` tells a current allowance `n`, `n + v` fits in a word, and the
allowance can be set to it; it reverts without data if the sum does not fit, and otherwise with `SafeErc20FailedOperation(k)`. -/
theorem C108_increase (W : World τ) (hW : Stays W) (D : Decoder) (self_ caller : Address) (s : τ) (k p : Address) (v : U256) :
    let out := safe W D self_ caller s 0#256 (message (abi (.safeIncreaseAllowance k p v)).1 (abi (.safeIncreaseAllowance k p v)).2)
    let Good := fun t' => W.hasCode s k = true ∧ ∃ n t1 w, Tells W s self_ k p n t1 ∧ w.toNat = n.toNat + v.toNat ∧
      Approves W t1 self_ k p w t'
    let Over := W.hasCode s k = true ∧ ∃ n t1, Tells W s self_ k p n t1 ∧ 2 ^ 256 ≤ n.toNat + v.toNat
    (∀ t' data, out = .returned t' data ↔ Good t' ∧ data = []) ∧
    (Over → out = .reverted []) ∧
    ((∀ t', ¬ Good t') → ¬ Over → out = .reverted (failed k)) := by
  intro out Good Over
  have hact : ∀ x, act self_ (W.token keccak256 s self_ k) s (.safeIncreaseAllowance k p v) = x ↔
      SafeErc20.safeIncreaseAllowance (W.token keccak256 s self_ k) s self_ p v = x := fun x => Iff.rfl
  cases hc : W.hasCode s k with
  | false =>
    have hb : SafeErc20.safeIncreaseAllowance (W.token keccak256 s self_ k) s self_ p v = (s, .error .failedOperation) := by
      unfold SafeErc20.safeIncreaseAllowance
      rw [allowance_nocode hc]
    have ho : out = .reverted (failed k) := by
      rw [← revert_failed]; exact act_error (.safeIncreaseAllowance k p v) ((hact _).mpr hb)
    refine ⟨fun t' data => ?_, fun h => ?_, fun _ _ => ho⟩
    · rw [ho]; simp [Good, hc]
    · exact absurd h.1 (by simp [hc])
  | true =>
    cases ha : SafeErc20.allowance (W.token keccak256 s self_ k) s self_ p with
    | mk t1 x =>
      cases x with
      | error e =>
        obtain rfl := allowance_err ha
        have hb : SafeErc20.safeIncreaseAllowance (W.token keccak256 s self_ k) s self_ p v = (t1, .error .failedOperation) := by
          unfold SafeErc20.safeIncreaseAllowance
          rw [ha]
        have ho : out = .reverted (failed k) := by
          rw [← revert_failed]; exact act_error (.safeIncreaseAllowance k p v) ((hact _).mpr hb)
        have hno : ∀ n t2, ¬ Tells W s self_ k p n t2 := by
          intro n t2 h
          rw [(allowance_eq hc t2 n).mpr h] at ha
          cases ha
        refine ⟨fun t' data => ?_, fun h => ?_, fun _ _ => ho⟩
        · rw [ho]
          simp only [reduceCtorEq, false_iff, not_and]
          rintro ⟨_, n, t2, w, h, _⟩
          exact absurd h (hno n t2)
        · obtain ⟨_, n, t2, h, _⟩ := h
          exact absurd h (hno n t2)
      | ok n =>
        have hT := (allowance_eq hc t1 n).mp ha
        have hu : ∀ m t2, Tells W s self_ k p m t2 → m = n ∧ t2 = t1 := by
          intro m t2 h
          have := (allowance_eq hc t2 m).mpr h
          rw [ha] at this
          cases this
          exact ⟨rfl, rfl⟩
        have hc1 : W.hasCode t1 k = true := by
          obtain ⟨d, h, _⟩ := hT
          exact hW _ _ _ _ _ _ _ h hc
        by_cases hfit : n.toNat + v.toNat < 2 ^ 256
        · have hadd : checkedAdd n v = some (n + v) := by
            unfold checkedAdd; rw [if_pos hfit]
          have hw : (n + v).toNat = n.toNat + v.toNat := by rw [BitVec.toNat_add, Nat.mod_eq_of_lt hfit]
          have hb : SafeErc20.safeIncreaseAllowance (W.token keccak256 s self_ k) s self_ p v =
              SafeErc20.forceApprove (W.token keccak256 s self_ k) t1 p (n + v) := by
            unfold SafeErc20.safeIncreaseAllowance
            rw [ha]
            simp only
            rw [hadd]
          have hg : ∀ t', SafeErc20.forceApprove (W.token keccak256 s self_ k) t1 p (n + v) = (t', .ok ()) ↔ Good t' := by
            intro t'
            rw [force_ok hW hc hc1]
            constructor
            · intro h; exact ⟨hc, n, t1, n + v, hT, hw, h⟩
            · rintro ⟨_, m, t2, w, h, h2, h3⟩
              obtain ⟨rfl, rfl⟩ := hu m t2 h
              have : w = m + v := BitVec.eq_of_toNat_eq (by rw [h2, hw])
              rw [← this]; exact h3
          refine ⟨fun t' data => (act_iff _).trans (and_congr (((hact _).trans (by rw [hb])).trans (hg t')) Iff.rfl), fun h => ?_, fun hn _ => ?_⟩
          · obtain ⟨_, m, t2, h, h2⟩ := h
            obtain ⟨rfl, rfl⟩ := hu m t2 h
            omega
          · exact else_failed (.safeIncreaseAllowance k p v) (fun t' h => (hg t').mp (hb ▸ (hact _).mp h))
              (fun t' e he => force_err (hb ▸ (hact _).mp he)) hn
        · have hadd : checkedAdd n v = none := by
            unfold checkedAdd; rw [if_neg hfit]
          have hb : SafeErc20.safeIncreaseAllowance (W.token keccak256 s self_ k) s self_ p v = (t1, .error .panic) := by
            unfold SafeErc20.safeIncreaseAllowance
            rw [ha]
            simp only
            rw [hadd]
          have ho : out = .reverted [] := act_error (.safeIncreaseAllowance k p v) ((hact _).mpr hb)
          refine ⟨fun t' data => ?_, fun _ => ho, fun _ h => absurd ⟨hc, n, t1, hT, by omega⟩ h⟩
          rw [ho]
          simp only [reduceCtorEq, false_iff, not_and]
          rintro ⟨_, m, t2, w, h, h2, _⟩
          obtain ⟨rfl, rfl⟩ := hu m t2 h
          have := w.isLt
          omega

/-- What a decrease of too much reverts with. -/
abbrev tooLow (p : Address) (n v : U256) : Bytes :=
  call "SafeErc20FailedDecreaseAllowance(address,uint256,uint256)" [addr p, n, v]

theorem revert_low (token p : Address) (n v : U256) : revert token (.failedDecreaseAllowance p n v) = tooLow p n v :=
  error_bytes _ _ "SafeErc20FailedDecreaseAllowance(address,uint256,uint256)" rfl rfl

/-- **C108** `safeDecreaseAllowance(k, p, v)` succeeds exactly if `k` tells a current allowance `n` of at least `v` and the allowance can
be set to the difference; if it tells less it reverts with `SafeErc20FailedDecreaseAllowance(p, n, v)`, and otherwise with
`SafeErc20FailedOperation(k)`. -/
theorem C108_decrease (W : World τ) (hW : Stays W) (D : Decoder) (self_ caller : Address) (s : τ) (k p : Address) (v : U256) :
    let out := safe W D self_ caller s 0#256 (message (abi (.safeDecreaseAllowance k p v)).1 (abi (.safeDecreaseAllowance k p v)).2)
    let Good := fun t' => W.hasCode s k = true ∧ ∃ n t1 w, Tells W s self_ k p n t1 ∧ w.toNat + v.toNat = n.toNat ∧
      Approves W t1 self_ k p w t'
    let Low := fun n : U256 => W.hasCode s k = true ∧ (∃ t1, Tells W s self_ k p n t1) ∧ n.toNat < v.toNat
    (∀ t' data, out = .returned t' data ↔ Good t' ∧ data = []) ∧
    (∀ n, Low n → out = .reverted (tooLow p n v)) ∧
    ((∀ t', ¬ Good t') → (∀ n, ¬ Low n) → out = .reverted (failed k)) := by
  intro out Good Low
  have hact : ∀ x, act self_ (W.token keccak256 s self_ k) s (.safeDecreaseAllowance k p v) = x ↔
      SafeErc20.safeDecreaseAllowance (W.token keccak256 s self_ k) s self_ p v = x := fun x => Iff.rfl
  cases hc : W.hasCode s k with
  | false =>
    have hb : SafeErc20.safeDecreaseAllowance (W.token keccak256 s self_ k) s self_ p v = (s, .error .failedOperation) := by
      unfold SafeErc20.safeDecreaseAllowance
      rw [allowance_nocode hc]
    have ho : out = .reverted (failed k) := by
      rw [← revert_failed]; exact act_error (.safeDecreaseAllowance k p v) ((hact _).mpr hb)
    refine ⟨fun t' data => ?_, fun n h => ?_, fun _ _ => ho⟩
    · rw [ho]; simp [Good, hc]
    · exact absurd h.1 (by simp [hc])
  | true =>
    cases ha : SafeErc20.allowance (W.token keccak256 s self_ k) s self_ p with
    | mk t1 x =>
      cases x with
      | error e =>
        obtain rfl := allowance_err ha
        have hb : SafeErc20.safeDecreaseAllowance (W.token keccak256 s self_ k) s self_ p v = (t1, .error .failedOperation) := by
          unfold SafeErc20.safeDecreaseAllowance
          rw [ha]
        have ho : out = .reverted (failed k) := by
          rw [← revert_failed]; exact act_error (.safeDecreaseAllowance k p v) ((hact _).mpr hb)
        have hno : ∀ n t2, ¬ Tells W s self_ k p n t2 := by
          intro n t2 h
          rw [(allowance_eq hc t2 n).mpr h] at ha
          cases ha
        refine ⟨fun t' data => ?_, fun n h => ?_, fun _ _ => ho⟩
        · rw [ho]
          simp only [reduceCtorEq, false_iff, not_and]
          rintro ⟨_, n, t2, w, h, _⟩
          exact absurd h (hno n t2)
        · obtain ⟨_, ⟨t2, h⟩, _⟩ := h
          exact absurd h (hno n t2)
      | ok n =>
        have hT := (allowance_eq hc t1 n).mp ha
        have hu : ∀ m t2, Tells W s self_ k p m t2 → m = n ∧ t2 = t1 := by
          intro m t2 h
          have := (allowance_eq hc t2 m).mpr h
          rw [ha] at this
          cases this
          exact ⟨rfl, rfl⟩
        have hc1 : W.hasCode t1 k = true := by
          obtain ⟨d, h, _⟩ := hT
          exact hW _ _ _ _ _ _ _ h hc
        by_cases hfit : v.toNat ≤ n.toNat
        · have hle : ¬ n < v := by rw [BitVec.lt_def]; omega
          have hw : (n - v).toNat + v.toNat = n.toNat := by
            rw [BitVec.toNat_sub_of_le (by rw [BitVec.le_def]; exact hfit)]; omega
          have hb : SafeErc20.safeDecreaseAllowance (W.token keccak256 s self_ k) s self_ p v =
              SafeErc20.forceApprove (W.token keccak256 s self_ k) t1 p (n - v) := by
            unfold SafeErc20.safeDecreaseAllowance
            rw [ha]
            simp only
            rw [if_neg hle]
          have hg : ∀ t', SafeErc20.forceApprove (W.token keccak256 s self_ k) t1 p (n - v) = (t', .ok ()) ↔ Good t' := by
            intro t'
            rw [force_ok hW hc hc1]
            constructor
            · intro h; exact ⟨hc, n, t1, n - v, hT, hw, h⟩
            · rintro ⟨_, m, t2, w, h, h2, h3⟩
              obtain ⟨rfl, rfl⟩ := hu m t2 h
              have : w = m - v := BitVec.eq_of_toNat_eq (by omega)
              rw [← this]; exact h3
          refine ⟨fun t' data => (act_iff _).trans (and_congr (((hact _).trans (by rw [hb])).trans (hg t')) Iff.rfl), fun m h => ?_, fun hn _ => ?_⟩
          · obtain ⟨_, ⟨t2, h⟩, h2⟩ := h
            obtain ⟨rfl, rfl⟩ := hu m t2 h
            omega
          · exact else_failed (.safeDecreaseAllowance k p v) (fun t' h => (hg t').mp (hb ▸ (hact _).mp h))
              (fun t' e he => force_err (hb ▸ (hact _).mp he)) hn
        · have hlt : n < v := by rw [BitVec.lt_def]; omega
          have hb : SafeErc20.safeDecreaseAllowance (W.token keccak256 s self_ k) s self_ p v =
              (t1, .error (.failedDecreaseAllowance p n v)) := by
            unfold SafeErc20.safeDecreaseAllowance
            rw [ha]
            simp only
            rw [if_pos hlt]
          have ho : out = .reverted (tooLow p n v) := by
            rw [← revert_low k]; exact act_error (.safeDecreaseAllowance k p v) ((hact _).mpr hb)
          refine ⟨fun t' data => ?_, fun m h => ?_, fun _ h => absurd ⟨hc, ⟨t1, hT⟩, by omega⟩ (h n)⟩
          · rw [ho]
            simp only [reduceCtorEq, false_iff, not_and]
            rintro ⟨_, m, t2, w, h, h2, _⟩
            obtain ⟨rfl, rfl⟩ := hu m t2 h
            omega
          · obtain ⟨_, ⟨t2, h⟩, _⟩ := h
            obtain ⟨rfl, rfl⟩ := hu m t2 h
            exact ho

/-! ### Over the token of `examples/basic`

The library tells its users to inherit `SafeErc20`; its functions are then functions of their contract, and nothing restricts who calls
them. -/

section token

variable (D : Decoder) (m : Entry.Strings)

/-- Code does not vanish from this world. -/
theorem token_stays (k : Address) : Stays (tokenWorld D m k) := fun _ _ _ _ _ _ _ _ h => h

theorem token_answers (asker a b : Address) (t : Erc20.State) :
    answer (Entry.basicTokenEntry keccak256 D m) asker t "balanceOf(address)" [.address a] = some (values [.uint256 (t.balances a)]) ∧
    answer (Entry.basicTokenEntry keccak256 D m) asker t "allowance(address,address)" [.address a, .address b] =
      some (values [.uint256 (t.allowances a b)]) := by
  have h := Props.Contracts.BasicTokenContract.C103_basic_token_views D m asker t a b
  unfold answer
  constructor
  · have h1 : Entry.basicTokenEntry keccak256 D m asker t 0#256 (message "balanceOf(address)" [.address a]) = _ := h.2.1
    rw [h1]; rfl
  · have h1 : Entry.basicTokenEntry keccak256 D m asker t 0#256
        (message "allowance(address,address)" [.address a, .address b]) = _ := h.2.2.1
    rw [h1]; rfl

theorem token_reachable (txs : List (Raw Address)) :
    Spec.Erc20.Reachable (after (Entry.basicTokenEntry keccak256 D m) Erc20.init txs) := by
  obtain ⟨l, hl, _⟩ := Props.Contracts.BasicTokenContract.C103_basic_token_history D m Erc20.init txs
  exact ⟨_, hl⟩

theorem std_ok {me : Address} {t t' : Erc20.State} {r : SafeErc20.Req}
    (h : (SafeErc20.standardToken me).call t r = some (t', SafeErc20.encodeTrue)) :
    SafeErc20.callOptionalReturn (SafeErc20.standardToken me) t r = (t', .ok ()) :=
  (Props.SafeErc20.call_ok_iff _ _ _ _).mpr ⟨rfl, _, h, Props.SafeErc20.accepted_true⟩

/-- **C108** (finding) Anybody takes all tokens of a contract that inherits `SafeErc20`: whatever has been sent to the token, and
whoever calls, `safeTransfer(k, thief, b)` with the whole balance `b` of the contract succeeds; afterwards the token answers that
the contract has nothing and the thief has that much more. -/
theorem C108_anybody_takes (k self_ caller thief : Address) (hs : self_ ≠ ZERO) (ht : thief ≠ ZERO) (hne : thief ≠ self_)
    (txs : List (Raw Address)) (asker : Address) :
    let token := Entry.basicTokenEntry keccak256 D m
    let t := after token Erc20.init txs
    ∃ (b c c' : U256) (t' : Erc20.State),
      answer token asker t "balanceOf(address)" [.address self_] = some (values [.uint256 b]) ∧
      answer token asker t "balanceOf(address)" [.address thief] = some (values [.uint256 c]) ∧
      safe (tokenWorld D m k) D self_ caller t 0#256
        (message "safeTransfer(address,address,uint256)" [.address k, .address thief, .uint256 b]) = .returned t' [] ∧
      answer token asker t' "balanceOf(address)" [.address self_] = some (values [.uint256 0#256]) ∧
      answer token asker t' "balanceOf(address)" [.address thief] = some (values [.uint256 c']) ∧
      c'.toNat = c.toNat + b.toNat := by
  intro token t
  obtain ⟨t', h⟩ := (Props.C02_transfer_succeeds_iff t self_ thief (t.balances self_)).mpr ⟨hs, ht, Nat.le_refl _⟩
  have e := (Props.C02_transfer_effect (token_reachable D m txs) h).1
  have e1 := e self_
  have e2 := e thief
  simp only [Erc20.balanceOf, if_true, if_neg hne, if_neg hne.symm, Nat.add_zero] at e1 e2
  have hz : t'.balances self_ = 0#256 := BitVec.eq_of_toNat_eq (by
    show (t'.balances self_).toNat = 0
    have e1' : (t'.balances self_).toNat + (t.balances self_).toNat = (t.balances self_).toNat := e1
    omega)
  refine ⟨t.balances self_, t.balances thief, t'.balances thief, t', (token_answers D m asker self_ self_ t).1,
    (token_answers D m asker thief thief t).1, ?_, ?_, (token_answers D m asker thief thief t').1, e2⟩
  · refine (act_iff (.safeTransfer k thief (t.balances self_))).mpr ⟨?_, rfl⟩
    show SafeErc20.safeTransfer ((tokenWorld D m k).token keccak256 t self_ k) t thief (t.balances self_) = _
    rw [Props.Vault.token_std]
    exact std_ok (by simp only [SafeErc20.standardToken, h])
  · rw [(token_answers D m asker self_ self_ t').1, hz]

/-- **C108** (finding) Anybody spends the allowances a contract that inherits `SafeErc20` has been given: whatever has been sent to the
token, and whoever calls, `safeTransferFrom(k, victim, thief, v)` succeeds for every `v` that the victim owns and allows the contract;
afterwards the token answers that the victim has `v` less and the thief `v` more. -/
theorem C108_anybody_spends (k self_ caller victim thief : Address) (hs : self_ ≠ ZERO) (hv : victim ≠ ZERO) (ht : thief ≠ ZERO)
    (hne : thief ≠ victim) (txs : List (Raw Address)) (asker : Address) (a b c v : U256) :
    let token := Entry.basicTokenEntry keccak256 D m
    let t := after token Erc20.init txs
    answer token asker t "allowance(address,address)" [.address victim, .address self_] = some (values [.uint256 a]) →
    answer token asker t "balanceOf(address)" [.address victim] = some (values [.uint256 b]) →
    answer token asker t "balanceOf(address)" [.address thief] = some (values [.uint256 c]) →
    v.toNat ≤ a.toNat → v.toNat ≤ b.toNat →
    ∃ (b' c' : U256) (t' : Erc20.State),
      safe (tokenWorld D m k) D self_ caller t 0#256
        (message "safeTransferFrom(address,address,address,uint256)" [.address k, .address victim, .address thief, .uint256 v]) =
          .returned t' [] ∧
      answer token asker t' "balanceOf(address)" [.address victim] = some (values [.uint256 b']) ∧
      answer token asker t' "balanceOf(address)" [.address thief] = some (values [.uint256 c']) ∧
      b'.toNat + v.toNat = b.toNat ∧ c'.toNat = c.toNat + v.toNat := by
  intro token t ha hb hc h1 h2
  rw [(token_answers D m asker victim self_ t).2] at ha
  rw [(token_answers D m asker victim victim t).1] at hb
  rw [(token_answers D m asker thief thief t).1] at hc
  obtain rfl := uint256_inj (Option.some.inj ha)
  obtain rfl := uint256_inj (Option.some.inj hb)
  obtain rfl := uint256_inj (Option.some.inj hc)
  obtain ⟨t', h⟩ := (Props.C03_transferFrom_succeeds_iff t hs victim thief v).mpr ⟨hv, ht, h1, h2⟩
  have e := (Props.C03_transferFrom_effect (token_reachable D m txs) h).1
  have e1 := e victim
  have e2 := e thief
  simp only [Erc20.balanceOf, if_true, if_neg hne, if_neg hne.symm, Nat.add_zero] at e1 e2
  refine ⟨t'.balances victim, t'.balances thief, t', ?_, (token_answers D m asker victim victim t').1,
    (token_answers D m asker thief thief t').1, e1, e2⟩
  refine (act_iff (.safeTransferFrom k victim thief v)).mpr ⟨?_, rfl⟩
  show SafeErc20.safeTransferFrom ((tokenWorld D m k).token keccak256 t self_ k) t victim thief v = _
  rw [Props.Vault.token_std]
  exact std_ok (by simp only [SafeErc20.standardToken, h])

/-- **C108** (finding) Anybody sets the allowances of a contract that inherits `SafeErc20`, in every state of the token. -/
theorem C108_anybody_approves (k self_ caller p : Address) (hs : self_ ≠ ZERO) (hp : p ≠ ZERO) (t : Erc20.State) (v : U256)
    (asker : Address) :
    ∃ t', safe (tokenWorld D m k) D self_ caller t 0#256
        (message "forceApprove(address,address,uint256)" [.address k, .address p, .uint256 v]) = .returned t' [] ∧
      answer (Entry.basicTokenEntry keccak256 D m) asker t' "allowance(address,address)" [.address self_, .address p] =
        some (values [.uint256 v]) := by
  obtain ⟨t', h1, h2⟩ := Props.SafeErc20.C26_force_approve (Props.SafeErc20.C26_standard_conforms self_ hs) t p v hp
  refine ⟨t', (act_iff (.forceApprove k p v)).mpr ⟨?_, rfl⟩, ?_⟩
  · show SafeErc20.forceApprove ((tokenWorld D m k).token keccak256 t self_ k) t p v = _
    rw [Props.Vault.token_std]
    exact h1
  · rw [(token_answers D m asker self_ p t').2]
    have := congrFun h2 p
    simp only [upd, if_true] at this
    rw [this]

/-- The hypotheses of `C108_anybody_spends` and `C108_anybody_takes` are met, by a token with a mint of 1000 to the victim, a transfer of
200 of them to the contract and an approval of 300 for the contract. -/
example (asker : Address) :
    let token := Entry.basicTokenEntry keccak256 D m
    let t := after token Erc20.init (sent Props.Contracts.BasicTokenContract.abi
      [(9#160, .mint 7#160 1000#256), (7#160, .transfer 5#160 200#256), (7#160, .approve 5#160 300#256)])
    answer token asker t "allowance(address,address)" [.address 7#160, .address 5#160] = some (values [.uint256 300#256]) ∧
    answer token asker t "balanceOf(address)" [.address 7#160] = some (values [.uint256 800#256]) ∧
    answer token asker t "balanceOf(address)" [.address 5#160] = some (values [.uint256 200#256]) := by
  intro token t
  have ht : t = Erc20.run Erc20.init [(9#160, .mint 7#160 1000#256), (7#160, .transfer 5#160 200#256), (7#160, .approve 5#160 300#256)] := by
    refine Props.Contracts.BasicTokenContract.C103_basic_token_sends D m Erc20.init _ fun x hx => ?_
    simp only [List.mem_cons, List.not_mem_nil, or_false] at hx
    rcases hx with rfl | rfl | rfl <;>
      exact words_lt _ _ (by simp [Props.Contracts.BasicTokenContract.abi, arg]) (by simp [Props.Contracts.BasicTokenContract.abi])
  rw [(token_answers D m asker 7#160 5#160 t).1, (token_answers D m asker 7#160 5#160 t).2, (token_answers D m asker 5#160 5#160 t).1, ht]
  exact ⟨congrArg (fun x => some (values [.uint256 x])) (by decide +kernel),
    congrArg (fun x => some (values [.uint256 x])) (by decide +kernel),
    congrArg (fun x => some (values [.uint256 x])) (by decide +kernel)⟩

end token

/-! ### A token that wants zero first -/

/-- A token whose state is the allowance of its caller for 7: it sets it, to 0 or, from 0, to 5, answering nothing, and refuses
everything else. -/
def fussy : World U256 where
  hasCode _ a := decide (a = 3#160)
  call t _ _ b :=
    if b = approval 7#160 0#256 then .returned 0#256 []
    else if b = approval 7#160 5#256 ∧ t = 0#256 then .returned 5#256 []
    else .reverted []
  look _ _ _ _ _ := none

set_option maxRecDepth 100000 in
theorem approvals_differ : approval 7#160 5#256 ≠ approval 7#160 0#256 := by
  intro h
  have : ∀ a b c : Bytes, a ++ b = a ++ c → b = c := fun a b c => List.append_cancel_left
  have h2 := this _ _ _ h
  revert h2
  decide +kernel

/-- `C108_forceApprove` over it: code stays, the direct approval is declined and the way by zero is taken. -/
theorem fussy_approves : Stays fussy ∧ Approves fussy 4#256 1#160 3#160 7#160 5#256 5#256 ∧
    ¬ Takes fussy 4#256 1#160 3#160 (approval 7#160 5#256) 5#256 := by
  have h5 : fussy.call 4#256 1#160 3#160 (approval 7#160 5#256) = .reverted [] := by
    unfold fussy
    simp only
    rw [if_neg approvals_differ, if_neg (by simp)]
  have h0 : ∀ t, fussy.call t 1#160 3#160 (approval 7#160 0#256) = .returned 0#256 [] := fun t => by
    unfold fussy
    simp only
    rw [if_pos trivial]
  have h6 : fussy.call 0#256 1#160 3#160 (approval 7#160 5#256) = .returned 5#256 [] := by
    unfold fussy
    simp only
    rw [if_neg approvals_differ, if_pos ⟨trivial, trivial⟩]
  refine ⟨fun _ _ _ _ _ _ _ _ h => h, .inr ⟨4#256, 0#256, .inl ⟨[], h5, rfl⟩, ⟨rfl, [], h0 _, .inl rfl⟩, ⟨rfl, [], h6, .inl rfl⟩⟩, ?_⟩
  rintro ⟨_, d, h, _⟩
  rw [h5] at h
  cases h

/-- So the contract sets the allowance, whoever calls it. -/
example (D : Decoder) (caller : Address) :
    safe fussy D 1#160 caller 4#256 0#256 (message "forceApprove(address,address,uint256)" [.address 3#160, .address 7#160, .uint256 5#256]) =
      .returned 5#256 [] :=
  ((C108_forceApprove fussy fussy_approves.1 D 1#160 caller 4#256 3#160 7#160 5#256).1 _ _).mpr
    ⟨⟨rfl, fussy_approves.2.1⟩, rfl⟩

end Verif.Props.SafeBytes
