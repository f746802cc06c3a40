import Verif.Props.Calls
/-!
# C101: receivers of ERC-1155 tokens that refuse

What the sender of a transfer learns when the receiver reverts, or answers something else than the magic word.
-/
namespace Verif.Props.Refusals
open Verif Verif.Abi Verif.Calls Verif.Proofs.Abi Verif.Props.Calls
open Verif.Spec.Keccak (keccak256)
open Verif.Spec.Revert (word addr)
open Verif.Spec.Calls (tail array)
open Verif.Erc1155 (State Err Receivers Notice)

/-- The error for a receiver that reverts: with its data, if there are any. -/
def refused (dst : Address) (reason : Bytes) : Err := if reason = [] then .invalidReceiver dst else .invalidReceiverWithReason reason

theorem check {D : Decoder} {W : Address → Option (Bytes → Outcome Unit)} {dst : Address} {prog : Bytes → Outcome Unit}
    (hp : W dst = some prog) {sel : BitVec 32} {n : Notice} {msg : Bytes} (hm : (notice n).bytes keccak256 = msg) :
    (∀ reason, prog msg = .reverted reason →
      Erc1155.checkOnReceived (receivers1155 keccak256 D W) dst (sel, n) = .error (refused dst reason)) ∧
    ∀ reply, prog msg = .returned () reply → ¬ word (sel ++ 0#224) <+: reply →
      Erc1155.checkOnReceived (receivers1155 keccak256 D W) dst (sel, n) = .error (.invalidReceiver dst) := by
  have hR : receivers1155 keccak256 D W dst = some fun n => answer1155 D (prog ((notice n).bytes keccak256)) := by
    simp [receivers1155, hp]
  unfold Erc1155.checkOnReceived
  rw [hR]
  simp only [hm]
  refine ⟨fun reason h => ?_, fun reply h hne => ?_⟩
  · rw [h]
    by_cases e : reason = [] <;> simp [answer1155, refused, e]
  · rw [h]
    cases ha : answer1155 D (.returned () reply) with
    | failure => rfl
    | revert r =>
      simp only [answer1155] at ha
      split at ha <;> cases ha
    | selector x =>
      dsimp only
      by_cases e : x = sel
      · subst e
        obtain ⟨data, h1, h2⟩ := answer1155_inv ha
        cases h1
        exact absurd h2 hne
      · rw [if_pos e]

/-- The receiver is the last to be asked. -/
theorem last {R : Receivers} {s s1 : State} {caller src dst : Address} {ids vs : List U256} {data : Bytes} {e : Err}
    (h : Erc1155.safeBatchTransferFrom (fun _ => none) s caller src dst ids vs data = .ok s1)
    (hc : Erc1155.checkOnReceived R dst (Erc1155.receiverData caller src ids vs data) = .error e) :
    Erc1155.safeBatchTransferFrom R s caller src dst ids vs data = .error e := by
  unfold Erc1155.safeBatchTransferFrom Erc1155.doSafeTransferFrom Erc1155.updateWithAcceptanceCheck at h ⊢
  cases h1 : Erc1155.authorizeTransfer s caller src with
  | error e => rw [h1] at h; cases h
  | ok u =>
    rw [h1] at h
    simp only [except_bind_ok] at h ⊢
    by_cases hd : dst = ZERO
    · rw [if_pos hd] at h; cases h
    · by_cases hs : src = ZERO
      · rw [if_neg hd, if_pos hs] at h; cases h
      · rw [if_neg hd, if_neg hs] at h ⊢
        cases h2 : Erc1155.update s caller src dst ids vs with
        | error e => rw [h2] at h; cases h
        | ok s2 =>
          simp only [except_bind_ok, except_pure, ne_eq, hd, not_false_eq_true, if_true, hc]
          rfl

/-- **C101** A contract that refuses an ERC-1155 transfer: if the transfer would go through to an account without code, then with a
receiver that reverts it fails with the receiver's data, or with `ERC1155InvalidReceiver` if there are none, and with a receiver whose
answer does not begin with the magic word it fails with `ERC1155InvalidReceiver`. -/
theorem C101_erc1155_refusal (D : Decoder) (W : Address → Option (Bytes → Outcome Unit)) (s s1 : State)
    (caller src dst : Address) (id v : U256) (data : Bytes) (prog : Bytes → Outcome Unit) (hp : W dst = some prog)
    (hx : Erc1155.safeTransferFrom (fun _ => none) s caller src dst id v data = .ok s1) :
    let msg := [0xf2#8, 0x3a#8, 0x6e#8, 0x61#8] ++ word (addr caller) ++ word (addr src) ++ word id ++ word v ++
      word 0xa0#256 ++ tail data
    (∀ reason, prog msg = .reverted reason →
      Erc1155.safeTransferFrom (receivers1155 keccak256 D W) s caller src dst id v data =
        .error (if reason = [] then .invalidReceiver dst else .invalidReceiverWithReason reason)) ∧
    ∀ reply, prog msg = .returned () reply → ¬ magicWord 0xf2#8 0x3a#8 0x6e#8 0x61#8 <+: reply →
      Erc1155.safeTransferFrom (receivers1155 keccak256 D W) s caller src dst id v data = .error (.invalidReceiver dst) := by
  intro msg
  obtain ⟨h1, h2⟩ := check (D := D) hp (sel := 0xf23a6e61#32) (n := .single caller src id v data)
    (C101_receiver_messages caller src 0#160 id v 0#256 [] [] data).2.1
  rw [magicSingle] at h2
  exact ⟨fun r h => last (ids := [id]) (vs := [v]) hx (h1 r h), fun r h hne => last (ids := [id]) (vs := [v]) hx (h2 r h hne)⟩

/-- **C101** The same for a batch of another length than one. -/
theorem C101_erc1155_batch_refusal (D : Decoder) (W : Address → Option (Bytes → Outcome Unit)) (s s1 : State)
    (caller src dst : Address) (ids vs : List U256) (data : Bytes) (prog : Bytes → Outcome Unit) (hp : W dst = some prog)
    (hlen : ids.length ≠ 1) (hx : Erc1155.safeBatchTransferFrom (fun _ => none) s caller src dst ids vs data = .ok s1) :
    let msg := [0xbc#8, 0x19#8, 0x7c#8, 0x81#8] ++ word (addr caller) ++ word (addr src) ++ word 0xa0#256 ++
      word (BitVec.ofNat 256 (0xa0 + (32 + 32 * ids.length))) ++
      word (BitVec.ofNat 256 (0xa0 + (32 + 32 * ids.length) + (32 + 32 * vs.length))) ++
      array ids ++ array vs ++ tail data
    (∀ reason, prog msg = .reverted reason →
      Erc1155.safeBatchTransferFrom (receivers1155 keccak256 D W) s caller src dst ids vs data =
        .error (if reason = [] then .invalidReceiver dst else .invalidReceiverWithReason reason)) ∧
    ∀ reply, prog msg = .returned () reply → ¬ magicWord 0xbc#8 0x19#8 0x7c#8 0x81#8 <+: reply →
      Erc1155.safeBatchTransferFrom (receivers1155 keccak256 D W) s caller src dst ids vs data = .error (.invalidReceiver dst) := by
  intro msg
  have hd : Erc1155.receiverData caller src ids vs data = (0xbc197c81#32, .batch caller src ids vs data) := by
    unfold Erc1155.receiverData
    split
    · exact absurd rfl hlen
    · rfl
  obtain ⟨h1, h2⟩ := check (D := D) hp (sel := 0xbc197c81#32) (n := .batch caller src ids vs data)
    (C101_receiver_messages caller src 0#160 0#256 0#256 0#256 ids vs data).2.2.1
  rw [magicBatch] at h2
  exact ⟨fun r h => last hx (hd ▸ h1 r h), fun r h hne => last hx (hd ▸ h2 r h hne)⟩

/-- **C101** A batch of one is sent as a single transfer. -/
theorem C101_erc1155_batch_of_one (R : Receivers) (s : State) (caller src dst : Address) (id v : U256) (data : Bytes) :
    Erc1155.safeBatchTransferFrom R s caller src dst [id] [v] data = Erc1155.safeTransferFrom R s caller src dst id v data := rfl

/-! ### The hypotheses are met -/

/-- Alice has 5 of one kind and 3 of another. -/
def tokens : State := match Erc1155.doMint (fun _ => none) Erc1155.init alice alice [7#256, 8#256] [5#256, 3#256] [] with
  | .ok s => s
  | .error _ => Erc1155.init

theorem tokens_move (data : Bytes) : (∃ s1, Erc1155.safeTransferFrom (fun _ => none) tokens alice alice vault 7#256 2#256 data = .ok s1) ∧
    ∃ s1, Erc1155.safeBatchTransferFrom (fun _ => none) tokens alice alice vault [7#256, 8#256] [2#256, 3#256] data = .ok s1 := by
  refine ⟨?_, ?_⟩
  · cases h : Erc1155.safeTransferFrom (fun _ => none) tokens alice alice vault 7#256 2#256 data with
    | ok s => exact ⟨s, rfl⟩
    | error e =>
      have : (Erc1155.safeTransferFrom (fun _ => none) tokens alice alice vault 7#256 2#256 []).toOption.isSome = true := by decide +kernel
      change (Erc1155.safeTransferFrom (fun _ => none) tokens alice alice vault 7#256 2#256 data).toOption.isSome = true at this
      rw [h] at this; cases this
  · cases h : Erc1155.safeBatchTransferFrom (fun _ => none) tokens alice alice vault [7#256, 8#256] [2#256, 3#256] data with
    | ok s => exact ⟨s, rfl⟩
    | error e =>
      have : (Erc1155.safeBatchTransferFrom (fun _ => none) tokens alice alice vault [7#256, 8#256] [2#256, 3#256] []).toOption.isSome = true := by
        decide +kernel
      change (Erc1155.safeBatchTransferFrom (fun _ => none) tokens alice alice vault [7#256, 8#256] [2#256, 3#256] data).toOption.isSome = true
        at this
      rw [h] at this; cases this

-- C101_erc1155_refusal, C101_erc1155_batch_refusal: the reason is passed on; an answer of four zero bytes is not enough
example (D : Decoder) (data : Bytes) :
    let R prog := receivers1155 keccak256 D fun a => if a = vault then some prog else none
    Erc1155.safeTransferFrom (R hostile) tokens alice alice vault 7#256 2#256 data = .error (.invalidReceiverWithReason [0xde#8, 0xad#8]) ∧
    Erc1155.safeBatchTransferFrom (R hostile) tokens alice alice vault [7#256, 8#256] [2#256, 3#256] data =
      .error (.invalidReceiverWithReason [0xde#8, 0xad#8]) ∧
    Erc1155.safeTransferFrom (R fun _ => .returned () (List.replicate 32 0#8)) tokens alice alice vault 7#256 2#256 data =
      .error (.invalidReceiver vault) := by
  intro R
  obtain ⟨⟨s1, h1⟩, s2, h2⟩ := tokens_move data
  exact ⟨(C101_erc1155_refusal D _ tokens s1 alice alice vault 7#256 2#256 data hostile (by simp) h1).1 _ rfl,
    (C101_erc1155_batch_refusal D _ tokens s2 alice alice vault [7#256, 8#256] [2#256, 3#256] data hostile (by simp) (by simp) h2).1 _ rfl,
    (C101_erc1155_refusal D _ tokens s1 alice alice vault 7#256 2#256 data (fun _ => .returned () (List.replicate 32 0#8)) (if_pos rfl)
      h1).2 _ rfl (by decide)⟩

end Verif.Props.Refusals
