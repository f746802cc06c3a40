import Verif.Model.Revert
import Verif.Spec.Revert
import Verif.Props.Crypto
import Verif.Props.Erc20
import Verif.Props.Erc721
import Verif.Props.RevertValues
/-! # C95: what a failed call reverts with -/

namespace Verif.Props.Revert
open Verif Verif.Revert
open Verif.Interfaces (SolType functionSelector signature)
open Verif.Spec.Keccak (keccak256)
open Verif.Spec.Revert (errorData addr)

theorem be32_word (x : U256) : be32 x = Spec.Revert.word x := by
  unfold be32 Spec.Revert.word
  refine List.map_congr_left fun i hi => ?_
  have hi := List.mem_range.mp hi
  apply BitVec.eq_of_toNat_eq
  rw [BitVec.extractLsb'_toNat, BitVec.toNat_ofNat, Nat.shiftRight_eq_div_pow, Nat.pow_mul]

theorem abiAddress_word (a : Address) : abiAddress a = Spec.Revert.word (addr a) := by
  unfold abiAddress addr
  rw [be32_word]
  congr 1
  apply BitVec.eq_of_toNat_eq
  rw [BitVec.toNat_setWidth, BitVec.toNat_ofNat]

theorem be4_word (h : B256) : be4 (h.extractLsb' 224 32) = (Spec.Revert.word h).take 4 := by
  unfold be4 Spec.Revert.word
  rw [← List.map_take]
  have : (List.range 32).take 4 = List.range 4 := by decide
  rw [this]
  refine List.map_congr_left fun i hi => ?_
  have hi := List.mem_range.mp hi
  apply BitVec.eq_of_toNat_eq
  rw [BitVec.extractLsb'_toNat, BitVec.extractLsb'_toNat, BitVec.toNat_ofNat, Nat.shiftRight_eq_div_pow,
    Nat.shiftRight_eq_div_pow]
  have hlt : h.toNat / 2 ^ 224 < 2 ^ 32 := by have := h.isLt; omega
  rw [Nat.mod_eq_of_lt hlt, Nat.div_div_eq_div_mul, ← Nat.pow_add]
  have e : 224 + 8 * (3 - i) = 8 * (31 - i) := by omega
  rw [e, Nat.pow_mul]

/-- The words of the fields. -/
def wordOf : Val → U256
  | .address a => addr a
  | .uint256 x => x
  | .bytes32 x => x

theorem word_of (v : Val) : v.word = Spec.Revert.word (wordOf v) := by
  cases v with
  | address a => exact abiAddress_word a
  | uint256 x => exact be32_word x
  | bytes32 x => exact be32_word x

theorem encode_eq (K : Hash) (e : SolError) (sig : String) (h : signature e.name.toList (e.fields.map Val.type) = sig.toList) :
    abiEncode K e = errorData K sig (e.fields.map wordOf) := by
  unfold abiEncode errorData functionSelector
  rw [be4_word, h]
  congr 1
  generalize e.fields = l
  induction l with
  | nil => rfl
  | cons v l ih => rw [List.map_cons, List.flatten_cons, ih, List.map_cons, List.flatMap_cons, word_of]

private theorem enc (K : Hash) (n : String) (fs : List Val) (sig : String) (ws : List U256)
    (h : signature n.toList (fs.map Val.type) = sig.toList) (hw : fs.map wordOf = ws) :
    Reply.data K (.error ⟨n, fs⟩) = some (errorData K sig ws) := by
  subst hw; exact congrArg some (encode_eq K ⟨n, fs⟩ sig h)

/-- **C95** ERC-20: the revert data of every error are those of the ERC-6093 error with the same arguments. -/
theorem C95_erc20 (K : Hash) (a : Address) (x y : U256) :
    (erc20 (.insufficientBalance a x y)).data K =
      some (errorData K "ERC20InsufficientBalance(address,uint256,uint256)" [addr a, x, y]) ∧
    (erc20 (.invalidSender a)).data K = some (errorData K "ERC20InvalidSender(address)" [addr a]) ∧
    (erc20 (.invalidReceiver a)).data K = some (errorData K "ERC20InvalidReceiver(address)" [addr a]) ∧
    (erc20 (.insufficientAllowance a x y)).data K =
      some (errorData K "ERC20InsufficientAllowance(address,uint256,uint256)" [addr a, x, y]) ∧
    (erc20 (.invalidSpender a)).data K = some (errorData K "ERC20InvalidSpender(address)" [addr a]) ∧
    (erc20 (.invalidApprover a)).data K = some (errorData K "ERC20InvalidApprover(address)" [addr a]) := by
  refine ⟨?_, ?_, ?_, ?_, ?_, ?_⟩ <;> exact enc _ _ _ _ _ rfl rfl

/-- **C95** ERC-721: the same, and an error of the receiver is passed on byte for byte. -/
theorem C95_erc721 (K : Hash) (a b : Address) (id : U256) (reason : Bytes) :
    (erc721 (.invalidOwner a)).data K = some (errorData K "ERC721InvalidOwner(address)" [addr a]) ∧
    (erc721 (.nonexistentToken id)).data K = some (errorData K "ERC721NonexistentToken(uint256)" [id]) ∧
    (erc721 (.incorrectOwner a id b)).data K =
      some (errorData K "ERC721IncorrectOwner(address,uint256,address)" [addr a, id, addr b]) ∧
    (erc721 (.invalidSender a)).data K = some (errorData K "ERC721InvalidSender(address)" [addr a]) ∧
    (erc721 (.invalidReceiver a)).data K = some (errorData K "ERC721InvalidReceiver(address)" [addr a]) ∧
    (erc721 (.invalidReceiverWithReason reason)).data K = some reason ∧
    (erc721 (.insufficientApproval a id)).data K =
      some (errorData K "ERC721InsufficientApproval(address,uint256)" [addr a, id]) ∧
    (erc721 (.invalidApprover a)).data K = some (errorData K "ERC721InvalidApprover(address)" [addr a]) ∧
    (erc721 (.invalidOperator a)).data K = some (errorData K "ERC721InvalidOperator(address)" [addr a]) := by
  refine ⟨?_, ?_, ?_, ?_, ?_, rfl, ?_, ?_, ?_⟩ <;> exact enc _ _ _ _ _ rfl rfl

/-- **C95** ERC-1155: the same. -/
theorem C95_erc1155 (K : Hash) (a b : Address) (x y id : U256) (reason : Bytes) :
    (erc1155 (.insufficientBalance a x y id)).data K =
      some (errorData K "ERC1155InsufficientBalance(address,uint256,uint256,uint256)" [addr a, x, y, id]) ∧
    (erc1155 (.invalidSender a)).data K = some (errorData K "ERC1155InvalidSender(address)" [addr a]) ∧
    (erc1155 (.invalidReceiver a)).data K = some (errorData K "ERC1155InvalidReceiver(address)" [addr a]) ∧
    (erc1155 (.invalidReceiverWithReason reason)).data K = some reason ∧
    (erc1155 (.missingApprovalForAll a b)).data K =
      some (errorData K "ERC1155MissingApprovalForAll(address,address)" [addr a, addr b]) ∧
    (erc1155 (.invalidOperator a)).data K = some (errorData K "ERC1155InvalidOperator(address)" [addr a]) ∧
    (erc1155 (.invalidArrayLength x y)).data K =
      some (errorData K "ERC1155InvalidArrayLength(uint256,uint256)" [x, y]) := by
  refine ⟨?_, ?_, ?_, rfl, ?_, ?_, ?_⟩ <;> exact enc _ _ _ _ _ rfl rfl

/-- **C95** Ownership, roles, pausing, nonces and signatures: the errors of the Solidity library. -/
theorem C95_access_and_utils (K : Hash) (a b : Address) (x : U256) (r : B256) :
    (ownable (.unauthorizedAccount a)).data K = some (errorData K "OwnableUnauthorizedAccount(address)" [addr a]) ∧
    (ownable (.invalidOwner a)).data K = some (errorData K "OwnableInvalidOwner(address)" [addr a]) ∧
    (accessControl (.unauthorizedAccount a r)).data K =
      some (errorData K "AccessControlUnauthorizedAccount(address,bytes32)" [addr a, r]) ∧
    (accessControl .badConfirmation).data K = some (errorData K "AccessControlBadConfirmation()" []) ∧
    (pausable .enforcedPause).data K = some (errorData K "EnforcedPause()" []) ∧
    (pausable .expectedPause).data K = some (errorData K "ExpectedPause()" []) ∧
    (nonces (.invalidAccountNonce a x)).data K =
      some (errorData K "InvalidAccountNonce(address,uint256)" [addr a, x]) ∧
    (ecdsa .invalidSignature).data K = some (errorData K "ECDSAInvalidSignature()" []) ∧
    (ecdsa (.invalidSignatureS r)).data K = some (errorData K "ECDSAInvalidSignatureS(bytes32)" [r]) ∧
    (permit (.expiredSignature x)).data K = some (errorData K "ERC2612ExpiredSignature(uint256)" [x]) ∧
    (permit (.invalidSigner a b)).data K =
      some (errorData K "ERC2612InvalidSigner(address,address)" [addr a, addr b]) := by
  refine ⟨?_, ?_, ?_, ?_, ?_, ?_, ?_, ?_, ?_, ?_, ?_⟩ <;> exact enc _ _ _ _ _ rfl rfl

/-- **C95** The vault reports the errors of the Solidity library with receiver or owner, amount and limit. -/
theorem C95_erc4626 (K : Hash) (asset a : Address) (x m : U256) :
    (erc4626 asset (.exceededMaxDeposit a x m)).data K =
      some (errorData K "ERC4626ExceededMaxDeposit(address,uint256,uint256)" [addr a, x, m]) ∧
    (erc4626 asset (.exceededMaxMint a x m)).data K =
      some (errorData K "ERC4626ExceededMaxMint(address,uint256,uint256)" [addr a, x, m]) ∧
    (erc4626 asset (.exceededMaxWithdraw a x m)).data K =
      some (errorData K "ERC4626ExceededMaxWithdraw(address,uint256,uint256)" [addr a, x, m]) ∧
    (erc4626 asset (.exceededMaxRedeem a x m)).data K =
      some (errorData K "ERC4626ExceededMaxRedeem(address,uint256,uint256)" [addr a, x, m]) ∧
    (erc4626 asset (.safeErc20 .failedOperation)).data K =
      some (errorData K "SafeErc20FailedOperation(address)" [addr asset]) := by
  refine ⟨?_, ?_, ?_, ?_, ?_⟩ <;> exact enc _ _ _ _ _ rfl rfl

/-- **C95** Royalties, flash loans, wrappers, vesting, checkpoints, cap, enumeration and Merkle proofs: the error with the
documented signature and the arguments in the documented order. -/
theorem C95_extensions (K : Hash) (a b under : Address) (x y z : U256) (reason : Bytes) :
    (erc2981 (.invalidDefaultRoyalty x y)).data K =
      some (errorData K "ERC2981InvalidDefaultRoyalty(uint256,uint256)" [x, y]) ∧
    (erc2981 (.invalidDefaultRoyaltyReceiver a)).data K =
      some (errorData K "ERC2981InvalidDefaultRoyaltyReceiver(address)" [addr a]) ∧
    (erc2981 (.invalidTokenRoyalty x y z)).data K =
      some (errorData K "ERC2981InvalidTokenRoyalty(uint256,uint256,uint256)" [x, y, z]) ∧
    (erc2981 (.invalidTokenRoyaltyReceiver x a)).data K =
      some (errorData K "ERC2981InvalidTokenRoyaltyReceiver(uint256,address)" [x, addr a]) ∧
    (flashMint (.unsupportedToken a)).data K = some (errorData K "ERC3156UnsupportedToken(address)" [addr a]) ∧
    (flashMint (.exceededMaxLoan x)).data K = some (errorData K "ERC3156ExceededMaxLoan(uint256)" [x]) ∧
    (flashMint (.invalidReceiver a)).data K = some (errorData K "ERC3156InvalidReceiver(address)" [addr a]) ∧
    (erc20Wrapper under (.invalidSender a)).data K = some (errorData K "ERC20InvalidSender(address)" [addr a]) ∧
    (erc20Wrapper under (.invalidReceiver a)).data K = some (errorData K "ERC20InvalidReceiver(address)" [addr a]) ∧
    (safeErc20 under .failedOperation).data K = some (errorData K "SafeErc20FailedOperation(address)" [addr under]) ∧
    (safeErc20 under (.failedDecreaseAllowance a x y)).data K =
      some (errorData K "SafeErc20FailedDecreaseAllowance(address,uint256,uint256)" [addr a, x, y]) ∧
    (checkpoints .unorderedInsertion).data K = some (errorData K "CheckpointUnorderedInsertion()" []) ∧
    (erc721Consecutive (.exceededMaxBatchMint x y)).data K =
      some (errorData K "ERC721ExceededMaxBatchMint(uint256,uint256)" [x, y]) ∧
    (erc721Example (.outOfBoundsIndex a x)).data K =
      some (errorData K "ERC721OutOfBoundsIndex(address,uint256)" [addr a, x]) ∧
    (erc721Example .forbiddenBatchMint).data K = some (errorData K "ERC721EnumerableForbiddenBatchMint()" []) ∧
    (erc721Wrapper K under (.unsupportedToken a)).data K =
      some (errorData K "ERC721UnsupportedToken(address)" [addr a]) ∧
    (vesting reason (.invalidToken a)).data K = some (errorData K "InvalidToken(address)" [addr a]) ∧
    (vesting reason (.safeErc20 b)).data K = some (errorData K "SafeErc20FailedOperation(address)" [addr b]) ∧
    (erc20Example (.exceededCap x y)).data K = some (errorData K "ERC20ExceededCap(uint256,uint256)" [x, y]) ∧
    (merkleExample .invalidProofLength).data K = some (errorData K "MerkleProofInvalidMultiProofLength()" []) ∧
    (merkleExample .invalidRootChild).data K = some (errorData K "MerkleProofInvalidRootChild()" []) ∧
    (merkleExample .invalidTotalHashes).data K = some (errorData K "MerkleProofInvalidTotalHashes()" []) ∧
    (merkleExample .noLeaves).data K = some (errorData K "MerkleProofNoLeaves()" []) := by
  refine ⟨?_, ?_, ?_, ?_, ?_, ?_, ?_, ?_, ?_, ?_, ?_, ?_, ?_, ?_, ?_, ?_, ?_, ?_, ?_, ?_, ?_, ?_, ?_⟩ <;>
    exact enc _ _ _ _ _ rfl rfl

/-- **C95** An error that comes from an inner call is passed on byte for byte: those of the token, of the signature check,
of the checkpoints, of the pause and of `SafeErc20` through every extension; those of a beneficiary that refuses ether;
those of the ERC-721 token behind a wrapper, where a revert without data becomes `Erc721FailedOperation(token)`. -/
theorem C95_passed_on (K : Hash) (under : Address) (reason : Bytes) :
    (∀ e, (permit (.erc20 e)).data K = (erc20 e).data K) ∧
    (∀ e, (permit (.ecdsa e)).data K = (ecdsa e).data K) ∧
    (∀ e, (flashMint (.erc20 e)).data K = (erc20 e).data K) ∧
    (∀ e, (erc20Wrapper under (.erc20 e)).data K = (erc20 e).data K) ∧
    (∀ e, (erc20Wrapper under (.safeErc20 e)).data K = (safeErc20 under e).data K) ∧
    (∀ e, (erc4626 under (.erc20 e)).data K = (erc20 e).data K) ∧
    (∀ e, (erc4626 under (.safeErc20 e)).data K = (safeErc20 under e).data K) ∧
    (∀ e, (erc721Consecutive (.erc721 e)).data K = (erc721 e).data K) ∧
    (∀ e, (erc721Consecutive (.checkpoints e)).data K = (checkpoints e).data K) ∧
    (∀ e, (erc721Example (.erc721 e)).data K = (erc721 e).data K) ∧
    (∀ e, (erc721Example (.pausable e)).data K = (pausable e).data K) ∧
    (∀ e, (erc20Example (.erc20 e)).data K = (erc20 e).data K) ∧
    (∀ e, (erc20Example (.pausable e)).data K = (pausable e).data K) ∧
    (vesting reason .releaseEtherFailed).data K = some reason ∧
    (∀ e, (erc721Wrapper K under (.erc721 e)).data K = (erc721 e).data K) ∧
    (∀ e data, (erc721 e).data K = some data → data ≠ [] →
      (erc721Wrapper K under (.failedOperation e)).data K = some data) ∧
    (∀ e, (erc721 e).data K = some [] → (erc721Wrapper K under (.failedOperation e)).data K =
      some (errorData K "Erc721FailedOperation(address)" [addr under])) := by
  refine ⟨fun _ => rfl, fun _ => rfl, fun _ => rfl, fun _ => rfl, fun _ => rfl, fun _ => rfl, fun _ => rfl, fun _ => rfl,
    fun _ => rfl, fun _ => rfl, fun _ => rfl, fun _ => rfl, fun _ => rfl, rfl, fun _ => rfl, ?_, ?_⟩
  · intro e data h hd
    cases data with
    | nil => exact absurd rfl hd
    | cons b bs =>
      simp only [erc721Wrapper, h]
      rfl
  · intro e h
    simp only [erc721Wrapper, h]
    exact enc _ _ _ _ _ rfl rfl

-- the two cases of the wrapper occur: a missing token, and a receiver that reverted without data
example : (erc721 (.nonexistentToken 5#256)).data keccak256 ≠ some [] := by
  simp [erc721, Reply.data, abiEncode, Revert.be4]
example : (erc721 (.invalidReceiverWithReason [])).data keccak256 = some [] := rfl

/-- An error whose name and field types are one of the `sol!` declarations. -/
def Declared (e : SolError) : Prop := (e.name, e.fields.map Val.type) ∈ declarations

private theorem be4_inj {x y : BitVec 32} (h : be4 x = be4 y) : x = y := by
  unfold be4 at h
  rw [List.map_inj_left] at h
  apply BitVec.eq_of_getLsbD_eq
  intro j hj
  have hk := h (3 - j / 8) (List.mem_range.mpr (by omega))
  have := congrArg (fun b : BitVec 8 => b.getLsbD (j % 8)) hk
  simp only [BitVec.getLsbD_extractLsb'] at this
  have e : 8 * (3 - (3 - j / 8)) + j % 8 = j := by omega
  simpa [e, Nat.mod_lt] using this

private theorem fields_inj : ∀ l m : List Val, l.map Val.type = m.map Val.type →
    (l.map Val.word).flatten = (m.map Val.word).flatten → l = m
  | [], [], _, _ => rfl
  | [], _ :: _, h, _ => by simp at h
  | _ :: _, [], h, _ => by simp at h
  | v :: l, w :: m, h, hw => by
    rw [List.map_cons, List.map_cons, List.cons.injEq] at h
    rw [List.map_cons, List.map_cons, List.flatten_cons, List.flatten_cons] at hw
    have key : v = w ∧ (l.map Val.word).flatten = (m.map Val.word).flatten := by
      cases v <;> cases w <;> simp only [Val.type, reduceCtorEq, false_and] at h <;> simp only [Val.word] at hw
      · exact (abiAddress_cons hw).imp (congrArg _) id
      · exact (be32_cons hw).imp (congrArg _) id
      · exact (be32_cons hw).imp (congrArg _) id
    rw [key.1, fields_inj l m h.2 key.2]

private theorem nodup_selectors : selectors.Nodup := by decide

/-- **C95** Under Keccak-256, the data of a declared error determine the error: no two errors of the library, with any
arguments, revert with the same bytes, so a caller that decodes the data learns which error it was and its arguments. -/
theorem C95_distinguishable (e₁ e₂ : SolError) (h₁ : Declared e₁) (h₂ : Declared e₂)
    (h : abiEncode keccak256 e₁ = abiEncode keccak256 e₂) : e₁ = e₂ := by
  unfold abiEncode at h
  obtain ⟨hs, hw⟩ := List.append_inj h (by simp [be4])
  have hsel := be4_inj hs
  have hn : (declarations.map fun d => functionSelector keccak256 d.1.toList d.2).Nodup := by
    exact selectors_eq ▸ nodup_selectors
  have hd : ((e₁.name, e₁.fields.map Val.type) : String × List SolType) = (e₂.name, e₂.fields.map Val.type) :=
    List.inj_on_of_nodup_map (f := fun d : String × List SolType => functionSelector keccak256 d.1.toList d.2)
      hn h₁ h₂ hsel
  rw [Prod.mk.injEq] at hd
  cases e₁; cases e₂
  simp only at hd
  simp only [SolError.mk.injEq]
  exact ⟨hd.1, fields_inj _ _ hd.2 hw⟩

/-- **C95** None of them can be taken for Solidity's built-in `Error(string)` or `Panic(uint256)`: the first four bytes
differ. -/
theorem C95_not_builtin (e : SolError) (h : Declared e) :
    (abiEncode keccak256 e).take 4 ≠ [0x08#8, 0xc3#8, 0x79#8, 0xa0#8] ∧
    (abiEncode keccak256 e).take 4 ≠ [0x4e#8, 0x48#8, 0x7b#8, 0x71#8] := by
  have h4 : (abiEncode keccak256 e).take 4 =
      be4 (functionSelector keccak256 e.name.toList (e.fields.map Val.type)) :=
    List.take_left' (by simp [be4])
  have hm : functionSelector keccak256 e.name.toList (e.fields.map Val.type) ∈ selectors := by
    rw [← selectors_eq]
    exact List.mem_map.mpr ⟨(e.name, e.fields.map Val.type), h, rfl⟩
  rw [h4]
  constructor
  · intro hc
    have : functionSelector keccak256 e.name.toList (e.fields.map Val.type) = 0x08c379a0#32 := be4_inj (hc.trans (by decide))
    rw [this] at hm
    exact absurd hm (by decide)
  · intro hc
    have : functionSelector keccak256 e.name.toList (e.fields.map Val.type) = 0x4e487b71#32 := be4_inj (hc.trans (by decide))
    rw [this] at hm
    exact absurd hm (by decide)

/-- A reply that is a panic, another contract's data, or a declared error. -/
def Good : Reply → Prop
  | .error e => Declared e
  | .raw _ => True
  | .panic => True

local macro "declared" : tactic =>
  `(tactic| (simp only [Good, Declared, erc20, erc721, pausable, ecdsa, checkpoints, safeErc20, erc1155, ownable,
    accessControl, nonces, permit, flashMint, erc20Wrapper, erc4626, erc2981, erc721Consecutive, erc721Example,
    vesting, erc20Example, merkleExample, List.map_cons, List.map_nil, Val.type]; decide))

set_option maxRecDepth 10000 in
/-- **C95** Every error of every contract is one of the declared ones (or the panic, or passes on the bytes of another
contract). -/
theorem C95_all_declared (K : Hash) (a : Address) (reason : Bytes) :
    (∀ e, Good (erc20 e)) ∧ (∀ e, Good (erc721 e)) ∧ (∀ e, Good (erc1155 e)) ∧ (∀ e, Good (ownable e)) ∧
    (∀ e, Good (accessControl e)) ∧ (∀ e, Good (pausable e)) ∧ (∀ e, Good (nonces e)) ∧ (∀ e, Good (ecdsa e)) ∧
    (∀ e, Good (checkpoints e)) ∧ (∀ e, Good (safeErc20 a e)) ∧ (∀ e, Good (permit e)) ∧ (∀ e, Good (flashMint e)) ∧
    (∀ e, Good (erc20Wrapper a e)) ∧ (∀ e, Good (erc4626 a e)) ∧ (∀ e, Good (erc2981 e)) ∧
    (∀ e, Good (erc721Consecutive e)) ∧ (∀ e, Good (erc721Example e)) ∧ (∀ e, Good (erc721Wrapper K a e)) ∧
    (∀ e, Good (vesting reason e)) ∧ (∀ e, Good (erc20Example e)) ∧ (∀ e, Good (merkleExample e)) := by
  have h20 : ∀ e, Good (erc20 e) := by
    rintro (_ | _ | _ | _ | _ | _ | _) <;> first | trivial | declared
  have h721 : ∀ e, Good (erc721 e) := by
    rintro (_ | _ | _ | _ | _ | _ | _ | _ | _) <;> first | trivial | declared
  have hp : ∀ e, Good (pausable e) := by
    rintro (_ | _) <;> first | trivial | declared
  have hec : ∀ e, Good (ecdsa e) := by
    rintro (_ | _ | _) <;> first | trivial | declared
  have hck : ∀ e, Good (checkpoints e) := by
    rintro (_ | _) <;> first | trivial | declared
  have hs : ∀ t e, Good (safeErc20 t e) := by
    rintro t (_ | _ | _) <;> first | trivial | declared
  refine ⟨h20, h721, ?_, ?_, ?_, hp, ?_, hec, hck, hs a, ?_, ?_, ?_, ?_, ?_, ?_, ?_, ?_, ?_, ?_, ?_⟩
  · rintro (_ | _ | _ | _ | _ | _ | _ | _) <;> first | trivial | declared
  · rintro (_ | _) <;> first | trivial | declared
  · rintro (_ | _) <;> first | trivial | declared
  · rintro (_ | _) <;> first | trivial | declared
  · rintro (_ | _ | e | e | _) <;> first | trivial | exact h20 e | exact hec e | declared
  · rintro (_ | _ | _ | e | _) <;> first | trivial | exact h20 e | declared
  · rintro (_ | _ | e | e | _) <;> first | trivial | exact h20 e | exact hs _ e | declared
  · rintro (_ | _ | _ | _ | e | e | _) <;> first | trivial | exact h20 e | exact hs _ e | declared
  · rintro (_ | _ | _ | _ | _) <;> first | trivial | declared
  · rintro (e | e | _) <;> first | trivial | exact h721 e | exact hck e | declared
  · rintro (e | e | _ | _ | _) <;> first | trivial | exact h721 e | exact hp e | declared
  · rintro (e | _ | e | _)
    · exact h721 e
    · unfold erc721Wrapper; declared
    · unfold erc721Wrapper
      dsimp only
      split
      · trivial
      · declared
    · trivial
  · rintro (_ | t | _ | _) <;> first | trivial | exact hs t _ | declared
  · rintro (_ | e | e | _) <;> first | trivial | exact h20 e | exact hp e | declared
  · rintro (_ | _ | _ | _ | _) <;> first | trivial | declared

/-- Replies that are not raw bytes are determined by their data. -/
theorem data_inj {r₁ r₂ : Reply} (g₁ : Good r₁) (g₂ : Good r₂) (n₁ : ∀ b, r₁ ≠ .raw b) (n₂ : ∀ b, r₂ ≠ .raw b)
    (h : r₁.data keccak256 = r₂.data keccak256) : r₁ = r₂ := by
  cases r₁ with
  | raw b => exact absurd rfl (n₁ b)
  | panic =>
    cases r₂ with
    | raw b => exact absurd rfl (n₂ b)
    | panic => rfl
    | error e => cases h
  | error e₁ =>
    cases r₂ with
    | raw b => exact absurd rfl (n₂ b)
    | panic => cases h
    | error e₂ => rw [C95_distinguishable e₁ e₂ g₁ g₂ (Option.some.inj h)]

/-- **C95** ERC-20: the data determine the error and its arguments. -/
theorem C95_erc20_decodes (e₁ e₂ : Erc20.Err) (h : (erc20 e₁).data keccak256 = (erc20 e₂).data keccak256) : e₁ = e₂ := by
  have g := (C95_all_declared keccak256 0#160 []).1
  have := data_inj (g e₁) (g e₂) (by intro b; cases e₁ <;> simp [erc20]) (by intro b; cases e₂ <;> simp [erc20]) h
  cases e₁ <;> cases e₂ <;> simp_all [erc20]

/-- **C95** ERC-721: the data determine the error, unless they come from the receiver. -/
theorem C95_erc721_decodes (e₁ e₂ : Erc721.Err) (n₁ : ∀ b, e₁ ≠ .invalidReceiverWithReason b)
    (n₂ : ∀ b, e₂ ≠ .invalidReceiverWithReason b)
    (h : (erc721 e₁).data keccak256 = (erc721 e₂).data keccak256) : e₁ = e₂ := by
  have g := (C95_all_declared keccak256 0#160 []).2.1
  have := data_inj (g e₁) (g e₂) (by intro b; cases e₁ <;> simp_all [erc721]) (by intro b; cases e₂ <;> simp_all [erc721]) h
  cases e₁ <;> cases e₂ <;> simp_all [erc721]

/-- **C95** ERC-1155: the same. -/
theorem C95_erc1155_decodes (e₁ e₂ : Erc1155.Err) (n₁ : ∀ b, e₁ ≠ .invalidReceiverWithReason b)
    (n₂ : ∀ b, e₂ ≠ .invalidReceiverWithReason b)
    (h : (erc1155 e₁).data keccak256 = (erc1155 e₂).data keccak256) : e₁ = e₂ := by
  have g := (C95_all_declared keccak256 0#160 []).2.2.1
  have := data_inj (g e₁) (g e₂) (by intro b; cases e₁ <;> simp_all [erc1155]) (by intro b; cases e₂ <;> simp_all [erc1155]) h
  cases e₁ <;> cases e₂ <;> simp_all [erc1155]

/-- **C95** The ERC-20 revert data tell the truth: a transfer reverts with the bytes of
`ERC20InsufficientBalance(account, balance, needed)` exactly when sender and receiver are not the zero address and the
caller, whose balance is `balance`, tried to send `needed`, which is more. -/
theorem C95_transfer_data_truthful (s : Erc20.State) (c dst a : Address) (v b n : U256) :
    revertData keccak256 erc20 (Erc20.transfer s c dst v) =
      some (errorData keccak256 "ERC20InsufficientBalance(address,uint256,uint256)" [addr a, b, n]) ↔
    c ≠ ZERO ∧ dst ≠ ZERO ∧ (Erc20.balanceOf s c).toNat < v.toNat ∧ a = c ∧ b = Erc20.balanceOf s c ∧ n = v := by
  rw [← (C95_erc20 keccak256 a b n).1]
  constructor
  · intro h
    cases ht : Erc20.transfer s c dst v with
    | ok s' => rw [ht] at h; simp [revertData, Reply.data, erc20] at h
    | error e =>
      rw [ht] at h
      have he := C95_erc20_decodes _ _ h
      subst he
      rcases (C02_transfer_errors s c dst v _).mp ht with ⟨_, h1⟩ | ⟨_, _, h1⟩ | ⟨h1, h2, h3, h4⟩
      · cases h1
      · cases h1
      · rw [Erc20.Err.insufficientBalance.injEq] at h4
        exact ⟨h1, h2, h3, h4⟩
  · rintro ⟨h1, h2, h3, rfl, rfl, rfl⟩
    rw [(C02_transfer_errors s a dst n _).mpr (.inr (.inr ⟨h1, h2, h3, rfl⟩))]
    rfl

/-- **C95** The bytes of `ERC20InsufficientAllowance` mean that the caller's allowance was too small, by the amounts
given. -/
theorem C95_allowance_data_truthful (s : Erc20.State) {c src : Address} (hc : c ≠ ZERO) (hsrc : src ≠ ZERO)
    (dst a : Address) (v b n : U256) :
    revertData keccak256 erc20 (Erc20.transferFrom s c src dst v) =
      some (errorData keccak256 "ERC20InsufficientAllowance(address,uint256,uint256)" [addr a, b, n]) ↔
    (Erc20.allowance s src c).toNat < v.toNat ∧ a = c ∧ b = Erc20.allowance s src c ∧ n = v := by
  rw [← (C95_erc20 keccak256 a b n).2.2.2.1]
  constructor
  · intro h
    cases ht : Erc20.transferFrom s c src dst v with
    | ok s' => rw [ht] at h; simp [revertData, Reply.data, erc20] at h
    | error e =>
      rw [ht] at h
      have he := C95_erc20_decodes _ _ h
      subst he
      rcases (C03_transferFrom_errors s hc hsrc dst v _).mp ht with ⟨h1, h2⟩ | ⟨_, _, h1⟩ | ⟨_, _, _, h1⟩
      · rw [Erc20.Err.insufficientAllowance.injEq] at h2
        exact ⟨h1, h2⟩
      · cases h1
      · cases h1
  · rintro ⟨h1, rfl, rfl, rfl⟩
    rw [(C03_transferFrom_errors s hc hsrc dst n _).mpr (.inl ⟨h1, rfl⟩)]
    rfl

/-- **C95** With a receiver this does not hold.  Whenever the plain transfer would go through, a receiving contract can
make the safe transfer revert with any bytes it likes, for instance those of `ERC721NonexistentToken` for a token that
exists; so the claim in the source that these data are `Error(string)` or `Panic(uint256)` does not hold either. -/
theorem C95_receiver_forges (K : Hash) (s s' : Erc721.State) (caller src dst : Address) (id : U256)
    (h : Erc721.transferFrom s caller src dst id = .ok s') (data : Bytes) (hd : data ≠ []) :
    revertData K erc721 (Erc721.safeTransferFrom (fun a => if a = dst then some fun _ _ _ _ => .revert data else none)
      s caller src dst id) = some data := by
  simp [Erc721.safeTransferFrom, Erc721.safeTransferFromWithData, h, bind, Except.bind, Erc721.checkOnReceived, hd,
    revertData, erc721, Reply.data]

/-- **C95** Two error names of `SafeErc20` are spelled differently from the Solidity library, so their data start with
other bytes: a tool that knows `SafeERC20FailedOperation(address)` does not recognise them. -/
theorem C95_safeErc20_not_standard (token s : Address) (x y : U256) :
    (safeErc20 token .failedOperation).data keccak256 ≠
      some (errorData keccak256 "SafeERC20FailedOperation(address)" [addr token]) ∧
    (safeErc20 token (.failedDecreaseAllowance s x y)).data keccak256 ≠
      some (errorData keccak256 "SafeERC20FailedDecreaseAllowance(address,uint256,uint256)" [addr s, x, y]) := by
  constructor
  · rw [show (safeErc20 token .failedOperation).data keccak256 =
      some (errorData keccak256 "SafeErc20FailedOperation(address)" [addr token]) from enc _ _ _ _ _ rfl rfl]
    intro h
    exact safe_operation_ne (List.append_cancel_right (Option.some.inj h))
  · rw [show (safeErc20 token (.failedDecreaseAllowance s x y)).data keccak256 =
      some (errorData keccak256 "SafeErc20FailedDecreaseAllowance(address,uint256,uint256)" [addr s, x, y]) from
        enc _ _ _ _ _ rfl rfl]
    intro h
    exact safe_decrease_ne (List.append_cancel_right (Option.some.inj h))

-- a failing transfer of a reachable state, with its data under the real hash function
example : revertData keccak256 erc20 (Erc20.transfer Erc20.init 1#160 2#160 5#256) =
    some (errorData keccak256 "ERC20InsufficientBalance(address,uint256,uint256)" [1#256, 0#256, 5#256]) :=
  (C95_transfer_data_truthful Erc20.init 1#160 2#160 1#160 5#256 0#256 5#256).mpr
    ⟨by decide, by decide, by decide, rfl, rfl, rfl⟩

-- a token that exists, and a receiver that says it does not
example : ∃ s s', Erc721.mint Erc721.init 1#160 7#256 = .ok s ∧ Erc721.transferFrom s 1#160 1#160 2#160 7#256 = .ok s' ∧
    revertData keccak256 erc721 (Erc721.safeTransferFrom (fun a => if a = 2#160 then
        some fun _ _ _ _ => .revert (errorData keccak256 "ERC721NonexistentToken(uint256)" [7#256]) else none)
      s 1#160 1#160 2#160 7#256) = some (errorData keccak256 "ERC721NonexistentToken(uint256)" [7#256]) := by
  refine ⟨_, _, rfl, rfl, ?_⟩
  exact C95_receiver_forges keccak256 _ _ 1#160 1#160 2#160 7#256 rfl _ (by
    unfold errorData
    rw [List.flatMap_cons]
    intro hc
    have := congrArg List.length hc
    simp [Spec.Revert.word] at this)

-- the hypotheses of the decoding theorems: two different errors
example : (erc20 (.invalidSender 1#160)).data keccak256 ≠ (erc20 (.invalidReceiver 1#160)).data keccak256 :=
  fun h => nomatch C95_erc20_decodes _ _ h
example : (erc721 (.invalidSender 1#160)).data keccak256 ≠ (erc721 (.invalidSender 2#160)).data keccak256 :=
  fun h => absurd (C95_erc721_decodes _ _ (by simp) (by simp) h) (by decide)
example : (erc1155 (.invalidArrayLength 1#256 2#256)).data keccak256 ≠
    (erc1155 (.invalidArrayLength 2#256 1#256)).data keccak256 :=
  fun h => absurd (C95_erc1155_decodes _ _ (by simp) (by simp) h) (by decide)

end Verif.Props.Revert
