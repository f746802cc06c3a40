import Verif.Model.Interfaces
import Verif.Model.Access
import Verif.Model.Compositions
import Verif.Model.Erc20Example
import Verif.Model.Erc20Permit
import Verif.Model.Erc20Wrapper
import Verif.Model.Erc2981
import Verif.Model.Erc4626
import Verif.Model.Erc721Consecutive
import Verif.Model.Erc721Enumerable
import Verif.Model.Erc721Wrapper
import Verif.Model.FlashMint
import Verif.Model.Merkle
import Verif.Model.Vesting
/-!
# Model of the data a failed call reverts with

Every `Error` enum of the library derives `SolidityError` and implements `MethodError` by `self.into()`: a variant that
holds a `sol!` error becomes its ABI encoding, a variant that holds another `Error` enum becomes that enum's bytes, a
variant that holds a `call::Error::Revert` becomes the bytes the other contract reverted with.  A panic has no reply.
The derive macro and the ABI encoder are those of stylus-sdk and alloy; what they do is taken from their documentation.
-/
namespace Verif.Revert
open Verif Verif.Interfaces

/-- The value of a field of a `sol!` error: the types that occur in the error declarations of the library
(`contracts/src/token/erc20/mod.rs` 56-95 and the like). -/
inductive Val where
  | address (a : Address)
  | uint256 (x : U256)
  | bytes32 (x : B256)
  deriving DecidableEq

/-- The declared type of a field (`contracts/src/token/erc20/mod.rs` 56-95 and the like). -/
def Val.type : Val → SolType
  | .address _ => .address
  | .uint256 _ => .uint256
  | .bytes32 _ => .bytes32

/-- The 32 bytes of a field in the ABI encoding (`contracts/src/token/erc20/mod.rs` 123-127). -/
def Val.word : Val → Bytes
  | .address a => abiAddress a
  | .uint256 x => be32 x
  | .bytes32 x => be32 x

/-- A value of a `sol!` error type: the name of the declaration and the fields in order
(`contracts/src/token/erc20/mod.rs` 56-95 and the like). -/
structure SolError where
  name : String
  fields : List Val
  deriving DecidableEq

/-- The four bytes of a selector (`contracts/src/token/erc20/mod.rs` 123-127). -/
def be4 (x : BitVec 32) : Bytes := (List.range 4).map fun i => x.extractLsb' (8 * (3 - i)) 8

/-- ABI encoding of a `sol!` error: the selector of its signature and one word per field
(`contracts/src/token/erc20/mod.rs` 123-127). -/
def abiEncode (K : Hash) (e : SolError) : Bytes :=
  be4 (functionSelector K e.name.toList (e.fields.map Val.type)) ++ (e.fields.map Val.word).flatten

/-- What an error variant holds: a `sol!` error, or the revert data of another contract; or the call panicked
(`contracts/src/token/erc721/mod.rs` 147-178). -/
inductive Reply where
  | error (e : SolError)
  | raw (data : Bytes)
  | panic
  deriving DecidableEq

/-- The revert data, `encode` (`contracts/src/token/erc721/mod.rs` 180-184); `none` for a panic. -/
def Reply.data (K : Hash) : Reply → Option Bytes
  | .error e => some (abiEncode K e)
  | .raw data => some data
  | .panic => none

/-- `Error` of the ERC-20 token, `contracts/src/token/erc20/mod.rs` 56-95 and 104-127. -/
def erc20 : Erc20.Err → Reply
  | .insufficientBalance s b n => .error ⟨"ERC20InsufficientBalance", [.address s, .uint256 b, .uint256 n]⟩
  | .invalidSender a => .error ⟨"ERC20InvalidSender", [.address a]⟩
  | .invalidReceiver a => .error ⟨"ERC20InvalidReceiver", [.address a]⟩
  | .insufficientAllowance s al n => .error ⟨"ERC20InsufficientAllowance", [.address s, .uint256 al, .uint256 n]⟩
  | .invalidSpender a => .error ⟨"ERC20InvalidSpender", [.address a]⟩
  | .invalidApprover a => .error ⟨"ERC20InvalidApprover", [.address a]⟩
  | .panic => .panic

/-- `Error` of the ERC-721 token, `contracts/src/token/erc721/mod.rs` 81-138 and 147-184. -/
def erc721 : Erc721.Err → Reply
  | .invalidOwner a => .error ⟨"ERC721InvalidOwner", [.address a]⟩
  | .nonexistentToken id => .error ⟨"ERC721NonexistentToken", [.uint256 id]⟩
  | .incorrectOwner s id o => .error ⟨"ERC721IncorrectOwner", [.address s, .uint256 id, .address o]⟩
  | .invalidSender a => .error ⟨"ERC721InvalidSender", [.address a]⟩
  | .invalidReceiver a => .error ⟨"ERC721InvalidReceiver", [.address a]⟩
  | .invalidReceiverWithReason reason => .raw reason
  | .insufficientApproval o id => .error ⟨"ERC721InsufficientApproval", [.address o, .uint256 id]⟩
  | .invalidApprover a => .error ⟨"ERC721InvalidApprover", [.address a]⟩
  | .invalidOperator a => .error ⟨"ERC721InvalidOperator", [.address a]⟩

/-- `Error` of the ERC-1155 token, `contracts/src/token/erc1155/mod.rs` 95-153 and 160-198. -/
def erc1155 : Erc1155.Err → Reply
  | .insufficientBalance s b n id =>
      .error ⟨"ERC1155InsufficientBalance", [.address s, .uint256 b, .uint256 n, .uint256 id]⟩
  | .invalidSender a => .error ⟨"ERC1155InvalidSender", [.address a]⟩
  | .invalidReceiver a => .error ⟨"ERC1155InvalidReceiver", [.address a]⟩
  | .invalidReceiverWithReason reason => .raw reason
  | .missingApprovalForAll op ow => .error ⟨"ERC1155MissingApprovalForAll", [.address op, .address ow]⟩
  | .invalidOperator a => .error ⟨"ERC1155InvalidOperator", [.address a]⟩
  | .invalidArrayLength i v => .error ⟨"ERC1155InvalidArrayLength", [.uint256 i, .uint256 v]⟩
  | .panic => .panic

/-- `Error` of `Ownable`, `contracts/src/access/ownable.rs` 42-48 and 53-65. -/
def ownable : Ownable.Err → Reply
  | .unauthorizedAccount a => .error ⟨"OwnableUnauthorizedAccount", [.address a]⟩
  | .invalidOwner a => .error ⟨"OwnableInvalidOwner", [.address a]⟩

/-- `Error` of `AccessControl`, `contracts/src/access/control.rs` 95-101 and 107-119. -/
def accessControl : AccessControl.Err → Reply
  | .unauthorizedAccount a r => .error ⟨"AccessControlUnauthorizedAccount", [.address a, .bytes32 r]⟩
  | .badConfirmation => .error ⟨"AccessControlBadConfirmation", []⟩

/-- `Error` of `Pausable`, `contracts/src/utils/pausable.rs` 45-51 and 56-70. -/
def pausable : Pausable.Err → Reply
  | .enforcedPause => .error ⟨"EnforcedPause", []⟩
  | .expectedPause => .error ⟨"ExpectedPause", []⟩

/-- `Error` of `Nonces`, `contracts/src/utils/nonces.rs` 27 and 32-42. -/
def nonces : Nonces.Err → Reply
  | .invalidAccountNonce a n => .error ⟨"InvalidAccountNonce", [.address a, .uint256 n]⟩
  | .panic => .panic

/-- `Error` of `ecdsa`, `contracts/src/utils/cryptography/ecdsa.rs` 34-41 and 61-73. -/
def ecdsa : Ecdsa.Err → Reply
  | .invalidSignature => .error ⟨"ECDSAInvalidSignature", []⟩
  | .invalidSignatureS s => .error ⟨"ECDSAInvalidSignatureS", [.bytes32 s]⟩
  | .panic => .panic

/-- `Error` of `checkpoints`, `contracts/src/utils/structs/checkpoints/mod.rs` 35 and 40-50. -/
def checkpoints : Checkpoints.Err → Reply
  | .unorderedInsertion => .error ⟨"CheckpointUnorderedInsertion", []⟩
  | .panic => .panic

/-- `Error` of `SafeErc20`, `contracts/src/token/erc20/utils/safe_erc20.rs` 43-56 and 61-75, for a call on `token`. -/
def safeErc20 (token : Address) : SafeErc20.Err → Reply
  | .failedOperation => .error ⟨"SafeErc20FailedOperation", [.address token]⟩
  | .failedDecreaseAllowance s c r =>
      .error ⟨"SafeErc20FailedDecreaseAllowance", [.address s, .uint256 c, .uint256 r]⟩
  | .panic => .panic

/-- `Error` of `Erc20Permit`, `contracts/src/token/erc20/extensions/permit.rs` 48-53 and 58-75. -/
def permit : Permit.Err → Reply
  | .expiredSignature d => .error ⟨"ERC2612ExpiredSignature", [.uint256 d]⟩
  | .invalidSigner s o => .error ⟨"ERC2612InvalidSigner", [.address s, .address o]⟩
  | .erc20 e => erc20 e
  | .ecdsa e => ecdsa e
  | .panic => .panic

/-- `Error` of the flash mint extension, `contracts/src/token/erc20/extensions/flash_mint.rs` 52-66 and 71-88. -/
def flashMint : FlashMint.Err → Reply
  | .unsupportedToken t => .error ⟨"ERC3156UnsupportedToken", [.address t]⟩
  | .exceededMaxLoan m => .error ⟨"ERC3156ExceededMaxLoan", [.uint256 m]⟩
  | .invalidReceiver r => .error ⟨"ERC3156InvalidReceiver", [.address r]⟩
  | .erc20 e => erc20 e
  | .panic => .panic

/-- `Error` of the ERC-20 wrapper, `contracts/src/token/erc20/extensions/wrapper.rs` 44-58 and 63-85; `under` is the
underlying token. -/
def erc20Wrapper (under : Address) : Wrapper.Err → Reply
  | .invalidSender a => .error ⟨"ERC20InvalidSender", [.address a]⟩
  | .invalidReceiver a => .error ⟨"ERC20InvalidReceiver", [.address a]⟩
  | .erc20 e => erc20 e
  | .safeErc20 e => safeErc20 under e
  | .panic => .panic

/-- `Error` of `Erc4626`, `contracts/src/token/erc20/extensions/erc4626.rs` 68-105 and 110-136, for the asset `asset`. -/
def erc4626 (asset : Address) : Erc4626.Err → Reply
  | .exceededMaxDeposit r a m => .error ⟨"ERC4626ExceededMaxDeposit", [.address r, .uint256 a, .uint256 m]⟩
  | .exceededMaxMint r s m => .error ⟨"ERC4626ExceededMaxMint", [.address r, .uint256 s, .uint256 m]⟩
  | .exceededMaxWithdraw o a m => .error ⟨"ERC4626ExceededMaxWithdraw", [.address o, .uint256 a, .uint256 m]⟩
  | .exceededMaxRedeem o s m => .error ⟨"ERC4626ExceededMaxRedeem", [.address o, .uint256 s, .uint256 m]⟩
  | .safeErc20 e => safeErc20 asset e
  | .erc20 e => erc20 e
  | .panic => .panic

/-- `Error` of `Erc2981`, `contracts/src/token/common/erc2981.rs` 51-76 and 82-103. -/
def erc2981 : Erc2981.Err → Reply
  | .invalidDefaultRoyalty n d => .error ⟨"ERC2981InvalidDefaultRoyalty", [.uint256 n, .uint256 d]⟩
  | .invalidDefaultRoyaltyReceiver r => .error ⟨"ERC2981InvalidDefaultRoyaltyReceiver", [.address r]⟩
  | .invalidTokenRoyalty id n d => .error ⟨"ERC2981InvalidTokenRoyalty", [.uint256 id, .uint256 n, .uint256 d]⟩
  | .invalidTokenRoyaltyReceiver id r => .error ⟨"ERC2981InvalidTokenRoyaltyReceiver", [.uint256 id, .address r]⟩
  | .panic => .panic

/-- `Error` of the consecutive extension, `contracts/src/token/erc721/extensions/consecutive.rs` 87-102 and 107-130. -/
def erc721Consecutive : Consecutive.Err → Reply
  | .erc721 e => erc721 e
  | .checkpoints e => checkpoints e
  | .exceededMaxBatchMint b m => .error ⟨"ERC721ExceededMaxBatchMint", [.uint256 b, .uint256 m]⟩

/-- `Error` of `examples/erc721/src/lib.rs` 19-24 with that of the enumerable extension,
`contracts/src/token/erc721/extensions/enumerable.rs` 40-45 and 50-67. -/
def erc721Example : Enumerable.Err → Reply
  | .erc721 e => erc721 e
  | .pausable e => pausable e
  | .outOfBoundsIndex o i => .error ⟨"ERC721OutOfBoundsIndex", [.address o, .uint256 i]⟩
  | .forbiddenBatchMint => .error ⟨"ERC721EnumerableForbiddenBatchMint", []⟩
  | .panic => .panic

/-- `Error` of the ERC-721 wrapper, `contracts/src/token/erc721/extensions/wrapper.rs` 31-38 and 44-68, for failed
deposits and withdrawals (122-133, 183-194): non-empty revert data of the underlying are passed on, empty data become
`Erc721FailedOperation`.  `notPossible` marks calls that cannot be made. -/
def erc721Wrapper (K : Hash) (under : Address) : Wrapper721.Err → Reply
  | .erc721 e => erc721 e
  | .unsupportedToken t => .error ⟨"ERC721UnsupportedToken", [.address t]⟩
  | .failedOperation e =>
    match (erc721 e).data K with
    | some (b :: bs) => .raw (b :: bs)
    | _ => .error ⟨"Erc721FailedOperation", [.address under]⟩
  | .notPossible => .panic

/-- `Error` of the vesting wallet, `contracts/src/finance/vesting_wallet.rs` 78-85 and 90-106; `reason` is what the
beneficiary reverted with when ether was sent to it. -/
def vesting (reason : Bytes) : Vesting.Err → Reply
  | .releaseEtherFailed => .raw reason
  | .safeErc20 token => safeErc20 token .failedOperation
  | .invalidToken t => .error ⟨"InvalidToken", [.address t]⟩
  | .panic => .panic

/-- `Error` of `examples/erc20/src/lib.rs` 19-24 with that of `capped`,
`contracts/src/token/erc20/extensions/capped.rs` 23-48. -/
def erc20Example : Erc20Example.Err → Reply
  | .exceededCap i c => .error ⟨"ERC20ExceededCap", [.uint256 i, .uint256 c]⟩
  | .erc20 e => erc20 e
  | .pausable e => pausable e
  | .panic => .panic

/-- `VerifierError` and the conversion into it, `examples/merkle-proofs/src/lib.rs` 13-49. -/
def merkleExample : Merkle.Err → Reply
  | .invalidProofLength => .error ⟨"MerkleProofInvalidMultiProofLength", []⟩
  | .invalidRootChild => .error ⟨"MerkleProofInvalidRootChild", []⟩
  | .invalidTotalHashes => .error ⟨"MerkleProofInvalidTotalHashes", []⟩
  | .noLeaves => .error ⟨"MerkleProofNoLeaves", []⟩
  | .panic => .panic

/-- The `sol!` error declarations of the library and of the examples, each once:
`contracts/src/access/control.rs` 95-101, `contracts/src/access/ownable.rs` 42-48,
`contracts/src/finance/vesting_wallet.rs` 78-85, `contracts/src/token/common/erc2981.rs` 51-76,
`contracts/src/token/erc1155/mod.rs` 95-153, `contracts/src/token/erc20/extensions/capped.rs` 23-29,
`contracts/src/token/erc20/extensions/erc4626.rs` 68-105, `contracts/src/token/erc20/extensions/flash_mint.rs` 52-66,
`contracts/src/token/erc20/extensions/permit.rs` 48-53, `contracts/src/token/erc20/extensions/wrapper.rs` 44-58,
`contracts/src/token/erc20/mod.rs` 56-95, `contracts/src/token/erc20/utils/safe_erc20.rs` 43-52,
`contracts/src/token/erc721/extensions/consecutive.rs` 87-102, `contracts/src/token/erc721/extensions/enumerable.rs`
40-45, `contracts/src/token/erc721/extensions/wrapper.rs` 31-38, `contracts/src/token/erc721/mod.rs` 81-138,
`contracts/src/utils/cryptography/ecdsa.rs` 34-41, `contracts/src/utils/nonces.rs` 27-27,
`contracts/src/utils/pausable.rs` 45-51, `contracts/src/utils/structs/checkpoints/mod.rs` 35-35,
`examples/merkle-proofs/src/lib.rs` 14-17. -/
def declarations : List (String × List SolType) :=
  [("AccessControlUnauthorizedAccount", [.address, .bytes32]),
   ("AccessControlBadConfirmation", []),
   ("OwnableUnauthorizedAccount", [.address]),
   ("OwnableInvalidOwner", [.address]),
   ("ReleaseEtherFailed", []),
   ("InvalidToken", [.address]),
   ("ERC2981InvalidDefaultRoyalty", [.uint256, .uint256]),
   ("ERC2981InvalidDefaultRoyaltyReceiver", [.address]),
   ("ERC2981InvalidTokenRoyalty", [.uint256, .uint256, .uint256]),
   ("ERC2981InvalidTokenRoyaltyReceiver", [.uint256, .address]),
   ("ERC1155InsufficientBalance", [.address, .uint256, .uint256, .uint256]),
   ("ERC1155InvalidSender", [.address]),
   ("ERC1155InvalidReceiver", [.address]),
   ("ERC1155MissingApprovalForAll", [.address, .address]),
   ("ERC1155InvalidApprover", [.address]),
   ("ERC1155InvalidOperator", [.address]),
   ("ERC1155InvalidArrayLength", [.uint256, .uint256]),
   ("ERC20ExceededCap", [.uint256, .uint256]),
   ("ERC20InvalidCap", [.uint256]),
   ("ERC4626ExceededMaxDeposit", [.address, .uint256, .uint256]),
   ("ERC4626ExceededMaxMint", [.address, .uint256, .uint256]),
   ("ERC4626ExceededMaxWithdraw", [.address, .uint256, .uint256]),
   ("ERC4626ExceededMaxRedeem", [.address, .uint256, .uint256]),
   ("InvalidAsset", [.address]),
   ("ERC3156UnsupportedToken", [.address]),
   ("ERC3156ExceededMaxLoan", [.uint256]),
   ("ERC3156InvalidReceiver", [.address]),
   ("ERC2612ExpiredSignature", [.uint256]),
   ("ERC2612InvalidSigner", [.address, .address]),
   ("ERC20InvalidUnderlying", [.address]),
   ("ERC20InvalidSender", [.address]),
   ("ERC20InvalidReceiver", [.address]),
   ("ERC20InsufficientBalance", [.address, .uint256, .uint256]),
   ("ERC20InsufficientAllowance", [.address, .uint256, .uint256]),
   ("ERC20InvalidSpender", [.address]),
   ("ERC20InvalidApprover", [.address]),
   ("SafeErc20FailedOperation", [.address]),
   ("SafeErc20FailedDecreaseAllowance", [.address, .uint256, .uint256]),
   ("ERC721ForbiddenBatchMint", []),
   ("ERC721ExceededMaxBatchMint", [.uint256, .uint256]),
   ("ERC721ForbiddenMint", []),
   ("ERC721ForbiddenBatchBurn", []),
   ("ERC721OutOfBoundsIndex", [.address, .uint256]),
   ("ERC721EnumerableForbiddenBatchMint", []),
   ("ERC721UnsupportedToken", [.address]),
   ("Erc721FailedOperation", [.address]),
   ("ERC721InvalidOwner", [.address]),
   ("ERC721NonexistentToken", [.uint256]),
   ("ERC721IncorrectOwner", [.address, .uint256, .address]),
   ("ERC721InvalidSender", [.address]),
   ("ERC721InvalidReceiver", [.address]),
   ("ERC721InsufficientApproval", [.address, .uint256]),
   ("ERC721InvalidApprover", [.address]),
   ("ERC721InvalidOperator", [.address]),
   ("ECDSAInvalidSignature", []),
   ("ECDSAInvalidSignatureS", [.bytes32]),
   ("InvalidAccountNonce", [.address, .uint256]),
   ("EnforcedPause", []),
   ("ExpectedPause", []),
   ("CheckpointUnorderedInsertion", []),
   ("MerkleProofInvalidMultiProofLength", []),
   ("MerkleProofInvalidRootChild", []),
   ("MerkleProofInvalidTotalHashes", []),
   ("MerkleProofNoLeaves", [])]

/-- What a call reverts with, if it fails: the bytes of its `Err` (`contracts/src/token/erc20/mod.rs` 123-127). -/
def revertData {E α : Type} (K : Hash) (reply : E → Reply) : Except E α → Option Bytes
  | .ok _ => none
  | .error e => (reply e).data K

end Verif.Revert
