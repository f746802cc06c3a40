import Verif.Spec.Keccak
/-!
# Revert data, as Solidity defines it

An error `Name(type,…)` with argument words `w₁ … wₙ` (all static types) is reverted with as the first four bytes of the
hash of its signature followed by the 32 big-endian bytes of each word.
-/
namespace Verif.Spec.Revert
open Verif.Spec.Keccak

/-- The 32 bytes of a word, most significant first. -/
def word (x : BitVec 256) : List U8 := (List.range 32).map fun i => BitVec.ofNat 8 (x.toNat / 256 ^ (31 - i))

/-- The revert data of the error with this signature and these arguments, for a given hash function. -/
def errorData (K : List U8 → BitVec 256) (sig : String) (args : List (BitVec 256)) : List U8 :=
  (word (K (ascii sig))).take 4 ++ args.flatMap word

/-- An address as a word. -/
def addr (a : BitVec 160) : BitVec 256 := BitVec.ofNat 256 a.toNat

/-- The first four bytes the standards (ERC-6093) and the Solidity library give for their errors. -/
def standardSelectors : List (String × BitVec 32) :=
  [("ERC20InsufficientBalance(address,uint256,uint256)", 0xe450d38c#32),
   ("ERC20InvalidSender(address)", 0x96c6fd1e#32),
   ("ERC20InvalidReceiver(address)", 0xec442f05#32),
   ("ERC20InsufficientAllowance(address,uint256,uint256)", 0xfb8f41b2#32),
   ("ERC20InvalidApprover(address)", 0xe602df05#32),
   ("ERC20InvalidSpender(address)", 0x94280d62#32),
   ("ERC721InvalidOwner(address)", 0x89c62b64#32),
   ("ERC721NonexistentToken(uint256)", 0x7e273289#32),
   ("ERC721IncorrectOwner(address,uint256,address)", 0x64283d7b#32),
   ("ERC721InvalidSender(address)", 0x73c6ac6e#32),
   ("ERC721InvalidReceiver(address)", 0x64a0ae92#32),
   ("ERC721InsufficientApproval(address,uint256)", 0x177e802f#32),
   ("ERC721InvalidApprover(address)", 0xa9fbf51f#32),
   ("ERC721InvalidOperator(address)", 0x5b08ba18#32),
   ("ERC1155InsufficientBalance(address,uint256,uint256,uint256)", 0x03dee4c5#32),
   ("ERC1155InvalidSender(address)", 0x01a83514#32),
   ("ERC1155InvalidReceiver(address)", 0x57f447ce#32),
   ("ERC1155MissingApprovalForAll(address,address)", 0xe237d922#32),
   ("ERC1155InvalidOperator(address)", 0xced3e100#32),
   ("ERC1155InvalidArrayLength(uint256,uint256)", 0x5b059991#32),
   ("OwnableUnauthorizedAccount(address)", 0x118cdaa7#32),
   ("OwnableInvalidOwner(address)", 0x1e4fbdf7#32),
   ("AccessControlUnauthorizedAccount(address,bytes32)", 0xe2517d3f#32),
   ("AccessControlBadConfirmation()", 0x6697b232#32),
   ("EnforcedPause()", 0xd93c0665#32),
   ("ExpectedPause()", 0x8dfc202b#32),
   ("InvalidAccountNonce(address,uint256)", 0x752d88c0#32),
   ("ECDSAInvalidSignature()", 0xf645eedf#32),
   ("ECDSAInvalidSignatureS(bytes32)", 0xd78bce0c#32),
   ("ERC2612ExpiredSignature(uint256)", 0x62791302#32),
   ("ERC2612InvalidSigner(address,address)", 0x4b800e46#32),
   ("ERC4626ExceededMaxDeposit(address,uint256,uint256)", 0x79012fb2#32),
   ("ERC4626ExceededMaxMint(address,uint256,uint256)", 0x284ff667#32),
   ("ERC4626ExceededMaxWithdraw(address,uint256,uint256)", 0xfe9cceec#32),
   ("ERC4626ExceededMaxRedeem(address,uint256,uint256)", 0xb94abeec#32)]

end Verif.Spec.Revert
