import Verif.Model.Abi
import Verif.Model.SafeErc20
import Verif.Model.Erc721
import Verif.Model.Erc1155
/-!
# Model of the messages the library sends

Every call of another contract in `contracts/src` (payments of ether and the precompile `ecrecover` excepted), as bytes, and
what the library makes of the reply.  The other contract is a program on bytes.
-/
namespace Verif.Calls
open Verif
open Verif.Abi

/-- The calls the library makes, with the arguments of the Rust method:
`contracts/src/token/erc20/utils/safe_erc20.rs` 83-90 (`transfer`, `transferFrom`, `approve`, `allowance`);
`contracts/src/token/erc20/interface.rs` 14 (`balanceOf`, used in `contracts/src/finance/vesting_wallet.rs` 461,
`contracts/src/token/erc20/extensions/wrapper.rs` 317 and `contracts/src/token/erc20/extensions/erc4626.rs` 821);
`contracts/src/token/erc721/interface.rs` 12-14 (`ownerOf`, `safeTransferFrom` and `transferFrom`, which is the message of
ERC-20 with an id in place of the amount; used in `contracts/src/token/erc721/extensions/wrapper.rs` 108-120, 167-182 and
272-276); `contracts/src/token/erc721/receiver.rs` 33-38; `contracts/src/token/erc1155/receiver.rs` 33-39 and 61-67;
`contracts/src/token/erc20/extensions/flash_mint.rs` 117-123. -/
inductive Message where
  | transfer (dst : Address) (value : U256)
  | transferFrom (src dst : Address) (value : U256)
  | approve (spender : Address) (value : U256)
  | allowance (owner spender : Address)
  | balanceOf (account : Address)
  | ownerOf (id : U256)
  | safeTransferFrom (src dst : Address) (id : U256) (data : Bytes)
  | onERC721Received (operator src : Address) (id : U256) (data : Bytes)
  | onERC1155Received (operator src : Address) (id value : U256) (data : Bytes)
  | onERC1155BatchReceived (operator src : Address) (ids values : List U256) (data : Bytes)
  | onFlashLoan (initiator token : Address) (amount fee : U256) (data : Bytes)
  deriving DecidableEq

/-- The function called (lines as for `Message`: `contracts/src/token/erc20/utils/safe_erc20.rs` 83-90 and the others). -/
def Message.name : Message → String
  | .transfer .. => "transfer"
  | .transferFrom .. => "transferFrom"
  | .approve .. => "approve"
  | .allowance .. => "allowance"
  | .balanceOf .. => "balanceOf"
  | .ownerOf .. => "ownerOf"
  | .safeTransferFrom .. => "safeTransferFrom"
  | .onERC721Received .. => "onERC721Received"
  | .onERC1155Received .. => "onERC1155Received"
  | .onERC1155BatchReceived .. => "onERC1155BatchReceived"
  | .onFlashLoan .. => "onFlashLoan"

/-- The arguments in the order of the declaration (lines as for `Message`:
`contracts/src/token/erc20/utils/safe_erc20.rs` 83-90 and the others). -/
def Message.args : Message → List Val
  | .transfer dst v => [.address dst, .uint256 v]
  | .transferFrom src dst v => [.address src, .address dst, .uint256 v]
  | .approve sp v => [.address sp, .uint256 v]
  | .allowance o sp => [.address o, .address sp]
  | .balanceOf a => [.address a]
  | .ownerOf id => [.uint256 id]
  | .safeTransferFrom src dst id data => [.address src, .address dst, .uint256 id, .bytes data]
  | .onERC721Received op src id data => [.address op, .address src, .uint256 id, .bytes data]
  | .onERC1155Received op src id v data => [.address op, .address src, .uint256 id, .uint256 v, .bytes data]
  | .onERC1155BatchReceived op src ids vs data => [.address op, .address src, .uints ids, .uints vs, .bytes data]
  | .onFlashLoan i t a f data => [.address i, .address t, .uint256 a, .uint256 f, .bytes data]

/-- The bytes sent: `abi_encode`, `contracts/src/token/erc20/utils/safe_erc20.rs` 345 and 379. -/
def Message.bytes (K : Hash) (m : Message) : Bytes := calldata K m.name m.args

/-! ## Tokens -/

/-- The message of a `SafeErc20` request, `contracts/src/token/erc20/utils/safe_erc20.rs` 242, 254, 276-303 and 374. -/
def request : SafeErc20.Req → Message
  | .transfer dst v => .transfer dst v
  | .transferFrom src dst v => .transferFrom src dst v
  | .approve sp v => .approve sp v
  | .allowance o sp => .allowance o sp

/-- A contract on bytes, as `SafeErc20` sees it: `RawCall::call`,
`contracts/src/token/erc20/utils/safe_erc20.rs` 342-352 and 376-385. -/
def rawToken {τ : Type} (K : Hash) (prog : τ → Bytes → Outcome τ) : SafeErc20.Token τ where
  hasCode := true
  call t r := match prog t ((request r).bytes K) with
    | .returned t' data => some (t', data)
    | .reverted _ => none

/-- What a `uint256` method gives: the number, or an error (`Erc20Interface::balance_of`,
`contracts/src/finance/vesting_wallet.rs` 461-468). -/
def uintReply {τ : Type} (D : Decoder) : Outcome τ → Option U256
  | .returned _ data => match D.read [.uint256] data with
    | some [.uint256 x] => some x
    | _ => none
  | .reverted _ => none

/-! ## Receivers -/

/-- What a `bytes4` method gives: `Ok`, `call::Error::Revert` or another error
(`contracts/src/token/erc721/mod.rs` 1007-1027). -/
def answer721 (D : Decoder) : Outcome Unit → Erc721.Answer
  | .returned _ data => match D.read [.bytes4] data with
    | some [.bytes4 x] => .selector x
    | _ => .failure
  | .reverted data => .revert data

/-- The same for ERC-1155 (`contracts/src/token/erc1155/mod.rs` 762-784). -/
def answer1155 (D : Decoder) : Outcome Unit → Erc1155.Answer
  | .returned _ data => match D.read [.bytes4] data with
    | some [.bytes4 x] => .selector x
    | _ => .failure
  | .reverted data => .revert data

/-- Accounts with code as programs on bytes, as `_check_on_erc721_received` sees them
(`contracts/src/token/erc721/mod.rs` 1005-1013). -/
def receivers721 (K : Hash) (D : Decoder) (W : Address → Option (Bytes → Outcome Unit)) : Erc721.Receivers := fun a =>
  (W a).map fun prog operator src id data => answer721 D (prog ((Message.onERC721Received operator src id data).bytes K))

/-- The message of a notice, `contracts/src/token/erc1155/mod.rs` 762-770. -/
def notice : Erc1155.Notice → Message
  | .single operator src id value data => .onERC1155Received operator src id value data
  | .batch operator src ids values data => .onERC1155BatchReceived operator src ids values data

/-- Accounts with code as programs on bytes, as `_check_on_erc1155_received` sees them
(`contracts/src/token/erc1155/mod.rs` 760-770). -/
def receivers1155 (K : Hash) (D : Decoder) (W : Address → Option (Bytes → Outcome Unit)) : Erc1155.Receivers := fun a =>
  (W a).map fun prog n => answer1155 D (prog ((notice n).bytes K))

/-- What `on_flash_loan` gives: the word, or an error (`contracts/src/token/erc20/extensions/flash_mint.rs` 331-342). -/
def flashReply (D : Decoder) : Outcome Unit → Option B256
  | .returned _ data => match D.read [.bytes32] data with
    | some [.bytes32 x] => some x
    | _ => none
  | .reverted _ => none

end Verif.Calls
