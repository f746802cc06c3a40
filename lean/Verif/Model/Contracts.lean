import Verif.Model.Entry
import Verif.Model.Calls
import Verif.Model.Erc721Enumerable
import Verif.Model.Erc721Consecutive
import Verif.Model.Erc20Permit
import Verif.Model.Compositions
import Verif.Model.Metadata
/-!
# Model of the example contracts on bytes

For each contract the handler that takes a routed function and decoded arguments to the Rust function.  The environment is the
sender and, for the tokens with callbacks, the accounts with code as programs on bytes (which cannot re-enter: the examples are
compiled without the `reentrant` feature).
-/
namespace Verif.Contracts
open Verif Verif.Abi Verif.Entry

/-- The result of a function that does not change the state: the values, or the error as bytes
(`contracts/src/token/erc721/mod.rs` 412-421). -/
def view {σ ε : Type} (K : Hash) (reply : ε → Revert.Reply) (s : σ) : Except ε (List Val) →
    Except (Option Bytes) (σ × List Val)
  | .ok r => .ok (s, r)
  | .error e => .error ((reply e).data K)

/-- One value (the results of `contracts/src/token/erc721/mod.rs` 412-421). -/
def one {ε α : Type} (f : α → Val) : Except ε α → Except ε (List Val)
  | .ok a => .ok [f a]
  | .error e => .error e

/-- No value (the result of `contracts/src/access/control.rs` 262-264). -/
def none_ {ε α : Type} : Except ε α → Except ε (List Val)
  | .ok _ => .ok []
  | .error e => .error e

/-- Accounts with code, as programs on bytes: what they answer to a call (`contracts/src/token/erc721/mod.rs` 1005-1013). -/
abbrev Programs := Address → Option (Bytes → Outcome Unit)

/-- What a contract sees of a call: the sender, and the other contracts (`contracts/src/token/erc721/mod.rs` 1005-1013). -/
structure Env where
  caller : Address
  world : Programs

/-- A function of a contract: type, name, what it does (`contracts/src/token/erc20/mod.rs` 270-316). -/
abbrev Row (σ : Type) := String × String × (List Val → Except (Option Bytes) (σ × List Val))

/-- `total_supply`, `balance_of`, `allowance` of `Erc20` (`contracts/src/token/erc20/mod.rs` 274-297); `u` is its part of the
state `s`. -/
def erc20Views {σ : Type} (s : σ) (u : Erc20.State) : List (Row σ) :=
  [("Erc20", "total_supply", fun | [] => .ok (s, [.uint256 (Erc20.totalSupplyOf u)]) | _ => .error none),
   ("Erc20", "balance_of", fun | [.address a] => .ok (s, [.uint256 (Erc20.balanceOf u a)]) | _ => .error none),
   ("Erc20", "allowance", fun
      | [.address o, .address p] => .ok (s, [.uint256 (Erc20.allowance u o p)])
      | _ => .error none)]

/-- `balance_of`, `owner_of`, `get_approved`, `is_approved_for_all` of `Erc721` (`contracts/src/token/erc721/mod.rs` 412-421,
483-490); `u` is its part of the state `s`. -/
def erc721Views {σ : Type} (K : Hash) (s : σ) (u : Erc721.State) : List (Row σ) :=
  [("Erc721", "balance_of", fun
      | [.address a] => view K Revert.erc721 s (one .uint256 (Erc721.balanceOf u a))
      | _ => .error none),
   ("Erc721", "owner_of", fun
      | [.uint256 id] => view K Revert.erc721 s (one .address (Erc721.ownerOf u id))
      | _ => .error none),
   ("Erc721", "get_approved", fun
      | [.uint256 id] => view K Revert.erc721 s (one .address (Erc721.getApproved u id))
      | _ => .error none),
   ("Erc721", "is_approved_for_all", fun
      | [.address o, .address p] => .ok (s, [.bool (Erc721.isApprovedForAll u o p)])
      | _ => .error none)]

/-- `balance_of`, `balance_of_batch`, `is_approved_for_all` of `Erc1155` (`contracts/src/token/erc1155/mod.rs` 364-394), by way
of the type `t`; `u` is its part of the state `s`. -/
def erc1155Views {σ : Type} (K : Hash) (t : String) (s : σ) (u : Erc1155.State) : List (Row σ) :=
  [(t, "balance_of", fun
      | [.address a, .uint256 id] => .ok (s, [.uint256 (Erc1155.balanceOf u a id)])
      | _ => .error none),
   (t, "balance_of_batch", fun
      | [.addresses as, .uints ids] => view K Revert.erc1155 s (one .uints (Erc1155.balanceOfBatch u as ids))
      | _ => .error none),
   (t, "is_approved_for_all", fun
      | [.address o, .address p] => .ok (s, [.bool (Erc1155.isApprovedForAll u o p)])
      | _ => .error none)]


/-- `examples/erc721/src/lib.rs` 37-198 with `Erc721` (`contracts/src/token/erc721/mod.rs` 409-491), `Erc721Enumerable`
(`contracts/src/token/erc721/extensions/enumerable.rs` 137-165) and `Pausable` (`contracts/src/utils/pausable.rs` 80-88); `cap`
bounds the vector of all tokens. -/
def erc721 (K : Hash) (D : Decoder) (cap : Nat) (env : Env) : Handler Enumerable.State := fun t f args s =>
  let go (c : Enumerable.Call) := finish K Revert.erc721Example []
    (Enumerable.exec cap s ⟨env.caller, Calls.receivers721 K D env.world, c⟩)
  dispatch t f args (
  [("Erc721Example", "burn", fun | [.uint256 id] => go (.burn id) | _ => .error none),
   ("Erc721Example", "mint", fun | [.address dst, .uint256 id] => go (.mint dst id) | _ => .error none),
   ("Erc721Example", "safe_mint", fun
      | [.address dst, .uint256 id, .bytes data] => go (.safeMint dst id data)
      | _ => .error none),
   ("Erc721Example", "safe_transfer_from", fun
      | [.address src, .address dst, .uint256 id] => go (.safeTransferFrom src dst id)
      | _ => .error none),
   ("Erc721Example", "safe_transfer_from_with_data", fun
      | [.address src, .address dst, .uint256 id, .bytes data] => go (.safeTransferFromWithData src dst id data)
      | _ => .error none),
   ("Erc721Example", "transfer_from", fun
      | [.address src, .address dst, .uint256 id] => go (.transferFrom src dst id)
      | _ => .error none),
   ("Erc721Example", "supports_interface", fun
      | [.bytes4 id] => .ok (s, [.bool (Interfaces.erc721Example K id)])
      | _ => .error none),
   ("Erc721Example", "pause", fun | [] => go .pause | _ => .error none),
   ("Erc721Example", "unpause", fun | [] => go .unpause | _ => .error none),
   ("Erc721", "approve", fun | [.address dst, .uint256 id] => go (.approve dst id) | _ => .error none),
   ("Erc721", "set_approval_for_all", fun | [.address op, .bool b] => go (.setApprovalForAll op b) | _ => .error none),
   ("Erc721Enumerable", "token_of_owner_by_index", fun
      | [.address o, .uint256 i] =>
        view K Revert.erc721Example s (one .uint256 (Enumerable.tokenOfOwnerByIndex s.lists o i))
      | _ => .error none),
   ("Erc721Enumerable", "total_supply", fun
      | [] => .ok (s, [.uint256 (Enumerable.totalSupply s.lists)])
      | _ => .error none),
   ("Erc721Enumerable", "token_by_index", fun
      | [.uint256 i] => view K Revert.erc721Example s (one .uint256 (Enumerable.tokenByIndex s.lists i))
      | _ => .error none),
   ("Pausable", "paused", fun | [] => .ok (s, [.bool s.pausable.paused]) | _ => .error none)] ++
  erc721Views K s s.erc721)

/-- `Error` of `examples/erc1155/src/lib.rs` 12-16. -/
def erc1155Reply : Erc1155Example.Err → Revert.Reply
  | .erc1155 e => Revert.erc1155 e
  | .pausable e => Revert.pausable e

/-- `examples/erc1155/src/lib.rs` 28-118 with `Erc1155` (`contracts/src/token/erc1155/mod.rs` 360-419) and `Pausable`
(`contracts/src/utils/pausable.rs` 80-88). -/
def erc1155 (K : Hash) (D : Decoder) (env : Env) : Handler Erc1155Example.State := fun t f args s =>
  let go (c : Erc1155Example.Call) := finish K erc1155Reply []
    (Erc1155Example.exec s ⟨env.caller, Calls.receivers1155 K D env.world, c⟩)
  dispatch t f args (
  [("Erc1155Example", "mint", fun
      | [.address dst, .uint256 id, .uint256 v, .bytes data] => go (.mint dst id v data)
      | _ => .error none),
   ("Erc1155Example", "mint_batch", fun
      | [.address dst, .uints ids, .uints vs, .bytes data] => go (.mintBatch dst ids vs data)
      | _ => .error none),
   ("Erc1155Example", "burn", fun | [.address a, .uint256 id, .uint256 v] => go (.burn a id v) | _ => .error none),
   ("Erc1155Example", "burn_batch", fun
      | [.address a, .uints ids, .uints vs] => go (.burnBatch a ids vs)
      | _ => .error none),
   ("Erc1155Example", "safe_transfer_from", fun
      | [.address src, .address dst, .uint256 id, .uint256 v, .bytes data] => go (.safeTransferFrom src dst id v data)
      | _ => .error none),
   ("Erc1155Example", "safe_batch_transfer_from", fun
      | [.address src, .address dst, .uints ids, .uints vs, .bytes data] => go (.safeBatchTransferFrom src dst ids vs data)
      | _ => .error none),
   ("Erc1155Example", "supports_interface", fun
      | [.bytes4 id] => .ok (s, [.bool (Interfaces.erc1155Example K id)])
      | _ => .error none),
   ("Erc1155Example", "pause", fun | [] => go .pause | _ => .error none),
   ("Erc1155Example", "unpause", fun | [] => go .unpause | _ => .error none),
   ("Erc1155", "set_approval_for_all", fun | [.address op, .bool b] => go (.setApprovalForAll op b) | _ => .error none),
   ("Pausable", "paused", fun | [] => .ok (s, [.bool s.pausable.paused]) | _ => .error none)] ++
  erc1155Views K "Erc1155" s s.erc1155)

/-- `examples/erc1155-supply/src/lib.rs` 24-83 with `Erc1155Supply`
(`contracts/src/token/erc1155/extensions/supply.rs` 101-152). -/
def erc1155Supply (K : Hash) (D : Decoder) (env : Env) : Handler Erc1155Supply.State := fun t f args s =>
  let go (c : Erc1155Supply.Call) := finish K Revert.erc1155 []
    (Erc1155Supply.exec s ⟨env.caller, Calls.receivers1155 K D env.world, c⟩)
  dispatch t f args (
  [("Erc1155Example", "total_supply", fun
      | [.uint256 id] => .ok (s, [.uint256 (Erc1155Supply.totalSupplyOf s id)])
      | _ => .error none),
   ("Erc1155Example", "total_supply_all", fun
      | [] => .ok (s, [.uint256 (Erc1155Supply.totalSupplyAllOf s)])
      | _ => .error none),
   ("Erc1155Example", "exists", fun | [.uint256 id] => .ok (s, [.bool (Erc1155Supply.exists_ s id)]) | _ => .error none),
   ("Erc1155Example", "mint", fun
      | [.address dst, .uint256 id, .uint256 v, .bytes data] => go (.mint dst id v data)
      | _ => .error none),
   ("Erc1155Example", "mint_batch", fun
      | [.address dst, .uints ids, .uints vs, .bytes data] => go (.mintBatch dst ids vs data)
      | _ => .error none),
   ("Erc1155Example", "burn", fun | [.address a, .uint256 id, .uint256 v] => go (.burn a id v) | _ => .error none),
   ("Erc1155Example", "burn_batch", fun
      | [.address a, .uints ids, .uints vs] => go (.burnBatch a ids vs)
      | _ => .error none),
   ("Erc1155Example", "supports_interface", fun
      | [.bytes4 id] => .ok (s, [.bool (Interfaces.erc1155SupplyExample K id)])
      | _ => .error none),
   ("Erc1155Supply", "set_approval_for_all", fun
      | [.address op, .bool b] => go (.setApprovalForAll op b)
      | _ => .error none),
   ("Erc1155Supply", "safe_transfer_from", fun
      | [.address src, .address dst, .uint256 id, .uint256 v, .bytes data] => go (.safeTransferFrom src dst id v data)
      | _ => .error none),
   ("Erc1155Supply", "safe_batch_transfer_from", fun
      | [.address src, .address dst, .uints ids, .uints vs, .bytes data] => go (.safeBatchTransferFrom src dst ids vs data)
      | _ => .error none)] ++
  erc1155Views K "Erc1155Supply" s s.erc1155)

/-- `examples/erc721-metadata/src/lib.rs` 30-59 with `Erc721` (`contracts/src/token/erc721/mod.rs` 409-491) and
`Erc721Metadata` (`contracts/src/token/erc721/extensions/metadata.rs` 60-69). -/
def erc721Metadata (K : Hash) (D : Decoder) (env : Env) : Handler Metadata.State := fun t f args s =>
  let go (c : Metadata.Call) := finish K Revert.erc721 []
    (Metadata.exec s ⟨env.caller, Calls.receivers721 K D env.world, c⟩)
  dispatch t f args (
  [("Erc721MetadataExample", "mint", fun | [.address dst, .uint256 id] => go (.mint dst id) | _ => .error none),
   ("Erc721MetadataExample", "burn", fun | [.uint256 id] => go (.user (.burn id)) | _ => .error none),
   ("Erc721MetadataExample", "token_uri", fun
      | [.uint256 id] => view K Revert.erc721 s (one .string (Metadata.tokenURI s id))
      | _ => .error none),
   ("Erc721MetadataExample", "set_token_uri", fun | [.uint256 id, .string u] => go (.setTokenUri id u) | _ => .error none),
   ("Erc721MetadataExample", "supports_interface", fun
      | [.bytes4 id] => .ok (s, [.bool (Interfaces.erc721MetadataExample K id)])
      | _ => .error none),
   ("Erc721", "transfer_from", fun
      | [.address src, .address dst, .uint256 id] => go (.user (.transferFrom src dst id))
      | _ => .error none),
   ("Erc721", "safe_transfer_from", fun
      | [.address src, .address dst, .uint256 id] => go (.user (.safeTransferFrom src dst id))
      | _ => .error none),
   ("Erc721", "safe_transfer_from_with_data", fun
      | [.address src, .address dst, .uint256 id, .bytes data] => go (.user (.safeTransferFromWithData src dst id data))
      | _ => .error none),
   ("Erc721", "approve", fun | [.address dst, .uint256 id] => go (.user (.approve dst id)) | _ => .error none),
   ("Erc721", "set_approval_for_all", fun
      | [.address op, .bool b] => go (.user (.setApprovalForAll op b))
      | _ => .error none),
   ("Erc721Metadata", "name", fun | [] => .ok (s, [.string s.metadata.name]) | _ => .error none),
   ("Erc721Metadata", "symbol", fun | [] => .ok (s, [.string s.metadata.symbol]) | _ => .error none)] ++
  erc721Views K s s.erc721)

/-- `examples/erc1155-metadata-uri/src/lib.rs` 23-44 with `Erc1155` (`contracts/src/token/erc1155/mod.rs` 360-419). -/
def erc1155Metadata (K : Hash) (D : Decoder) (env : Env) : Handler Metadata1155.State := fun t f args s =>
  let go (c : Metadata1155.Call) := finish K Revert.erc1155 []
    (Metadata1155.exec s ⟨env.caller, Calls.receivers1155 K D env.world, c⟩)
  dispatch t f args (
  [("Erc1155MetadataUriExample", "uri", fun
      | [.uint256 id] => .ok (s, [.string (Metadata1155.uri s id)])
      | _ => .error none),
   ("Erc1155MetadataUriExample", "set_token_uri", fun
      | [.uint256 id, .string u] => go (.setTokenUri id u)
      | _ => .error none),
   ("Erc1155MetadataUriExample", "set_base_uri", fun | [.string u] => go (.setBaseUri u) | _ => .error none),
   ("Erc1155MetadataUriExample", "supports_interface", fun
      | [.bytes4 id] => .ok (s, [.bool (Interfaces.erc1155MetadataUriExample K id)])
      | _ => .error none),
   ("Erc1155", "set_approval_for_all", fun
      | [.address op, .bool b] => go (.user (.setApprovalForAll op b))
      | _ => .error none),
   ("Erc1155", "safe_transfer_from", fun
      | [.address src, .address dst, .uint256 id, .uint256 v, .bytes data] =>
        go (.user (.safeTransferFrom src dst id v data))
      | _ => .error none),
   ("Erc1155", "safe_batch_transfer_from", fun
      | [.address src, .address dst, .uints ids, .uints vs, .bytes data] =>
        go (.user (.safeBatchTransferFrom src dst ids vs data))
      | _ => .error none)] ++
  erc1155Views K "Erc1155" s s.erc1155)

/-- `examples/erc721-consecutive/src/lib.rs` 21-39 with `Erc721Consecutive`
(`contracts/src/token/erc721/extensions/consecutive.rs` 170-259); `burn` and `mint` are open to everybody. -/
def erc721Consecutive (K : Hash) (D : Decoder) (env : Env) : Handler Consecutive.State := fun t f args s =>
  let go (c : Consecutive.Call) := finish K Revert.erc721Consecutive []
    (Consecutive.exec s ⟨env.caller, Calls.receivers721 K D env.world, c⟩)
  dispatch t f args (
  [("Erc721ConsecutiveExample", "burn", fun | [.uint256 id] => go (.burn id) | _ => .error none),
   ("Erc721ConsecutiveExample", "mint", fun | [.address dst, .uint256 id] => go (.mint dst id) | _ => .error none),
   ("Erc721ConsecutiveExample", "supports_interface", fun
      | [.bytes4 id] => .ok (s, [.bool (Interfaces.erc721ConsecutiveExample K id)])
      | _ => .error none),
   ("Erc721Consecutive", "transfer_from", fun
      | [.address src, .address dst, .uint256 id] => go (.transferFrom src dst id)
      | _ => .error none),
   ("Erc721Consecutive", "safe_transfer_from", fun
      | [.address src, .address dst, .uint256 id] => go (.safeTransferFrom src dst id)
      | _ => .error none),
   ("Erc721Consecutive", "safe_transfer_from_with_data", fun
      | [.address src, .address dst, .uint256 id, .bytes data] => go (.safeTransferFromWithData src dst id data)
      | _ => .error none),
   ("Erc721Consecutive", "approve", fun | [.address dst, .uint256 id] => go (.approve dst id) | _ => .error none),
   ("Erc721Consecutive", "set_approval_for_all", fun
      | [.address op, .bool b] => go (.setApprovalForAll op b)
      | _ => .error none),
   ("Erc721Consecutive", "balance_of", fun
      | [.address a] => view K Revert.erc721Consecutive s (one .uint256 (Consecutive.balanceOf s a))
      | _ => .error none),
   ("Erc721Consecutive", "owner_of", fun
      | [.uint256 id] => view K Revert.erc721Consecutive s (one .address (Consecutive.ownerOf s id))
      | _ => .error none),
   ("Erc721Consecutive", "get_approved", fun
      | [.uint256 id] => view K Revert.erc721Consecutive s (one .address (Consecutive.getApproved s id))
      | _ => .error none),
   ("Erc721Consecutive", "is_approved_for_all", fun
      | [.address o, .address p] => .ok (s, [.bool (Consecutive.isApprovedForAll s o p)])
      | _ => .error none)])

/-- `Error` of `examples/ownable/src/lib.rs` 13-17 and `examples/ownable-two-step/src/lib.rs` 13-17. -/
def ownableReply : OwnableExample.Err → Revert.Reply
  | .erc20 e => Revert.erc20 e
  | .ownable e => Revert.ownable e

/-- `Error` of `examples/access-control/src/lib.rs` 13-17. -/
def accessReply : AccessExample.Err → Revert.Reply
  | .access e => Revert.accessControl e
  | .erc20 e => Revert.erc20 e

/-- `examples/ownable/src/lib.rs` 28-36 with `Erc20` (`contracts/src/token/erc20/mod.rs` 270-316) and `Ownable`
(`contracts/src/access/ownable.rs` 128-158). -/
def ownable (K : Hash) (caller : Address) : Handler OwnableExample.State := fun t f args s =>
  let go (r : List Val) (c : OwnableExample.Call) := finish K ownableReply r (OwnableExample.exec s (caller, c))
  dispatch t f args (
  [("OwnableExample", "transfer", fun | [.address dst, .uint256 v] => go [] (.transfer dst v) | _ => .error none),
   ("Erc20", "approve", fun | [.address p, .uint256 v] => go [.bool true] (.approve p v) | _ => .error none),
   ("Erc20", "transfer_from", fun
      | [.address src, .address dst, .uint256 v] => go [.bool true] (.transferFrom src dst v)
      | _ => .error none),
   ("Ownable", "owner", fun | [] => .ok (s, [.address s.ownable.owner]) | _ => .error none),
   ("Ownable", "transfer_ownership", fun | [.address a] => go [] (.ownable (.transferOwnership a)) | _ => .error none),
   ("Ownable", "renounce_ownership", fun | [] => go [] (.ownable .renounceOwnership) | _ => .error none)] ++
  erc20Views s s.erc20)

/-- `examples/ownable-two-step/src/lib.rs` 28-36 with `Erc20` (`contracts/src/token/erc20/mod.rs` 270-316) and `Ownable2Step`
(`contracts/src/access/ownable_two_step.rs` 160-204). -/
def ownable2Step (K : Hash) (caller : Address) : Handler Ownable2StepExample.State := fun t f args s =>
  let go (r : List Val) (c : Ownable2StepExample.Call) := finish K ownableReply r (Ownable2StepExample.exec s (caller, c))
  dispatch t f args (
  [("Ownable2StepExample", "transfer", fun | [.address dst, .uint256 v] => go [] (.transfer dst v) | _ => .error none),
   ("Erc20", "approve", fun | [.address p, .uint256 v] => go [.bool true] (.approve p v) | _ => .error none),
   ("Erc20", "transfer_from", fun
      | [.address src, .address dst, .uint256 v] => go [.bool true] (.transferFrom src dst v)
      | _ => .error none),
   ("Ownable2Step", "owner", fun | [] => .ok (s, [.address (Ownable2Step.owner s.ownable)]) | _ => .error none),
   ("Ownable2Step", "pending_owner", fun
      | [] => .ok (s, [.address (Ownable2Step.pendingOwner s.ownable)])
      | _ => .error none),
   ("Ownable2Step", "transfer_ownership", fun
      | [.address a] => go [] (.ownable (.transferOwnership a))
      | _ => .error none),
   ("Ownable2Step", "accept_ownership", fun | [] => go [] (.ownable .acceptOwnership) | _ => .error none),
   ("Ownable2Step", "renounce_ownership", fun | [] => go [] (.ownable .renounceOwnership) | _ => .error none)] ++
  erc20Views s s.erc20)

/-- `examples/access-control/src/lib.rs` 31-56 with `Erc20` (`contracts/src/token/erc20/mod.rs` 270-316) and `AccessControl`
(`contracts/src/access/control.rs` 254-306). -/
def accessControl (K : Hash) (caller : Address) : Handler AccessExample.State := fun t f args s =>
  let go (r : List Val) (c : AccessExample.Call) := finish K accessReply r (AccessExample.exec s (caller, c))
  dispatch t f args (
  [("AccessControlExample", "make_admin", fun | [.address a] => go [] (.makeAdmin a) | _ => .error none),
   ("AccessControlExample", "transfer_from", fun
      | [.address src, .address dst, .uint256 v] => go [.bool true] (.transferFrom src dst v)
      | _ => .error none),
   ("AccessControlExample", "set_role_admin", fun
      | [.bytes32 r, .bytes32 n] => go [] (.setRoleAdmin r n)
      | _ => .error none),
   ("Erc20", "transfer", fun | [.address dst, .uint256 v] => go [.bool true] (.transfer dst v) | _ => .error none),
   ("Erc20", "approve", fun | [.address p, .uint256 v] => go [.bool true] (.approve p v) | _ => .error none),
   ("AccessControl", "has_role", fun
      | [.bytes32 r, .address a] => .ok (s, [.bool (AccessControl.hasRole s.access r a)])
      | _ => .error none),
   ("AccessControl", "only_role", fun
      | [.bytes32 r] => view K Revert.accessControl s (none_ (AccessControl.onlyRole s.access caller r))
      | _ => .error none),
   ("AccessControl", "get_role_admin", fun
      | [.bytes32 r] => .ok (s, [.bytes32 (AccessControl.getRoleAdmin s.access r)])
      | _ => .error none),
   ("AccessControl", "grant_role", fun | [.bytes32 r, .address a] => go [] (.access (.grantRole r a)) | _ => .error none),
   ("AccessControl", "revoke_role", fun
      | [.bytes32 r, .address a] => go [] (.access (.revokeRole r a))
      | _ => .error none),
   ("AccessControl", "renounce_role", fun
      | [.bytes32 r, .address a] => go [] (.access (.renounceRole r a))
      | _ => .error none)] ++
  erc20Views s s.erc20)

/-- What a contract with a clock sees of a call (`contracts/src/token/erc20/extensions/permit.rs` 150). -/
structure Timed where
  caller : Address
  now : U64

/-- Storage of `examples/erc20-permit/src/lib.rs` 16-25 (the domain is made of constants). -/
structure PermitToken where
  erc20 : Erc20.State
  nonces : Nonces.State

/-- A call at a time: the block's clock is not stored (`examples/erc20-permit/src/lib.rs` 35-70). -/
def permitStep (E : Permit.Env) (now : U64) (s : PermitToken) (c : Permit.Call) : Except Permit.Err PermitToken :=
  match Permit.exec E ⟨s.erc20, s.nonces, now⟩ c with
  | .ok t => .ok ⟨t.erc20, t.nonces⟩
  | .error e => .error e

/-- `examples/erc20-permit/src/lib.rs` 35-70 with `Erc20` (`contracts/src/token/erc20/mod.rs` 270-316), `Nonces`
(`contracts/src/utils/nonces.rs` 51-63) and `Erc20Permit` (`contracts/src/token/erc20/extensions/permit.rs` 89-102). -/
def erc20Permit (E : Permit.Env) (env : Timed) : Handler PermitToken := fun t f args s =>
  let go (r : List Val) (c : Permit.Call) := finish E.K Revert.permit r (permitStep E env.now s c)
  dispatch t f args (
  [("Erc20PermitExample", "mint", fun
      | [.address a, .uint256 v] => go [] (.token env.caller (.mint a v))
      | _ => .error none),
   ("Erc20PermitExample", "permit", fun
      | [.address o, .address p, .uint256 v, .uint256 d, .uint8 y, .bytes32 r, .bytes32 x] => go [] (.permit o p v d y r x)
      | _ => .error none),
   ("Erc20", "transfer", fun
      | [.address dst, .uint256 v] => go [.bool true] (.token env.caller (.transfer dst v))
      | _ => .error none),
   ("Erc20", "approve", fun
      | [.address p, .uint256 v] => go [.bool true] (.token env.caller (.approve p v))
      | _ => .error none),
   ("Erc20", "transfer_from", fun
      | [.address src, .address dst, .uint256 v] => go [.bool true] (.token env.caller (.transferFrom src dst v))
      | _ => .error none),
   ("Nonces", "nonces", fun | [.address a] => .ok (s, [.uint256 (s.nonces.nonces a)]) | _ => .error none),
   ("Erc20Permit", "domain_separator", fun | [] => .ok (s, [.bytes32 (Permit.domainSeparator E)]) | _ => .error none)] ++
  erc20Views s s.erc20)

end Verif.Contracts
