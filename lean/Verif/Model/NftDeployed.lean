import Verif.Model.Erc721Words
import Verif.Model.Deployed
import Verif.Model.Contracts
/-!
# Model of a deployed contract: `examples/erc721`, calldata in, storage words

The enumerable, pausable, burnable token with nothing left out between the transaction and the storage: its functions as programs
on storage cells, the router and the decoder in front, and the words of the storage behind.  Receivers are programs on bytes, as in
`Verif.Model.Contracts`.
-/
namespace Verif.NftDeployed
open Verif Verif.Storage Verif.Enumerable
open Verif.Abi (Val Handler Decoder Outcome)
open Verif.Contracts (Env)

/-- The events of the contract, `contracts/src/token/erc721/mod.rs` 37-66 and `contracts/src/utils/pausable.rs` 28-38. -/
inductive Ev where
  | token (e : Erc721.Event)
  | pausable (e : Pausable.Event)
  deriving DecidableEq

/-- Programs of the contract (`examples/erc721/src/lib.rs` 37-198). -/
abbrev Code (α : Type) := Prog Err Ev α

/-- The field `erc721`, `examples/erc721/src/lib.rs` 29-30. -/
def token : List Step := [.field "erc721"]
/-- `owned_tokens` of the field `enumerable`, `contracts/src/token/erc721/extensions/enumerable.rs` 73. -/
def owned (a : Address) (i : U256) : List Step := [.field "enumerable", .field "owned_tokens", .key (a.setWidth 256), .key i]
/-- `owned_tokens_index`, `contracts/src/token/erc721/extensions/enumerable.rs` 75. -/
def ownedIndex (id : U256) : List Step := [.field "enumerable", .field "owned_tokens_index", .key id]
/-- `all_tokens`, `contracts/src/token/erc721/extensions/enumerable.rs` 77; the word of a vector holds its length. -/
def all : List Step := [.field "enumerable", .field "all_tokens"]
/-- An element of `all_tokens`, `contracts/src/token/erc721/extensions/enumerable.rs` 77. -/
def allAt (i : Nat) : List Step := [.field "enumerable", .field "all_tokens", .index i]
/-- `all_tokens_index`, `contracts/src/token/erc721/extensions/enumerable.rs` 79. -/
def allIndex (id : U256) : List Step := [.field "enumerable", .field "all_tokens_index", .key id]
/-- `self.pausable.paused`, `examples/erc721/src/lib.rs` 33-34. -/
def pausedCell : List Step := [.field "pausable", .field "paused"]

/-- `when_not_paused()?`, `contracts/src/utils/pausable.rs` 134-139. -/
def whenNotPaused : Code Unit :=
  .get pausedCell fun v => if v ≠ 0#256 then .fail (.pausable .enforcedPause) else .ret ()

/-- `when_paused()?`, `contracts/src/utils/pausable.rs` 151-156. -/
def whenPaused : Code Unit :=
  .get pausedCell fun v => if v ≠ 0#256 then .ret () else .fail (.pausable .expectedPause)

/-- A function of the token, with `?` (`examples/erc721/src/lib.rs` 44, 46, 62 and the like). -/
def inner {α : Type} (m : Erc721Words.Code α) : Code α := m.lift .erc721 .token

/-- `_add_token_to_owner_enumeration`, `contracts/src/token/erc721/extensions/enumerable.rs` 190-201. -/
def addToOwner (dst : Address) (id : U256) : Code Unit :=
  (inner (Erc721Words.balanceOf token dst)).bind fun balance =>
  .set (owned dst (balance - 1#256)) id (.set (ownedIndex id) (balance - 1#256) (.ret ()))

/-- `_add_token_to_all_tokens_enumeration`, `contracts/src/token/erc721/extensions/enumerable.rs` 210-215.  `push` writes behind
the last element and then the length, and panics when the length reaches `cap`. -/
def addToAll (cap : Nat) (id : U256) : Code Unit :=
  .get all fun n =>
  .set (allIndex id) n (
  if n.toNat < cap then .set (allAt n.toNat) id (.set all (n + 1#256) (.ret ())) else .fail .panic)

/-- `_remove_token_from_owner_enumeration`, `contracts/src/token/erc721/extensions/enumerable.rs` 240-270. -/
def removeFromOwner (src : Address) (id : U256) : Code Unit :=
  (inner (Erc721Words.balanceOf token src)).bind fun last =>
  .get (ownedIndex id) fun i =>
  if i ≠ last then
    .get (owned src last) fun moved =>
    .set (owned src i) moved (
    .set (ownedIndex moved) i (
    .set (ownedIndex id) 0#256 (
    .set (owned src last) 0#256 (.ret ()))))
  else .set (ownedIndex id) 0#256 (.set (owned src last) 0#256 (.ret ()))

/-- `_remove_token_from_all_tokens_enumeration`, `contracts/src/token/erc721/extensions/enumerable.rs` 286-320.  `get` and `setter`
compare with the length; `pop` writes the length and erases the element behind it. -/
def removeFromAll (id : U256) : Code Unit :=
  .get all fun n =>
  if n = 0#256 then .fail .panic
  else
    .get (allIndex id) fun i =>
    .get (allAt (n.toNat - 1)) fun moved =>
    if i.toNat < n.toNat then
      .set (allAt i.toNat) moved (
      .set (allIndex moved) i (
      .set (allIndex id) 0#256 (
      .set all (n - 1#256) (
      .set (allAt (n.toNat - 1)) 0#256 (.ret ())))))
    else .fail .panic

/-- The three transfer functions, `examples/erc721/src/lib.rs` 96-180. -/
def transferVia (m : Erc721Words.Code Unit) (dst : Address) (id : U256) : Code Unit :=
  whenNotPaused.bind fun _ =>
  (inner (Erc721Words.requireOwned token id)).bind fun previous =>
  (inner m).bind fun _ =>
  (removeFromOwner previous id).bind fun _ =>
  addToOwner dst id

/-- The two mint functions, `examples/erc721/src/lib.rs` 59-94. -/
def mintVia (cap : Nat) (m : Erc721Words.Code Unit) (dst : Address) (id : U256) : Code Unit :=
  whenNotPaused.bind fun _ =>
  (inner m).bind fun _ =>
  (addToAll cap id).bind fun _ =>
  addToOwner dst id

/-- `burn`, `examples/erc721/src/lib.rs` 40-57. -/
def burn (caller : Address) (id : U256) : Code Unit :=
  whenNotPaused.bind fun _ =>
  (inner (Erc721Words.requireOwned token id)).bind fun owner =>
  (inner (Erc721Words.burn token caller id)).bind fun _ =>
  (removeFromOwner owner id).bind fun _ =>
  removeFromAll id

/-- The state-changing functions, `examples/erc721/src/lib.rs` 39-198, with `approve` and `set_approval_for_all` of `Erc721`
(`contracts/src/token/erc721/mod.rs` 471-481).  No transaction has the zero address as its sender: such a one is refused, as in
`Enumerable.exec`. -/
def code (cap : Nat) (R : Erc721.Receivers) (caller : Address) (call : Call) : Code Unit :=
  if caller = ZERO then .fail .panic
  else match call with
  | .burn id => burn caller id
  | .mint dst id => mintVia cap (Erc721Words.mint token dst id) dst id
  | .safeMint dst id data => mintVia cap (Erc721Words.safeMint token R caller dst id data) dst id
  | .transferFrom src dst id => transferVia (Erc721Words.transferFrom token caller src dst id) dst id
  | .safeTransferFrom src dst id => transferVia (Erc721Words.safeTransferFromWithData token R caller src dst id []) dst id
  | .safeTransferFromWithData src dst id data =>
    transferVia (Erc721Words.safeTransferFromWithData token R caller src dst id data) dst id
  | .approve dst id => inner (Erc721Words.approveInternal token dst id caller true)
  | .setApprovalForAll op b => inner (Erc721Words.setApprovalForAll token caller op b)
  | .pause => whenNotPaused.bind fun _ => .set pausedCell 1#256 (.emit (.pausable (.paused caller)) (.ret ()))
  | .unpause => whenPaused.bind fun _ => .set pausedCell 0#256 (.emit (.pausable (.unpaused caller)) (.ret ()))

/-- `token_of_owner_by_index`, `contracts/src/token/erc721/extensions/enumerable.rs` 141-153. -/
def tokenOfOwnerByIndex (a : Address) (i : U256) : Code U256 :=
  .get (owned a i) fun id => if id = 0#256 then .fail (.outOfBoundsIndex a i) else .ret id

/-- `token_by_index`, `contracts/src/token/erc721/extensions/enumerable.rs` 160-164. -/
def tokenByIndex (i : U256) : Code U256 :=
  .get all fun n => if i.toNat < n.toNat then .get (allAt i.toNat) fun id => .ret id else .fail (.outOfBoundsIndex ZERO i)

/-- The result of a function, errors as bytes, `none` for a panic (`examples/erc721/src/lib.rs` 37-198). -/
def finish {α : Type} (K : Hash) (f : α → List Val) (m : Code α) : Prog (Option Bytes) Ev (List Val) :=
  (m.lift (fun e => (Revert.erc721Example e).data K) id).bind fun a => .ret (f a)

/-- The function of this type and name, on these arguments (`examples/erc721/src/lib.rs` 37-38), as `Entry.dispatch`. -/
def dispatch (t f : String) (args : List Val)
    (table : List (String × String × (List Val → Prog (Option Bytes) Ev (List Val)))) : Prog (Option Bytes) Ev (List Val) :=
  match table.find? fun r => decide (r.1 = t) && decide (r.2.1 = f) with
  | some r => r.2.2 args
  | none => .fail none

/-- The functions of `examples/erc721/src/lib.rs` 37-198 and of what it inherits: `Erc721`
(`contracts/src/token/erc721/mod.rs` 409-491), `Erc721Enumerable` (`contracts/src/token/erc721/extensions/enumerable.rs` 137-165)
and `Pausable` (`contracts/src/utils/pausable.rs` 80-88). -/
def program (K : Hash) (D : Decoder) (cap : Nat) (env : Env) (t f : String) (args : List Val) :
    Prog (Option Bytes) Ev (List Val) :=
  let go (c : Call) := finish K (fun _ => []) (code cap (Calls.receivers721 K D env.world) env.caller c)
  dispatch t f args
  [("Erc721Example", "burn", fun | [.uint256 id] => go (.burn id) | _ => .fail none),
   ("Erc721Example", "mint", fun | [.address dst, .uint256 id] => go (.mint dst id) | _ => .fail none),
   ("Erc721Example", "safe_mint", fun
      | [.address dst, .uint256 id, .bytes data] => go (.safeMint dst id data)
      | _ => .fail none),
   ("Erc721Example", "safe_transfer_from", fun
      | [.address src, .address dst, .uint256 id] => go (.safeTransferFrom src dst id)
      | _ => .fail none),
   ("Erc721Example", "safe_transfer_from_with_data", fun
      | [.address src, .address dst, .uint256 id, .bytes data] => go (.safeTransferFromWithData src dst id data)
      | _ => .fail none),
   ("Erc721Example", "transfer_from", fun
      | [.address src, .address dst, .uint256 id] => go (.transferFrom src dst id)
      | _ => .fail none),
   ("Erc721Example", "supports_interface", fun
      | [.bytes4 id] => .ret [.bool (Interfaces.erc721Example K id)]
      | _ => .fail none),
   ("Erc721Example", "pause", fun | [] => go .pause | _ => .fail none),
   ("Erc721Example", "unpause", fun | [] => go .unpause | _ => .fail none),
   ("Erc721", "approve", fun | [.address dst, .uint256 id] => go (.approve dst id) | _ => .fail none),
   ("Erc721", "set_approval_for_all", fun | [.address op, .bool b] => go (.setApprovalForAll op b) | _ => .fail none),
   ("Erc721Enumerable", "token_of_owner_by_index", fun
      | [.address o, .uint256 i] => finish K (fun id => [.uint256 id]) (tokenOfOwnerByIndex o i)
      | _ => .fail none),
   ("Erc721Enumerable", "total_supply", fun | [] => .get all fun n => .ret [.uint256 n] | _ => .fail none),
   ("Erc721Enumerable", "token_by_index", fun
      | [.uint256 i] => finish K (fun id => [.uint256 id]) (tokenByIndex i)
      | _ => .fail none),
   ("Pausable", "paused", fun | [] => .get pausedCell fun v => .ret [.bool (decide (v ≠ 0#256))] | _ => .fail none),
   ("Erc721", "balance_of", fun
      | [.address a] => finish K (fun v => [.uint256 v]) (inner (Erc721Words.balanceOf token a))
      | _ => .fail none),
   ("Erc721", "owner_of", fun
      | [.uint256 id] => finish K (fun a => [.address a]) (inner (Erc721Words.requireOwned token id))
      | _ => .fail none),
   ("Erc721", "get_approved", fun
      | [.uint256 id] => finish K (fun a => [.address a]) (inner (Erc721Words.getApproved token id))
      | _ => .fail none),
   ("Erc721", "is_approved_for_all", fun
      | [.address o, .address p] => finish K (fun b => [.bool b]) (inner (Erc721Words.isApprovedForAll token o p))
      | _ => .fail none)]

/-- The contract on the chain: the words of its storage, and the events so far (`examples/erc721/src/lib.rs` 26-35). -/
structure State where
  words : Words
  log : List Ev

/-- The functions on the words (`examples/erc721/src/lib.rs` 37-198). -/
def onWords (K : Hash) (D : Decoder) (cap : Nat) (env : Env) : Handler State := fun t f args w =>
  ((program K D cap env t f args).onWords K erc721Example w.words).map fun r => ({ words := r.2.1, log := w.log ++ r.2.2 }, r.1)

/-- `#[entrypoint]`, `examples/erc721/src/lib.rs` 26-198. -/
def entry (K : Hash) (D : Decoder) (cap : Nat) (env : Env) (w : State) (value : U256) (input : Bytes) : Outcome State :=
  Abi.entry K D Router.erc721Example (onWords K D cap env) w value input

/-- Deployment: the constructor runs on fresh storage (`examples/erc721/src/constructor.sol` 19-21). -/
def deploy (K : Hash) : Option State :=
  Constructors.erc721Init.bind fun ws =>
  (Constructors.assign K Constructors.erc721Sol ws Constructors.fresh).map fun st => { words := st, log := [] }

end Verif.NftDeployed
