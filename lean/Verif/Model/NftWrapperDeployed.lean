import Verif.Model.VestingDeployed
import Verif.Model.NftBytes
import Verif.Model.Erc721Words
/-!
# Model of a deployed token that holds the tokens of another: `examples/erc721-wrapper`

The wrapper with nothing left out between the transaction and the storage: functions as programs on storage cells, the router and the
decoder in front, the words of the storage behind, any program as the underlying token and any programs as receivers.  What is asked of
the others, and what they answer, is as in `Verif.Model.NftBytes`.
-/
namespace Verif.NftWrapperDeployed
open Verif Verif.Storage Verif.Outside Verif.OnWords
open Verif.Abi (Val Decoder Outcome)

/-- Code of the wrapper; it fails with what is to be reverted with (`contracts/src/token/erc721/extensions/wrapper.rs` 100-236). -/
abbrev Code := Prog Revert.Reply Erc721.Event

/-- The field `erc721`, `examples/erc721-wrapper/src/lib.rs` 17. -/
def token : List Step := [.field "erc721"]

/-- `self.erc721_wrapper.underlying`, `contracts/src/token/erc721/extensions/wrapper.rs` 74. -/
def underlyingCell : List Step := [.field "erc721_wrapper", .field "underlying"]

/-- Functions of the token, with `?` (`contracts/src/token/erc721/extensions/wrapper.rs` 136, 174 and 233). -/
def inner {α : Type} (m : Erc721Words.Code α) : Code α := m.lift Revert.erc721 id

/-- What the chain answers to a call, with `?` (`contracts/src/token/erc721/extensions/wrapper.rs` 115-134 and 175-195). -/
def settle {τ : Type} : Except Nfts.Err τ → Code τ
  | .ok t' => .ret t'
  | .error e => .fail (Nfts.errReply e)

/-- `underlying`, `contracts/src/token/erc721/extensions/wrapper.rs` 243-245. -/
def underlying : Code Address := .get underlyingCell fun v => .ret (v.setWidth 160)

section
variable {τ : Type} (W : World τ) (K : Hash) (D : Decoder) (self : Address)

/-- `_safe_mint` with no data, as the wrapper calls it (`contracts/src/token/erc721/extensions/wrapper.rs` 136 and 233). -/
def safeMint (t : τ) (caller dst : Address) (id : U256) : Code τ :=
  (inner (Erc721Words.safeMint token (Nfts.receivers W K D self t) caller dst id [])).bind fun _ =>
  .ret (Nfts.told W K self t caller ZERO dst id [])

/-- `deposit_for`, `contracts/src/token/erc721/extensions/wrapper.rs` 110-137: the loop over the ids.  Simplified: when the call fails
the address of the underlying token is read again, with the same result. -/
def wrapAll (under caller account : Address) : τ → List U256 → Code τ
  | t, [] => .ret t
  | t, id :: ids =>
    (settle (Nfts.request W K D t self under (.transferFrom caller self id))).bind fun t1 =>
    (safeMint W K D self t1 caller account id).bind fun t2 => wrapAll under caller account t2 ids

/-- `deposit_for`, `contracts/src/token/erc721/extensions/wrapper.rs` 100-140. -/
def depositFor (t : τ) (caller account : Address) (ids : List U256) : Code τ :=
  underlying.bind fun under => wrapAll W K D self under caller account t ids

/-- `withdraw_to`, `contracts/src/token/erc721/extensions/wrapper.rs` 169-196: the loop over the ids.  Simplified as `wrapAll`. -/
def unwrapAll (under caller account : Address) : τ → List U256 → Code τ
  | t, [] => .ret t
  | t, id :: ids =>
    (inner (Erc721Words.update token ZERO id caller)).bind fun _ =>
    (settle (Nfts.request W K D t self under (.safeTransferFrom self account id []))).bind fun t1 =>
    unwrapAll under caller account t1 ids

/-- `withdraw_to`, `contracts/src/token/erc721/extensions/wrapper.rs` 160-199. -/
def withdrawTo (t : τ) (caller account : Address) (ids : List U256) : Code τ :=
  underlying.bind fun under => unwrapAll W K D self under caller account t ids

/-- `on_erc721_received`, `contracts/src/token/erc721/extensions/wrapper.rs` 218-236. -/
def onReceived (t : τ) (caller src : Address) (id : U256) : Code τ :=
  underlying.bind fun under =>
  if under ≠ caller then .fail (Nfts.errReply (.unsupportedToken caller)) else safeMint W K D self t caller src id

/-- What becomes of the chain when the token is called (`contracts/src/token/erc721/mod.rs` 423-481 and 993-1013). -/
def heard (t : τ) (caller : Address) : Wrapper721.TokenCall → τ
  | .safeTransferFrom src dst id => Nfts.told W K self t caller src dst id []
  | .safeTransferFromWithData src dst id data => Nfts.told W K self t caller src dst id data
  | _ => t

/-- Functions of `Erc721` (`contracts/src/token/erc721/mod.rs` 423-481) that the wrapper inherits, and what becomes of the chain. -/
def tokenCall (t : τ) (caller : Address) (c : Wrapper721.TokenCall) : Code τ :=
  (inner (Erc721Words.code token (Nfts.receivers W K D self t) caller (.inl c.toCall))).bind fun _ => .ret (heard W K self t caller c)

end

section
variable {τ : Type} (W : World τ) (K : Hash)

/-- `examples/erc721-wrapper/src/lib.rs` 22-60 with `Erc721` (`contracts/src/token/erc721/mod.rs` 409-491), called by `caller`. -/
def program (D : Decoder) (caller self : Address) (t : τ) (u f : String) (args : List Val) : Act Erc721.Event τ :=
  let go (r : List Val) (m : Code τ) : Act Erc721.Event τ := conclude K id (fun t' => (r, t')) m
  let ask {α : Type} (g : α → Val) (m : Code α) : Act Erc721.Event τ := conclude K id (fun a => ([g a], t)) m
  select u f args
  [("Erc721WrapperExample", "underlying", fun | [] => ask .address underlying | _ => .fail none),
   ("Erc721WrapperExample", "deposit_for", fun
      | [.address a, .uints ids] => go [.bool true] (depositFor W K D self t caller a ids)
      | _ => .fail none),
   ("Erc721WrapperExample", "withdraw_to", fun
      | [.address a, .uints ids] => go [.bool true] (withdrawTo W K D self t caller a ids)
      | _ => .fail none),
   ("Erc721WrapperExample", "on_erc721_received", fun
      | [.address _, .address src, .uint256 id, .bytes _] =>
        go [.bytes4 Erc721.RECEIVER_FN_SELECTOR] (onReceived W K D self t caller src id)
      | _ => .fail none),
   ("Erc721", "transfer_from", fun
      | [.address src, .address dst, .uint256 id] => go [] (tokenCall W K D self t caller (.transferFrom src dst id))
      | _ => .fail none),
   ("Erc721", "safe_transfer_from", fun
      | [.address src, .address dst, .uint256 id] => go [] (tokenCall W K D self t caller (.safeTransferFrom src dst id))
      | _ => .fail none),
   ("Erc721", "safe_transfer_from_with_data", fun
      | [.address src, .address dst, .uint256 id, .bytes data] =>
        go [] (tokenCall W K D self t caller (.safeTransferFromWithData src dst id data))
      | _ => .fail none),
   ("Erc721", "approve", fun
      | [.address dst, .uint256 id] => go [] (tokenCall W K D self t caller (.approve dst id))
      | _ => .fail none),
   ("Erc721", "set_approval_for_all", fun
      | [.address op, .bool b] => go [] (tokenCall W K D self t caller (.setApprovalForAll op b))
      | _ => .fail none),
   ("Erc721", "balance_of", fun | [.address a] => ask .uint256 (inner (Erc721Words.balanceOf token a)) | _ => .fail none),
   ("Erc721", "owner_of", fun | [.uint256 id] => ask .address (inner (Erc721Words.requireOwned token id)) | _ => .fail none),
   ("Erc721", "get_approved", fun | [.uint256 id] => ask .address (inner (Erc721Words.getApproved token id)) | _ => .fail none),
   ("Erc721", "is_approved_for_all", fun
      | [.address o, .address p] => ask .bool (inner (Erc721Words.isApprovedForAll token o p))
      | _ => .fail none)]

/-- `#[entrypoint]`, `examples/erc721-wrapper/src/lib.rs` 13-60. -/
def run (D : Decoder) (caller : Address) (w : Chained Erc721.Event τ) (value : U256) (input : Bytes) :
    Outcome (Chained Erc721.Event τ) :=
  Abi.entry K D Router.erc721WrapperExample (onChain K erc721WrapperExample (program W K D caller)) w value input

end

/-- Deployment at an address: the constructor runs on fresh storage (`examples/erc721-wrapper/src/constructor.sol` 13-15). -/
def deploy {τ : Type} (K : Hash) (self under : Address) (t : τ) : Option (Chained Erc721.Event τ) :=
  (Constructors.erc721WrapperInit under).bind fun ws =>
  (Constructors.assign K Constructors.erc721WrapperSol ws Constructors.fresh).map fun st =>
    { self_ := self, words := st, log := [], world := t }

end Verif.NftWrapperDeployed
