import Verif.Model.Outside
import Verif.Model.Erc721Wrapper
/-!
# Model of `examples/erc721-wrapper` on bytes

Any program may be at the address of the underlying token, and at the address of a receiver.  They cannot re-enter the wrapper (the
example is compiled without the `reentrant` feature).
-/
namespace Verif.Outside.Nfts
open Verif Verif.Abi Verif.Entry Verif.Contracts Verif.Outside

/-- `enum Error`, `contracts/src/token/erc721/extensions/wrapper.rs` 44-62. -/
inductive Err where
  | erc721 (e : Erc721.Err)
  | unsupportedToken (token : Address)
  | failedOperation (token : Address)
  | withReason (reason : Bytes)

/-- The wrapper (`contracts/src/token/erc721/extensions/wrapper.rs` 71-75, composed as in `examples/erc721-wrapper/src/lib.rs`
13-20; `self_` is its address) and the rest of the chain. -/
structure State (τ : Type) where
  self_ : Address
  underlying : Address
  token : Erc721.State
  world : τ

variable {τ : Type}

/-- How the errors are encoded: `#[derive(SolidityError)]` on `contracts/src/token/erc721/extensions/wrapper.rs` 44-62; the
bytes of a `call::Error` are those the call reverted with. -/
def errReply : Err → Revert.Reply
  | .erc721 e => Revert.erc721 e
  | .unsupportedToken t => .error ⟨"ERC721UnsupportedToken", [.address t]⟩
  | .failedOperation t => .error ⟨"Erc721FailedOperation", [.address t]⟩
  | .withReason r => .raw r

/-- The `?` on calls of the wrapped token (`contracts/src/token/erc721/extensions/wrapper.rs` 136, 174, 233). -/
def lift {α : Type} : Except Erc721.Err α → Except Err α
  | .ok a => .ok a
  | .error e => .error (.erc721 e)

/-- What a call answers, without what it does. -/
def forget : Outcome τ → Outcome Unit
  | .returned _ d => .returned () d
  | .reverted d => .reverted d

/-- The programs on the chain as `_check_on_erc721_received` of the wrapped token sees them
(`contracts/src/token/erc721/mod.rs` 993-1013). -/
def receivers (W : World τ) (K : Hash) (D : Decoder) (self_ : Address) (t : τ) : Erc721.Receivers :=
  Calls.receivers721 K D fun a => if W.hasCode t a then some fun b => forget (W.call t self_ a b) else none

/-- What becomes of the chain when an account with code is told of a token (`contracts/src/token/erc721/mod.rs` 1002-1013; if the
call fails so does the transaction). -/
def told (W : World τ) (K : Hash) (self_ : Address) (t : τ) (operator src dst : Address) (id : U256) (data : Bytes) : τ :=
  if W.hasCode t dst then (W.call t self_ dst ((Calls.Message.onERC721Received operator src id data).bytes K)).after t else t

/-- A call of the underlying token without a result, `contracts/src/token/erc721/extensions/wrapper.rs` 115-134 and 175-195; data
that does not decode as no values at all is an error without a reason. -/
def request (W : World τ) (K : Hash) (D : Decoder) (t : τ) (self_ under : Address) (m : Calls.Message) : Except Err τ :=
  match W.send t self_ under (m.bytes K) with
  | .returned t' data => if (D.read [] data).isSome then .ok t' else .error (.failedOperation under)
  | .reverted [] => .error (.failedOperation under)
  | .reverted (b :: bs) => .error (.withReason (b :: bs))

/-- `_safe_mint` with no data, as the wrapper calls it (`contracts/src/token/erc721/extensions/wrapper.rs` 136 and 233). -/
def safeMint (W : World τ) (K : Hash) (D : Decoder) (s : State τ) (caller dst : Address) (id : U256) :
    Except Err (State τ) := do
  let u ← lift (Erc721.safeMint (receivers W K D s.self_ s.world) s.token caller dst id [])
  return { s with token := u, world := told W K s.self_ s.world caller ZERO dst id [] }

/-- `deposit_for`, `contracts/src/token/erc721/extensions/wrapper.rs` 100-140: the loop over the ids. -/
def depositFor (W : World τ) (K : Hash) (D : Decoder) (caller account : Address) : State τ → List U256 → Except Err (State τ)
  | s, [] => .ok s
  | s, id :: ids => do
    let t ← request W K D s.world s.self_ s.underlying (.transferFrom caller s.self_ id)
    let s1 ← safeMint W K D { s with world := t } caller account id
    depositFor W K D caller account s1 ids

/-- `withdraw_to`, `contracts/src/token/erc721/extensions/wrapper.rs` 160-199: the loop over the ids. -/
def withdrawTo (W : World τ) (K : Hash) (D : Decoder) (caller account : Address) : State τ → List U256 → Except Err (State τ)
  | s, [] => .ok s
  | s, id :: ids => do
    let r ← lift (Erc721.update s.token ZERO id caller)
    let t ← request W K D s.world s.self_ s.underlying (.safeTransferFrom s.self_ account id [])
    withdrawTo W K D caller account { s with token := r.2, world := t } ids

/-- `on_erc721_received`, `contracts/src/token/erc721/extensions/wrapper.rs` 218-236. -/
def onReceived (W : World τ) (K : Hash) (D : Decoder) (s : State τ) (caller src : Address) (id : U256) :
    Except Err (State τ) :=
  if s.underlying ≠ caller then .error (.unsupportedToken caller) else safeMint W K D s caller src id

/-- Functions of `Erc721` (`contracts/src/token/erc721/mod.rs` 423-481) that the wrapper inherits, and what becomes of the chain. -/
def tokenCall (W : World τ) (K : Hash) (D : Decoder) (s : State τ) (caller : Address) (c : Wrapper721.TokenCall) :
    Except Err (State τ) := do
  let u ← lift (Erc721.execUser (receivers W K D s.self_ s.world) s.token caller c.toCall)
  return { s with
    token := u
    world := match c with
      | .safeTransferFrom src dst id => told W K s.self_ s.world caller src dst id []
      | .safeTransferFromWithData src dst id data => told W K s.self_ s.world caller src dst id data
      | _ => s.world }

/-- `examples/erc721-wrapper/src/lib.rs` 22-60 with `Erc721` (`contracts/src/token/erc721/mod.rs` 409-491), called by `caller`. -/
def handler (W : World τ) (K : Hash) (D : Decoder) (caller : Address) : Handler (State τ) := fun t f args s =>
  let go (c : Wrapper721.TokenCall) := finish K errReply [] (tokenCall W K D s caller c)
  dispatch t f args (
  [("Erc721WrapperExample", "underlying", fun
      | [] => .ok (s, [.address s.underlying])
      | _ => .error none),
   ("Erc721WrapperExample", "deposit_for", fun
      | [.address a, .uints ids] => finish K errReply [.bool true] (depositFor W K D caller a s ids)
      | _ => .error none),
   ("Erc721WrapperExample", "withdraw_to", fun
      | [.address a, .uints ids] => finish K errReply [.bool true] (withdrawTo W K D caller a s ids)
      | _ => .error none),
   ("Erc721WrapperExample", "on_erc721_received", fun
      | [.address _, .address src, .uint256 id, .bytes _] =>
        finish K errReply [.bytes4 Erc721.RECEIVER_FN_SELECTOR] (onReceived W K D s caller src id)
      | _ => .error none),
   ("Erc721", "transfer_from", fun
      | [.address src, .address dst, .uint256 id] => go (.transferFrom src dst id)
      | _ => .error none),
   ("Erc721", "safe_transfer_from", fun
      | [.address src, .address dst, .uint256 id] => go (.safeTransferFrom src dst id)
      | _ => .error none),
   ("Erc721", "safe_transfer_from_with_data", fun
      | [.address src, .address dst, .uint256 id, .bytes data] => go (.safeTransferFromWithData src dst id data)
      | _ => .error none),
   ("Erc721", "approve", fun | [.address dst, .uint256 id] => go (.approve dst id) | _ => .error none),
   ("Erc721", "set_approval_for_all", fun
      | [.address op, .bool b] => go (.setApprovalForAll op b)
      | _ => .error none)] ++
  erc721Views K s s.token)

/-- `examples/erc721-wrapper/src/lib.rs` 13-60 as a contract on bytes. -/
def run (W : World τ) (K : Hash) (D : Decoder) (caller : Address) (s : State τ) (value : U256) (input : Bytes) :
    Outcome (State τ) := entry K D Router.erc721WrapperExample (handler W K D caller) s value input

end Verif.Outside.Nfts
