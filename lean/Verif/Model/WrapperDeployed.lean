import Verif.Model.VestingDeployed
import Verif.Model.Outside
/-!
# Model of a deployed token that holds another token: `examples/erc20-wrapper`

The wrapper with nothing left out between the transaction and the storage: functions as programs on storage cells, the router and the
decoder in front, the words of the storage behind, and any program as the wrapped token.  The rest of the chain is as in
`Verif.Model.Outside`.
-/
namespace Verif.OnWords
open Verif Verif.Storage
open Verif.Abi (Val)

/-- Code of a contract that has an ERC-20 token and calls others; it fails with what is to be reverted with
(`contracts/src/token/erc20/extensions/wrapper.rs` 241-285 and the like). -/
abbrev Backed (G : Type) := Prog Revert.Reply (Erc20.Event ⊕ G)

/-- Internal functions of the token, with `?` (`contracts/src/token/erc20/extensions/wrapper.rs` 265 and 281). -/
def within {G : Type} (m : Erc20Words.Code Unit) : Backed G Unit := m.lift Revert.erc20 .inl

/-- What the chain answers to a call, with `?` (`contracts/src/token/erc20/extensions/wrapper.rs` 257-262). -/
def settle {G τ : Type} : Except Revert.Reply τ → Backed G τ
  | .ok t' => .ret t'
  | .error e => .fail e

variable {G τ : Type}

/-- `transfer`, `approve` and `transfer_from` of the inherited `Erc20` (`contracts/src/token/erc20/mod.rs` 283-316); the rest of the
chain stays `t`. -/
def tokenCalls (K : Hash) (caller : Address) (t : τ) : List (String × String × (List Val → Act (Erc20.Event ⊕ G) τ)) :=
  let go (c : Erc20.Call) : Act (Erc20.Event ⊕ G) τ := conclude K id (fun _ => ([.bool true], t)) (within (Erc20Words.code token caller c))
  [("Erc20", "transfer", fun | [.address dst, .uint256 v] => go (.transfer dst v) | _ => .fail none),
   ("Erc20", "approve", fun | [.address p, .uint256 v] => go (.approve p v) | _ => .fail none),
   ("Erc20", "transfer_from", fun
      | [.address src, .address dst, .uint256 v] => go (.transferFrom src dst v)
      | _ => .fail none)]

/-- `total_supply`, `balance_of` and `allowance` of the inherited `Erc20` (`contracts/src/token/erc20/mod.rs` 274-297). -/
def tokenAsks (t : τ) : List (String × String × (List Val → Act (Erc20.Event ⊕ G) τ)) :=
  let ask (p : List Step) : Act (Erc20.Event ⊕ G) τ := .get p fun v => .ret ([.uint256 v], t)
  [("Erc20", "total_supply", fun | [] => ask (Erc20Words.supply token) | _ => .fail none),
   ("Erc20", "balance_of", fun | [.address a] => ask (Erc20Words.balance token a) | _ => .fail none),
   ("Erc20", "allowance", fun | [.address o, .address p] => ask (Erc20Words.allowance token o p) | _ => .fail none)]

end Verif.OnWords

namespace Verif.WrapperDeployed
open Verif Verif.Storage Verif.Outside Verif.OnWords
open Verif.Abi (Val Decoder Outcome)

/-- Events: of the token; the wrapper has none of its own (`contracts/src/token/erc20/extensions/wrapper.rs` 241-285). -/
abbrev Ev := Erc20.Event ⊕ Empty

/-- `self.erc20_wrapper.underlying`, `contracts/src/token/erc20/extensions/wrapper.rs` 91. -/
def underlyingCell : List Step := [.field "erc20_wrapper", .field "underlying"]

/-- `self.erc20_wrapper.underlying_decimals`, `contracts/src/token/erc20/extensions/wrapper.rs` 93. -/
def decimalsCell : List Step := [.field "erc20_wrapper", .field "underlying_decimals"]

/-- `underlying`, `contracts/src/token/erc20/extensions/wrapper.rs` 237-239. -/
def underlying : Backed Empty Address := .get underlyingCell fun v => .ret (v.setWidth 160)

/-- `decimals`, `contracts/src/token/erc20/extensions/wrapper.rs` 233-235. -/
def decimals : Backed Empty U8 := .get decimalsCell fun v => .ret (v.setWidth 8)

section
variable {τ : Type} (W : World τ) (K : Hash) (self : Address) (t : τ)

/-- `deposit_for`, `contracts/src/token/erc20/extensions/wrapper.rs` 241-268. -/
def depositFor (caller account : Address) (value : U256) : Backed Empty τ :=
  if caller = self then .fail (.error ⟨"ERC20InvalidSender", [.address caller]⟩)
  else if account = self then .fail (.error ⟨"ERC20InvalidReceiver", [.address account]⟩)
  else underlying.bind fun u =>
    (settle (settled (Revert.safeErc20 u) (SafeErc20.safeTransferFrom (W.token K t self u) t caller self value))).bind fun t' =>
    (within (Erc20Words.mint token account value)).bind fun _ => .ret t'

/-- `withdraw_to`, `contracts/src/token/erc20/extensions/wrapper.rs` 270-285. -/
def withdrawTo (caller account : Address) (value : U256) : Backed Empty τ :=
  if account = self then .fail (.error ⟨"ERC20InvalidReceiver", [.address account]⟩)
  else (within (Erc20Words.burnInternal token caller value)).bind fun _ =>
    underlying.bind fun u =>
    settle (settled (Revert.safeErc20 u) (SafeErc20.safeTransfer (W.token K t self u) t account value))

/-- `examples/erc20-wrapper/src/lib.rs` 22-48 with the inherited `Erc20` (`contracts/src/token/erc20/mod.rs` 270-316), called by
`caller`. -/
def program (caller self : Address) (t : τ) (u f : String) (args : List Val) : Act Ev τ :=
  select u f args (
  [("Erc20WrapperExample", "underlying", fun | [] => conclude K id (fun a => ([.address a], t)) underlying | _ => .fail none),
   ("Erc20WrapperExample", "decimals", fun | [] => conclude K id (fun d => ([.uint8 d], t)) decimals | _ => .fail none),
   ("Erc20WrapperExample", "deposit_for", fun
      | [.address a, .uint256 v] => conclude K id (fun t' => ([.bool true], t')) (depositFor W K self t caller a v)
      | _ => .fail none),
   ("Erc20WrapperExample", "withdraw_to", fun
      | [.address a, .uint256 v] => conclude K id (fun t' => ([.bool true], t')) (withdrawTo W K self t caller a v)
      | _ => .fail none)] ++
  tokenCalls K caller t ++ tokenAsks t)

/-- `#[entrypoint]`, `examples/erc20-wrapper/src/lib.rs` 13-48. -/
def run (D : Decoder) (caller : Address) (w : Chained Ev τ) (value : U256) (input : Bytes) : Outcome (Chained Ev τ) :=
  Abi.entry K D Router.erc20WrapperExample (onChain K erc20WrapperExample (program W K caller)) w value input

end

/-- Deployment at an address: the constructor runs on fresh storage; nothing if it reverts
(`examples/erc20-wrapper/src/constructor.sol` 17-23). -/
def deploy {τ : Type} (K : Hash) (self under : Address) (decimals : U8) (t : τ) : Option (Chained Ev τ) :=
  (Constructors.erc20WrapperInit self under decimals).bind fun ws =>
  (Constructors.assign K Constructors.erc20WrapperSol ws Constructors.fresh).map fun st =>
    { self_ := self, words := st, log := [], world := t }

end Verif.WrapperDeployed
