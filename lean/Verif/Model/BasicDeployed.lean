import Verif.Model.GatesDeployed
/-!
# Model of a deployed contract: `examples/basic/token`

The plain ERC-20 token with name and symbol, with nothing left out between the transaction and the storage: functions as programs on
storage cells, the router and the decoder in front, and the words of the storage behind.
-/
namespace Verif.BasicDeployed
open Verif Verif.Storage Verif.OnWords
open Verif.Abi (Val Decoder Outcome)
open Verif.Deployed (Utf8)

/-- Events: those of the token (`contracts/src/token/erc20/mod.rs` 39-44). -/
abbrev Ev := Erc20.Event

/-- `self.metadata.metadata.name`, `examples/basic/token/src/lib.rs` 17-18 and `contracts/src/utils/metadata.rs` 9-10. -/
def nameCell : List Step := [.field "metadata", .field "metadata", .field "name"]
/-- `self.metadata.metadata.symbol`, `examples/basic/token/src/lib.rs` 17-18 and `contracts/src/utils/metadata.rs` 11-12. -/
def symbolCell : List Step := [.field "metadata", .field "metadata", .field "symbol"]

/-- The functions of `examples/basic/token/src/lib.rs` 21-31, of `Erc20` (`contracts/src/token/erc20/mod.rs` 270-316) and of
`Erc20Metadata` (`contracts/src/token/erc20/extensions/metadata.rs` 61-74), called by `caller`. -/
def program (K : Hash) (U : Utf8) (caller : Address) (t f : String) (args : List Val) : Prog (Option Bytes) Ev (List Val) :=
  let go (r : List Val) (c : Erc20.Call) : Prog (Option Bytes) Ev (List Val) :=
    finish K Revert.erc20 (fun _ => r) (Erc20Words.code token caller c)
  dispatch t f args
  [("Erc20Example", "mint", fun | [.address a, .uint256 v] => go [] (.mint a v) | _ => .fail none),
   ("Erc20", "total_supply", fun | [] => .get (Erc20Words.supply token) fun v => .ret [.uint256 v] | _ => .fail none),
   ("Erc20", "balance_of", fun | [.address a] => .get (Erc20Words.balance token a) fun v => .ret [.uint256 v] | _ => .fail none),
   ("Erc20", "transfer", fun | [.address dst, .uint256 v] => go [.bool true] (.transfer dst v) | _ => .fail none),
   ("Erc20", "allowance", fun
      | [.address o, .address p] => .get (Erc20Words.allowance token o p) fun v => .ret [.uint256 v]
      | _ => .fail none),
   ("Erc20", "approve", fun | [.address p, .uint256 v] => go [.bool true] (.approve p v) | _ => .fail none),
   ("Erc20", "transfer_from", fun
      | [.address src, .address dst, .uint256 v] => go [.bool true] (.transferFrom src dst v)
      | _ => .fail none),
   ("Erc20Metadata", "name", fun | [] => (stringBytes nameCell).bind fun b => .ret [.string (U.read b)] | _ => .fail none),
   ("Erc20Metadata", "symbol", fun | [] => (stringBytes symbolCell).bind fun b => .ret [.string (U.read b)] | _ => .fail none),
   ("Erc20Metadata", "decimals", fun | [] => .ret [.uint8 18#8] | _ => .fail none)]

/-- `#[entrypoint]`, `examples/basic/token/src/lib.rs` 12-31. -/
def entry (K : Hash) (D : Decoder) (U : Utf8) (caller : Address) (w : State Ev) (value : U256) (input : Bytes) : Outcome (State Ev) :=
  Abi.entry K D Router.basicToken (onWords K basicToken (program K U caller)) w value input

/-- Deployment: the constructor runs on fresh storage (`examples/basic/token/src/constructor.sol` 12-15). -/
def deploy (K : Hash) (name symbol : List Char) : Option (State Ev) :=
  (Constructors.basicTokenInit (Logs.utf8 name) (Logs.utf8 symbol)).bind fun ws =>
  (Constructors.assign K Constructors.basicTokenSol ws Constructors.fresh).map fun st => { words := st, log := [] }

end Verif.BasicDeployed
