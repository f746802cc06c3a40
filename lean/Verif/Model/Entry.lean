import Verif.Model.Abi
import Verif.Model.Erc20Example
/-!
# Model of whole contracts on bytes

For each contract the handler that takes a routed function and decoded arguments to the Rust function; with `Abi.entry` it is
the contract as the chain sees it: calldata in, return or revert data out.
-/
namespace Verif.Entry
open Verif
open Verif.Abi

/-- Name and symbol, fixed by the constructor (`contracts/src/utils/metadata.rs` 7-13). -/
structure Strings where
  name : List Char
  symbol : List Char

/-- The result of a function that changes the state (`contracts/src/token/erc20/mod.rs` 270-316): new state and the
returned values, or the error as bytes (`none` for a panic). -/
def finish {σ ε : Type} (K : Hash) (reply : ε → Revert.Reply) (result : List Val) :
    Except ε σ → Except (Option Bytes) (σ × List Val)
  | .ok s => .ok (s, result)
  | .error e => .error ((reply e).data K)

/-- The function of this type and name, on these arguments (`examples/erc20/src/lib.rs` 39-40).  That there is none, or that the
arguments are not of its types, does not occur. -/
def dispatch {α : Type} (t f : String) (args : List Val) (table : List (String × String × (List Val → Except (Option Bytes) α))) :
    Except (Option Bytes) α :=
  match table.find? fun r => decide (r.1 = t) && decide (r.2.1 = f) with
  | some r => r.2.2 args
  | none => .error none

/-- The functions of `examples/basic/token/src/lib.rs` 21-31, of `Erc20` (`contracts/src/token/erc20/mod.rs` 270-316) and of
`Erc20Metadata` (`contracts/src/token/erc20/extensions/metadata.rs` 61-74), called by `caller`. -/
def basicToken (K : Hash) (m : Strings) (caller : Address) : Handler Erc20.State := fun t f args s =>
  dispatch t f args
  [("Erc20Example", "mint", fun
      | [.address a, .uint256 v] => finish K Revert.erc20 [] (Erc20.mint s a v)
      | _ => .error none),
   ("Erc20", "total_supply", fun | [] => .ok (s, [.uint256 (Erc20.totalSupplyOf s)]) | _ => .error none),
   ("Erc20", "balance_of", fun
      | [.address a] => .ok (s, [.uint256 (Erc20.balanceOf s a)])
      | _ => .error none),
   ("Erc20", "transfer", fun
      | [.address dst, .uint256 v] => finish K Revert.erc20 [.bool true] (Erc20.transfer s caller dst v)
      | _ => .error none),
   ("Erc20", "allowance", fun
      | [.address o, .address sp] => .ok (s, [.uint256 (Erc20.allowance s o sp)])
      | _ => .error none),
   ("Erc20", "approve", fun
      | [.address sp, .uint256 v] => finish K Revert.erc20 [.bool true] (Erc20.approve s caller sp v)
      | _ => .error none),
   ("Erc20", "transfer_from", fun
      | [.address src, .address dst, .uint256 v] => finish K Revert.erc20 [.bool true] (Erc20.transferFrom s caller src dst v)
      | _ => .error none),
   ("Erc20Metadata", "name", fun | [] => .ok (s, [.string m.name]) | _ => .error none),
   ("Erc20Metadata", "symbol", fun | [] => .ok (s, [.string m.symbol]) | _ => .error none),
   ("Erc20Metadata", "decimals", fun | [] => .ok (s, [.uint8 18#8]) | _ => .error none)]

/-- The functions of `examples/erc20/src/lib.rs` 39-124 and of what it inherits, called by `caller`: `Erc20`
(`contracts/src/token/erc20/mod.rs` 270-316), `Erc20Metadata` (`contracts/src/token/erc20/extensions/metadata.rs` 61-74),
`Capped` (`contracts/src/token/erc20/extensions/capped.rs` 57-63), `Pausable` (`contracts/src/utils/pausable.rs` 80-88). -/
def erc20Example (K : Hash) (m : Strings) (caller : Address) : Handler Erc20Example.State := fun t f args s =>
  dispatch t f args
  [("Erc20Example", "decimals", fun | [] => .ok (s, [.uint8 10#8]) | _ => .error none),
   ("Erc20Example", "burn", fun
      | [.uint256 v] => finish K Revert.erc20Example [] (Erc20Example.burn s caller v)
      | _ => .error none),
   ("Erc20Example", "burn_from", fun
      | [.address a, .uint256 v] => finish K Revert.erc20Example [] (Erc20Example.burnFrom s caller a v)
      | _ => .error none),
   ("Erc20Example", "mint", fun
      | [.address a, .uint256 v] => finish K Revert.erc20Example [] (Erc20Example.mint s a v)
      | _ => .error none),
   ("Erc20Example", "transfer", fun
      | [.address dst, .uint256 v] => finish K Revert.erc20Example [.bool true] (Erc20Example.transfer s caller dst v)
      | _ => .error none),
   ("Erc20Example", "transfer_from", fun
      | [.address src, .address dst, .uint256 v] => finish K Revert.erc20Example [.bool true] (Erc20Example.transferFrom s caller src dst v)
      | _ => .error none),
   ("Erc20Example", "supports_interface", fun
      | [.bytes4 id] => .ok (s, [.bool (Interfaces.erc20Example K id)])
      | _ => .error none),
   ("Erc20Example", "pause", fun | [] => finish K Revert.erc20Example [] (Erc20Example.pause s caller) | _ => .error none),
   ("Erc20Example", "unpause", fun | [] => finish K Revert.erc20Example [] (Erc20Example.unpause s caller) | _ => .error none),
   ("Erc20", "total_supply", fun | [] => .ok (s, [.uint256 (Erc20.totalSupplyOf s.erc20)]) | _ => .error none),
   ("Erc20", "balance_of", fun
      | [.address a] => .ok (s, [.uint256 (Erc20.balanceOf s.erc20 a)])
      | _ => .error none),
   ("Erc20", "allowance", fun
      | [.address o, .address sp] => .ok (s, [.uint256 (Erc20.allowance s.erc20 o sp)])
      | _ => .error none),
   ("Erc20", "approve", fun
      | [.address sp, .uint256 v] => finish K Revert.erc20Example [.bool true] (Erc20Example.approve s caller sp v)
      | _ => .error none),
   ("Erc20Metadata", "name", fun | [] => .ok (s, [.string m.name]) | _ => .error none),
   ("Erc20Metadata", "symbol", fun | [] => .ok (s, [.string m.symbol]) | _ => .error none),
   ("Capped", "cap", fun | [] => .ok (s, [.uint256 s.cap]) | _ => .error none),
   ("Pausable", "paused", fun | [] => .ok (s, [.bool s.pausable.paused]) | _ => .error none)]

/-- `examples/basic/token/src/lib.rs` 12-31 as a contract on bytes. -/
def basicTokenEntry (K : Hash) (D : Decoder) (m : Strings) (caller : Address) (s : Erc20.State) (value : U256)
    (input : Bytes) : Outcome Erc20.State := entry K D Router.basicToken (basicToken K m caller) s value input

/-- `examples/erc20/src/lib.rs` 26-124 as a contract on bytes. -/
def erc20ExampleEntry (K : Hash) (D : Decoder) (m : Strings) (caller : Address) (s : Erc20Example.State) (value : U256)
    (input : Bytes) : Outcome Erc20Example.State := entry K D Router.erc20Example (erc20Example K m caller) s value input

/-- A transaction as the chain sees it: sender, value and calldata (`examples/erc20/src/lib.rs` 26-40). -/
structure Tx where
  caller : Address
  value : U256
  input : Bytes

/-- The state of `examples/erc20/src/lib.rs` 26-124 after a list of transactions. -/
def erc20ExampleRun (K : Hash) (D : Decoder) (m : Strings) (s : Erc20Example.State) (txs : List Tx) :
    Erc20Example.State :=
  txs.foldl (fun s tx => (erc20ExampleEntry K D m tx.caller s tx.value tx.input).after s) s

end Verif.Entry
