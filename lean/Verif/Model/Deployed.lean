import Verif.Model.StoragePrograms
import Verif.Model.Constructors
import Verif.Model.Entry
/-!
# Model of a deployed contract: calldata in, storage words

`examples/erc20` with nothing left out between the transaction and the storage: its functions as programs on storage cells,
the router and the decoder in front, and the words of the storage behind.
-/
namespace Verif.Storage

/-- The same program with other errors and events: `?` and `map_err(|e| e.into())` (`examples/erc20/src/lib.rs` 50-53). -/
def Prog.lift {E V E' V' α : Type} (fe : E → E') (fv : V → V') : Prog E V α → Prog E' V' α
  | .ret a => .ret a
  | .fail e => .fail (fe e)
  | .get p k => .get p fun v => (k v).lift fe fv
  | .set p v k => .set p v (k.lift fe fv)
  | .emit v k => .emit (fv v) (k.lift fe fv)

/-- Read words one after the other, from the `i`-th on; in `get_string` (`contracts/src/utils/metadata.rs` 23). -/
def wordsFrom {E V : Type} (p : List Step) (i : Nat) : Nat → Prog E V (List U256)
  | 0 => .ret []
  | n + 1 => .get (p ++ [.index i]) fun w => (wordsFrom p (i + 1) n).bind fun ws => .ret (w :: ws)

/-- The bytes of a string, `get_string` (`contracts/src/utils/metadata.rs` 23 and 32), by the layout of
`Constructors.text`. -/
def stringBytes {E V : Type} (p : List Step) : Prog E V Bytes :=
  .get p fun head =>
    if head.getLsbD 0 then
      (wordsFrom p 0 (((head >>> 1).toNat + 31) / 32)).bind fun ws => .ret ((ws.flatMap be32).take (head >>> 1).toNat)
    else .ret ((be32 head).take (head.setWidth 8 >>> 1).toNat)

end Verif.Storage

namespace Verif.Deployed
open Verif Verif.Storage Verif.Erc20Example
open Verif.Abi (Val Handler Decoder Outcome)
open Verif.Entry (Tx)

/-- How bytes become a `String`: `get_string` (`contracts/src/utils/metadata.rs` 23 and 32) of the SDK, which is not in the
repository.  All that is asked of it is that it reads UTF-8. -/
structure Utf8 where
  read : Bytes → List Char
  valid : ∀ s, read (Logs.utf8 s) = s

/-- The events of the contract, `contracts/src/token/erc20/mod.rs` 39-44 and `contracts/src/utils/pausable.rs` 28-38. -/
inductive Ev where
  | token (e : Erc20.Event)
  | pausable (e : Pausable.Event)
  deriving DecidableEq

/-- The field `erc20`, `examples/erc20/src/lib.rs` 28-29. -/
def token : List Step := [.field "erc20"]
/-- `self.metadata.metadata.name`, `examples/erc20/src/lib.rs` 30-31. -/
def nameCell : List Step := [.field "metadata", .field "metadata", .field "name"]
/-- `self.metadata.metadata.symbol`, `examples/erc20/src/lib.rs` 30-31. -/
def symbolCell : List Step := [.field "metadata", .field "metadata", .field "symbol"]
/-- `self.capped.cap`, `examples/erc20/src/lib.rs` 32-33. -/
def capCell : List Step := [.field "capped", .field "cap"]
/-- `self.pausable.paused`, `examples/erc20/src/lib.rs` 34-35. -/
def pausedCell : List Step := [.field "pausable", .field "paused"]

/-- `when_not_paused()?`, `contracts/src/utils/pausable.rs` 134-139. -/
def whenNotPaused : Prog Err Ev Unit :=
  .get pausedCell fun v => if v ≠ 0#256 then .fail (.pausable .enforcedPause) else .ret ()

/-- `when_paused()?`, `contracts/src/utils/pausable.rs` 151-156. -/
def whenPaused : Prog Err Ev Unit :=
  .get pausedCell fun v => if v ≠ 0#256 then .ret () else .fail (.pausable .expectedPause)

/-- A call of the token, `examples/erc20/src/lib.rs` 52, 61, 89, 95, 105. -/
def inner (caller : Address) (c : Erc20.Call) : Prog Err Ev Unit := (Erc20Words.code token caller c).lift .erc20 .token

/-- The state-changing functions, `examples/erc20/src/lib.rs` 50-123, with `approve` of `Erc20`
(`contracts/src/token/erc20/mod.rs` 296-303) and the functions of `contracts/src/utils/pausable.rs` 101-121. -/
def code (caller : Address) : Call → Prog Err Ev Unit
  | .token (.approve sp v) => inner caller (.approve sp v)
  | .token (.mint a v) =>
    whenNotPaused.bind fun _ =>
    .get capCell fun cap =>
    .get (Erc20Words.supply token) fun total =>
    match checkedAdd total v with
    | none => .fail .panic
    | some supply => if cap < supply then .fail (.exceededCap supply cap) else inner caller (.mint a v)
  | .token c => whenNotPaused.bind fun _ => inner caller c
  | .pause => whenNotPaused.bind fun _ => .set pausedCell 1#256 (.emit (.pausable (.paused caller)) (.ret ()))
  | .unpause => whenPaused.bind fun _ => .set pausedCell 0#256 (.emit (.pausable (.unpaused caller)) (.ret ()))

/-- A function that changes the state, and what it returns; errors as bytes (`none` for a panic)
(`examples/erc20/src/lib.rs` 50-123). -/
def finish (K : Hash) (caller : Address) (result : List Val) (c : Call) : Prog (Option Bytes) Ev (List Val) :=
  ((code caller c).lift (fun e => (Revert.erc20Example e).data K) id).bind fun _ => .ret result

/-- The function of this type and name, on these arguments (`examples/erc20/src/lib.rs` 39-40), as `Entry.dispatch`. -/
def dispatch (t f : String) (args : List Val)
    (table : List (String × String × (List Val → Prog (Option Bytes) Ev (List Val)))) : Prog (Option Bytes) Ev (List Val) :=
  match table.find? fun r => decide (r.1 = t) && decide (r.2.1 = f) with
  | some r => r.2.2 args
  | none => .fail none

/-- The functions of `examples/erc20/src/lib.rs` 39-124 and of what it inherits, called by `caller`: `Erc20`
(`contracts/src/token/erc20/mod.rs` 270-316), `Erc20Metadata` (`contracts/src/token/erc20/extensions/metadata.rs` 61-74),
`Capped` (`contracts/src/token/erc20/extensions/capped.rs` 57-63), `Pausable` (`contracts/src/utils/pausable.rs` 80-88). -/
def program (K : Hash) (U : Utf8) (caller : Address) (t f : String) (args : List Val) : Prog (Option Bytes) Ev (List Val) :=
  dispatch t f args
  [("Erc20Example", "decimals", fun | [] => .ret [.uint8 10#8] | _ => .fail none),
   ("Erc20Example", "burn", fun
      | [.uint256 v] => finish K caller [] (.token (.burn v))
      | _ => .fail none),
   ("Erc20Example", "burn_from", fun
      | [.address a, .uint256 v] => finish K caller [] (.token (.burnFrom a v))
      | _ => .fail none),
   ("Erc20Example", "mint", fun
      | [.address a, .uint256 v] => finish K caller [] (.token (.mint a v))
      | _ => .fail none),
   ("Erc20Example", "transfer", fun
      | [.address dst, .uint256 v] => finish K caller [.bool true] (.token (.transfer dst v))
      | _ => .fail none),
   ("Erc20Example", "transfer_from", fun
      | [.address src, .address dst, .uint256 v] => finish K caller [.bool true] (.token (.transferFrom src dst v))
      | _ => .fail none),
   ("Erc20Example", "supports_interface", fun
      | [.bytes4 id] => .ret [.bool (Interfaces.erc20Example K id)]
      | _ => .fail none),
   ("Erc20Example", "pause", fun | [] => finish K caller [] .pause | _ => .fail none),
   ("Erc20Example", "unpause", fun | [] => finish K caller [] .unpause | _ => .fail none),
   ("Erc20", "total_supply", fun | [] => .get (Erc20Words.supply token) fun v => .ret [.uint256 v] | _ => .fail none),
   ("Erc20", "balance_of", fun
      | [.address a] => .get (Erc20Words.balance token a) fun v => .ret [.uint256 v]
      | _ => .fail none),
   ("Erc20", "allowance", fun
      | [.address o, .address sp] => .get (Erc20Words.allowance token o sp) fun v => .ret [.uint256 v]
      | _ => .fail none),
   ("Erc20", "approve", fun
      | [.address sp, .uint256 v] => finish K caller [.bool true] (.token (.approve sp v))
      | _ => .fail none),
   ("Erc20Metadata", "name", fun
      | [] => (stringBytes nameCell).bind fun b => .ret [.string (U.read b)]
      | _ => .fail none),
   ("Erc20Metadata", "symbol", fun
      | [] => (stringBytes symbolCell).bind fun b => .ret [.string (U.read b)]
      | _ => .fail none),
   ("Capped", "cap", fun | [] => .get capCell fun v => .ret [.uint256 v] | _ => .fail none),
   ("Pausable", "paused", fun | [] => .get pausedCell fun v => .ret [.bool (decide (v ≠ 0#256))] | _ => .fail none)]

/-- The contract on the chain: the words of its storage, and the events so far (`examples/erc20/src/lib.rs` 26-37). -/
structure State where
  words : Words
  log : List Ev

/-- The functions on the words (`examples/erc20/src/lib.rs` 39-124). -/
def onWords (K : Hash) (U : Utf8) (caller : Address) : Handler State := fun t f args w =>
  ((program K U caller t f args).onWords K erc20Example w.words).map fun r =>
    ({ words := r.2.1, log := w.log ++ r.2.2 }, r.1)

/-- `#[entrypoint]`, `examples/erc20/src/lib.rs` 26-124. -/
def entry (K : Hash) (D : Decoder) (U : Utf8) (w : State) (tx : Tx) : Outcome State :=
  Abi.entry K D Router.erc20Example (onWords K U tx.caller) w tx.value tx.input

/-- Deployment: the constructor runs on fresh storage; nothing if it reverts (`examples/erc20/src/constructor.sol` 17-27). -/
def deploy (K : Hash) (name symbol : List Char) (cap : U256) : Option State :=
  (Constructors.erc20Init (Logs.utf8 name) (Logs.utf8 symbol) cap).bind fun ws =>
  (Constructors.assign K Constructors.erc20Sol ws Constructors.fresh).map fun st => { words := st, log := [] }

/-- The contract after a list of transactions (`examples/erc20/src/lib.rs` 26-124). -/
def run (K : Hash) (D : Decoder) (U : Utf8) (w : State) (txs : List Tx) : State :=
  txs.foldl (fun w tx => (entry K D U w tx).after w) w

end Verif.Deployed
