import Verif.Model.GatesDeployed
import Verif.Model.VestingBytes
/-!
# Model of a deployed contract that calls others: `examples/vesting-wallet`

The wallet with nothing left out between the transaction and the storage: functions as programs on storage cells, the router and the
decoder in front, the words of the storage behind, and any programs as tokens and as owner around it.  The rest of the chain is as in
`Verif.Model.VestingBytes`; it cannot re-enter, so a program gets its state and returns the new one with its result.
-/
namespace Verif.OnWords
open Verif Verif.Storage
open Verif.Abi (Val Handler)

/-- A contract on the chain: its address (`contract::address()`, `contracts/src/finance/vesting_wallet.rs` 463), the words of its
storage, the events so far, and the rest of the chain. -/
structure Chained (V τ : Type) where
  self_ : Address
  words : Words
  log : List V
  world : τ

/-- What a function does on the cells: it fails, or gives values and a new state of the rest of the chain
(`contracts/src/finance/vesting_wallet.rs` 412-427 and the like). -/
abbrev Act (V τ : Type) := Prog (Option Bytes) V (List Val × τ)

/-- The function of this type and name, on these arguments (`examples/vesting-wallet/src/lib.rs` 14-21 and the like), as
`Entry.dispatch`. -/
def select {V τ : Type} (t f : String) (args : List Val) (table : List (String × String × (List Val → Act V τ))) : Act V τ :=
  match table.find? fun r => decide (r.1 = t) && decide (r.2.1 = f) with
  | some r => r.2.2 args
  | none => .fail none

/-- The result of a function, errors as bytes, `none` for a panic (`contracts/src/finance/vesting_wallet.rs` 90-106 and the like). -/
def conclude {E V α τ : Type} (K : Hash) (reply : E → Revert.Reply) (f : α → List Val × τ) (m : Prog E V α) : Act V τ :=
  (m.lift (fun e => (reply e).data K) id).bind fun a => .ret (f a)

/-- Functions on the words of a storage struct, in the rest of the chain (`examples/vesting-wallet/src/lib.rs` 7-21 and the like). -/
def onChain {V τ : Type} (K : Hash) (s : Ty) (program : Address → τ → String → String → List Val → Act V τ) :
    Handler (Chained V τ) := fun t f args w =>
  ((program w.self_ w.world t f args).onWords K s w.words).map fun r =>
    ({ w with words := r.2.1, log := w.log ++ r.2.2, world := r.1.2 }, r.1.1)

end Verif.OnWords

namespace Verif.VestingWords
open Verif Verif.Storage Verif.Outside Verif.Outside.Wallet

/-- Events: of `Ownable`, or of the wallet (`contracts/src/access/ownable.rs` 26-34, `contracts/src/finance/vesting_wallet.rs` 57-72). -/
abbrev Ev := Ownable.Event ⊕ Vesting.Event

/-- `VestingWallet` on storage (`contracts/src/finance/vesting_wallet.rs` 350-510). -/
abbrev Code := Prog Err Ev

variable (root : List Step)

/-- The field `ownable`, `contracts/src/finance/vesting_wallet.rs` 114. -/
def gate : List Step := root ++ [.field "ownable"]

/-- `self.released`, `contracts/src/finance/vesting_wallet.rs` 116. -/
def releasedCell : List Step := root ++ [.field "released"]

/-- `self.erc20_released`, `contracts/src/finance/vesting_wallet.rs` 118, at the key of a token. -/
def tokenCell (k : Address) : List Step := root ++ [.field "erc20_released", .key (k.setWidth 256)]

/-- `self.start`, `contracts/src/finance/vesting_wallet.rs` 120. -/
def startCell : List Step := root ++ [.field "start"]

/-- `self.duration`, `contracts/src/finance/vesting_wallet.rs` 122. -/
def durationCell : List Step := root ++ [.field "duration"]

/-- `self.ownable.owner()`, `contracts/src/finance/vesting_wallet.rs` 354-356. -/
def owner : Code Address := (OwnableWords.owner (gate root)).lift .ownable .inl

/-- `transfer_ownership` and `renounce_ownership`, `contracts/src/finance/vesting_wallet.rs` 358-367. -/
def owned (caller : Address) (c : Ownable.Call) : Code Unit := (OwnableWords.code (gate root) caller c).lift .ownable .inl

/-- `start`, `contracts/src/finance/vesting_wallet.rs` 369-371. -/
def start : Code U256 := .get (startCell root) fun v => .ret ((v.setWidth 64).setWidth 256)

/-- `duration`, `contracts/src/finance/vesting_wallet.rs` 373-375. -/
def duration : Code U256 := .get (durationCell root) fun v => .ret ((v.setWidth 64).setWidth 256)

/-- `end`, `contracts/src/finance/vesting_wallet.rs` 377-381. -/
def end' : Code U256 := (start root).bind fun a => (duration root).bind fun b => .ret (a + b)

/-- `released_eth`, `contracts/src/finance/vesting_wallet.rs` 384-386. -/
def releasedEth : Code U256 := .get (releasedCell root) .ret

/-- `released_erc20`, `contracts/src/finance/vesting_wallet.rs` 389-391. -/
def releasedErc20 (k : Address) : Code U256 := .get (tokenCell root k) .ret

/-- A checked operation with `expect` (`contracts/src/finance/vesting_wallet.rs` 450, 468 and 500). -/
def expect {α : Type} : Option α → Code α
  | some a => .ret a
  | none => .fail (.vesting .panic)

/-- `vesting_schedule`, `contracts/src/finance/vesting_wallet.rs` 488-509. -/
def schedule (total : U256) (timestamp : U64) : Code U256 :=
  let ts : U256 := timestamp.setWidth 256
  (start root).bind fun a =>
  if ts < a then .ret 0#256
  else (end' root).bind fun e =>
  if e ≤ ts then .ret total
  else (start root).bind fun a =>
    (expect (checkedMul total (ts - a))).bind fun x =>
    (duration root).bind fun d => .ret (x / d)

variable {τ : Type} (W : Chain τ) (K : Hash) (D : Abi.Decoder) (self : Address) (t : τ)

/-- `vested_amount_eth`, `contracts/src/finance/vesting_wallet.rs` 447-453. -/
def vestedEth (ts : U64) : Code U256 :=
  (releasedEth root).bind fun r => (expect (checkedAdd (W.balance t self) r)).bind fun total => schedule root total ts

/-- `balance_of` of a token, `contracts/src/finance/vesting_wallet.rs` 461-464. -/
def balanceOf (k : Address) : Code U256 :=
  match Calls.uintReply D (W.ask t 0 self k ((Calls.Message.balanceOf self).bytes K)) with
  | some x => .ret x
  | none => .fail (.vesting (.invalidToken k))

/-- `vested_amount_erc20`, `contracts/src/finance/vesting_wallet.rs` 456-471. -/
def vestedErc20 (k : Address) (ts : U64) : Code U256 :=
  (balanceOf W K D self t k).bind fun b => (releasedErc20 root k).bind fun r =>
  (expect (checkedAdd b r)).bind fun total => schedule root total ts

/-- `releasable_eth`, `contracts/src/finance/vesting_wallet.rs` 394-398. -/
def releasableEth (now : U64) : Code U256 :=
  (vestedEth root W self t now).bind fun v => (releasedEth root).bind fun r => .ret (v - r)

/-- `releasable_erc20`, `contracts/src/finance/vesting_wallet.rs` 401-409. -/
def releasableErc20 (now : U64) (k : Address) : Code U256 :=
  (vestedErc20 root W K D self t k now).bind fun v => (releasedErc20 root k).bind fun r => .ret (v - r)

/-- What the chain answers to a call (`contracts/src/finance/vesting_wallet.rs` 422 and 440), with `?`. -/
def settle : Except Err τ → Code τ
  | .ok t' => .ret t'
  | .error e => .fail e

/-- `release_eth`, `contracts/src/finance/vesting_wallet.rs` 412-427: the amount is recorded before the owner is paid. -/
def releaseEth (now : U64) : Code τ :=
  (releasableEth root W self t now).bind fun amount =>
  (releasedEth root).bind fun r =>
  (expect (checkedAdd r amount)).bind fun r' =>
  .set (releasedCell root) r' <|
  (owner root).bind fun o =>
  (settle (paid (W.pay t self o amount []))).bind fun t' =>
  .emit (.inr (.etherReleased amount)) (.ret t')

/-- `release_erc20`, `contracts/src/finance/vesting_wallet.rs` 430-444. -/
def releaseErc20 (now : U64) (k : Address) : Code τ :=
  (releasableErc20 root W K D self t now k).bind fun amount =>
  (owner root).bind fun o =>
  (releasedErc20 root k).bind fun r =>
  (expect (checkedAdd r amount)).bind fun r' =>
  .set (tokenCell root k) r' <|
  (settle (settled (.safe k) (SafeErc20.safeTransfer (W.token K t self k) t o amount))).bind fun t' =>
  .emit (.inr (.erc20Released k amount)) (.ret t')

end Verif.VestingWords

namespace Verif.VestingDeployed
open Verif Verif.Storage Verif.Outside Verif.Outside.Wallet Verif.OnWords
open Verif.VestingWords (Ev Code)
open Verif.Abi (Val Decoder Outcome)

variable {τ : Type}

/-- The field `vesting_wallet`, `examples/vesting-wallet/src/lib.rs` 10-11. -/
def root : List Step := [.field "vesting_wallet"]

/-- The functions of `VestingWallet` that `examples/vesting-wallet/src/lib.rs` 14-21 inherits
(`contracts/src/finance/vesting_wallet.rs` 350-472). -/
def program (W : Chain τ) (K : Hash) (D : Decoder) (env : Env) (self : Address) (t : τ) (u f : String) (args : List Val) : Act Ev τ :=
  let ask (m : Code U256) : Act Ev τ := conclude K errReply (fun x => ([.uint256 x], t)) m
  let owned (c : Ownable.Call) : Act Ev τ := conclude K errReply (fun _ => ([], t)) (VestingWords.owned root env.caller c)
  let go (m : Code τ) : Act Ev τ := conclude K errReply (fun t' => ([], t')) m
  select u f args
  [("VestingWallet", "owner", fun
      | [] => conclude K errReply (fun a => ([.address a], t)) (VestingWords.owner root)
      | _ => .fail none),
   ("VestingWallet", "transfer_ownership", fun | [.address a] => owned (.transferOwnership a) | _ => .fail none),
   ("VestingWallet", "renounce_ownership", fun | [] => owned .renounceOwnership | _ => .fail none),
   ("VestingWallet", "start", fun | [] => ask (VestingWords.start root) | _ => .fail none),
   ("VestingWallet", "duration", fun | [] => ask (VestingWords.duration root) | _ => .fail none),
   ("VestingWallet", "end", fun | [] => ask (VestingWords.end' root) | _ => .fail none),
   ("VestingWallet", "released_eth", fun | [] => ask (VestingWords.releasedEth root) | _ => .fail none),
   ("VestingWallet", "released_erc20", fun | [.address k] => ask (VestingWords.releasedErc20 root k) | _ => .fail none),
   ("VestingWallet", "releasable_eth", fun
      | [] => ask (VestingWords.releasableEth root W self t env.now)
      | _ => .fail none),
   ("VestingWallet", "releasable_erc20", fun
      | [.address k] => ask (VestingWords.releasableErc20 root W K D self t env.now k)
      | _ => .fail none),
   ("VestingWallet", "release_eth", fun | [] => go (VestingWords.releaseEth root W self t env.now) | _ => .fail none),
   ("VestingWallet", "release_erc20", fun
      | [.address k] => go (VestingWords.releaseErc20 root W K D self t env.now k)
      | _ => .fail none),
   ("VestingWallet", "vested_amount_eth", fun | [.uint64 ts] => ask (VestingWords.vestedEth root W self t ts) | _ => .fail none),
   ("VestingWallet", "vested_amount_erc20", fun
      | [.address k, .uint64 ts] => ask (VestingWords.vestedErc20 root W K D self t k ts)
      | _ => .fail none)]

/-- `#[entrypoint]`, `examples/vesting-wallet/src/lib.rs` 7-21: a call without data is `receive` (17-20), which takes any value; the
value is part of the ether of the wallet already (`w.world`). -/
def run (W : Chain τ) (K : Hash) (D : Decoder) (env : Env) (w : Chained Ev τ) (value : U256) (input : Bytes) : Outcome (Chained Ev τ) :=
  if input = [] then .returned w []
  else Abi.entry K D Router.vestingWalletExample (onChain K vestingWalletExample (program W K D env)) w value input

/-- Deployment at an address: the constructor runs on fresh storage; nothing if it reverts
(`examples/vesting-wallet/src/constructor.sol` 14-26).  The log begins after it. -/
def deploy (K : Hash) (self beneficiary : Address) (start duration : U64) (t : τ) : Option (Chained Ev τ) :=
  (Constructors.vestingWalletInit beneficiary start duration).bind fun ws =>
  (Constructors.assign K Constructors.vestingWalletSol ws Constructors.fresh).map fun st =>
    { self_ := self, words := st, log := [], world := t }

end Verif.VestingDeployed
