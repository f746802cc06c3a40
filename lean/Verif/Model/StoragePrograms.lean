import Verif.Model.Storage
import Verif.Model.Erc20
/-!
# Contract code on raw storage

The other models keep the state of a contract as a record of maps.  Here code runs on the words of the contract's storage: a
program reads and writes cells by their path, emits events, returns a value or fails.  The ERC-20 token is given as such a
program.
-/
namespace Verif.Storage
open Verif

/-- Code that reads and writes storage cells (`contracts/src/token/erc20/mod.rs` 458-502 and the like). -/
inductive Prog (E V α : Type) where
  | ret (a : α)
  | fail (e : E)
  | get (p : List Step) (k : U256 → Prog E V α)
  | set (p : List Step) (v : U256) (k : Prog E V α)
  | emit (v : V) (k : Prog E V α)

/-- One after the other, `?` on failure (`contracts/src/token/erc20/mod.rs` 311-313). -/
def Prog.bind {E V α β : Type} : Prog E V α → (α → Prog E V β) → Prog E V β
  | .ret a, f => f a
  | .fail e, _ => .fail e
  | .get p k, f => .get p fun v => (k v).bind f
  | .set p v k, f => .set p v (k.bind f)
  | .emit v k, f => .emit v (k.bind f)

instance {E V : Type} : Monad (Prog E V) where
  pure := .ret
  bind := Prog.bind

/-- Run on the words of the storage of a contract with storage struct `t`.  (There is no code that accesses a field that does not
exist; the model reads 0 then, and writes nothing.)  Models `get` and `set` of the storage types,
`contracts/src/token/erc20/mod.rs` 458-502 and the like. -/
def Prog.onWords {E V α : Type} (K : Hash) (t : Ty) : Prog E V α → Words → Except E (α × Words × List V)
  | .ret a, st => .ok (a, st, [])
  | .fail e, _ => .error e
  | .get p k, st => (k (((cell K t p).map (Storage.read K st)).getD 0#256)).onWords K t st
  | .set p v k, st => k.onWords K t (((cell K t p).map fun l => write K st l v).getD st)
  | .emit v k, st => (k.onWords K t st).map fun r => (r.1, r.2.1, v :: r.2.2)

end Verif.Storage

namespace Verif.Erc20Words
open Verif Verif.Storage Verif.Erc20

/-- ERC-20 code on storage. -/
abbrev Code := Prog Err Event

variable (root : List Step)

/-- `self.balances`, `contracts/src/token/erc20/mod.rs` 133, at the key of an address. -/
def balance (a : Address) : List Step := root ++ [.field "balances", .key (a.setWidth 256)]

/-- `self.allowances`, `contracts/src/token/erc20/mod.rs` 135-136. -/
def allowance (o s : Address) : List Step :=
  root ++ [.field "allowances", .key (o.setWidth 256), .key (s.setWidth 256)]

/-- `self.total_supply`, `contracts/src/token/erc20/mod.rs` 138. -/
def supply : List Step := root ++ [.field "total_supply"]

/-- `_update`, `contracts/src/token/erc20/mod.rs` 458-502. -/
def update (src dst : Address) (value : U256) : Code Unit :=
  let second : Code Unit :=
    if dst = ZERO then
      .get (supply root) fun t => .set (supply root) (t - value) (.emit (.transfer src dst value) (.ret ()))
    else
      .get (balance root dst) fun b =>
        .set (balance root dst) (b + value) (.emit (.transfer src dst value) (.ret ()))
  if src = ZERO then
    .get (supply root) fun t =>
      match checkedAdd t value with
      | some t' => .set (supply root) t' second
      | none => .fail .panic
  else
    .get (balance root src) fun b =>
      if b < value then .fail (.insufficientBalance src b value)
      else .set (balance root src) (b - value) second

/-- `_approve`, `contracts/src/token/erc20/mod.rs` 338-362. -/
def approveInternal (owner spender : Address) (value : U256) (emit : Bool) : Code Unit :=
  if owner = ZERO then .fail (.invalidApprover ZERO)
  else if spender = ZERO then .fail (.invalidSpender ZERO)
  else .set (allowance root owner spender) value
    (if emit then .emit (.approval owner spender value) (.ret ()) else .ret ())

/-- `_transfer`, `contracts/src/token/erc20/mod.rs` 383-403. -/
def transferInternal (src dst : Address) (value : U256) : Code Unit :=
  if src = ZERO then .fail (.invalidSender ZERO)
  else if dst = ZERO then .fail (.invalidReceiver ZERO)
  else update root src dst value

/-- `_mint`, `contracts/src/token/erc20/mod.rs` 420-431. -/
def mint (account : Address) (value : U256) : Code Unit :=
  if account = ZERO then .fail (.invalidReceiver ZERO) else update root ZERO account value

/-- `_burn`, `contracts/src/token/erc20/mod.rs` 521-532. -/
def burnInternal (account : Address) (value : U256) : Code Unit :=
  if account = ZERO then .fail (.invalidSender ZERO) else update root account ZERO value

/-- `_spend_allowance`, `contracts/src/token/erc20/mod.rs` 553-575. -/
def spendAllowance (owner spender : Address) (value : U256) : Code Unit :=
  .get (allowance root owner spender) fun current =>
    if current ≠ maxU256 then
      if current < value then .fail (.insufficientAllowance spender current value)
      else approveInternal root owner spender (current - value) false
    else .ret ()

/-- The calls, `contracts/src/token/erc20/mod.rs` 271-316 and `contracts/src/token/erc20/extensions/burnable.rs` 59-80. -/
def code (caller : Address) : Call → Code Unit
  | .transfer dst v => transferInternal root caller dst v
  | .transferFrom src dst v => (spendAllowance root src caller v).bind fun _ => transferInternal root src dst v
  | .approve sp v => approveInternal root caller sp v true
  | .mint a v => mint root a v
  | .burn v => burnInternal root caller v
  | .burnFrom a v => (spendAllowance root a caller v).bind fun _ => burnInternal root a v

/-- A token on raw storage: its words and the events so far. -/
structure State where
  words : Words
  log : List Event

/-- One transaction; `contracts/src/token/erc20/mod.rs` 271-316 and the like. -/
def exec (K : Hash) (t : Ty) (s : State) (op : Address × Call) : Except Err State :=
  ((code root op.1 op.2).onWords K t s.words).map fun r => { words := r.2.1, log := s.log ++ r.2.2 }

/-- A history of transactions; failed ones are reverted; `contracts/src/token/erc20/mod.rs` 271-316 and the like. -/
def run (K : Hash) (t : Ty) (s : State) (ops : List (Address × Call)) : State := runOf (exec root K t) s ops

end Verif.Erc20Words
