import Verif.Model.Erc20
/-!
# Specifications for the ERC-20 properties

`Ledger` is the textbook token over unbounded natural numbers; `replay` rebuilds balances from the
event log alone; `takenBy` counts what a spender takes out of an account during a history.
These are the only definitions, besides the API of the model, that the ERC-20 theorems mention.
-/

namespace Verif.Spec.Erc20
open Verif.Erc20

/-- A state some history of calls leads to. -/
def Reachable (s : State) : Prop := ∃ ops, s = run init ops

/-- The textbook token: unbounded naturals. -/
structure Ledger where
  bal : Address → Nat
  allow : Address → Address → Nat
  supply : Nat

/-- The empty token. -/
def Ledger.empty : Ledger := { bal := fun _ => 0, allow := fun _ _ => 0, supply := 0 }

/-- The allowance value that means "unlimited". -/
def unlimited : Nat := 2 ^ 256 - 1

/-- Move `v` tokens from `src` to `dst`. -/
def Ledger.move (l : Ledger) (src dst : Address) (v : Nat) : Ledger :=
  { l with bal := fun a =>
      l.bal a - (if a = src then v else 0) + (if a = dst then v else 0) }

/-- Spend `v` of the allowance `owner → spender`. -/
def Ledger.spend (l : Ledger) (owner spender : Address) (v : Nat) : Ledger :=
  { l with allow := fun o sp =>
      if o = owner ∧ sp = spender ∧ l.allow o sp ≠ unlimited then l.allow o sp - v
      else l.allow o sp }

/-- Which calls the textbook token accepts. -/
def Ledger.accepts (l : Ledger) (caller : Address) : Call → Prop
  | .transfer dst v => caller ≠ ZERO ∧ dst ≠ ZERO ∧ v.toNat ≤ l.bal caller
  | .transferFrom src dst v => src ≠ ZERO ∧ dst ≠ ZERO ∧ caller ≠ ZERO ∧
      v.toNat ≤ l.allow src caller ∧ v.toNat ≤ l.bal src
  | .approve sp _ => caller ≠ ZERO ∧ sp ≠ ZERO
  | .mint a v => a ≠ ZERO ∧ l.supply + v.toNat < 2 ^ 256
  | .burn v => caller ≠ ZERO ∧ v.toNat ≤ l.bal caller
  | .burnFrom a v => a ≠ ZERO ∧ caller ≠ ZERO ∧ v.toNat ≤ l.allow a caller ∧ v.toNat ≤ l.bal a

/-- What an accepted call does to the textbook token. -/
def Ledger.apply (l : Ledger) (caller : Address) : Call → Ledger
  | .transfer dst v => l.move caller dst v.toNat
  | .transferFrom src dst v => (l.spend src caller v.toNat).move src dst v.toNat
  | .approve sp v =>
      { l with allow := fun o p => if o = caller ∧ p = sp then v.toNat else l.allow o p }
  | .mint a v =>
      { l with bal := fun x => if x = a then l.bal x + v.toNat else l.bal x
               supply := l.supply + v.toNat }
  | .burn v =>
      { l with bal := fun x => if x = caller then l.bal x - v.toNat else l.bal x
               supply := l.supply - v.toNat }
  | .burnFrom a v =>
      let l1 := l.spend a caller v.toNat
      { l1 with bal := fun x => if x = a then l1.bal x - v.toNat else l1.bal x
                supply := l1.supply - v.toNat }

/-- What an observer sees of a token state. -/
def view (s : State) : Ledger :=
  { bal := fun a => (balanceOf s a).toNat
    allow := fun o sp => (allowance s o sp).toNat
    supply := (totalSupplyOf s).toNat }

/-- Rebuild the balance of `a` from the event log: received minus sent. -/
def replay : List Event → Address → Int
  | [], _ => 0
  | .transfer src dst v :: es, a =>
      (if dst = a then (v.toNat : Int) else 0) - (if src = a then (v.toNat : Int) else 0) + replay es a
  | .approval _ _ _ :: es, a => replay es a

/-- The amount one call by `spender` takes out of `owner`'s account, if it is accepted. -/
def takes (owner spender : Address) : Address × Call → Nat
  | (c, .transferFrom src _ v) => if c = spender ∧ src = owner then v.toNat else 0
  | (c, .burnFrom a v) => if c = spender ∧ a = owner then v.toNat else 0
  | _ => 0

/-- Total amount `spender` takes out of `owner`'s account by successful `transfer_from` and
`burn_from` calls during a history. -/
def takenBy (owner spender : Address) : State → List (Address × Call) → Nat
  | _, [] => 0
  | s, op :: ops =>
    match exec s op with
    | .ok s' => takes owner spender op + takenBy owner spender s' ops
    | .error _ => takenBy owner spender s ops

end Verif.Spec.Erc20
