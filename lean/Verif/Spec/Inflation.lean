import Verif.Spec.Erc4626
/-!
# The books of a vault's history

Some transactions of a history are marked: those of the users who might be exploited.  All other transactions, of whatever
kind and by whomever, are the attackers'.  The books say what went in and out of the vault.
-/
namespace Verif.Spec.Inflation
open Verif Verif.Erc4626 Verif.Spec.Erc4626

/-- The vault with its books. -/
structure Books where
  vault : State
  /-- what went into the vault in unmarked transactions (deposits, mints, donations) -/
  put : Nat
  /-- what went out of it in unmarked transactions -/
  taken : Nat
  /-- what went into it in marked transactions -/
  paid : Nat
  /-- the shares created in marked transactions -/
  got : Nat

/-- A new vault. -/
def start (self_ : Address) (decimals offset : U8) : Books := ⟨init self_ decimals offset, 0, 0, 0, 0⟩

/-- One transaction, marked or not.  A transaction that fails changes nothing. -/
def Books.step (b : Books) (x : Bool × (Address × Call)) : Books :=
  let v := match exec b.vault x.2 with
    | .ok v => v
    | .error _ => b.vault
  if x.1 then
    { b with vault := v, paid := b.paid + (assetsHeld v - assetsHeld b.vault), got := b.got + (supply v - supply b.vault) }
  else
    { b with vault := v, put := b.put + (assetsHeld v - assetsHeld b.vault), taken := b.taken + (assetsHeld b.vault - assetsHeld v) }

/-- The books after a history. -/
def Books.after (b : Books) (l : List (Bool × (Address × Call))) : Books := l.foldl Books.step b

/-- Marked deposits. -/
def deposits (l : List (Bool × (Address × Call))) : Nat :=
  l.countP fun x => x.1 && match x.2.2 with | .deposit _ _ => true | _ => false

/-- Marked mints. -/
def mints (l : List (Bool × (Address × Call))) : Nat :=
  l.countP fun x => x.1 && match x.2.2 with | .mint _ _ => true | _ => false

/-- The marked transactions are deposits and mints. -/
def OnlyEnter (l : List (Bool × (Address × Call))) : Prop :=
  ∀ x ∈ l, x.1 = true → (∃ a r, x.2.2 = .deposit a r) ∨ ∃ a r, x.2.2 = .mint a r

end Verif.Spec.Inflation
