import Verif.Model.Erc4626
/-! # Specification vocabulary for the vault, over unbounded integers -/

namespace Verif.Spec.Erc4626
open Verif.Erc4626

/-- Assets held by the vault. -/
def assetsHeld (s : State) : Nat := (s.asset.balances s.self_).toNat
/-- Shares in existence. -/
def supply (s : State) : Nat := s.shares.totalSupply.toNat
/-- Virtual shares. -/
def virtualShares (s : State) : Nat := 10 ^ s.offset.toNat
/-- Shares of an account. -/
def sharesOf (s : State) (a : Address) : Nat := (s.shares.balances a).toNat
/-- Assets of an account. -/
def assetsOf (s : State) (a : Address) : Nat := (s.asset.balances a).toNat

/-- The numbers the vault works with fit in 256 bits. -/
def Fits (s : State) : Prop :=
  supply s + virtualShares s < 2 ^ 256 ∧ assetsHeld s + 1 < 2 ^ 256

/-- The rate `(assets + 1) / (supply + virtual shares)` of `s'` is at least that of `s`
(cross-multiplied). -/
def RateLe (s s' : State) : Prop :=
  (assetsHeld s + 1) * (supply s' + virtualShares s') ≤
    (assetsHeld s' + 1) * (supply s + virtualShares s)

/-- States that a new vault reaches by some history. -/
def Reachable (s : State) : Prop :=
  ∃ self_ d o ops, self_ ≠ ZERO ∧ s = run (init self_ d o) ops

end Verif.Spec.Erc4626
