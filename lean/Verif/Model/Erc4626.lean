import Verif.Model.Erc20
import Verif.Model.Math
import Verif.Model.SafeErc20
/-!
# Model of the ERC-4626 vault

Source: `contracts/src/token/erc20/extensions/erc4626.rs`, composition as in
`examples/erc4626/src/lib.rs`.

Simplification: the underlying asset is this library's own `Erc20` (so `balance_of` on it never fails
and `InvalidAsset` does not occur), reached through the modelled `SafeErc20`.
-/

namespace Verif.Erc4626
open Verif.Math (Rounding mulDiv)

/-- `enum Error`, `erc4626.rs` 111-133; `panic` covers every `expect` and the panics of `mul_div`. -/
inductive Err where
  | exceededMaxDeposit (receiver : Address) (assets max : U256)
  | exceededMaxMint (receiver : Address) (shares max : U256)
  | exceededMaxWithdraw (owner : Address) (assets max : U256)
  | exceededMaxRedeem (owner : Address) (shares max : U256)
  | safeErc20 (e : SafeErc20.Err)
  | erc20 (e : Erc20.Err)
  | panic
  deriving DecidableEq, Repr

/-- Events `Deposit` and `Withdraw`, `erc4626.rs` 40-63. -/
inductive Event where
  | deposit (sender owner : Address) (assets shares : U256)
  | withdraw (sender receiver owner : Address) (assets shares : U256)
  deriving DecidableEq, Repr

/-- The vault: `Erc4626` storage (`erc4626.rs` 140-152), its share token, its own address, and the asset
token's storage. -/
structure State where
  self_ : Address
  underlyingDecimals : U8
  offset : U8
  shares : Erc20.State
  asset : Erc20.State
  log : List Event

/-- `decimals`, `erc4626.rs` 1011-1016. -/
def decimals (s : State) : Except Err U8 :=
  orPanic .panic (checkedAdd s.underlyingDecimals s.offset)

/-- `total_assets`, `erc4626.rs` 820-826. -/
def totalAssets (s : State) : U256 := Erc20.balanceOf s.asset s.self_

/-- `TEN.checked_pow(U256::from(offset))`. -/
def pow10 (offset : U8) : Option U256 :=
  if 10 ^ offset.toNat < 2 ^ 256 then some (BitVec.ofNat 256 (10 ^ offset.toNat)) else none

/-- A panic of `mul_div` is a panic of the caller.
`mul_div` as called in `contracts/src/token/erc20/extensions/erc4626.rs` 1037-1106. -/
def liftPanic : Except Math.Panic U256 → Except Err U256
  | .ok x => .ok x
  | .error _ => .error .panic

/-- `_convert_to_shares`, `erc4626.rs` 1037-1061. -/
def convertToSharesInternal (s : State) (assets : U256) (rounding : Rounding) : Except Err U256 := do
  let v ← orPanic .panic (pow10 s.offset)
  let multiplier ← orPanic .panic (checkedAdd (Erc20.totalSupplyOf s.shares) v)
  let denominator ← orPanic .panic (checkedAdd (totalAssets s) 1#256)
  liftPanic (mulDiv assets multiplier denominator rounding)

/-- `_convert_to_assets`, `erc4626.rs` 1082-1106. -/
def convertToAssetsInternal (s : State) (shares : U256) (rounding : Rounding) : Except Err U256 := do
  let multiplier ← orPanic .panic (checkedAdd (totalAssets s) 1#256)
  let v ← orPanic .panic (pow10 s.offset)
  let denominator ← orPanic .panic (checkedAdd (Erc20.totalSupplyOf s.shares) v)
  liftPanic (mulDiv shares multiplier denominator rounding)

/-- `convert_to_shares`, `erc4626.rs` 828-834. -/
def convertToShares (s : State) (assets : U256) : Except Err U256 :=
  convertToSharesInternal s assets .floor

/-- `convert_to_assets`, `erc4626.rs` 836-842. -/
def convertToAssets (s : State) (shares : U256) : Except Err U256 :=
  convertToAssetsInternal s shares .floor

/-- `max_deposit`, `erc4626.rs` 844-846. -/
def maxDeposit (_s : State) (_receiver : Address) : U256 := maxU256

/-- `max_mint`, `erc4626.rs` 848-850. -/
def maxMint (_s : State) (_receiver : Address) : U256 := maxU256

/-- `max_withdraw`, `erc4626.rs` 852-859. -/
def maxWithdraw (s : State) (owner : Address) : Except Err U256 :=
  convertToAssetsInternal s (Erc20.balanceOf s.shares owner) .floor

/-- `max_redeem`, `erc4626.rs` 861-863. -/
def maxRedeem (s : State) (owner : Address) : U256 := Erc20.balanceOf s.shares owner

/-- `preview_deposit`, `erc4626.rs` 865-871. -/
def previewDeposit (s : State) (assets : U256) : Except Err U256 :=
  convertToSharesInternal s assets .floor

/-- `preview_mint`, `erc4626.rs` 873-879. -/
def previewMint (s : State) (shares : U256) : Except Err U256 :=
  convertToAssetsInternal s shares .ceil

/-- `preview_withdraw`, `erc4626.rs` 881-887. -/
def previewWithdraw (s : State) (assets : U256) : Except Err U256 :=
  convertToSharesInternal s assets .ceil

/-- `preview_redeem`, `erc4626.rs` 889-895. -/
def previewRedeem (s : State) (shares : U256) : Except Err U256 :=
  convertToAssetsInternal s shares .floor

/-- Error conversion of a share token call.
The `?` on share token calls in `contracts/src/token/erc20/extensions/erc4626.rs` 1127-1208. -/
def liftErc20 : Except Erc20.Err Erc20.State → Except Err Erc20.State
  | .ok t => .ok t
  | .error e => .error (.erc20 e)

/-- Error conversion of a `SafeErc20` call. -/
def liftSafe : Erc20.State × Except SafeErc20.Err Unit → Except Err Erc20.State
  | (t, .ok _) => .ok t
  | (_, .error e) => .error (.safeErc20 e)

/-- `_deposit`, `erc4626.rs` 1127-1156. -/
def depositInternal (s : State) (caller receiver : Address) (assets shares : U256) :
    Except Err State := do
  let a ← liftSafe (SafeErc20.safeTransferFrom (SafeErc20.standardToken s.self_) s.asset caller s.self_
    assets)
  let t ← liftErc20 (Erc20.mint s.shares receiver shares)
  return { s with asset := a, shares := t, log := s.log ++ [.deposit caller receiver assets shares] }

/-- The optional `_spend_allowance` at the head of `_withdraw`, `erc4626.rs` 1188-1190. -/
def spendFor (s : State) (caller owner : Address) (shares : U256) : Except Err Erc20.State :=
  if caller ≠ owner then liftErc20 (Erc20.spendAllowance s.shares owner caller shares) else .ok s.shares

/-- `_withdraw`, `erc4626.rs` 1179-1208. -/
def withdrawInternal (s : State) (caller receiver owner : Address) (assets shares : U256) :
    Except Err State := do
  let t1 ← spendFor s caller owner shares
  let t2 ← liftErc20 (Erc20.burnInternal t1 owner shares)
  let a ← liftSafe (SafeErc20.safeTransfer (SafeErc20.standardToken s.self_) s.asset receiver assets)
  return { s with asset := a, shares := t2
                  log := s.log ++ [.withdraw caller receiver owner assets shares] }

/-- `deposit`, `erc4626.rs` 897-918. -/
def deposit (s : State) (caller : Address) (assets : U256) (receiver : Address) :
    Except Err (U256 × State) := do
  let maxAssets := maxDeposit s receiver
  if maxAssets < assets then throw (.exceededMaxDeposit receiver assets maxAssets)
  let shares ← previewDeposit s assets
  let s' ← depositInternal s caller receiver assets shares
  return (shares, s')

/-- `mint`, `erc4626.rs` 920-940. -/
def mint (s : State) (caller : Address) (shares : U256) (receiver : Address) :
    Except Err (U256 × State) := do
  let maxShares := maxMint s receiver
  if maxShares < shares then throw (.exceededMaxMint receiver shares maxShares)
  let assets ← previewMint s shares
  let s' ← depositInternal s caller receiver assets shares
  return (assets, s')

/-- `withdraw`, `erc4626.rs` 942-961. -/
def withdraw (s : State) (caller : Address) (assets : U256) (receiver owner : Address) :
    Except Err (U256 × State) := do
  let maxAssets ← maxWithdraw s owner
  if maxAssets < assets then throw (.exceededMaxWithdraw owner assets maxAssets)
  let shares ← previewWithdraw s assets
  let s' ← withdrawInternal s caller receiver owner assets shares
  return (shares, s')

/-- `redeem`, `erc4626.rs` 963-984. -/
def redeem (s : State) (caller : Address) (shares : U256) (receiver owner : Address) :
    Except Err (U256 × State) := do
  let maxShares := maxRedeem s owner
  if maxShares < shares then throw (.exceededMaxRedeem owner shares maxShares)
  let assets ← previewRedeem s shares
  let s' ← withdrawInternal s caller receiver owner assets shares
  return (assets, s')

/-- Share token entry points that the vault exposes (`examples/erc4626/src/lib.rs` 31: `Erc20`,
`Erc20Metadata`; no public mint or burn of shares). -/
inductive ShareCall where
  | transfer (dst : Address) (value : U256)
  | transferFrom (src dst : Address) (value : U256)
  | approve (spender : Address) (value : U256)
  deriving DecidableEq, Repr

/-- Everything that can happen: vault calls, share token calls, and any call on the asset token (which
covers donations to the vault).
Models `contracts/src/token/erc20/extensions/erc4626.rs` 813-1216 and the calls of both tokens. -/
inductive Call where
  | deposit (assets : U256) (receiver : Address)
  | mint (shares : U256) (receiver : Address)
  | withdraw (assets : U256) (receiver owner : Address)
  | redeem (shares : U256) (receiver owner : Address)
  | share (c : ShareCall)
  | asset (c : Erc20.Call)

/-- One transaction.  The vault contract itself never originates a call other than the ones inside
`_deposit` and `_withdraw`, so a transaction whose sender is the vault does not exist.
Models `contracts/src/token/erc20/extensions/erc4626.rs` 813-1216 as exported by `examples/erc4626/src/lib.rs`. -/
def exec (s : State) (op : Address × Call) : Except Err State :=
  if op.1 = s.self_ then .error .panic
  else match op.2 with
  | .deposit a r => do return (← deposit s op.1 a r).2
  | .mint sh r => do return (← mint s op.1 sh r).2
  | .withdraw a r o => do return (← withdraw s op.1 a r o).2
  | .redeem sh r o => do return (← redeem s op.1 sh r o).2
  | .share (.transfer dst v) => do
    return { s with shares := (← liftErc20 (Erc20.transfer s.shares op.1 dst v)) }
  | .share (.transferFrom src dst v) => do
    return { s with shares := (← liftErc20 (Erc20.transferFrom s.shares op.1 src dst v)) }
  | .share (.approve sp v) => do
    return { s with shares := (← liftErc20 (Erc20.approve s.shares op.1 sp v)) }
  | .asset c => do
    return { s with asset := (← liftErc20 (Erc20.exec s.asset (op.1, c))) }

/-- A history.
Sequences of such transactions (`contracts/src/token/erc20/extensions/erc4626.rs` 813-1216); a failed transaction leaves no trace (Stylus reverts). -/
def run (s : State) (ops : List (Address × Call)) : State := runOf exec s ops

/-- A new vault over a new asset token.
Zero-initialised storage of `contracts/src/token/erc20/extensions/erc4626.rs` 139-151. -/
def init (self_ : Address) (decimals offset : U8) : State :=
  { self_ := self_, underlyingDecimals := decimals, offset := offset, shares := Erc20.init,
    asset := Erc20.init, log := [] }

end Verif.Erc4626
