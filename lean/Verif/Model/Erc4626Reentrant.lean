import Verif.Model.HookTree
import Verif.Model.Erc4626
/-! # The vault when the asset token calls back

Line numbers are in `/repo/contracts/src/token/erc20/extensions/erc4626.rs`.  The functions of
`Model/Erc4626.lean` that make the asset token move a balance, with the vault's state threaded through
that call.  `balance_of` on the asset (820-826) is a static call, during which nothing can change. -/

namespace Verif.Erc4626.Reentrant
open Verif.Erc4626

/-- `_deposit`, 1127-1156: the token's `transferFrom` (1144-1149), during which `before` happens before
the assets move and `after` happens after they have; then the shares are minted (1151) and the event is
emitted (1153). -/
def depositInternal (before after : State → State) (s : State) (caller receiver : Address)
    (assets shares : U256) : Except Err State := do
  let s1 := before s
  let a ← liftSafe (SafeErc20.safeTransferFrom (SafeErc20.standardToken s.self_) s1.asset caller s.self_
    assets)
  let s2 := after { s1 with asset := a }
  let t ← liftErc20 (Erc20.mint s2.shares receiver shares)
  return { s2 with shares := t, log := s2.log ++ [.deposit caller receiver assets shares] }

/-- `_withdraw`, 1179-1208: the allowance is spent (1188-1190) and the shares are burned (1201) before
the token's `transfer` (1203), during which `before` and `after` happen; the event is last (1205). -/
def withdrawInternal (before after : State → State) (s : State) (caller receiver owner : Address)
    (assets shares : U256) : Except Err State := do
  let t1 ← spendFor s caller owner shares
  let t2 ← liftErc20 (Erc20.burnInternal t1 owner shares)
  let s1 := before { s with shares := t2 }
  let a ← liftSafe (SafeErc20.safeTransfer (SafeErc20.standardToken s.self_) s1.asset receiver assets)
  let s2 := after { s1 with asset := a }
  return { s2 with log := s2.log ++ [.withdraw caller receiver owner assets shares] }

/-- Which moments the asset token uses to call somebody other than the vault, besides the two that the
comments at 1135-1142 and 1192-1199 allow: after the assets have moved into the vault, and before they
move out of it. -/
structure Hooks where
  afterDeposit : Bool
  beforeWithdraw : Bool

/-- The asset of the comments at 1135-1142 and 1192-1199: somebody else is called only before assets
move in and after assets move out. -/
def erc777 : Hooks := ⟨false, false⟩

/-- `deposit`, 897-918. -/
def deposit (H : Hooks) (before after : State → State) (s : State) (caller : Address) (assets : U256)
    (receiver : Address) : Except Err State := do
  let maxAssets := maxDeposit s receiver
  if maxAssets < assets then throw (.exceededMaxDeposit receiver assets maxAssets)
  let shares ← previewDeposit s assets
  depositInternal before (if H.afterDeposit then after else fun t => t) s caller receiver assets shares

/-- `mint`, 920-940. -/
def mint (H : Hooks) (before after : State → State) (s : State) (caller : Address) (shares : U256)
    (receiver : Address) : Except Err State := do
  let maxShares := maxMint s receiver
  if maxShares < shares then throw (.exceededMaxMint receiver shares maxShares)
  let assets ← previewMint s shares
  depositInternal before (if H.afterDeposit then after else fun t => t) s caller receiver assets shares

/-- `withdraw`, 942-961. -/
def withdraw (H : Hooks) (before after : State → State) (s : State) (caller : Address) (assets : U256)
    (receiver owner : Address) : Except Err State := do
  let maxAssets ← maxWithdraw s owner
  if maxAssets < assets then throw (.exceededMaxWithdraw owner assets maxAssets)
  let shares ← previewWithdraw s assets
  withdrawInternal (if H.beforeWithdraw then before else fun t => t) after s caller receiver owner assets
    shares

/-- `redeem`, 963-984. -/
def redeem (H : Hooks) (before after : State → State) (s : State) (caller : Address) (shares : U256)
    (receiver owner : Address) : Except Err State := do
  let maxShares := maxRedeem s owner
  if maxShares < shares then throw (.exceededMaxRedeem owner shares maxShares)
  let assets ← previewRedeem s shares
  withdrawInternal (if H.beforeWithdraw then before else fun t => t) after s caller receiver owner assets
    shares

/-- One call.  Calls on the asset token and on the shares are as in `Erc4626.exec`; the former may have
hooks of their own, but these can be listed as separate calls before or after.
Models 813-1216 as exported by `examples/erc4626/src/lib.rs`. -/
def execWith (H : Hooks) (before after : State → State) (s : State) (op : Address × Call) :
    Except Err State :=
  if op.1 = s.self_ then .error .panic
  else match op.2 with
  | .deposit a r => deposit H before after s op.1 a r
  | .mint sh r => mint H before after s op.1 sh r
  | .withdraw a r o => withdraw H before after s op.1 a r o
  | .redeem sh r o => redeem H before after s op.1 sh r o
  | .share c => exec s (op.1, .share c)
  | .asset c => exec s (op.1, .asset c)

/-- A history of calls with everything that happens inside them.  Sequences of calls of 813-1216. -/
def run (H : Hooks) (s : State) (calls : List (HookTree (Address × Call))) : State :=
  HookTree.execAll (execWith H) s calls

end Verif.Erc4626.Reentrant
