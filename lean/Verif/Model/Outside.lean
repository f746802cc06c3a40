import Verif.Model.Contracts
import Verif.Model.Erc4626
import Verif.Model.Erc20Wrapper
/-!
# Model of the contracts that call other contracts, on bytes

The vault (`examples/erc4626`) and the ERC-20 wrapper (`examples/erc20-wrapper`) with any program at the address of the asset.
The rest of the chain is a `World`; it cannot re-enter (the examples are compiled without the `reentrant` feature).
-/
namespace Verif.Outside
open Verif Verif.Abi Verif.Entry Verif.Contracts
open Verif.Math (Rounding mulDiv)

/-- The rest of the chain, with states `τ`: which addresses have code; what a call does and answers (`RawCall::call`,
`contracts/src/token/erc20/utils/safe_erc20.rs` 342-352); what a static call answers, `none` if it fails
(`contracts/src/token/erc20/extensions/erc4626.rs` 820-826: `balance_of` is declared `view`,
`contracts/src/token/erc20/interface.rs` 14).  The number counts the static calls of a transaction: the same question may get
different answers (a program can see how much gas is left). -/
structure World (τ : Type) where
  hasCode : τ → Address → Bool
  call : τ → (sender target : Address) → Bytes → Outcome τ
  look : τ → Nat → (sender target : Address) → Bytes → Option Bytes

variable {τ : Type}

/-- A call of an address without code succeeds and returns nothing (`contracts/src/token/erc20/utils/safe_erc20.rs` 338-340). -/
def World.send (W : World τ) (t : τ) (sender target : Address) (b : Bytes) : Outcome τ :=
  if W.hasCode t target then W.call t sender target b else .returned t []

/-- The same for a static call (`contracts/src/token/erc20/extensions/erc4626.rs` 820-826). -/
def World.ask (W : World τ) (t : τ) (n : Nat) (sender target : Address) (b : Bytes) : Outcome τ :=
  if W.hasCode t target then
    match W.look t n sender target b with
    | some data => .returned t data
    | none => .reverted []
  else .returned t []

/-- The contract at `target`, as `SafeErc20` sees it (`contracts/src/token/erc20/utils/safe_erc20.rs` 333-353). -/
def World.token (W : World τ) (K : Hash) (t : τ) (sender target : Address) : SafeErc20.Token τ where
  hasCode := W.hasCode t target
  call := (Calls.rawToken K fun t b => W.send t sender target b).call

/-- The `?` on a call of `SafeErc20` (`contracts/src/token/erc20/extensions/erc4626.rs` 1144-1149,
`contracts/src/token/erc20/extensions/wrapper.rs` 257-262). -/
def settled {ε : Type} (err : SafeErc20.Err → ε) : τ × Except SafeErc20.Err Unit → Except ε τ
  | (t, .ok _) => .ok t
  | (_, .error e) => .error (err e)

/-- `transfer`, `transfer_from` and `approve` of `Erc20` (`contracts/src/token/erc20/mod.rs` 283-316), which `Erc20Example`s
inherit: `put` is the new state of the contract. -/
def erc20Calls {σ : Type} (K : Hash) (caller : Address) (u : Erc20.State) (put : Erc20.State → σ) : List (Row σ) :=
  [("Erc20", "transfer", fun
      | [.address dst, .uint256 v] => finish K Revert.erc20 [.bool true] (put <$> Erc20.transfer u caller dst v)
      | _ => .error none),
   ("Erc20", "approve", fun
      | [.address p, .uint256 v] => finish K Revert.erc20 [.bool true] (put <$> Erc20.approve u caller p v)
      | _ => .error none),
   ("Erc20", "transfer_from", fun
      | [.address src, .address dst, .uint256 v] =>
        finish K Revert.erc20 [.bool true] (put <$> Erc20.transferFrom u caller src dst v)
      | _ => .error none)]

/-- The result of a function that returns a number and changes the state (`examples/erc4626/src/lib.rs` 63-69). -/
def number {σ ε : Type} (K : Hash) (reply : ε → Revert.Reply) : Except ε (U256 × σ) → Except (Option Bytes) (σ × List Val)
  | .ok (x, s) => .ok (s, [.uint256 x])
  | .error e => .error ((reply e).data K)

end Verif.Outside

/-! ## The vault -/

namespace Verif.Outside.Vault
open Verif Verif.Abi Verif.Entry Verif.Contracts Verif.Outside
open Verif.Math (Rounding mulDiv)

/-- `enum Error`, `contracts/src/token/erc20/extensions/erc4626.rs` 111-133, with `InvalidAsset`. -/
inductive Err where
  | invalidAsset (asset : Address)
  | vault (e : Erc4626.Err)
  deriving DecidableEq

/-- The vault (`contracts/src/token/erc20/extensions/erc4626.rs` 140-152, composed as in `examples/erc4626/src/lib.rs` 19-28;
`self_` is its address) and the rest of the chain.  Name and symbol are with the handler. -/
structure State (τ : Type) where
  self_ : Address
  asset : Address
  underlyingDecimals : U8
  offset : U8
  shares : Erc20.State
  log : List Erc4626.Event
  world : τ

variable {τ : Type}

/-- Errors of the functions that are in `Verif.Erc4626` (`contracts/src/token/erc20/extensions/erc4626.rs` 111-133). -/
def lift {α : Type} : Except Erc4626.Err α → Except Err α
  | .ok a => .ok a
  | .error e => .error (.vault e)

/-- `decimals`, `erc4626.rs` 1011-1016. -/
def decimals (s : State τ) : Except Err U8 :=
  orPanic (.vault .panic) (checkedAdd s.underlyingDecimals s.offset)

/-- `total_assets`, `erc4626.rs` 820-826, as the `n`-th static call. -/
def totalAssets (W : World τ) (K : Hash) (D : Decoder) (n : Nat) (s : State τ) : Except Err U256 :=
  match Calls.uintReply D (W.ask s.world n s.self_ s.asset ((Calls.Message.balanceOf s.self_).bytes K)) with
  | some x => .ok x
  | none => .error (.invalidAsset s.asset)

/-- `_convert_to_shares`, `erc4626.rs` 1037-1061. -/
def convertToSharesInternal (W : World τ) (K : Hash) (D : Decoder) (n : Nat) (s : State τ) (assets : U256)
    (rounding : Rounding) : Except Err U256 := do
  let v ← orPanic (.vault .panic) (Erc4626.pow10 s.offset)
  let multiplier ← orPanic (.vault .panic) (checkedAdd (Erc20.totalSupplyOf s.shares) v)
  let total ← totalAssets W K D n s
  let denominator ← orPanic (.vault .panic) (checkedAdd total 1#256)
  lift (Erc4626.liftPanic (mulDiv assets multiplier denominator rounding))

/-- `_convert_to_assets`, `erc4626.rs` 1082-1106. -/
def convertToAssetsInternal (W : World τ) (K : Hash) (D : Decoder) (n : Nat) (s : State τ) (shares : U256)
    (rounding : Rounding) : Except Err U256 := do
  let total ← totalAssets W K D n s
  let multiplier ← orPanic (.vault .panic) (checkedAdd total 1#256)
  let v ← orPanic (.vault .panic) (Erc4626.pow10 s.offset)
  let denominator ← orPanic (.vault .panic) (checkedAdd (Erc20.totalSupplyOf s.shares) v)
  lift (Erc4626.liftPanic (mulDiv shares multiplier denominator rounding))

/-- `max_withdraw`, `erc4626.rs` 852-859. -/
def maxWithdraw (W : World τ) (K : Hash) (D : Decoder) (n : Nat) (s : State τ) (owner : Address) : Except Err U256 :=
  convertToAssetsInternal W K D n s (Erc20.balanceOf s.shares owner) .floor

/-- `_deposit`, `erc4626.rs` 1127-1156. -/
def depositInternal (W : World τ) (K : Hash) (s : State τ) (caller receiver : Address) (assets shares : U256) :
    Except Err (State τ) := do
  let t ← settled (fun e => .vault (.safeErc20 e))
    (SafeErc20.safeTransferFrom (W.token K s.world s.self_ s.asset) s.world caller s.self_ assets)
  let u ← lift (Erc4626.liftErc20 (Erc20.mint s.shares receiver shares))
  return { s with world := t, shares := u, log := s.log ++ [.deposit caller receiver assets shares] }

/-- The optional `_spend_allowance` at the head of `_withdraw`, `erc4626.rs` 1188-1190. -/
def spendFor (s : State τ) (caller owner : Address) (shares : U256) : Except Err Erc20.State :=
  if caller ≠ owner then lift (Erc4626.liftErc20 (Erc20.spendAllowance s.shares owner caller shares)) else .ok s.shares

/-- `_withdraw`, `erc4626.rs` 1179-1208. -/
def withdrawInternal (W : World τ) (K : Hash) (s : State τ) (caller receiver owner : Address) (assets shares : U256) :
    Except Err (State τ) := do
  let u1 ← spendFor s caller owner shares
  let u2 ← lift (Erc4626.liftErc20 (Erc20.burnInternal u1 owner shares))
  let t ← settled (fun e => .vault (.safeErc20 e))
    (SafeErc20.safeTransfer (W.token K s.world s.self_ s.asset) s.world receiver assets)
  return { s with world := t, shares := u2, log := s.log ++ [.withdraw caller receiver owner assets shares] }

/-- `deposit`, `erc4626.rs` 897-918. -/
def deposit (W : World τ) (K : Hash) (D : Decoder) (s : State τ) (caller : Address) (assets : U256) (receiver : Address) :
    Except Err (U256 × State τ) := do
  if maxU256 < assets then throw (.vault (.exceededMaxDeposit receiver assets maxU256))
  let shares ← convertToSharesInternal W K D 0 s assets .floor
  let s' ← depositInternal W K s caller receiver assets shares
  return (shares, s')

/-- `mint`, `erc4626.rs` 920-940. -/
def mint (W : World τ) (K : Hash) (D : Decoder) (s : State τ) (caller : Address) (shares : U256) (receiver : Address) :
    Except Err (U256 × State τ) := do
  if maxU256 < shares then throw (.vault (.exceededMaxMint receiver shares maxU256))
  let assets ← convertToAssetsInternal W K D 0 s shares .ceil
  let s' ← depositInternal W K s caller receiver assets shares
  return (assets, s')

/-- `withdraw`, `erc4626.rs` 942-961. -/
def withdraw (W : World τ) (K : Hash) (D : Decoder) (s : State τ) (caller : Address) (assets : U256)
    (receiver owner : Address) : Except Err (U256 × State τ) := do
  let maxAssets ← maxWithdraw W K D 0 s owner
  if maxAssets < assets then throw (.vault (.exceededMaxWithdraw owner assets maxAssets))
  let shares ← convertToSharesInternal W K D 1 s assets .ceil
  let s' ← withdrawInternal W K s caller receiver owner assets shares
  return (shares, s')

/-- `redeem`, `erc4626.rs` 963-984. -/
def redeem (W : World τ) (K : Hash) (D : Decoder) (s : State τ) (caller : Address) (shares : U256)
    (receiver owner : Address) : Except Err (U256 × State τ) := do
  let maxShares := Erc20.balanceOf s.shares owner
  if maxShares < shares then throw (.vault (.exceededMaxRedeem owner shares maxShares))
  let assets ← convertToAssetsInternal W K D 0 s shares .floor
  let s' ← withdrawInternal W K s caller receiver owner assets shares
  return (assets, s')

/-- `Error` of `examples/erc4626/src/lib.rs` 13-17, for the asset `asset`. -/
def errReply (asset : Address) : Err → Revert.Reply
  | .invalidAsset a => .error ⟨"InvalidAsset", [.address a]⟩
  | .vault e => Revert.erc4626 asset e

/-- `examples/erc4626/src/lib.rs` 30-115 with `Erc20` (`contracts/src/token/erc20/mod.rs` 270-316) and `Erc20Metadata`
(`contracts/src/token/erc20/extensions/metadata.rs` 61-74), called by `caller`. -/
def handler (W : World τ) (K : Hash) (D : Decoder) (m : Strings) (caller : Address) : Handler (State τ) := fun t f args s =>
  let ask (x : Except Err U256) := view K (errReply s.asset) s (one .uint256 x)
  let go (x : Except Err (U256 × State τ)) := number K (errReply s.asset) x
  dispatch t f args (
  [("Erc4626Example", "decimals", fun | [] => view K (errReply s.asset) s (one .uint8 (decimals s)) | _ => .error none),
   ("Erc4626Example", "asset", fun | [] => .ok (s, [.address s.asset]) | _ => .error none),
   ("Erc4626Example", "total_assets", fun | [] => ask (totalAssets W K D 0 s) | _ => .error none),
   ("Erc4626Example", "convert_to_shares", fun
      | [.uint256 a] => ask (convertToSharesInternal W K D 0 s a .floor)
      | _ => .error none),
   ("Erc4626Example", "convert_to_assets", fun
      | [.uint256 x] => ask (convertToAssetsInternal W K D 0 s x .floor)
      | _ => .error none),
   ("Erc4626Example", "max_deposit", fun | [.address _] => .ok (s, [.uint256 maxU256]) | _ => .error none),
   ("Erc4626Example", "preview_deposit", fun
      | [.uint256 a] => ask (convertToSharesInternal W K D 0 s a .floor)
      | _ => .error none),
   ("Erc4626Example", "deposit", fun | [.uint256 a, .address r] => go (deposit W K D s caller a r) | _ => .error none),
   ("Erc4626Example", "max_mint", fun | [.address _] => .ok (s, [.uint256 maxU256]) | _ => .error none),
   ("Erc4626Example", "preview_mint", fun
      | [.uint256 x] => ask (convertToAssetsInternal W K D 0 s x .ceil)
      | _ => .error none),
   ("Erc4626Example", "mint", fun | [.uint256 x, .address r] => go (mint W K D s caller x r) | _ => .error none),
   ("Erc4626Example", "max_withdraw", fun | [.address o] => ask (maxWithdraw W K D 0 s o) | _ => .error none),
   ("Erc4626Example", "preview_withdraw", fun
      | [.uint256 a] => ask (convertToSharesInternal W K D 0 s a .ceil)
      | _ => .error none),
   ("Erc4626Example", "withdraw", fun
      | [.uint256 a, .address r, .address o] => go (withdraw W K D s caller a r o)
      | _ => .error none),
   ("Erc4626Example", "max_redeem", fun
      | [.address o] => .ok (s, [.uint256 (Erc20.balanceOf s.shares o)])
      | _ => .error none),
   ("Erc4626Example", "preview_redeem", fun
      | [.uint256 x] => ask (convertToAssetsInternal W K D 0 s x .floor)
      | _ => .error none),
   ("Erc4626Example", "redeem", fun
      | [.uint256 x, .address r, .address o] => go (redeem W K D s caller x r o)
      | _ => .error none),
   ("Erc20Metadata", "name", fun | [] => .ok (s, [.string m.name]) | _ => .error none),
   ("Erc20Metadata", "symbol", fun | [] => .ok (s, [.string m.symbol]) | _ => .error none)] ++
  erc20Calls K caller s.shares (fun u => { s with shares := u }) ++ erc20Views s s.shares)

/-- `examples/erc4626/src/lib.rs` 19-115 as a contract on bytes. -/
def run (W : World τ) (K : Hash) (D : Decoder) (m : Strings) (caller : Address) (s : State τ) (value : U256) (input : Bytes) :
    Outcome (State τ) := entry K D Router.erc4626Example (handler W K D m caller) s value input

end Verif.Outside.Vault

/-! ## The ERC-20 wrapper -/

namespace Verif.Outside.Wrapper
open Verif Verif.Abi Verif.Entry Verif.Contracts Verif.Outside

/-- `wrapper::Error`, `contracts/src/token/erc20/extensions/wrapper.rs` 62-80, with `InvalidUnderlying`. -/
inductive Err where
  | invalidUnderlying (token : Address)
  | wrapper (e : Verif.Wrapper.Err)
  deriving DecidableEq

/-- The wrapper (`contracts/src/token/erc20/extensions/wrapper.rs` 88-96, composed as in `examples/erc20-wrapper/src/lib.rs`
13-20; `self_` is its address) and the rest of the chain. -/
structure State (τ : Type) where
  self_ : Address
  underlying : Address
  decimals : U8
  token : Erc20.State
  world : τ

variable {τ : Type}

/-- Errors of the functions that are in `Verif.Wrapper` (`contracts/src/token/erc20/extensions/wrapper.rs` 62-80). -/
def lift {α : Type} : Except Verif.Wrapper.Err α → Except Err α
  | .ok a => .ok a
  | .error e => .error (.wrapper e)

/-- `deposit_for`, `wrapper.rs` 241-268. -/
def depositFor (W : World τ) (K : Hash) (s : State τ) (caller account : Address) (value : U256) : Except Err (State τ) := do
  if caller = s.self_ then throw (.wrapper (.invalidSender caller))
  if account = s.self_ then throw (.wrapper (.invalidReceiver account))
  let t ← settled (fun e => .wrapper (.safeErc20 e))
    (SafeErc20.safeTransferFrom (W.token K s.world s.self_ s.underlying) s.world caller s.self_ value)
  let u ← lift (Verif.Wrapper.liftErc20 (Erc20.mint s.token account value))
  return { s with world := t, token := u }

/-- `withdraw_to`, `wrapper.rs` 270-285. -/
def withdrawTo (W : World τ) (K : Hash) (s : State τ) (caller account : Address) (value : U256) : Except Err (State τ) := do
  if account = s.self_ then throw (.wrapper (.invalidReceiver account))
  let u ← lift (Verif.Wrapper.liftErc20 (Erc20.burnInternal s.token caller value))
  let t ← settled (fun e => .wrapper (.safeErc20 e))
    (SafeErc20.safeTransfer (W.token K s.world s.self_ s.underlying) s.world account value)
  return { s with world := t, token := u }

/-- `_recover`, `wrapper.rs` 310-332: the error names the wrapper, not the underlying token (317-319). -/
def recover (W : World τ) (K : Hash) (D : Decoder) (s : State τ) (account : Address) : Except Err (U256 × State τ) := do
  let balance ← match Calls.uintReply D
      (W.ask s.world 0 s.self_ s.underlying ((Calls.Message.balanceOf s.self_).bytes K)) with
    | some x => .ok x
    | none => .error (.invalidUnderlying s.self_)
  let value ← orPanic (.wrapper .panic) (checkedSub balance (Erc20.totalSupplyOf s.token))
  if 0#256 < value then
    let u ← lift (Verif.Wrapper.liftErc20 (Erc20.mint s.token account value))
    return (value, { s with token := u })
  else return (value, s)

/-- `wrapper::Error` as bytes, `contracts/src/token/erc20/extensions/wrapper.rs` 36-58 and 62-85; `under` is the underlying
token. -/
def errReply (under : Address) : Err → Revert.Reply
  | .invalidUnderlying a => .error ⟨"ERC20InvalidUnderlying", [.address a]⟩
  | .wrapper e => Revert.erc20Wrapper under e

/-- `examples/erc20-wrapper/src/lib.rs` 22-48 with `Erc20` (`contracts/src/token/erc20/mod.rs` 270-316), called by `caller`. -/
def handler (W : World τ) (K : Hash) (caller : Address) : Handler (State τ) := fun t f args s =>
  dispatch t f args (
  [("Erc20WrapperExample", "underlying", fun | [] => .ok (s, [.address s.underlying]) | _ => .error none),
   ("Erc20WrapperExample", "decimals", fun | [] => .ok (s, [.uint8 s.decimals]) | _ => .error none),
   ("Erc20WrapperExample", "deposit_for", fun
      | [.address a, .uint256 v] => finish K (errReply s.underlying) [.bool true] (depositFor W K s caller a v)
      | _ => .error none),
   ("Erc20WrapperExample", "withdraw_to", fun
      | [.address a, .uint256 v] => finish K (errReply s.underlying) [.bool true] (withdrawTo W K s caller a v)
      | _ => .error none)] ++
  erc20Calls K caller s.token (fun u => { s with token := u }) ++ erc20Views s s.token)

/-- `examples/erc20-wrapper/src/lib.rs` 13-48 as a contract on bytes. -/
def run (W : World τ) (K : Hash) (D : Decoder) (caller : Address) (s : State τ) (value : U256) (input : Bytes) :
    Outcome (State τ) := entry K D Router.erc20WrapperExample (handler W K caller) s value input

end Verif.Outside.Wrapper
