import Verif.Model.WrapperDeployed
/-!
# Model of a deployed vault: `examples/erc4626`

The vault with nothing left out between the transaction and the storage: functions as programs on storage cells, the router and the
decoder in front, the words of the storage behind, and any program as the asset.  The rest of the chain is as in `Verif.Model.Outside`.
-/
namespace Verif.VaultDeployed
open Verif Verif.Storage Verif.Outside Verif.OnWords
open Verif.Math (Rounding mulDiv)
open Verif.Abi (Val Decoder Outcome)

/-- Events: of the token of the shares, and of the vault (`contracts/src/token/erc20/extensions/erc4626.rs` 40-63). -/
abbrev Ev := Erc20.Event ⊕ Erc4626.Event

/-- Code of the vault (`contracts/src/token/erc20/extensions/erc4626.rs` 810-1210). -/
abbrev Code := Backed Erc4626.Event

/-- `self.metadata.metadata.name`, `examples/erc4626/src/lib.rs` 24-25. -/
def nameCell : List Step := [.field "metadata", .field "metadata", .field "name"]
/-- `self.metadata.metadata.symbol`, `examples/erc4626/src/lib.rs` 24-25. -/
def symbolCell : List Step := [.field "metadata", .field "metadata", .field "symbol"]
/-- `self.erc4626.asset`, `contracts/src/token/erc20/extensions/erc4626.rs` 142. -/
def assetCell : List Step := [.field "erc4626", .field "asset"]
/-- `self.erc4626.underlying_decimals`, `contracts/src/token/erc20/extensions/erc4626.rs` 144. -/
def decimalsCell : List Step := [.field "erc4626", .field "underlying_decimals"]
/-- `self.erc4626.decimals_offset`, `contracts/src/token/erc20/extensions/erc4626.rs` 146. -/
def offsetCell : List Step := [.field "erc4626", .field "decimals_offset"]

/-- `asset`, `contracts/src/token/erc20/extensions/erc4626.rs` 816-818. -/
def asset : Code Address := .get assetCell fun v => .ret (v.setWidth 160)

/-- `_decimals_offset`, `contracts/src/token/erc20/extensions/erc4626.rs` 1213-1215. -/
def offset : Code U8 := .get offsetCell fun v => .ret (v.setWidth 8)

/-- `expect`, `contracts/src/token/erc20/extensions/erc4626.rs` 1050-1055. -/
def expect {α : Type} : Option α → Code α
  | some a => .ret a
  | none => .fail .panic

/-- `mul_div`, which may panic, as called in `contracts/src/token/erc20/extensions/erc4626.rs` 1058. -/
def divided : Except Math.Panic U256 → Code U256
  | .ok x => .ret x
  | .error _ => .fail .panic

/-- `decimals`, `contracts/src/token/erc20/extensions/erc4626.rs` 1011-1016. -/
def decimals : Code U8 := .get decimalsCell fun d => offset.bind fun o => expect (checkedAdd (d.setWidth 8) o)

section
variable {τ : Type} (W : World τ) (K : Hash) (D : Decoder) (self : Address) (t : τ)

/-- `total_assets`, `contracts/src/token/erc20/extensions/erc4626.rs` 820-826, as the `n`-th static call. -/
def totalAssets (n : Nat) : Code U256 :=
  asset.bind fun a =>
  match Calls.uintReply D (W.ask t n self a ((Calls.Message.balanceOf self).bytes K)) with
  | some x => .ret x
  | none => asset.bind fun a => .fail (.error ⟨"InvalidAsset", [.address a]⟩)

/-- `_convert_to_shares`, `contracts/src/token/erc20/extensions/erc4626.rs` 1037-1061. -/
def convertToShares (n : Nat) (assets : U256) (rounding : Rounding) : Code U256 :=
  .get (Erc20Words.supply token) fun supply =>
  (offset.bind fun o => expect (Erc4626.pow10 o)).bind fun v =>
  (expect (checkedAdd supply v)).bind fun multiplier =>
  (totalAssets W K D self t n).bind fun total =>
  (expect (checkedAdd total 1#256)).bind fun denominator =>
  divided (mulDiv assets multiplier denominator rounding)

/-- `_convert_to_assets`, `contracts/src/token/erc20/extensions/erc4626.rs` 1082-1106. -/
def convertToAssets (n : Nat) (shares : U256) (rounding : Rounding) : Code U256 :=
  (totalAssets W K D self t n).bind fun total =>
  (expect (checkedAdd total 1#256)).bind fun multiplier =>
  .get (Erc20Words.supply token) fun supply =>
  (offset.bind fun o => expect (Erc4626.pow10 o)).bind fun v =>
  (expect (checkedAdd supply v)).bind fun denominator =>
  divided (mulDiv shares multiplier denominator rounding)

/-- `max_withdraw`, `contracts/src/token/erc20/extensions/erc4626.rs` 852-859. -/
def maxWithdraw (owner : Address) : Code U256 :=
  .get (Erc20Words.balance token owner) fun balance => convertToAssets W K D self t 0 balance .floor

/-- `_deposit`, `contracts/src/token/erc20/extensions/erc4626.rs` 1127-1156. -/
def depositInternal (caller receiver : Address) (assets shares : U256) : Code τ :=
  asset.bind fun a =>
  (settle (settled (Revert.safeErc20 a) (SafeErc20.safeTransferFrom (W.token K t self a) t caller self assets))).bind fun t' =>
  (within (Erc20Words.mint token receiver shares)).bind fun _ =>
  .emit (.inr (.deposit caller receiver assets shares)) (.ret t')

/-- `_withdraw`, `contracts/src/token/erc20/extensions/erc4626.rs` 1179-1208. -/
def withdrawInternal (caller receiver owner : Address) (assets shares : U256) : Code τ :=
  (if caller ≠ owner then within (Erc20Words.spendAllowance token owner caller shares) else .ret ()).bind fun _ =>
  (within (Erc20Words.burnInternal token owner shares)).bind fun _ =>
  asset.bind fun a =>
  (settle (settled (Revert.safeErc20 a) (SafeErc20.safeTransfer (W.token K t self a) t receiver assets))).bind fun t' =>
  .emit (.inr (.withdraw caller receiver owner assets shares)) (.ret t')

/-- `deposit`, `contracts/src/token/erc20/extensions/erc4626.rs` 897-918. -/
def deposit (caller : Address) (assets : U256) (receiver : Address) : Code (U256 × τ) :=
  if maxU256 < assets then .fail (.error ⟨"ERC4626ExceededMaxDeposit", [.address receiver, .uint256 assets, .uint256 maxU256]⟩)
  else (convertToShares W K D self t 0 assets .floor).bind fun shares =>
    (depositInternal W K self t caller receiver assets shares).bind fun t' => .ret (shares, t')

/-- `mint`, `contracts/src/token/erc20/extensions/erc4626.rs` 920-940. -/
def mint (caller : Address) (shares : U256) (receiver : Address) : Code (U256 × τ) :=
  if maxU256 < shares then .fail (.error ⟨"ERC4626ExceededMaxMint", [.address receiver, .uint256 shares, .uint256 maxU256]⟩)
  else (convertToAssets W K D self t 0 shares .ceil).bind fun assets =>
    (depositInternal W K self t caller receiver assets shares).bind fun t' => .ret (assets, t')

/-- `withdraw`, `contracts/src/token/erc20/extensions/erc4626.rs` 942-961. -/
def withdraw (caller : Address) (assets : U256) (receiver owner : Address) : Code (U256 × τ) :=
  (maxWithdraw W K D self t owner).bind fun most =>
  if most < assets then .fail (.error ⟨"ERC4626ExceededMaxWithdraw", [.address owner, .uint256 assets, .uint256 most]⟩)
  else (convertToShares W K D self t 1 assets .ceil).bind fun shares =>
    (withdrawInternal W K self t caller receiver owner assets shares).bind fun t' => .ret (shares, t')

/-- `redeem`, `contracts/src/token/erc20/extensions/erc4626.rs` 963-984. -/
def redeem (caller : Address) (shares : U256) (receiver owner : Address) : Code (U256 × τ) :=
  .get (Erc20Words.balance token owner) fun most =>
  if most < shares then .fail (.error ⟨"ERC4626ExceededMaxRedeem", [.address owner, .uint256 shares, .uint256 most]⟩)
  else (convertToAssets W K D self t 0 shares .floor).bind fun assets =>
    (withdrawInternal W K self t caller receiver owner assets shares).bind fun t' => .ret (assets, t')

end

section
variable {τ : Type} (W : World τ) (K : Hash) (D : Decoder) (U : Deployed.Utf8)

/-- `examples/erc4626/src/lib.rs` 30-115 with the inherited `Erc20` (`contracts/src/token/erc20/mod.rs` 270-316) and `Erc20Metadata`
(`contracts/src/token/erc20/extensions/metadata.rs` 61-74), called by `caller`. -/
def program (caller self : Address) (t : τ) (u f : String) (args : List Val) : Act Ev τ :=
  let ask (m : Code U256) : Act Ev τ := conclude K id (fun x => ([.uint256 x], t)) m
  let go (m : Code (U256 × τ)) : Act Ev τ := conclude K id (fun x => ([.uint256 x.1], x.2)) m
  let text (p : List Step) : Act Ev τ := (stringBytes p).bind fun b => .ret ([.string (U.read b)], t)
  select u f args (
  [("Erc4626Example", "decimals", fun | [] => conclude K id (fun d => ([.uint8 d], t)) decimals | _ => .fail none),
   ("Erc4626Example", "asset", fun | [] => conclude K id (fun a => ([.address a], t)) asset | _ => .fail none),
   ("Erc4626Example", "total_assets", fun | [] => ask (totalAssets W K D self t 0) | _ => .fail none),
   ("Erc4626Example", "convert_to_shares", fun
      | [.uint256 a] => ask (convertToShares W K D self t 0 a .floor)
      | _ => .fail none),
   ("Erc4626Example", "convert_to_assets", fun
      | [.uint256 x] => ask (convertToAssets W K D self t 0 x .floor)
      | _ => .fail none),
   ("Erc4626Example", "max_deposit", fun | [.address _] => .ret ([.uint256 maxU256], t) | _ => .fail none),
   ("Erc4626Example", "preview_deposit", fun
      | [.uint256 a] => ask (convertToShares W K D self t 0 a .floor)
      | _ => .fail none),
   ("Erc4626Example", "deposit", fun | [.uint256 a, .address r] => go (deposit W K D self t caller a r) | _ => .fail none),
   ("Erc4626Example", "max_mint", fun | [.address _] => .ret ([.uint256 maxU256], t) | _ => .fail none),
   ("Erc4626Example", "preview_mint", fun
      | [.uint256 x] => ask (convertToAssets W K D self t 0 x .ceil)
      | _ => .fail none),
   ("Erc4626Example", "mint", fun | [.uint256 x, .address r] => go (mint W K D self t caller x r) | _ => .fail none),
   ("Erc4626Example", "max_withdraw", fun | [.address o] => ask (maxWithdraw W K D self t o) | _ => .fail none),
   ("Erc4626Example", "preview_withdraw", fun
      | [.uint256 a] => ask (convertToShares W K D self t 0 a .ceil)
      | _ => .fail none),
   ("Erc4626Example", "withdraw", fun
      | [.uint256 a, .address r, .address o] => go (withdraw W K D self t caller a r o)
      | _ => .fail none),
   ("Erc4626Example", "max_redeem", fun
      | [.address o] => .get (Erc20Words.balance token o) fun v => .ret ([.uint256 v], t)
      | _ => .fail none),
   ("Erc4626Example", "preview_redeem", fun
      | [.uint256 x] => ask (convertToAssets W K D self t 0 x .floor)
      | _ => .fail none),
   ("Erc4626Example", "redeem", fun
      | [.uint256 x, .address r, .address o] => go (redeem W K D self t caller x r o)
      | _ => .fail none),
   ("Erc20Metadata", "name", fun | [] => text nameCell | _ => .fail none),
   ("Erc20Metadata", "symbol", fun | [] => text symbolCell | _ => .fail none)] ++
  tokenCalls K caller t ++ tokenAsks t)

/-- `#[entrypoint]`, `examples/erc4626/src/lib.rs` 19-115. -/
def run (caller : Address) (w : Chained Ev τ) (value : U256) (input : Bytes) : Outcome (Chained Ev τ) :=
  Abi.entry K D Router.erc4626Example (onChain K erc4626Example (program W K D U caller)) w value input

end

/-- Deployment at an address: the constructor runs on fresh storage; nothing if it reverts
(`examples/erc4626/src/constructor.sol` 20-26). -/
def deploy {τ : Type} (K : Hash) (self : Address) (name symbol : List Char) (asset : Address) (offset : U8) (t : τ) : Option (Chained Ev τ) :=
  (Constructors.erc4626Init (Logs.utf8 name) (Logs.utf8 symbol) asset offset).bind fun ws =>
  (Constructors.assign K Constructors.erc4626Sol ws Constructors.fresh).map fun st =>
    { self_ := self, words := st, log := [], world := t }

end Verif.VaultDeployed
