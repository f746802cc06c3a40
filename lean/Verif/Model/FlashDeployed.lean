import Verif.Model.WrapperDeployed
import Verif.Model.FlashBytes
/-!
# Model of a deployed token that lends: `examples/erc20-flash-mint`

The token with nothing left out between the transaction and the storage: functions as programs on storage cells, the router and the
decoder in front, the words of the storage behind, and any programs as borrowers.  `flash_loan` is two programs on the words with the
call of the borrower between them, which may call the token again, on the words as they are then (`Call::new_in` writes what is cached
back to the storage, `contracts/src/token/erc20/extensions/flash_mint.rs` 333).
-/
namespace Verif.FlashDeployed
open Verif Verif.Storage Verif.Reenter Verif.OnWords
open Verif.Abi (Val Handler Decoder Outcome)

/-- Events: of the token; flash minting has none of its own (`contracts/src/token/erc20/extensions/flash_mint.rs` 282-365). -/
abbrev Ev := Erc20.Event ⊕ Empty

/-- The contract on the chain: its address, the words of its storage and the events so far; the rest of the chain is apart, as in
`Verif.Reenter` (`examples/erc20-flash-mint/src/lib.rs` 20-27). -/
abbrev Lender := Chained Ev Unit

/-- `self.flash_mint.flash_fee_value`, `contracts/src/token/erc20/extensions/flash_mint.rs` 131. -/
def feeCell : List Step := [.field "flash_mint", .field "flash_fee_value"]

/-- `self.flash_mint.flash_fee_receiver_address`, `contracts/src/token/erc20/extensions/flash_mint.rs` 133. -/
def receiverCell : List Step := [.field "flash_mint", .field "flash_fee_receiver_address"]

/-- `max_flash_loan`, `contracts/src/token/erc20/extensions/flash_mint.rs` 285-291. -/
def maxFlashLoan (self a : Address) : Backed Empty U256 :=
  if a = self then .get (Erc20Words.supply token) fun v => .ret (maxU256 - v) else .ret 0#256

/-- `flash_fee`, `contracts/src/token/erc20/extensions/flash_mint.rs` 293-303. -/
def flashFee (self a : Address) : Backed Empty U256 :=
  if a = self then .get feeCell fun v => .ret v else .fail (.error ⟨"ERC3156UnsupportedToken", [.address a]⟩)

/-- `flash_loan` before the call of the borrower, `contracts/src/token/erc20/extensions/flash_mint.rs` 316-329; gives the fee. -/
def lend (hasCode : Address → Bool) (self receiver a : Address) (value : U256) : Backed Empty U256 :=
  (maxFlashLoan self a).bind fun maxLoan =>
  if maxLoan < value then .fail (.error ⟨"ERC3156ExceededMaxLoan", [.uint256 maxLoan]⟩)
  else (flashFee self a).bind fun fee =>
  if hasCode receiver = false then .fail (.error ⟨"ERC3156InvalidReceiver", [.address receiver]⟩)
  else (within (Erc20Words.mint token receiver value)).bind fun _ => .ret fee

/-- `flash_loan` after the call of the borrower, `contracts/src/token/erc20/extensions/flash_mint.rs` 343-363; `said` is what the
borrower answered. -/
def settleLoan (K : Hash) (self receiver : Address) (value fee : U256) (said : Option B256) : Backed Empty Unit :=
  match said with
  | none => .fail (.error ⟨"ERC3156InvalidReceiver", [.address receiver]⟩)
  | some a =>
    if a ≠ Outside.Flash.magic K then .fail (.error ⟨"ERC3156InvalidReceiver", [.address receiver]⟩)
    else match checkedAdd value fee with
    | none => .fail .panic
    | some allowance =>
      (within (Erc20Words.spendAllowance token receiver self allowance)).bind fun _ =>
      .get receiverCell fun v =>
      if fee = 0#256 ∨ v.setWidth 160 = ZERO then within (Erc20Words.burnInternal token receiver allowance)
      else (within (Erc20Words.burnInternal token receiver value)).bind fun _ =>
        within (Erc20Words.transferInternal token receiver (v.setWidth 160) fee)

/-- A program on the words of the token (`examples/erc20-flash-mint/src/lib.rs` 20-27). -/
def on {α : Type} (K : Hash) (m : Backed Empty α) (k : Lender) : Except Revert.Reply (α × Lender) :=
  (m.onWords K erc20FlashMintExample k.words).map fun r => (r.1, { k with words := r.2.1, log := k.log ++ r.2.2 })

variable {τ : Type}

/-- `flash_loan`, `contracts/src/token/erc20/extensions/flash_mint.rs` 308-364; `inner` is what happens in the call of the borrower
(331-342). -/
def flashLoan (W : Others τ) (K : Hash) (D : Decoder) (inner : Lender → Program τ → Outcome (Lender × τ)) (s : Lender × τ)
    (caller receiver a : Address) (value : U256) (data : Bytes) : Except Revert.Reply (Lender × τ) :=
  match on K (lend (W.hasCode s.2) s.1.self_ receiver a value) s.1 with
  | .error e => .error e
  | .ok (fee, k) =>
    match inner k (W.react s.2 s.1.self_ receiver ((Calls.Message.onFlashLoan caller a value fee data).bytes K)) with
    | .reverted _ => .error (.error ⟨"ERC3156InvalidReceiver", [.address receiver]⟩)
    | .returned (k, t) d =>
      (on K (settleLoan K k.self_ receiver value fee (Calls.flashReply D (.returned () d))) k).map fun r => (r.2, t)

/-- The functions that call nobody: `examples/erc20-flash-mint/src/lib.rs` 31-37 and 56-58 with the inherited `Erc20`
(`contracts/src/token/erc20/mod.rs` 270-316), called by `caller`. -/
def program (K : Hash) (caller self : Address) (t : Unit) (u f : String) (args : List Val) : Act Ev Unit :=
  select u f args (
  [("Erc20FlashMintExample", "max_flash_loan", fun
      | [.address a] => conclude K id (fun v => ([.uint256 v], t)) (maxFlashLoan self a)
      | _ => .fail none),
   ("Erc20FlashMintExample", "flash_fee", fun
      | [.address a, .uint256 _] => conclude K id (fun v => ([.uint256 v], t)) (flashFee self a)
      | _ => .fail none),
   ("Erc20FlashMintExample", "mint", fun
      | [.address a, .uint256 v] => conclude K id (fun _ => ([], t)) (within (Erc20Words.mint token a v))
      | _ => .fail none)] ++
  tokenCalls K caller t ++ tokenAsks t)

/-- `examples/erc20-flash-mint/src/lib.rs` 29-59, called by `caller`. -/
def handler (W : Others τ) (K : Hash) (D : Decoder) (inner : Lender → Program τ → Outcome (Lender × τ)) (caller : Address) :
    Handler (Lender × τ) := fun u f args s =>
  if u = "Erc20FlashMintExample" ∧ f = "flash_loan" then
    match args with
    | [.address r, .address a, .uint256 v, .bytes data] => Entry.finish K id [.bool true] (flashLoan W K D inner s caller r a v data)
    | _ => .error none
  else (onChain K erc20FlashMintExample (program K caller) u f args s.1).map fun r => ((r.1, s.2), r.2)

/-- `#[entrypoint]`, `examples/erc20-flash-mint/src/lib.rs` 20-59.  The number bounds how deep calls of the contract may be nested, as in
`Verif.Outside.Flash.run`. -/
def run (W : Others τ) (K : Hash) (D : Decoder) : Nat → Address → Lender × τ → U256 → Bytes → Outcome (Lender × τ)
  | 0, _, _, _, _ => .reverted []
  | n + 1, caller, s, value, input =>
    Abi.entry K D Router.erc20FlashMintExample (handler W K D (play (run W K D n)) caller) s value input

/-- Deployment at an address: the constructor runs on fresh storage; nothing if it reverts
(`examples/erc20-flash-mint/src/constructor.sol` 12-15). -/
def deploy (K : Hash) (self receiver : Address) (fee : U256) : Option Lender :=
  (Constructors.flashMintInit receiver fee).bind fun ws =>
  (Constructors.assign K Constructors.flashMintSol ws Constructors.fresh).map fun st =>
    { self_ := self, words := st, log := [], world := () }

end Verif.FlashDeployed
