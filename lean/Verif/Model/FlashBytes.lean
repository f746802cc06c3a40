import Verif.Model.Outside
/-!
# Model of `examples/erc20-flash-mint` on bytes, with re-entrant calls

The example is compiled with the `reentrant` feature (`examples/erc20-flash-mint/Cargo.toml` 10): the borrower may call the token
before it answers, and take a flash loan in a flash loan.  Programs are trees: what a program does next may depend on everything it
was told.
-/
namespace Verif.Reenter
open Verif Verif.Abi

/-- What happens on the chain (its state, without the contract, is in `τ`) when the contract calls somebody
(`contracts/src/token/erc20/extensions/flash_mint.rs` 331-342):
* `stop`: the call returns data;
* `fail`: it reverts with data, and what it did is undone;
* `call`: somebody sends a raw message to the contract, and goes on with what the contract answers (`true` and data, or `false` and
  revert data) and what became of the chain;
* `attempt`: a call between others, in which the contract may be called; if it reverts what it did is undone. -/
inductive Program (τ : Type) where
  | stop (t : τ) (data : Bytes)
  | fail (data : Bytes)
  | call (t : τ) (sender : Address) (value : U256) (input : Bytes) (next : Bool → Bytes → τ → Program τ)
  | attempt (t : τ) (body : Program τ) (next : Bool → Bytes → τ → Program τ)

/-- The rest of the chain: whether there is code at an address (`has_code`, `contracts/src/token/erc20/extensions/flash_mint.rs` 324),
and what the program there does when `sender` sends it bytes (331-339). -/
structure Others (τ : Type) where
  hasCode : τ → Address → Bool
  react : τ → (sender target : Address) → Bytes → Program τ

/-- What a program does to the storage `k` of the contract, which `run` is (`contracts/src/token/erc20/extensions/flash_mint.rs`
331-342). -/
def play {κ τ : Type} (run : Address → κ × τ → U256 → Bytes → Outcome (κ × τ)) (k : κ) : Program τ → Outcome (κ × τ)
  | .stop t data => .returned (k, t) data
  | .fail data => .reverted data
  | .call t c v i next => match run c (k, t) v i with
    | .returned (k', t') data => play run k' (next true data t')
    | .reverted data => play run k (next false data t)
  | .attempt t body next => match play run k body with
    | .returned (k', t') data => play run k' (next true data t')
    | .reverted data => play run k (next false data t)

end Verif.Reenter

namespace Verif.Outside.Flash
open Verif Verif.Abi Verif.Entry Verif.Contracts Verif.Reenter

/-- The token (`contracts/src/token/erc20/extensions/flash_mint.rs` 128-134, composed as in `examples/erc20-flash-mint/src/lib.rs`
20-27; `self_` is its address). -/
structure State where
  self_ : Address
  fee : U256
  feeReceiver : Address
  token : Erc20.State

variable {τ : Type}

/-- `BORROWER_CALLBACK_VALUE`, `flash_mint.rs` 37-39. -/
def magic (K : Hash) : B256 := K (Logs.utf8 "ERC3156FlashBorrower.onFlashLoan".toList)

/-- The constants of `Verif.FlashMint` (`flash_mint.rs` 37-39, 128-134, 324). -/
def env (W : Others τ) (K : Hash) (k : State) (t : τ) : FlashMint.Env :=
  { self_ := k.self_, hasCode := W.hasCode t, magic := magic K, fee := k.fee, feeReceiver := k.feeReceiver }

/-- `flash_loan`, `contracts/src/token/erc20/extensions/flash_mint.rs` 308-364; `inner` is what happens in the call of the borrower
(331-342).  The parts before and after it are in `Verif.FlashMint`. -/
def flashLoan (W : Others τ) (K : Hash) (D : Decoder) (inner : State → Program τ → Outcome (State × τ)) (s : State × τ)
    (caller receiver token : Address) (value : U256) (data : Bytes) : Except FlashMint.Err (State × τ) := do
  let (fee, u1) ← FlashMint.begin_ (env W K s.1 s.2) s.1.token receiver token value
  match inner { s.1 with token := u1 }
      (W.react s.2 s.1.self_ receiver ((Calls.Message.onFlashLoan caller token value fee data).bytes K)) with
  | .returned (k, t) d => do
    let u ← FlashMint.finish (env W K k t) k.token receiver value fee (Calls.flashReply D (.returned () d))
    return ({ k with token := u }, t)
  | .reverted _ => .error (.invalidReceiver receiver)

/-- `mint`, `examples/erc20-flash-mint/src/lib.rs` 56-58, and `transfer`, `transfer_from`, `approve` of `Erc20`
(`contracts/src/token/erc20/mod.rs` 283-316): the new token. -/
def put (s : State × τ) (u : Erc20.State) : State × τ := ({ s.1 with token := u }, s.2)

/-- `examples/erc20-flash-mint/src/lib.rs` 29-59 with `Erc20` (`contracts/src/token/erc20/mod.rs` 270-316), called by `caller`. -/
def handler (W : Others τ) (K : Hash) (D : Decoder) (inner : State → Program τ → Outcome (State × τ)) (caller : Address) :
    Handler (State × τ) := fun t f args s =>
  let E := env W K s.1 s.2
  dispatch t f args (
  [("Erc20FlashMintExample", "max_flash_loan", fun
      | [.address a] => .ok (s, [.uint256 (FlashMint.maxFlashLoan E s.1.token a)])
      | _ => .error none),
   ("Erc20FlashMintExample", "flash_fee", fun
      | [.address a, .uint256 v] => view K Revert.flashMint s (one .uint256 (FlashMint.flashFee E a v))
      | _ => .error none),
   ("Erc20FlashMintExample", "flash_loan", fun
      | [.address r, .address a, .uint256 v, .bytes data] =>
        finish K Revert.flashMint [.bool true] (flashLoan W K D inner s caller r a v data)
      | _ => .error none),
   ("Erc20FlashMintExample", "mint", fun
      | [.address a, .uint256 v] => finish K Revert.erc20 [] (put s <$> Erc20.mint s.1.token a v)
      | _ => .error none)] ++
  erc20Calls K caller s.1.token (put s) ++ erc20Views s s.1.token)

/-- `examples/erc20-flash-mint/src/lib.rs` 20-59 as a contract on bytes.  The number bounds how deep calls of the contract may be
nested (by gas, or by the limit of the chain): a call that is too deep reverts. -/
def run (W : Others τ) (K : Hash) (D : Decoder) : Nat → Address → State × τ → U256 → Bytes → Outcome (State × τ)
  | 0, _, _, _, _ => .reverted []
  | n + 1, caller, s, value, input =>
    entry K D Router.erc20FlashMintExample (handler W K D (play (run W K D n)) caller) s value input

end Verif.Outside.Flash
