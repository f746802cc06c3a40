import Verif.Model.Outside
/-!
# Model of `examples/safe-erc20` on bytes

The contract has no storage; the state is the rest of the chain (`Outside.World`).
-/
namespace Verif.Outside.Safe
open Verif Verif.Abi Verif.Entry Verif.Contracts Verif.Outside

variable {τ : Type}

/-- `examples/safe-erc20/src/lib.rs` 14-16, which inherits the functions of `SafeErc20`
(`contracts/src/token/erc20/utils/safe_erc20.rs` 232-316); `self_` is the address of the contract.  The sender is not read. -/
def handler (W : World τ) (K : Hash) (self_ : Address) : Handler τ := fun t f args s =>
  let go (token : Address) (x : SafeErc20.Token τ → τ × Except SafeErc20.Err Unit) :=
    finish K (Revert.safeErc20 token) [] (settled id (x (W.token K s self_ token)))
  dispatch t f args
  [("SafeErc20", "safe_transfer", fun
      | [.address token, .address dst, .uint256 v] => go token fun k => SafeErc20.safeTransfer k s dst v
      | _ => .error none),
   ("SafeErc20", "safe_transfer_from", fun
      | [.address token, .address src, .address dst, .uint256 v] => go token fun k => SafeErc20.safeTransferFrom k s src dst v
      | _ => .error none),
   ("SafeErc20", "safe_increase_allowance", fun
      | [.address token, .address p, .uint256 v] => go token fun k => SafeErc20.safeIncreaseAllowance k s self_ p v
      | _ => .error none),
   ("SafeErc20", "safe_decrease_allowance", fun
      | [.address token, .address p, .uint256 v] => go token fun k => SafeErc20.safeDecreaseAllowance k s self_ p v
      | _ => .error none),
   ("SafeErc20", "force_approve", fun
      | [.address token, .address p, .uint256 v] => go token fun k => SafeErc20.forceApprove k s p v
      | _ => .error none)]

/-- `examples/safe-erc20/src/lib.rs` 7-16 as a contract on bytes, at the address `self_`, called by `_caller`. -/
def run (W : World τ) (K : Hash) (D : Decoder) (self_ _caller : Address) (s : τ) (value : U256) (input : Bytes) : Outcome τ :=
  entry K D Router.safeErc20Example (handler W K self_) s value input

end Verif.Outside.Safe
