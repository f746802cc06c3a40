import Verif.Spec.FlashMint
import Verif.Spec.Contracts
import Verif.Spec.Outside
import Verif.Model.FlashBytes
/-!
# Programs that call the contract again, and histories
-/
namespace Verif.Spec.FlashBytes
open Verif Verif.Abi Verif.Reenter Verif.Outside.Flash
open Verif.Spec.Contracts

variable {τ : Type}

/-- Every message that a program sends to the contract, whatever it is told, satisfies `p` (sender, value, input). -/
def Sends (p : Address → U256 → Bytes → Prop) : Program τ → Prop
  | .stop _ _ => True
  | .fail _ => True
  | .call _ c v i next => p c v i ∧ ∀ b d t, Sends p (next b d t)
  | .attempt _ body next => Sends p body ∧ ∀ b d t, Sends p (next b d t)

/-- A transaction: its sender, value and input, how deep calls of the contract can be nested in it, and what else has changed since
the last one. -/
structure Tx (τ : Type) where
  sender : Address
  value : U256
  input : Bytes
  depth : Nat
  meanwhile : τ → τ

/-- The state after a transaction. -/
def step (W : Others τ) (D : Decoder) (s : State × τ) (x : Tx τ) : State × τ :=
  (run W Spec.Keccak.keccak256 D x.depth x.sender (s.1, x.meanwhile s.2) x.value x.input).after (s.1, x.meanwhile s.2)

/-- The state after a list of transactions. -/
def after (W : Others τ) (D : Decoder) (s : State × τ) (l : List (Tx τ)) : State × τ := l.foldl (step W D) s

/-- A new token. -/
def newToken (self_ : Address) (fee : U256) (feeReceiver : Address) : State := ⟨self_, fee, feeReceiver, Erc20.init⟩

/-- The part of the fee that a loan destroys: all of it, if nobody is there to receive it. -/
def burnt (k : State) : Nat := if k.feeReceiver = ZERO then k.fee.toNat else 0

/-- `u'` is `u` after the borrower `r` has repaid a loan of `v`: they had the loan and the fee, and had allowed the token contract to
take it (it uses up the allowance, unless that is unlimited); the loan is destroyed, and the fee is paid, or destroyed too. -/
structure Repaid (k : State) (r : Address) (v : U256) (u u' : Erc20.State) : Prop where
  has : v.toNat + k.fee.toNat ≤ (u.balances r).toNat
  allows : v.toNat + k.fee.toNat ≤ (u.allowances r k.self_).toNat
  balances : ∀ a, (u'.balances a).toNat + (if a = r then v.toNat + k.fee.toNat else 0) =
    (u.balances a).toNat + (if a = k.feeReceiver ∧ k.feeReceiver ≠ ZERO then k.fee.toNat else 0)
  supply : u'.totalSupply.toNat + v.toNat + burnt k = u.totalSupply.toNat
  allowances : ∀ o p, (u'.allowances o p).toNat + (if o = r ∧ p = k.self_ ∧ (u.allowances o p).toNat ≠ 2 ^ 256 - 1 then
    v.toNat + k.fee.toNat else 0) = (u.allowances o p).toNat
  log : u'.log = u.log ++ (if k.fee.toNat = 0 ∨ k.feeReceiver = ZERO then [.transfer r ZERO (v + k.fee)]
    else [.transfer r ZERO v, .transfer r k.feeReceiver k.fee])

/-- The states of a token after any history: deployed at any address, with any fee and receiver of fees, on any chain. -/
def Reached (W : Others τ) (D : Decoder) (s : State × τ) : Prop :=
  ∃ self_ fee feeReceiver t l, s = after W D (newToken self_ fee feeReceiver, t) l

/-- What the borrower must answer: the hash of "ERC3156FlashBorrower.onFlashLoan". -/
def yes : B256 := 0x439148f0bbc682ca079e46d6e2c2f0c1e3b820f1a291b069d8882abf8cf18dd9#256

/-- The input is no call of `mint(address,uint256)`. -/
def NoMint (D : Decoder) (input : Bytes) : Prop :=
  ∀ a v, ¬ Says D input "mint(address,uint256)" [.address a, .uint256 v]

end Verif.Spec.FlashBytes
