import Verif.Spec.WrapperDeployed
import Verif.Spec.FlashBytes
import Verif.Model.FlashDeployed
/-!
# The storage cells of a deployed token that lends, and histories of it

Transactions are those of `Verif.Spec.FlashBytes`, and so is `Sends`: what programs send to the token.
-/
namespace Verif.Spec.FlashDeployed
open Verif Verif.Storage Verif.Reenter Verif.FlashDeployed Verif.OnWords
open Verif.Abi (Val Decoder)
open Verif.Spec.StoragePrograms (Accounts)
open Verif.Spec.FlashBytes (Tx Sends)

variable {τ : Type}

/-- The cells of `examples/erc20-flash-mint` that belong to the given accounts or to nobody. -/
def Cells (S : List Address) (p : List Step) : Prop :=
  Accounts [.field "erc20"] S p ∨ p = [.field "flash_mint", .field "flash_fee_value"] ∨
  p = [.field "flash_mint", .field "flash_fee_receiver_address"]

/-- A message between accounts of `S`. -/
abbrev About (K : Hash) (D : Decoder) (S : List Address) (caller : Address) (value : U256) (input : Bytes) : Prop :=
  OnWords.Within K D Router.erc20FlashMintExample S ⟨caller, value, input⟩

/-- Whatever programs do when they are called, the messages that reach the token from them are between accounts of `S`. -/
def Among (W : Others τ) (K : Hash) (D : Decoder) (S : List Address) : Prop :=
  ∀ t sender target input, Sends (About K D S) (W.react t sender target input)

/-- A token deployed at `here`, with this receiver of fees and this fee, and programs, that have to do with accounts of `S` only; the hash
values of the storage cells of these accounts do not coincide. -/
structure Setting (W : Others τ) (K : Hash) (D : Decoder) (n : Nat) (S : List Address) (here receiver : Address) (fee : U256)
    (w : Lender) : Prop where
  deployed : deploy K here receiver fee = some w
  here_in : here ∈ S
  receiver_in : receiver ∈ S
  among : Among W K D S
  apart : OnWords.Apart K n erc20FlashMintExample (Cells S)

/-- The state after a transaction. -/
def step (W : Others τ) (K : Hash) (D : Decoder) (s : Lender × τ) (x : Tx τ) : Lender × τ :=
  (run W K D x.depth x.sender (s.1, x.meanwhile s.2) x.value x.input).after (s.1, x.meanwhile s.2)

/-- The deployed token after a list of transactions. -/
def after (W : Others τ) (K : Hash) (D : Decoder) (s : Lender × τ) (l : List (Tx τ)) : Lender × τ := l.foldl (step W K D) s

/-- The events of the token. -/
def transfers (w : Lender) : List Erc20.Event := w.log.filterMap Sum.getLeft?

end Verif.Spec.FlashDeployed
