import Verif.Spec.GatesDeployed
import Verif.Spec.Deployed
import Verif.Spec.VestingBytes
import Verif.Model.VestingDeployed
/-!
# The storage cells of a deployed wallet, and histories of it

The steps of a history are those of `Verif.Spec.VestingBytes`, and so is what is asked of the chain.
-/
namespace Verif.Spec.VestingDeployed
open Verif Verif.Storage Verif.Outside.Wallet Verif.VestingDeployed Verif.OnWords
open Verif.Abi (Val Decoder)
open Verif.VestingWords (Ev)

variable {τ : Type}

/-- The cells of `examples/vesting-wallet` when it is asked about tokens of `S`. -/
def Cells (S : List Address) (p : List Step) : Prop :=
  p = [.field "vesting_wallet", .field "ownable", .field "owner"] ∨ p = [.field "vesting_wallet", .field "released"] ∨
  p = [.field "vesting_wallet", .field "start"] ∨ p = [.field "vesting_wallet", .field "duration"] ∨
  ∃ k ∈ S, p = [.field "vesting_wallet", .field "erc20_released", .key (k.setWidth 256)]

/-- The addresses among the arguments of the call are in `S`. -/
def Within (K : Hash) (D : Decoder) (S : List Address) (tx : Spec.Contracts.Raw Env) : Prop :=
  ∀ args, OnWords.Arguments K D Router.vestingWalletExample tx args → ∀ a, Val.address a ∈ args → a ∈ S

/-- The same for a step of a history. -/
def About (K : Hash) (D : Decoder) (S : List Address) : VestingBytes.Step τ → Prop
  | .call env value input _ => Within K D S ⟨env, value, input⟩
  | .outside _ => True

/-- The deployed wallet after a step: a transaction, whose value arrives before the wallet runs and is returned if it reverts, or
anything else, which does not touch the wallet. -/
def step (W : Chain τ) (K : Hash) (D : Decoder) (w : Chained Ev τ) : VestingBytes.Step τ → Chained Ev τ
  | .call env value input f => match run W K D env { w with world := f w.world } value input with
    | .returned w' _ => w'
    | .reverted _ => w
  | .outside f => { w with world := f w.world }

/-- The deployed wallet after a list of steps. -/
def play (W : Chain τ) (K : Hash) (D : Decoder) (w : Chained Ev τ) (l : List (VestingBytes.Step τ)) : Chained Ev τ :=
  l.foldl (step W K D) w

/-- Nobody else takes assets from the wallet: what others do does not lower the amount `m`. -/
def Safe (W : Chain τ) (K : Hash) (D : Decoder) (m : τ → U256) : Chained Ev τ → List (VestingBytes.Step τ) → Prop
  | _, [] => True
  | w, .call env v i f :: l =>
    (m w.world).toNat ≤ (m (f w.world)).toNat ∧ Safe W K D m (step W K D w (.call env v i f)) l
  | w, .outside f :: l => (m w.world).toNat ≤ (m (f w.world)).toNat ∧ Safe W K D m (step W K D w (.outside f)) l

/-- The events of the wallet itself, without those about its owner. -/
def releases (w : Chained Ev τ) : List Verif.Vesting.Event := w.log.filterMap Sum.getRight?

end Verif.Spec.VestingDeployed
