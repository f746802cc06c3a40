import Verif.Spec.GatesDeployed
import Verif.Spec.Deployed
import Verif.Spec.Outside
import Verif.Model.WrapperDeployed
/-!
# The storage cells of a deployed wrapper, and histories of it

The steps of a history are those of `Verif.Spec.Outside`, and so is what is asked of the chain.
-/
namespace Verif.Spec.WrapperDeployed
open Verif Verif.Storage Verif.Outside Verif.WrapperDeployed Verif.OnWords
open Verif.Abi (Val Decoder)
open Verif.Spec.StoragePrograms (Accounts)

variable {τ : Type}

/-- The cells of `examples/erc20-wrapper` that belong to the given accounts or to nobody. -/
def Cells (S : List Address) (p : List Step) : Prop :=
  Accounts [.field "erc20"] S p ∨ p = [.field "erc20_wrapper", .field "underlying"] ∨
  p = [.field "erc20_wrapper", .field "underlying_decimals"]

/-- A step of a history that is a transaction between accounts of `S`, or anything that others do. -/
def About (K : Hash) (D : Decoder) (S : List Address) : Outside.Step τ → Prop
  | .call caller value input => OnWords.Within K D Router.erc20WrapperExample S ⟨caller, value, input⟩
  | .outside _ => True

/-- The deployed wrapper after a list of steps. -/
def play (W : World τ) (K : Hash) (D : Decoder) (w : Chained Ev τ) (l : List (Outside.Step τ)) : Chained Ev τ :=
  Outside.play (run W K D) (fun f w => { w with world := f w.world }) w l

/-- The events of the token. -/
def transfers (w : Chained Ev τ) : List Erc20.Event := w.log.filterMap Sum.getLeft?

end Verif.Spec.WrapperDeployed
