import Verif.Model.Erc721Enumerable
import Verif.Spec.Erc721
/-! # Specification vocabulary for ERC-721 enumeration -/

namespace Verif.Spec.Enumerable
open Verif.Enumerable

/-- Reachable from deployment by any history; the vector can hold `cap` entries. -/
def Reachable (cap : Nat) (s : State) : Prop := ∃ txs, s = run cap init txs

/-- A transfer whose two ends are the same account. -/
def IsSelfTransfer : Call → Prop
  | .transferFrom src dst _ => src = dst
  | .safeTransferFrom src dst _ => src = dst
  | .safeTransferFromWithData src dst _ _ => src = dst
  | .burn _ | .mint .. | .safeMint .. | .approve .. | .setApprovalForAll .. | .pause | .unpause => False

/-- Reachable from deployment by a history in which nobody transfers a token to its current owner. -/
def ReachableNoSelf (cap : Nat) (s : State) : Prop :=
  ∃ txs, (∀ tx ∈ txs, ¬ IsSelfTransfer tx.call) ∧ s = run cap init txs

/-- `owner_of`. -/
def owner? (s : State) (id : U256) : Option Address := Spec.Erc721.owner? s.erc721 id

/-- `balance_of`. -/
def bal? (s : State) (a : Address) : Option Nat := Spec.Erc721.bal? s.erc721 a

/-- Number of tokens in existence. -/
def tokens (s : State) : Nat := (Finset.univ.filter fun id : U256 => owner? s id ≠ none).card

end Verif.Spec.Enumerable
