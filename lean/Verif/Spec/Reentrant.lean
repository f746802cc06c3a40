import Verif.Model.Reentrant
import Verif.Spec.Erc721
import Verif.Spec.Erc1155
/-! # Specification vocabulary for re-entered token contracts -/

namespace Verif.Spec.Reentrant

/-- Who an ERC-721 call has to notify: the receiver of the four safe movements, and nobody else. -/
def notifies721 : Erc721.UserCall ⊕ Erc721.AdminCall → Option Address
  | .inl (.safeTransferFrom _ dst _) => some dst
  | .inl (.safeTransferFromWithData _ dst _ _) => some dst
  | .inr (.safeMint dst _ _) => some dst
  | .inr (.safeTransfer _ dst _ _) => some dst
  | _ => none

/-- Who an ERC-1155 call has to notify: the receiver of a transfer or a mint, and nobody else. -/
def notifies1155 : Erc1155.UserCall ⊕ Erc1155.AdminCall → Option Address
  | .inl (.safeTransferFrom _ dst _ _ _) => some dst
  | .inl (.safeBatchTransferFrom _ dst _ _ _) => some dst
  | .inr (.mint dst _ _ _) => some dst
  | .inr (.mintBatch dst _ _ _) => some dst
  | _ => none

/-- The same for the supply extension. -/
def notifiesSupply : Erc1155Supply.Call → Option Address
  | .safeTransferFrom _ dst _ _ _ => some dst
  | .safeBatchTransferFrom _ dst _ _ _ => some dst
  | .mint dst _ _ _ => some dst
  | .mintBatch dst _ _ _ => some dst
  | _ => none

/-- Run `inside` after a successful call if its receiver is notified and has code. -/
def thenInside {σ ε β : Type} (R : Address → Option β) (receiver : Option Address) (inside : σ → σ) :
    Except ε σ → Except ε σ
  | .error e => .error e
  | .ok s => match receiver with
    | none => .ok s
    | some dst => match R dst with
      | none => .ok s
      | some _ => .ok (inside s)

end Verif.Spec.Reentrant
