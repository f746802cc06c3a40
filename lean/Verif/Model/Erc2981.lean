import Verif.Base
/-!
# Model of `token/common/erc2981.rs`
-/

namespace Verif.Erc2981

/-- `erc2981.rs` 83-97, plus panics. -/
inductive Err where
  | invalidDefaultRoyalty (numerator denominator : U256)
  | invalidDefaultRoyaltyReceiver (receiver : Address)
  | invalidTokenRoyalty (tokenId numerator denominator : U256)
  | invalidTokenRoyaltyReceiver (tokenId : U256) (receiver : Address)
  | panic
  deriving DecidableEq, Repr

/-- `RoyaltyInfo`, `erc2981.rs` 108-113. -/
structure RoyaltyInfo where
  receiver : Address
  fraction : U96
  deriving DecidableEq, Repr

/-- An erased slot.
Models `erase` of `contracts/src/token/common/erc2981.rs` 106-113. -/
def RoyaltyInfo.empty : RoyaltyInfo := ⟨ZERO, 0#96⟩

/-- Storage, `erc2981.rs` 117-125.  `fee_denominator` is set once by the integrating contract. -/
structure State where
  default_ : RoyaltyInfo
  token : U256 → RoyaltyInfo
  denominator : U96

/-- Deployed with a denominator.
Models `contracts/src/token/common/erc2981.rs` 116-128. -/
def init (denominator : U96) : State :=
  { default_ := .empty, token := fun _ => .empty, denominator := denominator }

/-- `royalty_info`, `erc2981.rs` 166-191. -/
def royaltyInfo (s : State) (tokenId salePrice : U256) : Except Err (Address × U256) := do
  let info := s.token tokenId
  let info := if info.receiver = ZERO then s.default_ else info
  let product ← orPanic .panic (checkedMul salePrice (info.fraction.setWidth 256))
  let amount ← orPanic .panic
    (if s.denominator.setWidth 256 = 0#256 then none else some (product / s.denominator.setWidth 256))
  return (info.receiver, amount)

/-- `_set_default_royalty`, `erc2981.rs` 230-256. -/
def setDefaultRoyalty (s : State) (receiver : Address) (numerator : U96) : Except Err State := do
  if s.denominator < numerator then
    throw (.invalidDefaultRoyalty (numerator.setWidth 256) (s.denominator.setWidth 256))
  if receiver = ZERO then throw (.invalidDefaultRoyaltyReceiver receiver)
  return { s with default_ := ⟨receiver, numerator⟩ }

/-- `_delete_default_royalty`, `erc2981.rs` 263-265. -/
def deleteDefaultRoyalty (s : State) : State := { s with default_ := .empty }

/-- `_set_token_royalty`, `erc2981.rs` 283-311. -/
def setTokenRoyalty (s : State) (tokenId : U256) (receiver : Address) (numerator : U96) :
    Except Err State := do
  if s.denominator < numerator then
    throw (.invalidTokenRoyalty tokenId (numerator.setWidth 256) (s.denominator.setWidth 256))
  if receiver = ZERO then throw (.invalidTokenRoyaltyReceiver tokenId receiver)
  return { s with token := upd s.token tokenId ⟨receiver, numerator⟩ }

/-- `_reset_token_royalty`, `erc2981.rs` 320-322. -/
def resetTokenRoyalty (s : State) (tokenId : U256) : State :=
  { s with token := upd s.token tokenId .empty }

/-- The setters.
Models `contracts/src/token/common/erc2981.rs` 201-323. -/
inductive Call where
  | setDefault (receiver : Address) (numerator : U96)
  | deleteDefault
  | setToken (tokenId : U256) (receiver : Address) (numerator : U96)
  | resetToken (tokenId : U256)

/-- One call.
Models `contracts/src/token/common/erc2981.rs` 201-323. -/
def exec (s : State) : Call → Except Err State
  | .setDefault r n => setDefaultRoyalty s r n
  | .deleteDefault => .ok (deleteDefaultRoyalty s)
  | .setToken t r n => setTokenRoyalty s t r n
  | .resetToken t => .ok (resetTokenRoyalty s t)

/-- A history.
Sequences of such calls (`contracts/src/token/common/erc2981.rs` 201-323); a failed transaction leaves no trace (Stylus reverts). -/
def run (s : State) (ops : List Call) : State := runOf exec s ops

end Verif.Erc2981
