import Verif.Model.Erc1155
/-! # Specification vocabulary for ERC-1155 -/

namespace Verif.Spec.Erc1155
open Verif.Erc1155

/-- Reachable from deployment by any history. -/
def Reachable (s : State) : Prop := ∃ txs, s = run init txs

/-- Balance as a number. -/
def bal (s : State) (a : Address) (id : U256) : Nat := (balanceOf s a id).toNat

/-- How much of `id` a list of (id, value) pairs moves in total. -/
def demand : List (U256 × U256) → U256 → Nat
  | [], _ => 0
  | p :: ps, id => (if p.1 = id then p.2.toNat else 0) + demand ps id

/-- Sum of all balances of an id. -/
def supply (s : State) (id : U256) : Nat := ∑ a, bal s a id

/-- The caller may move tokens of `src`. -/
def MayMove (s : State) (caller src : Address) : Prop := caller = src ∨ isApprovedForAll s src caller = true

/-- The receiver has no code, or answers this notice with this selector. -/
def Accepts (R : Receivers) (dst : Address) (sel : BitVec 32) (n : Notice) : Prop :=
  ∀ f, R dst = some f → f n = .selector sel

/-- The movement is covered: between two accounts, the sender holds the total demanded of every id and
the receiver has room for it; from an account to itself, it holds each value listed. -/
def Covered (s : State) (src dst : Address) (ps : List (U256 × U256)) : Prop :=
  if src = dst then ∀ p ∈ ps, p.2.toNat ≤ bal s src p.1
  else ∀ id, demand ps id ≤ bal s src id ∧ bal s dst id + demand ps id < 2 ^ 256

/-- The receiver accepts: `onERC1155Received` (selector f23a6e61) for one id, and
`onERC1155BatchReceived` (selector bc197c81) otherwise. -/
def Accepted (R : Receivers) (operator src dst : Address) (ids values : List U256) (data : Bytes) : Prop :=
  (∀ id v, ids = [id] → values = [v] → Accepts R dst 0xf23a6e61#32 (.single operator src id v data)) ∧
  (ids.length ≠ 1 → Accepts R dst 0xbc197c81#32 (.batch operator src ids values data))

/-- The event of a movement: `TransferSingle` for one id and `TransferBatch` otherwise. -/
def IsEvent (operator src dst : Address) (ids values : List U256) (e : Event) : Prop :=
  (∀ id v, ids = [id] → values = [v] → e = .transferSingle operator src dst id v) ∧
  (ids.length ≠ 1 → e = .transferBatch operator src dst ids values)

/-- Exactly the listed amounts went out of `src` and came into `dst`, and nothing else changed but
the log, which gained exactly one event. -/
structure Moved (s s' : State) (operator src dst : Address) (ids values : List U256) : Prop where
  balances : ∀ a id, bal s' a id + (if a = src ∧ a ≠ ZERO then demand (ids.zip values) id else 0) =
    bal s a id + (if a = dst ∧ a ≠ ZERO then demand (ids.zip values) id else 0)
  approvals : ∀ a b, isApprovedForAll s' a b = isApprovedForAll s a b
  event : ∃ e, IsEvent operator src dst ids values e ∧ s'.log = s.log ++ [e]

/-- What one event says `a` received of `id` (minting counts as receiving from nobody). -/
def Event.in_ (a : Address) (id : U256) : Event → Nat
  | .transferSingle _ _ dst i v => if dst = a then demand [(i, v)] id else 0
  | .transferBatch _ _ dst is vs => if dst = a then demand (is.zip vs) id else 0
  | .approvalForAll .. => 0

/-- What one event says `a` gave away of `id`. -/
def Event.out (a : Address) (id : U256) : Event → Nat
  | .transferSingle _ src _ i v => if src = a then demand [(i, v)] id else 0
  | .transferBatch _ src _ is vs => if src = a then demand (is.zip vs) id else 0
  | .approvalForAll .. => 0

/-- Total received according to the log. -/
def received (log : List Event) (a : Address) (id : U256) : Nat := (log.map (Event.in_ a id)).sum
/-- Total given away according to the log. -/
def sent (log : List Event) (a : Address) (id : U256) : Nat := (log.map (Event.out a id)).sum
/-- Total minted according to the log: given away by the zero address. -/
def minted (log : List Event) (id : U256) : Nat := sent log ZERO id
/-- Total burned according to the log: received by the zero address. -/
def burned (log : List Event) (id : U256) : Nat := received log ZERO id

end Verif.Spec.Erc1155

namespace Verif.Spec.Erc1155Supply
open Verif.Erc1155Supply

/-- Reachable from deployment by any history. -/
def Reachable (s : State) : Prop := ∃ txs, s = run init txs

/-- Values minted by a call (as numbers), and nothing for other calls. -/
def mintValues : Call → List Nat
  | .mint _ _ v _ => [v.toNat]
  | .mintBatch _ _ vs _ => vs.map (·.toNat)
  | _ => []

/-- No call of the history mints values whose sum does not fit in 256 bits. -/
def BatchesFit (txs : List Tx) : Prop := ∀ tx ∈ txs, (mintValues tx.call).sum < 2 ^ 256

/-- Sum over all ids of the per-id totals. -/
def sumOfSupplies (s : State) : Nat := ∑ id, (totalSupplyOf s id).toNat

end Verif.Spec.Erc1155Supply
