import Verif.Spec.VestingBytes
/-!
# A wallet, a token of the library and ether, without anything else
-/
namespace Verif.Spec.VestingSystem
open Verif Verif.Abi Verif.Outside Verif.Outside.Wallet
open Verif.Spec.Contracts Verif.Spec.VestingBytes

/-- The token, and who has how much ether. -/
abbrev World := Erc20.State × (Address → U256)

/-- Ether moves, if there is enough of it. -/
def move (e : Address → U256) (src dst : Address) (v : U256) : Option (Address → U256) :=
  if src ≠ dst ∧ v.toNat ≤ (e src).toNat ∧ (e dst).toNat + v.toNat < 2 ^ 256 then
    some fun a => if a = src then e src - v else if a = dst then e dst + v else e a
  else none

/-- The chain with the token of `examples/basic/token` at `k`, which takes no ether (it has no `receive`), and no other contract but
the wallet, which takes none of its own (it is not `reentrant`). -/
def plain (D : Decoder) (m : Entry.Strings) (k : Address) : Chain World where
  hasCode _ a := decide (a = k)
  call t sender target b := if target = k then
      match Entry.basicTokenEntry Spec.Keccak.keccak256 D m sender t.1 0#256 b with
      | .returned u data => .returned (u, t.2) data
      | .reverted data => .reverted data
    else .returned t []
  look t _ sender target b := if target = k then (Entry.basicTokenEntry Spec.Keccak.keccak256 D m sender t.1 0#256 b).reply else some []
  balance t a := t.2 a
  pay t sender target v _ := if target = k then .reverted [] else match move t.2 sender target v with
    | some e => .returned (t.1, e) []
    | none => .reverted []

/-- Transactions: to the wallet, to the token, and payments between others (or to the wallet, by force). -/
inductive Tx where
  | wallet (caller : Address) (value : U256) (input : Bytes)
  | token (caller : Address) (value : U256) (input : Bytes)
  | pay (caller dst : Address) (value : U256)

/-- Who sends it. -/
def Tx.sender : Tx → Address
  | .wallet c _ _ | .token c _ _ | .pay c _ _ => c

/-- What a transaction at a time does.  Without enough ether for its value it does nothing. -/
def act (D : Decoder) (m : Entry.Strings) (k : Address) (s : State World) (now : U64) : Tx → State World
  | .wallet c v i => match move s.world.2 c s.self_ v with
    | some e => step (plain D m k) D s (.call ⟨c, now⟩ v i fun t => (t.1, e))
    | none => s
  | .token c v i => { s with world := ((Entry.basicTokenEntry Spec.Keccak.keccak256 D m c s.world.1 v i).after s.world.1, s.world.2) }
  | .pay c d v => { s with world := (s.world.1, (move s.world.2 c d v).getD s.world.2) }

/-- The state after transactions, each with its time. -/
def acts (D : Decoder) (m : Entry.Strings) (k : Address) (s : State World) (l : List (U64 × Tx)) : State World :=
  l.foldl (fun s x => act D m k s x.1 x.2) s

end Verif.Spec.VestingSystem
