import Verif.Spec.TwoDeployed
import Verif.Spec.VestingDeployed
import Verif.Spec.VestingSystem
/-!
# A deployed wallet, a deployed token and ether, without anything else

The token is `examples/basic/token` as deployed (`Verif.Model.BasicDeployed`) and the wallet is `examples/vesting-wallet` as deployed
(`Verif.Model.VestingDeployed`), so that both are words of storage.  Ether moves as in `Verif.Spec.VestingSystem`.
-/
namespace Verif.Spec.WalletTokenDeployed
open Verif Verif.OnWords Verif.Outside.Wallet
open Verif.Abi (Decoder)
open Verif.Deployed (Utf8)
open Verif.Spec.Keccak (keccak256)
open Verif.Spec.TwoDeployed (Token)
open Verif.Spec.VestingSystem (Tx move)
open Verif.VestingWords (Ev)

/-- The token, and who has how much ether. -/
abbrev World := Token × (Address → U256)

/-- The chain with the token at `k`, which takes no ether, and no other contract but the wallet, which takes none of its own. -/
def chain (D : Decoder) (U : Utf8) (k : Address) : Chain World where
  hasCode _ a := decide (a = k)
  call t sender target b := if target = k then
      match BasicDeployed.entry keccak256 D U sender t.1 0#256 b with
      | .returned u data => .returned (u, t.2) data
      | .reverted data => .reverted data
    else .returned t []
  look t _ sender target b := if target = k then (BasicDeployed.entry keccak256 D U sender t.1 0#256 b).reply else some []
  balance t a := t.2 a
  pay t sender target v _ := if target = k then .reverted [] else match move t.2 sender target v with
    | some e => .returned (t.1, e) []
    | none => .reverted []

/-- What a transaction at a time does.  Without enough ether for its value it does nothing. -/
def act (D : Decoder) (U : Utf8) (k : Address) (w : Chained Ev World) (now : U64) : Tx → Chained Ev World
  | .wallet c v i => match move w.world.2 c w.self_ v with
    | some e => VestingDeployed.step (chain D U k) keccak256 D w (.call ⟨c, now⟩ v i fun t => (t.1, e))
    | none => w
  | .token c v i => { w with world := ((BasicDeployed.entry keccak256 D U c w.world.1 v i).after w.world.1, w.world.2) }
  | .pay c d v => { w with world := (w.world.1, (move w.world.2 c d v).getD w.world.2) }

/-- The wallet, the token and the ether after transactions, each with its time. -/
def acts (D : Decoder) (U : Utf8) (k : Address) (w : Chained Ev World) (l : List (U64 × Tx)) : Chained Ev World :=
  l.foldl (fun w x => act D U k w x.1 x.2) w

/-- A transaction is about addresses of `S`: those among the arguments that the contract it goes to decodes are in `S`, and so is the
sender of a transaction to the token. -/
def About (D : Decoder) (S : List Address) : Tx → Prop
  | .wallet c v i => ∀ now, VestingDeployed.Within keccak256 D S ⟨⟨c, now⟩, v, i⟩
  | .token c v i => OnWords.Within keccak256 D Router.basicToken S ⟨c, v, i⟩
  | .pay _ _ _ => True

/-- What the theorems assume of a wallet `w` over the token at `k`: the constructor of the token ran, then transactions to the token,
then the constructor of the wallet; no transaction before that was sent from the address of the wallet, which is not zero; the
addresses of the wallet, of the token and of the beneficiary and the zero address are among those of `S`; the strings have a length that a
storage word can hold; and the hash values of the storage cells that the addresses of `S` use do not coincide, in either contract. -/
structure Setting (D : Decoder) (U : Utf8) (n : Nat) (S : List Address) (name symbol : List Char) (here k beneficiary : Address)
    (start duration : U64) (before : List (Contracts.Raw Address)) (purse : Address → U256) (w : Chained Ev World) : Prop where
  token : BasicDeployed.Setting keccak256 n S name symbol
  apart : OnWords.Apart keccak256 n Storage.vestingWalletExample (VestingDeployed.Cells S)
  mem : here ∈ S
  mem_token : k ∈ S
  mem_first : beneficiary ∈ S
  mem_zero : ZERO ∈ S
  nonzero : here ≠ ZERO
  about : ∀ x ∈ before, OnWords.Within keccak256 D Router.basicToken S x
  others : ∀ x ∈ before, x.env ≠ here
  deployed : ∃ t, Verif.BasicDeployed.deploy keccak256 name symbol = some t ∧
    Verif.VestingDeployed.deploy keccak256 here beneficiary start duration
      (Contracts.after (BasicDeployed.entry keccak256 D U) t before, purse) = some w

end Verif.Spec.WalletTokenDeployed
