import Verif.Spec.Outside
import Verif.Spec.Vesting
import Verif.Model.VestingBytes
/-!
# What a chain does with the assets of a wallet, and histories of a wallet
-/
namespace Verif.Spec.VestingBytes
open Verif Verif.Abi Verif.Outside Verif.Outside.Wallet
open Verif.Spec.Contracts Verif.Spec.Outside
open Verif.Spec.Vesting (curve)

variable {τ : Type}

/-- Ether leaves an account only in payments of this account: a payment takes away at most its amount (the receiver may send some
back), another call nothing. -/
structure Ether (W : Chain τ) (self_ : Address) : Prop where
  pay : ∀ t target v b t' data, W.pay t self_ target v b = .returned t' data →
    (W.balance t self_).toNat ≤ (W.balance t' self_).toNat + v.toNat
  call : ∀ t target b t' data, W.call t self_ target b = .returned t' data →
    (W.balance t self_).toNat ≤ (W.balance t' self_).toNat

/-- The token `k` tells the wallet its balance `bal`, which only transfers that the wallet asks for can lower, at most by their
amount. -/
structure Holds (W : Chain τ) (D : Decoder) (self_ k : Address) (bal : τ → U256) : Prop where
  reports : ∀ t, Reports W.toWorld D t 0 self_ k (bal t)
  transfer : ∀ t dst v t', Takes W.toWorld t self_ k (message "transfer(address,uint256)" [.address dst, .uint256 v]) t' →
    (bal t).toNat ≤ (bal t').toNat + v.toNat
  other : ∀ t target b t' data, target ≠ k → W.call t self_ target b = .returned t' data → (bal t).toNat ≤ (bal t').toNat
  pay : ∀ t target v b t' data, W.pay t self_ target v b = .returned t' data → (bal t).toNat ≤ (bal t').toNat

/-- The numbers of the schedule fit in 256 bits: the total and, while it is being vested, its product with the time since the start. -/
def Fits (start duration total time : Nat) : Prop :=
  total < 2 ^ 256 ∧ (start ≤ time → time < start + duration → total * (time - start) < 2 ^ 256)

/-- What happens on the chain: a raw transaction to the wallet, whose value arrives before the wallet runs (and is returned if
the transaction reverts), or anything else, which does not touch the wallet. -/
inductive Step (τ : Type) where
  | call (env : Env) (value : U256) (input : Bytes) (arrival : τ → τ)
  | outside (change : τ → τ)

/-- The state after a step. -/
def step (W : Chain τ) (D : Decoder) (s : State τ) : Step τ → State τ
  | .call env value input f => match Wallet.run W Spec.Keccak.keccak256 D env { s with world := f s.world } value input with
    | .returned s' _ => s'
    | .reverted _ => s
  | .outside f => { s with world := f s.world }

/-- The state after a list of steps. -/
def play (W : Chain τ) (D : Decoder) (s : State τ) (l : List (Step τ)) : State τ := l.foldl (step W D) s

/-- A wallet as deployed. -/
def newWallet (self_ owner : Address) (start duration : U64) (t : τ) : State τ :=
  { self_ := self_, ownable := ⟨owner, []⟩, released := 0#256, erc20Released := fun _ => 0#256, start := start, duration := duration,
    log := [], world := t }

/-- The clock after a list of steps. -/
def clock (now : U64) (l : List (Step τ)) : U64 :=
  l.foldl (fun now x => match x with | .call env .. => env.now | .outside _ => now) now

/-- The clock does not go back. -/
def Clocked : U64 → List (Step τ) → Prop
  | _, [] => True
  | now, .call env _ _ _ :: l => now.toNat ≤ env.now.toNat ∧ Clocked env.now l
  | now, .outside _ :: l => Clocked now l

/-- Nobody else takes assets from the wallet: what others do does not lower the amount `m`. -/
def Safe (W : Chain τ) (D : Decoder) (m : τ → U256) : State τ → List (Step τ) → Prop
  | _, [] => True
  | s, .call env v i f :: l => (m s.world).toNat ≤ (m (f s.world)).toNat ∧ Safe W D m (step W D s (.call env v i f)) l
  | s, .outside f :: l => (m s.world).toNat ≤ (m (f s.world)).toNat ∧ Safe W D m (step W D s (.outside f)) l

/-- The sum of the amounts in the events about ether. -/
def etherOut (log : List Verif.Vesting.Event) : Nat :=
  (log.map fun e => match e with | .etherReleased a => a.toNat | .erc20Released _ _ => 0).sum

/-- The sum of the amounts in the events about the token `k`. -/
def tokenOut (k : Address) (log : List Verif.Vesting.Event) : Nat :=
  (log.map fun e => match e with | .etherReleased _ => 0 | .erc20Released k' a => if k' = k then a.toNat else 0).sum

end Verif.Spec.VestingBytes
