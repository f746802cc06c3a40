import Verif.Model.Outside
import Verif.Spec.Contracts
import Verif.Spec.SafeErc20
/-!
# What other contracts answer, and histories in which they do as they like
-/
namespace Verif.Spec.Outside
open Verif Verif.Abi Verif.Outside
open Verif.Spec.Contracts

variable {τ : Type}

/-- Asked by `self_` for the balance of `self_`, as the `n`-th question, `asset` answers the number `A`. -/
def Reports (W : World τ) (D : Decoder) (t : τ) (n : Nat) (self_ asset : Address) (A : U256) : Prop :=
  W.hasCode t asset = true ∧ ∃ data, W.look t n self_ asset (message "balanceOf(address)" [.address self_]) = some data ∧
    D.read [.uint256] data = some [.uint256 A]

/-- `target` has code and takes the message that `sender` sends: it does not revert, and its reply is nothing or true.
Afterwards the rest of the chain is `t'`. -/
def Takes (W : World τ) (t : τ) (sender target : Address) (msg : Bytes) (t' : τ) : Prop :=
  W.hasCode t target = true ∧ ∃ data, W.call t sender target msg = .returned t' data ∧ Spec.SafeErc20.Accepted data

/-- `x` is `num / den`, rounded down. -/
def Floor (num den x : Nat) : Prop := x * den ≤ num ∧ num < (x + 1) * den

/-- `x` is `num / den`, rounded up. -/
def Ceil (num den x : Nat) : Prop := num ≤ x * den ∧ ∀ q, num ≤ q * den → x ≤ q

/-- The numbers the vault works with fit in 256 bits: supply, virtual shares, and the answer `A` of the asset. -/
def Fits (s : Vault.State τ) (A : U256) : Prop :=
  s.shares.totalSupply.toNat + 10 ^ s.offset.toNat < 2 ^ 256 ∧ A.toNat + 1 < 2 ^ 256

/-- What happens on the chain: a raw transaction to the contract, or anything else, which does not touch the contract. -/
inductive Step (τ : Type) where
  | call (caller : Address) (value : U256) (input : Bytes)
  | outside (change : τ → τ)

/-- The state after a list of steps. -/
def play {σ : Type} (run : Address → σ → U256 → Bytes → Outcome σ) (other : (τ → τ) → σ → σ) (s : σ) (l : List (Step τ)) : σ :=
  l.foldl (fun s x => match x with
    | .call caller value input => (run caller s value input).after s
    | .outside f => other f s) s

/-- `x` tokens were created for `r`; nothing else happened to the token. -/
structure Created (u u' : Erc20.State) (r : Address) (x : U256) : Prop where
  supply : u'.totalSupply.toNat = u.totalSupply.toNat + x.toNat
  balances : ∀ a, (u'.balances a).toNat = (u.balances a).toNat + (if a = r then x.toNat else 0)
  allowances : u'.allowances = u.allowances
  log : u'.log = u.log ++ [.transfer ZERO r x]

/-- `x` tokens of `o` were destroyed by `caller`, who used an allowance (unless it is unlimited) if not the holder; nothing
else happened to the token. -/
structure Destroyed (u u' : Erc20.State) (caller o : Address) (x : U256) : Prop where
  supply : u'.totalSupply.toNat + x.toNat = u.totalSupply.toNat
  balances : ∀ a, (u'.balances a).toNat + (if a = o then x.toNat else 0) = (u.balances a).toNat
  allowances : ∀ p q, (u'.allowances p q).toNat +
    (if p = o ∧ q = caller ∧ caller ≠ o ∧ (u.allowances o caller).toNat ≠ 2 ^ 256 - 1 then x.toNat else 0) =
      (u.allowances p q).toNat
  log : u'.log = u.log ++ [.transfer o ZERO x]

/-- A vault as deployed, without shares. -/
def newVault (self_ asset : Address) (decimals offset : U8) (t : τ) : Vault.State τ :=
  { self_ := self_, asset := asset, underlyingDecimals := decimals, offset := offset, shares := Erc20.init, log := [],
    world := t }

/-- The state of the vault after a list of steps. -/
def vaultAfter (W : World τ) (D : Decoder) (m : Entry.Strings) (s : Vault.State τ) (l : List (Step τ)) : Vault.State τ :=
  play (Vault.run W Spec.Keccak.keccak256 D m) (fun f s => { s with world := f s.world }) s l

/-- A state the vault can be in. -/
def VaultReached (W : World τ) (D : Decoder) (m : Entry.Strings) (s : Vault.State τ) : Prop :=
  ∃ self_ asset d o t l, s = vaultAfter W D m (newVault self_ asset d o t) l

/-- A wrapper as deployed. -/
def newWrapper (self_ under : Address) (decimals : U8) (t : τ) : Outside.Wrapper.State τ :=
  { self_ := self_, underlying := under, decimals := decimals, token := Erc20.init, world := t }

/-- The state of the wrapper after a list of steps. -/
def wrapperAfter (W : World τ) (D : Decoder) (s : Outside.Wrapper.State τ) (l : List (Step τ)) : Outside.Wrapper.State τ :=
  play (Outside.Wrapper.run W Spec.Keccak.keccak256 D) (fun f s => { s with world := f s.world }) s l

/-- A state the wrapper can be in. -/
def WrapperReached (W : World τ) (D : Decoder) (s : Outside.Wrapper.State τ) : Prop :=
  ∃ self_ under d t l, s = wrapperAfter W D (newWrapper self_ under d t) l

/-- The chain in which the asset is the token of `examples/basic/token`, a contract on bytes. -/
def tokenWorld (D : Decoder) (m : Entry.Strings) (asset : Address) : World Erc20.State where
  hasCode _ a := decide (a = asset)
  call t sender _ b := Entry.basicTokenEntry Spec.Keccak.keccak256 D m sender t 0#256 b
  look t _ sender _ b := (Entry.basicTokenEntry Spec.Keccak.keccak256 D m sender t 0#256 b).reply

/-- A raw transaction to a contract, or to the token it uses. -/
inductive Tx where
  | contract (caller : Address) (value : U256) (input : Bytes)
  | token (caller : Address) (value : U256) (input : Bytes)

/-- Who sends it. -/
def Tx.sender : Tx → Address
  | .contract c _ _ => c
  | .token c _ _ => c

/-- As a step. -/
def Tx.step (D : Decoder) (m : Entry.Strings) : Tx → Step Erc20.State
  | .contract c v i => .call c v i
  | .token c v i => .outside fun t => (Entry.basicTokenEntry Spec.Keccak.keccak256 D m c t v i).after t

end Verif.Spec.Outside
