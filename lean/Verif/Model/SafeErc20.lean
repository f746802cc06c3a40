import Verif.Model.Erc20
/-!
# Model of SafeERC20

Source: `contracts/src/token/erc20/utils/safe_erc20.rs`.

The token is an arbitrary program: a state of any type, whether the address has code, and a function
that for each request either reverts (`none`, its state rolled back) or returns a new state and any
bytes.  Requests stand for ABI-encoded calls (`transferCall` .. `allowanceCall`, 83-110); the bytes
are in `Verif/Model/Calls.lean`.  Each function returns the token state *and* the result, because a call that
went through with an unwelcome answer has changed the token even though SafeERC20 reports an error
(`force_approve` goes on from that state).
-/

namespace Verif.SafeErc20

/-- Return data, `contracts/src/token/erc20/utils/safe_erc20.rs` 333-399. -/
abbrev Bytes := List U8

/-- Calls of `mod token`, `safe_erc20.rs` 74-112. -/
inductive Req where
  | transfer (dst : Address) (value : U256)
  | transferFrom (src dst : Address) (value : U256)
  | approve (spender : Address) (value : U256)
  | allowance (owner spender : Address)
  deriving DecidableEq, Repr

/-- The contract behind a token address.
The callee of `contracts/src/token/erc20/utils/safe_erc20.rs` 333-399. -/
structure Token (τ : Type) where
  hasCode : Bool
  call : τ → Req → Option (τ × Bytes)

/-- `enum Error`, `safe_erc20.rs` 48-71; `panic` covers the `expect` and `from_be_slice`. -/
inductive Err where
  | failedOperation
  | failedDecreaseAllowance (spender : Address) (current requested : U256)
  | panic
  deriving DecidableEq, Repr

/-- `BOOL_TYPE_SIZE`, `safe_erc20.rs` 31: `limit_return_data(0, 32)` keeps the first 32 bytes. -/
def BOOL_TYPE_SIZE : Nat := 32

/-- `encodes_true`, `safe_erc20.rs` 395-399. -/
def encodesTrue (data : Bytes) : Bool :=
  match data.getLast? with
  | none => false
  | some last => decide (last = 1#8) && data.dropLast.all (fun b => decide (b = 0#8))

/-- `call_optional_return`, `safe_erc20.rs` 333-353. -/
def callOptionalReturn {τ : Type} (tok : Token τ) (t : τ) (r : Req) : τ × Except Err Unit :=
  if tok.hasCode = false then (t, .error .failedOperation)
  else match tok.call t r with
    | none => (t, .error .failedOperation)
    | some (t', ret) =>
      let data := ret.take BOOL_TYPE_SIZE
      if data.isEmpty || encodesTrue data then (t', .ok ()) else (t', .error .failedOperation)

/-- Big-endian value of a byte string (`U256::from_be_slice`). -/
def beNat (data : Bytes) : Nat := data.foldl (fun acc b => acc * 256 + b.toNat) 0

/-- `allowance`, `safe_erc20.rs` 369-388; `self_` is `address()`. -/
def allowance {τ : Type} (tok : Token τ) (t : τ) (self_ spender : Address) : τ × Except Err U256 :=
  if tok.hasCode = false then (t, .error .failedOperation)
  else match tok.call t (.allowance self_ spender) with
    | none => (t, .error .failedOperation)
    | some (t', ret) =>
      let v := beNat (ret.take BOOL_TYPE_SIZE)
      if v < 2 ^ 256 then (t', .ok (BitVec.ofNat 256 v)) else (t', .error .panic)

/-- `safe_transfer`, `safe_erc20.rs` 236-245. -/
def safeTransfer {τ : Type} (tok : Token τ) (t : τ) (dst : Address) (value : U256) :
    τ × Except Err Unit :=
  callOptionalReturn tok t (.transfer dst value)

/-- `safe_transfer_from`, `safe_erc20.rs` 247-257. -/
def safeTransferFrom {τ : Type} (tok : Token τ) (t : τ) (src dst : Address) (value : U256) :
    τ × Except Err Unit :=
  callOptionalReturn tok t (.transferFrom src dst value)

/-- `force_approve`, `safe_erc20.rs` 296-315. -/
def forceApprove {τ : Type} (tok : Token τ) (t : τ) (spender : Address) (value : U256) :
    τ × Except Err Unit :=
  match callOptionalReturn tok t (.approve spender value) with
  | (t1, .ok ()) => (t1, .ok ())
  | (t1, .error _) =>
    match callOptionalReturn tok t1 (.approve spender 0#256) with
    | (t2, .error e) => (t2, .error e)
    | (t2, .ok ()) => callOptionalReturn tok t2 (.approve spender value)

/-- `safe_increase_allowance`, `safe_erc20.rs` 259-270. -/
def safeIncreaseAllowance {τ : Type} (tok : Token τ) (t : τ) (self_ spender : Address) (value : U256) :
    τ × Except Err Unit :=
  match allowance tok t self_ spender with
  | (t1, .error e) => (t1, .error e)
  | (t1, .ok cur) =>
    match checkedAdd cur value with
    | none => (t1, .error .panic)
    | some new => forceApprove tok t1 spender new

/-- `safe_decrease_allowance`, `safe_erc20.rs` 272-294. -/
def safeDecreaseAllowance {τ : Type} (tok : Token τ) (t : τ) (self_ spender : Address)
    (requested : U256) : τ × Except Err Unit :=
  match allowance tok t self_ spender with
  | (t1, .error e) => (t1, .error e)
  | (t1, .ok cur) =>
    if cur < requested then (t1, .error (.failedDecreaseAllowance spender cur requested))
    else forceApprove tok t1 spender (cur - requested)

/-! ## Two concrete tokens -/

/-- The last `n` big-endian bytes of a number.
ABI words as compared in `contracts/src/token/erc20/utils/safe_erc20.rs` 395-399. -/
def encodeBe : Nat → Nat → Bytes
  | 0, _ => []
  | n + 1, x => encodeBe n (x / 256) ++ [BitVec.ofNat 8 x]

/-- ABI encoding of a 256-bit word: 32 bytes, most significant first. -/
def encodeWord (w : U256) : Bytes := encodeBe 32 w.toNat

/-- ABI encoding of `true`.
The comparison of `contracts/src/token/erc20/utils/safe_erc20.rs` 395-399. -/
def encodeTrue : Bytes := encodeWord 1#256

/-- This library's own ERC-20 (`Erc20`, modelled in `Verif.Erc20`), called by `self_`. -/
def standardToken (self_ : Address) : Token Erc20.State where
  hasCode := true
  call s r := match r with
    | .transfer dst v => match Erc20.transfer s self_ dst v with
      | .ok s' => some (s', encodeTrue)
      | .error _ => none
    | .transferFrom src dst v => match Erc20.transferFrom s self_ src dst v with
      | .ok s' => some (s', encodeTrue)
      | .error _ => none
    | .approve sp v => match Erc20.approve s self_ sp v with
      | .ok s' => some (s', encodeTrue)
      | .error _ => none
    | .allowance o sp => some (s, encodeWord (Erc20.allowance s o sp))

/-- Tether-style token called by `self_`: `approve` refuses to replace a non-zero allowance by a
non-zero one (as the mock `examples/safe-erc20/tests/mock/erc20_force_approve.rs`) and, like the real
one, returns no data at all. State: `self_`'s allowances. -/
def usdtToken : Token (Address → U256) where
  hasCode := true
  call a r := match r with
    | .transfer _ _ => none
    | .transferFrom _ _ _ => none
    | .approve sp v => if v ≠ 0#256 ∧ a sp ≠ 0#256 then none else some (upd a sp v, [])
    | .allowance _ sp => some (a, encodeWord (a sp))

end Verif.SafeErc20
