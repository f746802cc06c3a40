import Verif.Model.SafeErc20
/-! # Specification of SafeERC20 -/

namespace Verif.Spec.SafeErc20
open Verif.SafeErc20

/-- The answer counts as a success: no data, or a number equal to one written big-endian in the (at most
32) bytes that are looked at. -/
def Accepted (ret : Bytes) : Prop := ret = [] ∨ beNat (ret.take 32) = 1

/-- Behaviour of a token towards one caller, `al t sp` being that caller's allowance to `sp`:
* reading the allowance answers the 32-byte word and changes nothing;
* setting an allowance to zero, or setting one that is zero, works for a non-zero spender;
* replacing a non-zero allowance by a non-zero one either works or is refused (by reverting, or by
  answering something that is not an acceptance) without a change. -/
structure Conforms {τ : Type} (tok : Token τ) (self_ : Address) (al : τ → Address → U256) : Prop where
  code : tok.hasCode = true
  read : ∀ t sp, tok.call t (.allowance self_ sp) = some (t, encodeWord (al t sp))
  approve : ∀ t sp v, sp ≠ ZERO → (v = 0#256 ∨ al t sp = 0#256) →
    ∃ t' ret, tok.call t (.approve sp v) = some (t', ret) ∧ Accepted ret ∧ al t' = upd (al t) sp v
  replace : ∀ t sp v, sp ≠ ZERO →
    (tok.call t (.approve sp v) = none) ∨
    (∃ t' ret, tok.call t (.approve sp v) = some (t', ret) ∧
      ((Accepted ret ∧ al t' = upd (al t) sp v) ∨ (¬ Accepted ret ∧ al t' = al t)))

end Verif.Spec.SafeErc20
