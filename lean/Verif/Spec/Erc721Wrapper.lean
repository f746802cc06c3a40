import Verif.Model.Erc721Wrapper
import Verif.Spec.Erc721
/-! # Specification vocabulary for the ERC-721 wrapper -/

namespace Verif.Spec.Wrapper721
open Verif.Wrapper721

/-- Reachable from a fresh world by any interleaving of calls on both contracts. -/
def Reachable (s : State) : Prop := ∃ me under txs, me ≠ ZERO ∧ s = run (init me under) txs

/-- Owner of a wrapped token. -/
def wrappedOwner (s : State) (id : U256) : Option Address := Spec.Erc721.owner? s.token id
/-- Owner of an underlying token. -/
def underOwner (s : State) (id : U256) : Option Address := Spec.Erc721.owner? s.underlying id

/-- The receiver is an account without code, or a contract other than the wrapper that answers every
callback with the expected selector. -/
def Accepts (s : State) (env : Env) (a : Address) : Prop :=
  a ≠ s.self_ ∧ ∀ f, env.receivers a = some f → ∀ op src id data,
    f op src id data = .selector Erc721.RECEIVER_FN_SELECTOR

/-- The callee does nothing to the underlying. -/
def Quiet (env : Env) : Prop := ∀ k, env.acts k = []

end Verif.Spec.Wrapper721
