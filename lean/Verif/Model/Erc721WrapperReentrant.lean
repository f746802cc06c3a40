import Verif.Model.Erc721Wrapper
/-! # The ERC-721 wrapper when it can be re-entered

Line numbers are in `/repo/contracts/src/token/erc721/extensions/wrapper.rs`.  The functions of
`Model/Erc721Wrapper.lean` with the whole world, not only the underlying, in the hands of whoever is called
back: `inside k` is what happens to both contracts during the callback for the `k`-th id from the end.
Only a callback to the wrapper itself still fails: its own token calls it as `msg::sender`, which 227-231
refuses unless the wrapper wraps itself. -/

namespace Verif.Wrapper721.Reentrant
open Verif.Wrapper721
open Verif.Erc721 (Receivers)

/-- `_safe_mint` of the wrapper's token: the token exists when the receiver is called, `erc721/mod.rs`
732-746, 993-1035. -/
def safeMintThen (R : Receivers) (inside : Nat → State → State) (s : State) (k : Nat)
    (caller account : Address) (id : U256) : Except Err State := do
  let t ← lift (Erc721.safeMint (locked s.self_ R) s.token caller account id [])
  return inside k { s with token := t }

/-- `deposit_for`, 100-140. -/
def depositFor (R : Receivers) (inside : Nat → State → State) (caller account : Address) :
    State → List U256 → Except Err State
  | s, [] => .ok s
  | s, id :: ids => do
    let u ← liftCall (Erc721.transferFrom s.underlying s.self_ caller s.self_ id)
    let s1 ← safeMintThen R inside { s with underlying := u } ids.length caller account id
    depositFor R inside caller account s1 ids

/-- `withdraw_to`, 160-199. -/
def withdrawTo (R : Receivers) (inside : Nat → State → State) (caller account : Address) :
    State → List U256 → Except Err State
  | s, [] => .ok s
  | s, id :: ids => do
    let r ← lift (Erc721.update s.token ZERO id caller)
    let u ← liftCall (Erc721.safeTransferFromWithData (locked s.self_ R) s.underlying s.self_
      s.self_ account id [])
    withdrawTo R inside caller account (inside ids.length { s with token := r.2, underlying := u }) ids

/-- `on_erc721_received`, 218-236. -/
def onReceived (R : Receivers) (inside : Nat → State → State) (s : State) (sender src : Address)
    (id : U256) : Except Err State := do
  if s.under ≠ sender then throw (.unsupportedToken sender)
  safeMintThen R inside s 0 sender src id

/-- `_recover`, 266-296. -/
def recover (R : Receivers) (inside : Nat → State → State) (s : State) (caller account : Address)
    (id : U256) : Except Err State := do
  let owner ← liftCall (Erc721.ownerOf s.underlying id)
  if owner ≠ s.self_ then throw (.erc721 (.incorrectOwner s.self_ id owner))
  safeMintThen R inside s 0 caller account id

/-- A call on the underlying by anybody but the wrapper; a safe transfer to the wrapper runs its hook,
218-236.  What other receivers do comes after the transfer, as separate calls. -/
def execUnderlying (R : Receivers) (inside : Nat → State → State) (s : State) (tx : UTx) :
    Except Err State := do
  if tx.caller = s.self_ then throw .notPossible
  let u ← lift (Erc721.exec s.underlying ⟨tx.caller, hooking s.self_ tx.receivers, tx.call.toCall⟩)
  let s1 := { s with underlying := u }
  match hooked s.self_ tx.call with
  | none => return s1
  | some (src, id) => onReceived R inside s1 s.under src id

/-- One call.  Models 82-297. -/
def execWith (R : Receivers) (inside : Nat → State → State) (s : State) (caller : Address) (call : Call) :
    Except Err State :=
  if caller = s.self_ ∨ caller = s.under ∨ caller = ZERO then .error .notPossible
  else match call with
  | .depositFor account ids => depositFor R inside caller account s ids
  | .withdrawTo account ids => withdrawTo R inside caller account s ids
  | .onReceived _ src id _ => onReceived R inside s caller src id
  | .recover account id => recover R inside s caller account id
  | .token c => do
    let t ← lift (Erc721.execUser (locked s.self_ R) s.token caller c.toCall)
    return inside 0 { s with token := t }
  | .underlying R' c => execUnderlying R inside s ⟨caller, R', c⟩

/-- `Reaches s s'`: some sequence of calls, each with arbitrary nested sequences of calls inside its
callbacks, leads from `s` to `s'`.  Failed calls leave no trace.  Histories of calls of 82-297 with the
`reentrant` feature, `contracts/Cargo.toml` 30. -/
inductive Reaches : State → State → Prop
  | refl (s : State) : Reaches s s
  | step {s s' s'' : State} (R : Receivers) (inside : Nat → State → State) (caller : Address) (call : Call)
      (nested : ∀ k t, Reaches t (inside k t))
      (now : execWith R inside s caller call = .ok s') (later : Reaches s' s'') : Reaches s s''

end Verif.Wrapper721.Reentrant
