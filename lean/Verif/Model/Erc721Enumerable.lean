import Verif.Model.Erc721
import Verif.Model.Utils
/-!
# Model of `token/erc721/extensions/enumerable.rs` composed as in `examples/erc721/src/lib.rs`

`StorageVec` is a list.  Its length is a `usize` and the storage word holding it is 256 bits wide; this is
idealised as a capacity `cap`, an arbitrary number below `2^256`, at which `push` panics.
-/

namespace Verif.Enumerable

/-- Errors of the composition: `examples/erc721/src/lib.rs` 19-24, `enumerable.rs` 51-61, plus panics. -/
inductive Err where
  | erc721 (e : Erc721.Err)
  | pausable (e : Pausable.Err)
  | outOfBoundsIndex (owner : Address) (index : U256)
  | forbiddenBatchMint
  | panic
  deriving DecidableEq, Repr

/-- Storage of the extension, `enumerable.rs` 71-80. -/
structure Lists where
  ownedTokens : Address → U256 → U256
  ownedTokensIndex : U256 → U256
  allTokens : List U256
  allTokensIndex : U256 → U256

/-- Storage of the contract, `examples/erc721/src/lib.rs` 28-35. -/
structure State where
  erc721 : Erc721.State
  lists : Lists
  pausable : Pausable.State

/-- Newly deployed.
Zero-initialised storage of `examples/erc721/src/lib.rs` 27-34. -/
def init : State :=
  { erc721 := Erc721.init
    lists := { ownedTokens := fun _ _ => 0#256, ownedTokensIndex := fun _ => 0#256, allTokens := [],
               allTokensIndex := fun _ => 0#256 }
    pausable := Pausable.init }

/-- `token_of_owner_by_index`, `enumerable.rs` 141-153. -/
def tokenOfOwnerByIndex (l : Lists) (owner : Address) (index : U256) : Except Err U256 :=
  let token := l.ownedTokens owner index
  if token = 0#256 then .error (.outOfBoundsIndex owner index) else .ok token

/-- `total_supply`, `enumerable.rs` 155-158. -/
def totalSupply (l : Lists) : U256 := BitVec.ofNat 256 l.allTokens.length

/-- `token_by_index`, `enumerable.rs` 160-164. -/
def tokenByIndex (l : Lists) (index : U256) : Except Err U256 :=
  match l.allTokens[index.toNat]? with
  | some id => .ok id
  | none => .error (.outOfBoundsIndex ZERO index)

/-- Error conversion.
The `?` on base contract calls in `examples/erc721/src/lib.rs` 39-198. -/
def lift {α : Type} : Except Erc721.Err α → Except Err α
  | .ok a => .ok a
  | .error e => .error (.erc721 e)

/-- Error conversion.
The `?` on `when_not_paused` in `examples/erc721/src/lib.rs` 39-198. -/
def liftP {α : Type} : Except Pausable.Err α → Except Err α
  | .ok a => .ok a
  | .error e => .error (.pausable e)

/-- `_add_token_to_owner_enumeration`, `enumerable.rs` 190-201. -/
def addToOwner (l : Lists) (dst : Address) (id : U256) (t : Erc721.State) : Except Err Lists := do
  let balance ← lift (Erc721.balanceOf t dst)
  let length := balance - 1#256
  return { l with
    ownedTokens := upd2 l.ownedTokens dst length id
    ownedTokensIndex := upd l.ownedTokensIndex id length }

/-- `_add_token_to_all_tokens_enumeration`, `enumerable.rs` 210-215; `cap` bounds the vector. -/
def addToAll (cap : Nat) (l : Lists) (id : U256) : Except Err Lists :=
  if l.allTokens.length < cap then
    .ok { l with
      allTokensIndex := upd l.allTokensIndex id (totalSupply l)
      allTokens := l.allTokens ++ [id] }
  else .error .panic

/-- `_remove_token_from_owner_enumeration`, `enumerable.rs` 240-270. -/
def removeFromOwner (l : Lists) (src : Address) (id : U256) (t : Erc721.State) : Except Err Lists := do
  let lastTokenIndex ← lift (Erc721.balanceOf t src)
  let tokenIndex := l.ownedTokensIndex id
  let l1 := if tokenIndex ≠ lastTokenIndex then
      let lastTokenId := l.ownedTokens src lastTokenIndex
      { l with
        ownedTokens := upd2 l.ownedTokens src tokenIndex lastTokenId
        ownedTokensIndex := upd l.ownedTokensIndex lastTokenId tokenIndex }
    else l
  return { l1 with
    ownedTokensIndex := upd l1.ownedTokensIndex id 0#256
    ownedTokens := upd2 l1.ownedTokens src lastTokenIndex 0#256 }

/-- `_remove_token_from_all_tokens_enumeration`, `enumerable.rs` 286-320.  An empty vector makes
`all_tokens.len() - 1` or the `expect` after it panic. -/
def removeFromAll (l : Lists) (id : U256) : Except Err Lists := do
  let tokenIndex := l.allTokensIndex id
  let lastTokenId ← orPanic .panic (l.allTokens[l.allTokens.length - 1]?)
  if ¬ tokenIndex.toNat < l.allTokens.length then throw .panic
  return { l with
    allTokens := (l.allTokens.set tokenIndex.toNat lastTokenId).dropLast
    allTokensIndex := upd (upd l.allTokensIndex lastTokenId tokenIndex) id 0#256 }

/-- `_check_increase_balance`, `enumerable.rs` 335-341. -/
def checkIncreaseBalance (amount : BitVec 128) : Except Err Unit :=
  if 0#128 < amount then .error .forbiddenBatchMint else .ok ()

/-- Shared tail of the three transfer functions, `examples/erc721/src/lib.rs` 108-121, 136-149, 167-180. -/
def relist (l : Lists) (previousOwner dst : Address) (id : U256) (t : Erc721.State) :
    Except Err Lists := do
  let l1 ← removeFromOwner l previousOwner id t
  addToOwner l1 dst id t

/-- Calls of the contract: its own and the inherited ones.
Models the `#[public]` block `examples/erc721/src/lib.rs` 37-198. -/
inductive Call where
  | burn (id : U256)
  | mint (dst : Address) (id : U256)
  | safeMint (dst : Address) (id : U256) (data : Bytes)
  | transferFrom (src dst : Address) (id : U256)
  | safeTransferFrom (src dst : Address) (id : U256)
  | safeTransferFromWithData (src dst : Address) (id : U256) (data : Bytes)
  | approve (dst : Address) (id : U256)
  | setApprovalForAll (operator : Address) (approved : Bool)
  | pause
  | unpause

/-- A transfer by one of the three functions: `f` is the base contract's part.
Common part of `examples/erc721/src/lib.rs` 96-180. -/
def transferVia (s : State) (f : Except Erc721.Err Erc721.State) (dst : Address) (id : U256) :
    Except Err State := do
  liftP (Pausable.whenNotPaused s.pausable)
  let previousOwner ← lift (Erc721.ownerOf s.erc721 id)
  let t ← lift f
  let l ← relist s.lists previousOwner dst id t
  return { s with erc721 := t, lists := l }

/-- A mint by one of the two functions.
Common part of `examples/erc721/src/lib.rs` 59-94. -/
def mintVia (cap : Nat) (s : State) (f : Except Erc721.Err Erc721.State) (dst : Address) (id : U256) :
    Except Err State := do
  liftP (Pausable.whenNotPaused s.pausable)
  let t ← lift f
  let l1 ← addToAll cap s.lists id
  let l2 ← addToOwner l1 dst id t
  return { s with erc721 := t, lists := l2 }

/-- `burn`, `examples/erc721/src/lib.rs` 40-57. -/
def burn (s : State) (caller : Address) (id : U256) : Except Err State := do
  liftP (Pausable.whenNotPaused s.pausable)
  let owner ← lift (Erc721.ownerOf s.erc721 id)
  let t ← lift (Erc721.burn s.erc721 caller id)
  let l1 ← removeFromOwner s.lists owner id t
  let l2 ← removeFromAll l1 id
  return { s with erc721 := t, lists := l2 }

/-- One transaction: sender, receivers' behaviour, call.
A call of `examples/erc721/src/lib.rs` 37-198. -/
structure Tx where
  caller : Address
  receivers : Erc721.Receivers
  call : Call

/-- Dispatch, `examples/erc721/src/lib.rs` 39-198.  Transactions from the zero address are refused. -/
def exec (cap : Nat) (s : State) (tx : Tx) : Except Err State :=
  if tx.caller = ZERO then .error .panic
  else match tx.call with
  | .burn id => burn s tx.caller id
  | .mint dst id => mintVia cap s (Erc721.mint s.erc721 dst id) dst id
  | .safeMint dst id data =>
    mintVia cap s (Erc721.safeMint tx.receivers s.erc721 tx.caller dst id data) dst id
  | .transferFrom src dst id =>
    transferVia s (Erc721.transferFrom s.erc721 tx.caller src dst id) dst id
  | .safeTransferFrom src dst id =>
    transferVia s (Erc721.safeTransferFrom tx.receivers s.erc721 tx.caller src dst id) dst id
  | .safeTransferFromWithData src dst id data =>
    transferVia s (Erc721.safeTransferFromWithData tx.receivers s.erc721 tx.caller src dst id data) dst id
  | .approve dst id => do
    return { s with erc721 := (← lift (Erc721.approve s.erc721 tx.caller dst id)) }
  | .setApprovalForAll op b => do
    return { s with erc721 := (← lift (Erc721.setApprovalForAll s.erc721 tx.caller op b)) }
  | .pause => do return { s with pausable := (← liftP (Pausable.pause s.pausable tx.caller)) }
  | .unpause => do return { s with pausable := (← liftP (Pausable.unpause s.pausable tx.caller)) }

/-- A history.
Sequences of such transactions (`examples/erc721/src/lib.rs` 37-198); a failed transaction leaves no trace (Stylus reverts). -/
def run (cap : Nat) (s : State) (txs : List Tx) : State := runOf (exec cap) s txs

end Verif.Enumerable
