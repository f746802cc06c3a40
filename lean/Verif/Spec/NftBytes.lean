import Verif.Model.NftBytes
import Verif.Spec.Outside
import Verif.Spec.Erc721
/-! # What the ERC-721 wrapper asks of other contracts, and what happens to its token -/
namespace Verif.Spec.NftBytes
open Verif Verif.Abi Verif.Outside
open Verif.Spec.Contracts Verif.Spec.Outside

variable {τ : Type}

/-- Nothing stands against the message that `sender` sends to `target`: there is no code at `target`, or `target` returns and its
reply can be read as that of a function without results.  Afterwards the rest of the chain is `t'`. -/
def Obeys (W : World τ) (D : Decoder) (t : τ) (sender target : Address) (msg : Bytes) (t' : τ) : Prop :=
  (W.hasCode t target = false ∧ t' = t) ∨
  (W.hasCode t target = true ∧ ∃ data, W.call t sender target msg = .returned t' data ∧ (D.read [] data).isSome = true)

/-- `dst` takes the token `id` from `src`, moved by `operator`: there is no code at `dst`, or it answers
`onERC721Received(operator, src, id, data)` with the selector of this function. -/
def Welcomes (W : World τ) (D : Decoder) (t : τ) (self_ operator src dst : Address) (id : U256) (data : Bytes) (t' : τ) : Prop :=
  (W.hasCode t dst = false ∧ t' = t) ∨
  (W.hasCode t dst = true ∧ ∃ out,
    W.call t self_ dst (message "onERC721Received(address,address,uint256,bytes)"
      [.address operator, .address src, .uint256 id, .bytes data]) = .returned t' out ∧
    D.read [.bytes4] out = some [.bytes4 0x150b7a02#32])

/-- The token `id` went from the owner it had (the zero address: none) to `dst` (the zero address: it is gone); nothing else
happened. -/
structure Moved (u u' : Erc721.State) (id : U256) (dst : Address) : Prop where
  owners : ∀ i, u'.owners i = if i = id then dst else u.owners i
  balances : ∀ a, u'.balances a + (if a = u.owners id ∧ a ≠ ZERO then 1#256 else 0#256) =
    u.balances a + (if a = dst ∧ a ≠ ZERO then 1#256 else 0#256)
  approvals : ∀ i, u'.tokenApprovals i = if i = id then ZERO else u.tokenApprovals i
  operators : u'.operatorApprovals = u.operatorApprovals
  log : u'.log = u.log ++ [.transfer (u.owners id) dst id]

/-- The tokens are wrapped one after the other: each time the underlying token obeys `transferFrom(sender, wrapper, id)`, there is
no wrapped token `id`, it is created for `account`, and `account` welcomes it. -/
def Wraps (W : World τ) (D : Decoder) (self_ under sender account : Address) :
    List U256 → Erc721.State → τ → Erc721.State → τ → Prop
  | [], u, t, u', t' => u' = u ∧ t' = t
  | id :: ids, u, t, u', t' => ∃ t1 u1 t2,
      Obeys W D t self_ under
        (message "transferFrom(address,address,uint256)" [.address sender, .address self_, .uint256 id]) t1 ∧
      account ≠ ZERO ∧ u.owners id = ZERO ∧ Moved u u1 id account ∧
      Welcomes W D t1 self_ sender ZERO account id [] t2 ∧
      Wraps W D self_ under sender account ids u1 t2 u' t'

/-- The tokens are unwrapped one after the other: each time the sender may move the wrapped token, it is destroyed, and the underlying
token obeys `safeTransferFrom(wrapper, account, id, "")`. -/
def Unwraps (W : World τ) (D : Decoder) (self_ under sender account : Address) :
    List U256 → Erc721.State → τ → Erc721.State → τ → Prop
  | [], u, t, u', t' => u' = u ∧ t' = t
  | id :: ids, u, t, u', t' => ∃ t1 u1,
      Spec.Erc721.MayMove u sender id ∧ Moved u u1 id ZERO ∧
      Obeys W D t self_ under (message "safeTransferFrom(address,address,uint256,bytes)"
        [.address self_, .address account, .uint256 id, .bytes []]) t1 ∧
      Unwraps W D self_ under sender account ids u1 t1 u' t'

/-- A wrapper as deployed. -/
def newNfts (self_ under : Address) (t : τ) : Nfts.State τ :=
  { self_ := self_, underlying := under, token := Erc721.init, world := t }

/-- The state of the wrapper after a list of steps. -/
def nftsAfter (W : World τ) (D : Decoder) (s : Nfts.State τ) (l : List (Step τ)) : Nfts.State τ :=
  play (Nfts.run W Spec.Keccak.keccak256 D) (fun f s => { s with world := f s.world }) s l

/-- Nothing is sent by the zero address: nobody has its key. -/
def Signed (l : List (Step τ)) : Prop := ∀ c v i, Step.call c v i ∈ l → c ≠ ZERO

/-- A state the wrapper can be in. -/
def NftsReached (W : World τ) (D : Decoder) (s : Nfts.State τ) : Prop :=
  ∃ self_ under t l, Signed l ∧ s = nftsAfter W D (newNfts self_ under t) l

/-! ### The token of `examples/erc721-metadata` as the underlying token -/

/-- `examples/erc721-metadata` on bytes. -/
def nft (D : Decoder) (env : Contracts.Env) (m : Metadata.State) (value : U256) (input : Bytes) : Outcome Metadata.State :=
  entry Spec.Keccak.keccak256 D Router.erc721MetadataExample (Contracts.erc721Metadata Spec.Keccak.keccak256 D env) m value input

/-- From `m` to `m'` by raw transactions that `self_` does not send. -/
def Without (D : Decoder) (self_ : Address) (m m' : Metadata.State) : Prop :=
  ∃ l : List (Raw Contracts.Env), (∀ x ∈ l, x.env.caller ≠ self_) ∧ m' = after (nft D) m l

/-- The chain hosts that token at `under`; `u` is its state.  A message that `self_` sends it does what the contract does, whoever it
calls back; when `self_` calls somebody else, they may send the token any transactions, but not as `self_`. -/
structure Hosts (W : World τ) (D : Decoder) (self_ under : Address) (u : τ → Metadata.State) : Prop where
  code : ∀ t, W.hasCode t under = true
  asked : ∀ t b, ∃ P : Contracts.Programs, (∀ a, (P a).isSome = W.hasCode t a) ∧
    match W.call t self_ under b with
    | .returned t' d => nft D ⟨self_, P⟩ (u t) 0#256 b = .returned (u t') d
    | .reverted d => nft D ⟨self_, P⟩ (u t) 0#256 b = .reverted d
  others : ∀ t a b t' d, a ≠ under → W.call t self_ a b = .returned t' d → Without D self_ (u t) (u t')

/-- What may happen on the chain: a transaction to the wrapper, which neither the zero address, nor the wrapper, nor the token sends
(the token only calls `onERC721Received` of receivers, and the wrapper does not answer it); or anything else, which
changes the token only by transactions that the wrapper does not send. -/
def Possible (D : Decoder) (self_ under : Address) (u : τ → Metadata.State) (l : List (Step τ)) : Prop :=
  ∀ x ∈ l, match x with
  | .call c _ _ => c ≠ ZERO ∧ c ≠ self_ ∧ c ≠ under
  | .outside f => ∀ t, Without D self_ (u t) (u (f t))

/-- A wrapper at `self_` that was deployed when the token at `under` had been deployed and the wrapper had sent it nothing; then any
possible history. -/
def Runs (W : World τ) (D : Decoder) (self_ under : Address) (u : τ → Metadata.State) (s : Nfts.State τ) : Prop :=
  ∃ t l, (∃ m, Without D self_ (Metadata.init m) (u t)) ∧ Possible D self_ under u l ∧ s = nftsAfter W D (newNfts self_ under t) l

end Verif.Spec.NftBytes
