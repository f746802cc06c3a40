import Verif.Model.Crypto
import Verif.Model.Erc20
import Verif.Model.Utils
/-!
# Model of `token/erc20/extensions/permit.rs`

Keccak and `ecrecover` are parameters (structure `Env`).
-/

namespace Verif.Permit

/-- `permit::Error`, `permit.rs` 59-69, plus panics. -/
inductive Err where
  | expiredSignature (deadline : U256)
  | invalidSigner (signer owner : Address)
  | erc20 (e : Erc20.Err)
  | ecdsa (e : Ecdsa.Err)
  | panic
  deriving DecidableEq, Repr

/-- The environment of the contract.
What `contracts/src/token/erc20/extensions/permit.rs` 138-174 reads from outside: contract address, chain, keccak, `ecrecover`. -/
structure Env where
  K : Hash
  P : Ecdsa.Precompile
  domain : Eip712.Domain

/-- Storage of a permit token (`examples/erc20-permit/src/lib.rs` 17-25) and the block clock. -/
structure State where
  erc20 : Erc20.State
  nonces : Nonces.State
  now : U64

/-- The permit type string, `permit.rs` 31. -/
def typeString : Bytes :=
  ascii "Permit(address owner,address spender,uint256 value,uint256 nonce,uint256 deadline)"

/-- The struct pre-image, `permit.rs` 154-161. -/
def encodeStruct (K : Hash) (owner spender : Address) (value nonce deadline : U256) : Bytes :=
  be32 (K typeString) ++ (abiAddress owner ++ (abiAddress spender ++ (be32 value ++ (be32 nonce ++
    be32 deadline))))

/-- `DOMAIN_SEPARATOR`, `permit.rs` 97-101. -/
def domainSeparator (E : Env) : B256 := Eip712.domainSeparator E.K E.domain

/-- Error conversion `?` from the nonce module: `use_nonce` has no error, it can only panic.
`contracts/src/token/erc20/extensions/permit.rs` 159. -/
def liftNonce {α : Type} : Except Nonces.Err α → Except Err α
  | .ok a => .ok a
  | .error _ => .error .panic

/-- Error conversion `?` from `ecdsa`.
`contracts/src/token/erc20/extensions/permit.rs` 165. -/
def liftEcdsa {α : Type} : Except Ecdsa.Err α → Except Err α
  | .ok a => .ok a
  | .error e => .error (.ecdsa e)

/-- Error conversion `?` from `erc20`. -/
def liftErc20 {α : Type} : Except Erc20.Err α → Except Err α
  | .ok a => .ok a
  | .error e => .error (.erc20 e)

/-- `permit`, `permit.rs` 138-174. -/
def permit (E : Env) (st : State) (owner spender : Address) (value deadline : U256) (v : U8)
    (r s : B256) : Except Err State := do
  if deadline < st.now.setWidth 256 then throw (.expiredSignature deadline)
  let (nonce, nonces) ← liftNonce (Nonces.useNonce st.nonces owner)
  let structHash := E.K (encodeStruct E.K owner spender value nonce deadline)
  let hash := Eip712.hashTypedData E.K E.domain structHash
  let signer ← liftEcdsa (Ecdsa.recover E.P hash v r s)
  if signer ≠ owner then throw (.invalidSigner signer owner)
  let erc20 ← liftErc20 (Erc20.approveInternal st.erc20 owner spender value true)
  return { st with erc20 := erc20, nonces := nonces }

/-- Everything that can happen to a permit token: token calls, permits by anybody, time passing.
Models `contracts/src/token/erc20/extensions/permit.rs` 89-174 and `examples/erc20-permit/src/lib.rs` 35-70. -/
inductive Call where
  | token (caller : Address) (c : Erc20.Call)
  | permit (owner spender : Address) (value deadline : U256) (v : U8) (r s : B256)
  | tick (now : U64)

/-- One transaction.
Models `contracts/src/token/erc20/extensions/permit.rs` 89-174 and `examples/erc20-permit/src/lib.rs` 35-70. -/
def exec (E : Env) (st : State) : Call → Except Err State
  | .token caller c => do return { st with erc20 := (← liftErc20 (Erc20.exec st.erc20 (caller, c))) }
  | .permit o sp val d v r s => permit E st o sp val d v r s
  | .tick t => .ok { st with now := if st.now ≤ t then t else st.now }

/-- A history.
Sequences of such transactions (`contracts/src/token/erc20/extensions/permit.rs` 89-174); a failed transaction leaves no trace (Stylus reverts). -/
def run (E : Env) (st : State) (ops : List Call) : State := runOf (exec E) st ops

/-- A new token.
Zero-initialised storage of `contracts/src/token/erc20/extensions/permit.rs` 78-84. -/
def init (now : U64) : State := { erc20 := Erc20.init, nonces := Nonces.init, now := now }

end Verif.Permit
