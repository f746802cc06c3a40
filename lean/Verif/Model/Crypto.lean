import Verif.Base
/-!
# Model of `utils/cryptography/{ecdsa,eip712}.rs`

Bytes are `BitVec 8`, byte strings are lists.  Keccak-256 is a parameter `K`; the `ecrecover`
precompile is a parameter from call data to an optional answer (`none`: the call itself fails).
-/

namespace Verif

/-- A byte string.
Models `&[u8]`, `Vec<u8>` and `Bytes` arguments (e.g. `contracts/src/utils/cryptography/ecdsa.rs` 94-205). -/
abbrev Bytes := List U8

/-- The 32 big-endian bytes of a word (`B256` / ABI encoding of `uint256` and `bytes32`). -/
def be32 (x : U256) : Bytes := (List.range 32).map fun i => x.extractLsb' (8 * (31 - i)) 8

/-- ABI encoding of an address: left-padded to 32 bytes. -/
def abiAddress (a : Address) : Bytes := be32 (a.setWidth 256)

/-- ABI encoding of a `uint8`: left-padded to 32 bytes. -/
def abiU8 (v : U8) : Bytes := be32 (v.setWidth 256)

/-- The bytes of an ASCII string literal (`b"..."`).
As in `contracts/src/utils/cryptography/eip712.rs` 20-29. -/
def ascii (s : String) : Bytes := s.toList.map fun c => BitVec.ofNat 8 c.toNat

/-- A hash function to 32 bytes (`keccak256`). -/
abbrev Hash := Bytes → B256

namespace Ecdsa

/-- `ecdsa::Error` (`ecdsa.rs` 62-67), plus panics. -/
inductive Err where
  | invalidSignature
  | invalidSignatureS (s : B256)
  | panic
  deriving DecidableEq, Repr

/-- The `ecrecover` precompile at address 1: call data to answer; `none` if the call fails. -/
abbrev Precompile := Bytes → Option Bytes

/-- `SIGNATURE_S_UPPER_BOUND`, `ecdsa.rs` 21-23. -/
def S_UPPER_BOUND : U256 := 0x7FFFFFFFFFFFFFFFFFFFFFFFFFFFFFFF5D576E7357A4501DDFE92F46681B20A0#256

/-- `encode_calldata`, `ecdsa.rs` 164-167: ABI encoding of `(bytes32, uint8, bytes32, bytes32)`. -/
def encodeCalldata (hash : B256) (v : U8) (r s : B256) : Bytes :=
  be32 hash ++ (abiU8 v ++ (be32 r ++ be32 s))

/-- `check_if_malleable`, `ecdsa.rs` 199-205. -/
def checkIfMalleable (s : B256) : Except Err Unit :=
  if S_UPPER_BOUND < s then .error (.invalidSignatureS s) else .ok ()

/-- Big-endian value of a byte string.
Models `U256::from_be_bytes` of the values in `contracts/src/utils/cryptography/ecdsa.rs` 94-205. -/
def fromBytes (l : Bytes) : Nat := l.foldl (fun acc b => acc * 256 + b.toNat) 0

/-- `Address::from_slice(&recovered[12..])`, `ecdsa.rs` 148: slicing panics on fewer than 12 bytes and
`from_slice` on anything but 20. -/
def sliceAddress (out : Bytes) : Except Err Address :=
  if out.length < 12 then .error .panic
  else if (out.drop 12).length ≠ 20 then .error .panic
  else .ok (BitVec.ofNat 160 (fromBytes (out.drop 12)))

/-- `_recover`, `ecdsa.rs` 127-154. -/
def recoverInternal (P : Precompile) (hash : B256) (v : U8) (r s : B256) : Except Err Address := do
  let calldata := encodeCalldata hash v r s
  if v = 0#8 ∨ v = 1#8 then throw .invalidSignature
  let out ← orPanic .panic (P calldata)
  let recovered ← sliceAddress out
  if recovered = ZERO then throw .invalidSignature
  return recovered

/-- `recover`, `ecdsa.rs` 94-104. -/
def recover (P : Precompile) (hash : B256) (v : U8) (r s : B256) : Except Err Address := do
  checkIfMalleable s
  recoverInternal P hash v r s

end Ecdsa

namespace Eip712

/-- The constants and environment of an `IEip712` implementor (`eip712.rs` 61-85). -/
structure Domain where
  name : Bytes
  version : Bytes
  chainId : U256
  contract : Address

/-- The domain type string, `eip712.rs` 22. -/
def typeString : Bytes :=
  ascii "EIP712Domain(string name,string version,uint256 chainId,address verifyingContract)"

/-- The pre-image hashed by `domain_separator_v4`, `eip712.rs` 113-119. -/
def encodeDomain (K : Hash) (d : Domain) : Bytes :=
  be32 (K typeString) ++ (be32 (K d.name) ++ (be32 (K d.version) ++ (be32 d.chainId ++
    abiAddress d.contract)))

/-- `domain_separator_v4`, `eip712.rs` 112-122. -/
def domainSeparator (K : Hash) (d : Domain) : B256 := K (encodeDomain K d)

/-- The pre-image assembled by `to_typed_data_hash`, `eip712.rs` 53-56. -/
def preimage (domainSep structHash : B256) : Bytes :=
  [0x19#8, 0x01#8] ++ (be32 domainSep ++ be32 structHash)

/-- `to_typed_data_hash`, `eip712.rs` 49-58. -/
def toTypedDataHash (K : Hash) (domainSep structHash : B256) : B256 := K (preimage domainSep structHash)

/-- `hash_typed_data_v4`, `eip712.rs` 132-135. -/
def hashTypedData (K : Hash) (d : Domain) (structHash : B256) : B256 :=
  toTypedDataHash K (domainSeparator K d) structHash

/-- `eip712_domain`, `eip712.rs` 93-105: (fields, name, version, chain id, contract, salt, extensions). -/
def eip712Domain (d : Domain) : U8 × Bytes × Bytes × U256 × Address × B256 × List U256 :=
  (0x0f#8, d.name, d.version, d.chainId, d.contract, 0#256, [])

end Eip712

end Verif
