import Verif.Model.Crypto
/-!
# Model of `lib/crypto/src/{hash,keccak,merkle}.rs`

A hasher is an arbitrary state machine that absorbs byte strings.  `[u8; 32]` values are 256-bit words; their bytes
are `be32`, and comparison is the lexicographic one of byte arrays.  Out-of-range indexing is the explicit error
`panic`.
-/

namespace Verif.Merkle

/-- `Hasher` and `BuildHasher`, `hash.rs` 27-124: the freshly built state, `update` and `finalize`. -/
structure Builder (S Out : Type) where
  init : S
  update : S → Bytes → S
  finalize : S → Out

variable {S Out : Type}

/-- `impl Hash for [u8; 32]`, `keccak.rs` 43-48. -/
def hashBytes (B : Builder S Out) (x : B256) (st : S) : S := B.update st (be32 x)

/-- `hash_one`, `hash.rs` 112-125, for `[u8; 32]`. -/
def hashOne (B : Builder S Out) (x : B256) : Out := B.finalize (hashBytes B x B.init)

/-- `hash_pair`, `hash.rs` 131-139. -/
def hashPair (B : Builder S Out) (a b : B256) (st : S) : Out := B.finalize (hashBytes B b (hashBytes B a st))

/-- `<` on byte arrays of the same length: lexicographic.
Used by `lib/crypto/src/hash.rs` 144-155. -/
def lexLt : Bytes → Bytes → Bool
  | a :: as, b :: bs => if a = b then lexLt as bs else decide (a < b)
  | _, _ => false

/-- `commutative_hash_pair`, `hash.rs` 144-154, for `[u8; 32]`. -/
def commutativeHashPair (B : Builder S Out) (a b : B256) (st : S) : Out :=
  if lexLt (be32 b) (be32 a) then hashPair B b a st else hashPair B a b st

/-- `KeccakBuilder` and `Keccak256`, `keccak.rs` 11-41; the permutation itself (`tiny_keccak`) is the parameter
`K` applied to everything absorbed. -/
def keccakBuilder (K : Hash) : Builder Bytes B256 := ⟨[], fun st l => st ++ l, K⟩

/-- `verify_with_builder`, `merkle.rs` 178-189. -/
def verifyWithBuilder (B : Builder S B256) (proof : List B256) (root leaf : B256) : Bool :=
  decide (proof.foldl (fun leaf hash => commutativeHashPair B leaf hash B.init) leaf = root)

/-- `verify`, `merkle.rs` 60-62. -/
def verify (K : Hash) (proof : List B256) (root leaf : B256) : Bool :=
  verifyWithBuilder (keccakBuilder K) proof root leaf

/-- `MultiProofError`, `merkle.rs` 326-344, plus panics (an index out of range). -/
inductive Err where
  | invalidProofLength
  | invalidRootChild
  | invalidTotalHashes
  | noLeaves
  | panic
  deriving DecidableEq, Repr

/-- The loop of `verify_multi_proof_with_builder`, `merkle.rs` 291-312. -/
def multiLoop (B : Builder S B256) (proof : List B256) :
    (flags : List Bool) → (hashes : List B256) → (hashesPos proofPos : Nat) → Except Err (List B256)
  | [], hashes, _, _ => .ok hashes
  | flag :: flags, hashes, hashesPos, proofPos =>
    match hashes[hashesPos]? with
    | none => .error .panic
    | some a =>
      let hashesPos := hashesPos + 1
      if flag then
        match hashes[hashesPos]? with
        | none => .error .invalidRootChild
        | some b => multiLoop B proof flags (hashes ++ [commutativeHashPair B a b B.init]) (hashesPos + 1) proofPos
      else
        match proof[proofPos]? with
        | none => .error .invalidProofLength
        | some b => multiLoop B proof flags (hashes ++ [commutativeHashPair B a b B.init]) hashesPos (proofPos + 1)

/-- `verify_multi_proof_with_builder`, `merkle.rs` 257-318.  Lengths are natural numbers: the sums of lengths of
slices in memory fit a `usize`. -/
def verifyMultiProofWithBuilder (B : Builder S B256) (proof : List B256) (flags : List Bool) (root : B256)
    (leaves : List B256) : Except Err Bool :=
  let total := flags.length
  if leaves.length + proof.length ≠ total + 1 then .error .invalidTotalHashes
  else if total = 0 then
    match leaves.head? with
    | some l => .ok (decide (root = l))
    | none =>
      match proof[0]? with
      | none => .error .panic
      | some p => .ok (decide (root = p))
  else if leaves.isEmpty then .error .noLeaves
  else
    match multiLoop B proof flags leaves 0 0 with
    | .error e => .error e
    | .ok hashes =>
      match hashes[total + leaves.length - 1]? with
      | none => .error .panic
      | some rebuilt => .ok (decide (root = rebuilt))

/-- `verify_multi_proof`, `merkle.rs` 128-141. -/
def verifyMultiProof (K : Hash) (proof : List B256) (flags : List Bool) (root : B256) (leaves : List B256) :
    Except Err Bool := verifyMultiProofWithBuilder (keccakBuilder K) proof flags root leaves

end Verif.Merkle
