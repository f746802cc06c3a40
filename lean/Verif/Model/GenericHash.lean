import Verif.Model.Merkle
/-!
# Model of `lib/crypto/src/hash.rs` for arbitrary hashable types

`Hash::hash` is generic in the hasher and can only call `update` on it, so an implementation of `Hash` is the list of
byte strings it feeds, in order.  `Verif.Merkle.Builder` is the hasher and its builder.
-/

namespace Verif.GenericHash
open Verif.Merkle (Builder)

/-- `Hash`, `hash.rs` 13-16: the byte strings that a value passes to `update`, one after the other. -/
structure HashImpl (H : Type) where
  chunks : H → List Bytes

variable {S Out H : Type}

/-- `Hash::hash`, `hash.rs` 15: feed the value into a hasher. -/
def feed (T : HashImpl H) (B : Builder S Out) (x : H) (st : S) : S := (T.chunks x).foldl B.update st

/-- `build_hasher` then `hash` then `finalize`: `hash_one`, `hash.rs` 112-125. -/
def hashOne (T : HashImpl H) (B : Builder S Out) (x : H) : Out := B.finalize (feed T B x B.init)

/-- `hash_pair`, `hash.rs` 130-138. -/
def hashPair (T : HashImpl H) (B : Builder S Out) (a b : H) (st : S) : Out :=
  B.finalize (feed T B b (feed T B a st))

/-- `commutative_hash_pair`, `hash.rs` 143-154; `gt` is the `>` of the type's `PartialOrd`. -/
def commutativeHashPair (T : HashImpl H) (gt : H → H → Bool) (B : Builder S Out) (a b : H) (st : S) : Out :=
  if gt a b then hashPair T B b a st else hashPair T B a b st

/-- `impl Hash for [u8; 32]`, `keccak.rs` 43-48: the bytes themselves. -/
def word : HashImpl B256 := ⟨fun x => [be32 x]⟩

end Verif.GenericHash
