import Verif.Model.GenericHash
import Verif.Proofs.Merkle
/-! # C93: hashing one value or a pair hashes the bytes the values are made of -/

namespace Verif.Props.GenericHash
open Verif Verif.GenericHash
open Verif.Merkle (Builder keccakBuilder)
variable {S Out H : Type}

private theorem foldl_keccak (K : Hash) (cs : List Bytes) (st : Bytes) :
    cs.foldl (keccakBuilder K).update st = st ++ cs.flatten := by
  induction cs generalizing st with
  | nil => simp
  | cons c cs ih =>
    rw [List.foldl_cons, ih]
    simp [keccakBuilder, List.append_assoc]

/-- **C93** With the Keccak builder, the hash of one value is the hash of its bytes, whatever pieces the type feeds
them in; the hash of a pair is the hash of the bytes of the first followed by those of the second. -/
theorem C93_hash_of_bytes (K : Hash) (T : HashImpl H) (a b : H) :
    hashOne T (keccakBuilder K) a = K (T.chunks a).flatten ∧
    hashPair T (keccakBuilder K) a b (keccakBuilder K).init = K ((T.chunks a).flatten ++ (T.chunks b).flatten) := by
  constructor
  · simp only [hashOne, feed, foldl_keccak]; rfl
  · simp only [hashPair, feed, foldl_keccak]; rfl

/-- **C93** For any hasher at all: the commutative hash is one of the two ordered hashes, the one that starts with the
smaller value, and swapping the arguments does not change it when any two different values are comparable. -/
theorem C93_commutative (T : HashImpl H) (gt : H → H → Bool) (hanti : ∀ a b, gt a b = true → gt b a = false)
    (htotal : ∀ a b, gt a b = false → gt b a = false → a = b) (B : Builder S Out) (a b : H) (st : S) :
    commutativeHashPair T gt B a b st = commutativeHashPair T gt B b a st ∧
    (gt b a = true → commutativeHashPair T gt B a b st = hashPair T B a b st) ∧
    (gt a b = true → commutativeHashPair T gt B a b st = hashPair T B b a st) := by
  unfold commutativeHashPair
  refine ⟨?_, fun h => by rw [hanti b a h]; rfl, fun h => by rw [h]; rfl⟩
  cases h1 : gt a b with
  | true => rw [hanti a b h1]; rfl
  | false =>
    cases h2 : gt b a with
    | true => rfl
    | false => rw [htotal a b h1 h2]

/-- **C93** Totality of the order is needed: with two incomparable values the two orders give two different hashes
(the type only has to be `PartialOrd`).  Shown for a hasher that keeps everything it absorbed. -/
theorem C93_partial_order_is_not_enough :
    ∃ (T : HashImpl Bool) (gt : Bool → Bool → Bool), (∀ a b, gt a b = true → gt b a = false) ∧
      commutativeHashPair T gt ⟨([] : Bytes), (· ++ ·), id⟩ true false [] ≠
      commutativeHashPair T gt ⟨([] : Bytes), (· ++ ·), id⟩ false true [] :=
  ⟨⟨fun b => [[if b then 1#8 else 0#8]]⟩, fun _ _ => false, by simp, by decide⟩

/-- **C93** For 32-byte words with any hasher: the single hash absorbs the 32 bytes once; the functions used by the
Merkle proofs are these functions, with `>` the order of the words as numbers. -/
theorem C93_words (B : Builder S B256) (a b : B256) (st : S) :
    Merkle.hashOne B a = B.finalize (B.update B.init (be32 a)) ∧
    Merkle.hashOne B a = hashOne word B a ∧
    Merkle.hashPair B a b st = hashPair word B a b st ∧
    Merkle.commutativeHashPair B a b st = commutativeHashPair word (fun a b => decide (b < a)) B a b st := by
  refine ⟨rfl, rfl, rfl, ?_⟩
  unfold Merkle.commutativeHashPair commutativeHashPair
  rw [Proofs.Merkle.lexLt_be32]
  rfl

/-- **C93** So with Keccak-256: one word, and a pair in either order. -/
theorem C93_keccak_words (K : Hash) (a b : B256) :
    Merkle.hashOne (keccakBuilder K) a = K (be32 a) ∧
    (a ≤ b → Merkle.commutativeHashPair (keccakBuilder K) a b (keccakBuilder K).init = K (be32 a ++ be32 b) ∧
      Merkle.commutativeHashPair (keccakBuilder K) b a (keccakBuilder K).init = K (be32 a ++ be32 b)) := by
  have hs : Merkle.hashPair (keccakBuilder K) a b (keccakBuilder K).init = K (be32 a ++ be32 b) := rfl
  refine ⟨by simp [Merkle.hashOne, Merkle.hashBytes, keccakBuilder], fun h => ?_⟩
  have h1 : ¬ b < a := by simpa [BitVec.not_lt] using h
  constructor
  · rw [(C93_words _ a b _).2.2.2]
    unfold commutativeHashPair
    rw [if_neg (by simpa using h1)]
    exact hs
  · rw [(C93_words _ b a _).2.2.2]
    unfold commutativeHashPair
    by_cases hab : a < b
    · rw [if_pos (by simpa using hab)]
      exact hs
    · have : a = b := BitVec.le_antisymm h (by simpa [BitVec.not_lt] using hab)
      subst this
      rw [if_neg (by simp)]
      exact hs

-- a type fed in two pieces; the orders of the words meet the hypotheses of `C93_commutative`
example (K : Hash) :
    hashOne (H := U8 × U8) ⟨fun p => [[p.1], [p.2]]⟩ (keccakBuilder K) (1#8, 2#8) = K [1#8, 2#8] :=
  (C93_hash_of_bytes K ⟨fun p => [[p.1], [p.2]]⟩ (1#8, 2#8) (1#8, 2#8)).1
example (B : Builder S Out) (st : S) :=
  C93_commutative word (fun a b => decide (b < a))
    (fun a b h => by simp [BitVec.lt_def] at h ⊢; omega)
    (fun a b h1 h2 => by
      apply BitVec.eq_of_toNat_eq
      simp [BitVec.lt_def] at h1 h2
      omega) B 5#256 3#256 st
example : (3#256 ≤ 5#256) := by decide

end Verif.Props.GenericHash
