import Verif.Model.Merkle
import Verif.Model.UintText
import Verif.Model.Checkpoints
import Verif.Model.Crypto
import Verif.Proofs.KeccakFast
/-!
# The model gives the answers the repository's own tests expect

Nothing here is a property: each `example` is one test of `/repo` with its numbers, evaluated in the model by the
kernel.  They tie the definitions the theorems are about to the numbers the project itself checks, so that a model
which misreads the code (a byte order, the order of the two hashes, a limb order) does not build.
-/

namespace Verif.Props.KnownAnswers
open Verif

set_option maxRecDepth 100000

/-! ## Merkle proofs, `lib/crypto/src/merkle.rs` 502-781, on the real hash -/

open Verif.Merkle

/-- `zero_length_proof_with_matching_leaf_and_root`, 502-506. -/
example : verify Spec.Keccak.keccak256 [] 0 0 = true := by decide +kernel

/-- `multi_proof_empty_flags`, 509-516. -/
example : verifyMultiProof Spec.Keccak.keccak256
    [0x0202020202020202020202020202020202020202020202020202020202020202] [] 0
    [0x0101010101010101010101010101010101010101010101010101010101010101] = .error .invalidTotalHashes := by
  decide +kernel

/-- `multi_proof_minimum_valid_case`, 519-524. -/
example : verifyMultiProof Spec.Keccak.keccak256 [] [] 0 [0] = .ok true := by decide +kernel

/-- The proof of `verifies_valid_proofs`, 542-549. -/
def proof1 : List B256 :=
  [0x7051e21dd45e25ed8c605a53da6f77de151dcbf47b0e3ced3c5d8b61f4a13dbc,
   0x1629d3b5b09b30449d258e35bbd09dd5e8a3abb91425ef810dc27eef995f7490,
   0x633d21baee4bbe5ed5c51ac0c68f7946b8f28d2937f0ca7ef5e1ea9dbda52e7a,
   0x8a65d3006581737a3bab46d9e4775dbc1821b1ea813d350a13fcd4f15a8942ec,
   0xd6c3f3e36cd23ba32443f6a687ecea44ebfe2b8759a62cccf7759ec1fb563c76,
   0x276141cd72b9b81c67f7182ff8a550b76eb96de9248a3ec027ac048c79649115]

/-- `verifies_valid_proofs`, 527-560: a leaf is proved, -/
example : verify Spec.Keccak.keccak256 proof1
    0xb89eb120147840e813a77109b44063488a346b4ca15686185cf314320560d3f3
    0x6efbf77e320741a027b50f02224545461f97cd83762d5fbfeb894b9eb3287c16 = true := by
  rw [Proofs.KeccakFast.keccak256_eq]; decide +kernel

/-- and so is the node above it. -/
example : verify Spec.Keccak.keccak256 proof1.tail
    0xb89eb120147840e813a77109b44063488a346b4ca15686185cf314320560d3f3
    (commutativeHashPair (keccakBuilder Spec.Keccak.keccak256)
      0x6efbf77e320741a027b50f02224545461f97cd83762d5fbfeb894b9eb3287c16
      0x7051e21dd45e25ed8c605a53da6f77de151dcbf47b0e3ced3c5d8b61f4a13dbc
      (keccakBuilder Spec.Keccak.keccak256).init) = true := by
  rw [Proofs.KeccakFast.keccak256_eq]; decide +kernel

/-- `rejects_invalid_proofs`, 563-580. -/
example : verify Spec.Keccak.keccak256 [0x7b0c6cd04b82bfc0e250030a5d2690c52585e0cc6a4f3bc7909d7723b0236ece]
    0xf2129b5a697531ef818f644564a6552b35c549722385bc52aa7fe46c0b5f46b1
    0x9c15a6a0eaeed500fd9eed4cbeab71f797cefcc67bfd46683e4d2e6ff7f06d1c = false := by
  rw [Proofs.KeccakFast.keccak256_eq]; decide +kernel

/-- `rejects_proofs_with_invalid_length`, 583-603. -/
example : verify Spec.Keccak.keccak256 [0x19ba6c6333e0e9a15bf67523e0676e2f23eb8e574092552d5e888c64a4bb3681]
    0xf2129b5a697531ef818f644564a6552b35c549722385bc52aa7fe46c0b5f46b1
    0x9c15a6a0eaeed500fd9eed4cbeab71f797cefcc67bfd46683e4d2e6ff7f06d1c = false := by
  rw [Proofs.KeccakFast.keccak256_eq]; decide +kernel

/-- `verifies_valid_multi_proof`, 606-631. -/
example : verifyMultiProof Spec.Keccak.keccak256
    [0x9a4f64e953595df82d1b4f570d34c4f4f0cfaf729a61e9d60e83e579e1aa283e,
     0x8076923e76cf01a7c048400a2304c9a9c23bbbdac3a98ea3946340fdafbba34f]
    [false, true, false, true]
    0x6deb52b5da8fd108f79fab00341f38d2587896634c646ee52e49f845680a70c8
    [0x19ba6c6333e0e9a15bf67523e0676e2f23eb8e574092552d5e888c64a4bb3681,
     0xc62a8cfa41edc0ef6f6ae27a2985b7d39c7fea770787d7e104696c6e81f64848,
     0xeba909cf4bb90c6922771d7f126ad0fd11dfde93f3937a196274e1ac20fd2f5b] = .ok true := by
  rw [Proofs.KeccakFast.keccak256_eq]; decide +kernel

/-- `rejects_invalid_multi_proof`, 634-657. -/
example : verifyMultiProof Spec.Keccak.keccak256 [] [true, true]
    0x6deb52b5da8fd108f79fab00341f38d2587896634c646ee52e49f845680a70c8
    [0x34e6ce3d0d73f6bff2ee1e865833d58e283570976d70b05f45c989ef651ef742,
     0xaa28358fb75b314c899e16d7975e029d18b4457fd8fd831f2e6c17ffd17a1d7e,
     0xe0fd7e6916ff95d933525adae392a17e247819ebecc2e63202dfec7005c60560] = .ok false := by
  rw [Proofs.KeccakFast.keccak256_eq]; decide +kernel

/-- `errors_invalid_multi_proof_leaves`, 660-693: whatever the random word `fill` is. -/
example (fill : B256) : verifyMultiProof Spec.Keccak.keccak256
    [0x19ba6c6333e0e9a15bf67523e0676e2f23eb8e574092552d5e888c64a4bb3681, fill,
     0x03707d7802a71ca56a8ad8028da98c4f1dbec55b31b4a25d536b5309cc20eda9] [false, false, false]
    0x8f7234e8cfe39c08ca84a3a3e3274f574af26fd15165fe29e09cbab742daccd9
    [0x9c15a6a0eaeed500fd9eed4cbeab71f797cefcc67bfd46683e4d2e6ff7f06d1c,
     0x9a4f64e953595df82d1b4f570d34c4f4f0cfaf729a61e9d60e83e579e1aa283e] = .error .invalidTotalHashes := by
  simp [verifyMultiProof, verifyMultiProofWithBuilder]

/-- `errors_multi_proof_len_invalid`, 696-729: the test asks for an error, and the lengths agree here
(2 + 3 = 4 + 1), so the error is that the proof is too short for four flags that all ask for one of its words. -/
example (fill : B256) : verifyMultiProof Spec.Keccak.keccak256
    [0x19ba6c6333e0e9a15bf67523e0676e2f23eb8e574092552d5e888c64a4bb3681, fill,
     0x03707d7802a71ca56a8ad8028da98c4f1dbec55b31b4a25d536b5309cc20eda9] [false, false, false, false]
    0x8f7234e8cfe39c08ca84a3a3e3274f574af26fd15165fe29e09cbab742daccd9
    [0x9a4f64e953595df82d1b4f570d34c4f4f0cfaf729a61e9d60e83e579e1aa283e,
     0x9c15a6a0eaeed500fd9eed4cbeab71f797cefcc67bfd46683e4d2e6ff7f06d1c] = .error .invalidProofLength := by
  simp [verifyMultiProof, verifyMultiProofWithBuilder, multiLoop]

/-- `verifies_empty_leaves_multi_proof`, 732-748. -/
example : verifyMultiProof Spec.Keccak.keccak256
    [0x8f7234e8cfe39c08ca84a3a3e3274f574af26fd15165fe29e09cbab742daccd9] []
    0x8f7234e8cfe39c08ca84a3a3e3274f574af26fd15165fe29e09cbab742daccd9 [] = .ok true := by decide +kernel

/-- `errors_manipulated_multi_proof`, 751-781. -/
example : verifyMultiProof Spec.Keccak.keccak256
    [0x5e941ddd8f313c0b39f92562c0eca709c3d91360965d396aaef584b3fa76889a,
     0x5e941ddd8f313c0b39f92562c0eca709c3d91360965d396aaef584b3fa76889a] [true, true, false]
    0xf2d552e1e4c59d4f0fa2b80859febc9e4bdc915dff37c56c858550d8b64659a5
    [0x1f23ad5fc0ee6ccbe2f3d30df856758f05ad9d03408a51a99c1c9f0854309db2,
     0x613994f4e324d0667c07857cd5d147994bc917da5d07ee63fc3f0a1fe8a18e34] = .error .invalidRootChild := by
  rw [Proofs.KeccakFast.keccak256_eq]; decide +kernel

/-! ## Wide integers, `lib/crypto/src/arithmetic/uint.rs` 887-1009 -/

open Verif.Uint

/-- `Uint::new` of four limbs, lowest first. -/
def new4 (a b c d : Nat) : Uint 4 := ⟨fun i => BitVec.ofNat 64 ([a, b, c, d].getD i.val 0)⟩

/-- The limbs of an integer, lowest first. -/
def limbs {N : Nat} (x : Uint N) : List Nat := (List.range N).map fun i => (x.get i).toNat

/-- `convert_from_str_radix`, 899-920. -/
example : (fromStrRadix (N := 4)
      (ascii "28948022309329048855892746252171976963363056481941647379679742748393362948097") 10).map limbs =
    some [10108024940646105089, 2469829653919213789, 0, 4611686018427387904] := by decide +kernel
example : (fromStrRadix (N := 1) (ascii "18446744069414584321") 10).map limbs =
    (fromStrRadix (N := 1) (ascii "1111111111111111111111111111111100000000000000000000000000000001") 2).map limbs ∧
    (fromStrRadix (N := 1) (ascii "18446744069414584321") 10).map limbs = some [18446744069414584321] := by
  decide +kernel

/-- `uint_bit_iterator_be`, 943-950. -/
example : trimmed (bitsBe (new4 0b1100 0 0 0)) = [true, true, false, false] := by decide +kernel

/-- `num_bits`, 953-965. -/
example : ctNumBits (new4 0b1100 0 0 0) = 4 ∧ ctNumBits (new4 0 0b1100 0 0) = 64 + 4 ∧
    ctNumBits (new4 0b11 0b11 0b11 0b11) = 64 + 64 + 64 + 2 := by decide +kernel

/-- `ct_rem`, 968-974. -/
example : (do
      let dividend ← fromStrRadix (N := 4) (ascii "43129923721897334698312931") 10
      let divisor ← fromStrRadix (N := 4) (ascii "375923422") 10
      let r ← WideUint.rem ⟨dividend, Uint.ZERO⟩ divisor
      pure (limbs r)) = some [216456157, 0, 0, 0] := by decide +kernel

/-- `ct_ge_le_gt_lt_eq_ne`, 977-1007. -/
example : let a := new4 0 0 0 5; let b := new4 4 0 0 0
    (ctGe a b, ctGt a b, ctLe a b, ctLt a b, ctEq a b, ctNe a b) = (true, true, false, false, false, true) := by
  decide +kernel
example : let a := new4 0 0 0 5; let b := new4 0 0 0 6
    (ctGe a b, ctGt a b, ctLe a b, ctLt a b, ctEq a b, ctNe a b) = (false, false, true, true, false, true) := by
  decide +kernel
example : let a := new4 0 0 1 2; let b := new4 0 0 1 2
    (ctGe a b, ctGt a b, ctLe a b, ctLt a b, ctEq a b, ctNe a b) = (true, false, true, false, true, false) := by
  decide +kernel

/-! ## Bits, `lib/crypto/src/bits.rs` 34-98 -/

/-- `known_pattern`, 41-54. -/
example : limbBitsBe 0b1100#64 = List.replicate 60 false ++ [true, true, false, false] ∧
    trimmed (limbBitsBe 0b1100#64) = [true, true, false, false] := by decide +kernel

/-- `edge_cases`, 91-98, at the widths 8, 16, 32, 64 and 128. -/
example : ∀ w ∈ [8, 16, 32, 64, 128],
    (trimmed (limbBitsBe (0#w))).length = 0 ∧ (limbBitsBe (0#w)).length = w ∧
    (trimmed (limbBitsBe (BitVec.allOnes w))).length = w ∧ (limbBitsBe (BitVec.allOnes w)).length = w ∧
    (trimmed (limbBitsBe (1#w))).length = 1 := by decide +kernel

/-! ## Checkpoints, `contracts/src/utils/structs/checkpoints/mod.rs` 377-660 -/

open Verif.Checkpoints

/-- The trace after these pushes, with keys of 96 and values of 160 bits (`S160`). -/
def pushed (l : List (Nat × Nat)) : Except Checkpoints.Err (Trace 96 160) :=
  l.foldlM (fun t p => (push t (BitVec.ofNat 96 p.1) (BitVec.ofNat 160 p.2)).map fun r => r.2.2) []

/-- `push`, 393-430. -/
example : (do
      let t ← pushed [(1, 11), (2, 22), (3, 33)]
      pure (Checkpoints.length t, ← at' t 0, ← at' t 1, ← at' t 2)) =
    .ok (3#256, (1#96, 11#160), (2#96, 22#160), (3#96, 33#160)) := by decide +kernel

/-- `push_same_value`, 433-469. -/
example : (do
      let t ← pushed [(1, 11), (2, 22), (2, 222)]
      pure (Checkpoints.length t, ← at' t 0, ← at' t 1)) =
    .ok (2#256, (1#96, 11#160), (2#96, 222#160)) := by decide +kernel

/-- `lower_lookup`, 472-502. -/
example : (do
      let t ← pushed [(1, 11), (3, 33), (5, 55)]
      [2, 3, 4, 6].mapM fun k => lowerLookup t (BitVec.ofNat 96 k)) =
    .ok [33#160, 33#160, 55#160, 0#160] := by decide +kernel

/-- `upper_lookup`, 505-535. -/
example : (do
      let t ← pushed [(1, 11), (3, 33), (5, 55)]
      [2, 1, 4, 0].mapM fun k => upperLookup t (BitVec.ofNat 96 k)) =
    .ok [11#160, 11#160, 33#160, 0#160] := by decide +kernel

/-- `upper_lookup_recent`, 538-600. -/
example : (do
      let t ← pushed [(1, 11), (3, 33), (5, 55)]
      [2, 1, 4].mapM fun k => upperLookupRecent t (BitVec.ofNat 96 k)) =
    .ok [11#160, 11#160, 33#160] := by decide +kernel
example : (do
      let t ← pushed [(1, 11), (3, 33), (5, 55), (7, 77), (9, 99), (11, 111)]
      [7, 9, 11, 0].mapM fun k => upperLookupRecent t (BitVec.ofNat 96 k)) =
    .ok [77#160, 99#160, 111#160, 0#160] := by decide +kernel

/-- `latest`, 603-618, and `latest_checkpoint`, 621-639. -/
example : (do pure (← latest (← pushed []), ← latestCheckpoint (← pushed []))) =
    (.ok (0#160, none) : Except Checkpoints.Err _) := by decide +kernel
example : (do
      let t ← pushed [(1, 11), (3, 33), (5, 55)]
      pure (← latest t, ← latestCheckpoint t)) = .ok (55#160, some (5#96, 55#160)) := by decide +kernel

/-- `error_when_unordered_insertion`, 642-660. -/
example : pushed [(1, 11), (3, 33), (2, 22)] = .error .unorderedInsertion := by decide +kernel

/-! ## Signatures and typed data -/

/-- `prepares_calldata`, `contracts/src/utils/cryptography/ecdsa.rs` 225-229. -/
example : Ecdsa.encodeCalldata 0xa1de988600a42c4b4ab089b619297c17d53cffae5d5120d82d8a92d0bb3b78f2 28
    0x65e72b1cf8e189569963750e10ccb88fe89389daeeb8b735277d59cd6885ee82
    0x3eb5a6982b540f185703492dab77b863a88ce01f27e21ade8b2879c10fc9e653 =
    (List.range 128).map fun i => BitVec.ofNat 8
      (0xa1de988600a42c4b4ab089b619297c17d53cffae5d5120d82d8a92d0bb3b78f2000000000000000000000000000000000000000000000000000000000000001c65e72b1cf8e189569963750e10ccb88fe89389daeeb8b735277d59cd6885ee823eb5a6982b540f185703492dab77b863a88ce01f27e21ade8b2879c10fc9e653
        / 256 ^ (127 - i)) := by decide +kernel

/-- `test_to_typed_data_hash`, `contracts/src/utils/cryptography/eip712.rs` 179-196. -/
example : Eip712.toTypedDataHash Spec.Keccak.keccak256 0x8b73c3c69bb8fe3d512ecc4cf759cc79239f7b179b0ffacaa9a75d522b39400f
    0x7379746c75730000000000000000000000000000000000000000000000000000 =
    0xcefc47137f8165d8270433dd62e395f5672966b83a113a7bb7b2805730a2197e := by
  rw [Proofs.KeccakFast.keccak256_eq]; decide +kernel

end Verif.Props.KnownAnswers
