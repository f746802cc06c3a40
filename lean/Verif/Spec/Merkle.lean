import Verif.Model.Merkle
/-!
# Specification vocabulary for Merkle trees

Trees are plain binary trees; nothing here refers to the verification algorithm.
-/

namespace Verif.Spec.Merkle
open Verif.Merkle (Builder)

/-- The hash of `x` followed by `y`: 64 bytes fed to a fresh hasher in two updates. -/
def pairHash {S : Type} (B : Builder S B256) (xy : B256 × B256) : B256 :=
  B.finalize (B.update (B.update B.init (be32 xy.1)) (be32 xy.2))

/-- The two values in increasing order. -/
def sorted (a b : B256) : B256 × B256 := if a ≤ b then (a, b) else (b, a)

/-- A Merkle tree of any shape. -/
inductive MTree where
  | leaf (v : B256)
  | node (l r : MTree)
  deriving DecidableEq

variable {S : Type} (B : Builder S B256)

/-- The root: the hash of a node is the hash of the sorted hashes of its children. -/
def MTree.root : MTree → B256
  | .leaf v => v
  | .node l r => pairHash B (sorted (l.root) (r.root))

/-- The leaves, from left to right. -/
def MTree.leaves : MTree → List B256
  | .leaf v => [v]
  | .node l r => l.leaves ++ r.leaves

/-- The hashes of all nodes, leaves included. -/
def MTree.nodes : MTree → List B256
  | .leaf v => [v]
  | .node l r => (MTree.node l r).root B :: (l.nodes ++ r.nodes)

/-- Every leaf with its siblings on the way to the root. -/
def MTree.leafProofs : MTree → List (B256 × List B256)
  | .leaf v => [(v, [])]
  | .node l r =>
    l.leafProofs.map (fun e => (e.1, e.2 ++ [r.root B])) ++ r.leafProofs.map (fun e => (e.1, e.2 ++ [l.root B]))

/-- Every node (leaves and inner nodes) with its siblings on the way to the root. -/
def MTree.nodeProofs : MTree → List (B256 × List B256)
  | .leaf v => [(v, [])]
  | .node l r =>
    ((MTree.node l r).root B, []) ::
      (l.nodeProofs.map (fun e => (e.1, e.2 ++ [r.root B])) ++ r.nodeProofs.map (fun e => (e.1, e.2 ++ [l.root B])))

/-- All leaves are at depth `d`. -/
def MTree.Uniform : Nat → MTree → Prop
  | 0, .leaf _ => True
  | d + 1, .node l r => l.Uniform d ∧ r.Uniform d
  | _, _ => False

/-- Two different pairs of 32-byte values with the same hash. -/
def PairCollision (u v : B256 × B256) : Prop := u ≠ v ∧ pairHash B u = pairHash B v

/-- The pairs that are hashed to compute the root. -/
def MTree.pairs : MTree → List (B256 × B256)
  | .leaf _ => []
  | .node l r => sorted (l.root B) (r.root B) :: (l.pairs ++ r.pairs)

/-- The tree a single proof talks about: the claimed leaf merged with each sibling in turn. -/
def pathTree (x : B256) (proof : List B256) : MTree := proof.foldl (fun t s => .node t (.leaf s)) (.leaf x)

/-- The tree a multi-proof talks about, computed with queues: take the next tree of the queue, merge it with the
following one (flag set) or with the next proof element (flag clear), put the result at the end of the queue. -/
def rebuild : (flags : List Bool) → (queue : List MTree) → (proof : List B256) → Option MTree
  | [], [t], [] => some t
  | true :: fs, a :: b :: q, ps => rebuild fs (q ++ [.node a b]) ps
  | false :: fs, a :: q, p :: ps => rebuild fs (q ++ [.node a (.leaf p)]) ps
  | _, _, _ => none

/-! ## Trees over byte strings: leaves are hashes of encoded data -/

/-- A tree whose leaves are byte strings. -/
inductive DataTree where
  | leaf (d : Bytes)
  | node (l r : DataTree)

/-- The byte strings at the leaves. -/
def DataTree.data : DataTree → List Bytes
  | .leaf d => [d]
  | .node l r => l.data ++ r.data

/-- The Merkle tree of their hashes. -/
def DataTree.tree (K : Hash) : DataTree → MTree
  | .leaf d => .leaf (K d)
  | .node l r => .node (l.tree K) (r.tree K)

/-- The 64 bytes of a pair. -/
def pairBytes (u : B256 × B256) : Bytes := be32 u.1 ++ be32 u.2

/-! ## Trees stored in an array, as the usual generators do -/

/-- `tree 0` is the root, the children of `i` are `2 i + 1` and `2 i + 2`; there are `n` leaves, at indices
`n - 1` to `2 n - 2`. -/
def IsHeap (n : Nat) (tree : Nat → B256) : Prop :=
  ∀ i, i < n - 1 → tree i = pairHash B (sorted (tree (2 * i + 1)) (tree (2 * i + 2)))

def parent (i : Nat) : Nat := (i - 1) / 2
def sibling (i : Nat) : Nat := if i % 2 = 1 then i + 1 else i - 1

/-- Siblings from node `i` to the root. -/
def heapProof (tree : Nat → B256) : (fuel : Nat) → (i : Nat) → List B256
  | 0, _ => []
  | fuel + 1, i => if i = 0 then [] else tree (sibling i) :: heapProof tree fuel (parent i)

/-- The usual multi-proof generator (OpenZeppelin's `merkle-tree` library, `getMultiProof`): a queue of indices in
decreasing order; take the first; if its sibling is next, take it too, otherwise put the sibling's hash in the
proof; put the parent at the end.  Returns the proof and the flags; `none` if the fuel is used up. -/
def heapMultiProof (tree : Nat → B256) : (fuel : Nat) → (queue : List Nat) → Option (List B256 × List Bool)
  | 0, _ => none
  | _ + 1, [] => some ([tree 0], [])
  | fuel + 1, j :: q =>
    if j = 0 then some ([], [])
    else if q.head? = some (sibling j) then
      (heapMultiProof tree fuel (q.tail ++ [parent j])).map fun r => (r.1, true :: r.2)
    else
      (heapMultiProof tree fuel (q ++ [parent j])).map fun r => (tree (sibling j) :: r.1, false :: r.2)

end Verif.Spec.Merkle
