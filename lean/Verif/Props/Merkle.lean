import Verif.Proofs.Merkle
/-!
# C74–C77: Merkle proofs

`B` is any hasher (any state machine absorbing byte strings), `K` any hash function of byte strings.  Nothing is
assumed about them: where a real hash function would have to be collision resistant, the theorems exhibit two
different inputs with the same hash among the finitely many that the tree builder and the verifier have hashed.
-/

namespace Verif.Props.Merkle
open Verif Verif.Merkle Verif.Spec.Merkle
variable {S : Type} (B : Builder S B256)

/-- A small hasher used in the examples: a polynomial in the bytes. -/
def toyHash : Hash := fun l => BitVec.ofNat 256 (l.foldl (fun acc b => (acc * 257 + b.toNat + 1) % 1000003) 7)

/-- A tree of three leaves used in the examples. -/
def toyTree : MTree := .node (.node (.leaf 11#256) (.leaf 5#256)) (.leaf 9#256)

/-! ## C77 -/

/-- C77: the order of the two arguments does not matter. -/
theorem C77_commutative (a b : B256) :
    commutativeHashPair B a b B.init = commutativeHashPair B b a B.init := by
  rw [Proofs.Merkle.comm_eq, Proofs.Merkle.comm_eq, Proofs.Merkle.sorted_comm]

/-- C77: it is the hash of the smaller value followed by the larger one, the comparison of byte arrays being the
comparison of the numbers they spell; for the same hasher started in any state. -/
theorem C77_sorted (a b : B256) (st : S) :
    commutativeHashPair B a b st = if a.toNat ≤ b.toNat then hashPair B a b st else hashPair B b a st := by
  unfold commutativeHashPair
  rw [Proofs.Merkle.lexLt_be32]
  by_cases h : b < a
  · rw [if_pos (by simpa using h), if_neg (by rw [BitVec.lt_def] at h; omega)]
  · rw [if_neg (by simpa using h), if_pos (by rw [BitVec.lt_def] at h; omega)]

/-- C77: with Keccak, the hash of 64 bytes: the smaller value, then the larger one. -/
theorem C77_keccak (K : Hash) (a b : B256) :
    commutativeHashPair (keccakBuilder K) a b [] =
      if a.toNat ≤ b.toNat then K (be32 a ++ be32 b) else K (be32 b ++ be32 a) := by
  rw [C77_sorted]
  unfold hashPair hashBytes keccakBuilder
  simp

example : commutativeHashPair (keccakBuilder toyHash) 3#256 2#256 [] = toyHash (be32 2#256 ++ be32 3#256) := by
  decide +kernel

/-! ## C74 -/

/-- C74: for every tree of any shape, every leaf of it has its sibling path among `leafProofs`, and every such path
is accepted against the root. -/
theorem C74_members_verify (t : MTree) :
    (∀ x ∈ t.leaves, ∃ p, (x, p) ∈ t.leafProofs B) ∧
    ∀ x p, (x, p) ∈ t.leafProofs B → verifyWithBuilder B p (t.root B) x = true := by
  constructor
  · intro x hx
    rw [← Proofs.Merkle.leafProofs_leaves B t, List.mem_map] at hx
    obtain ⟨⟨y, p⟩, h, rfl⟩ := hx
    exact ⟨p, h⟩
  · intro x p h
    rw [Proofs.Merkle.verify_iff]
    exact Proofs.Merkle.leafProofs_ok B t _ h

example : verify toyHash [5#256, 9#256] (toyTree.root (keccakBuilder toyHash)) 11#256 = true ∧
    verify toyHash [5#256, 9#256] (toyTree.root (keccakBuilder toyHash)) 12#256 = false := by decide +kernel

/-- C74: the same for inner nodes. -/
theorem C74_nodes_verify (t : MTree) :
    (∀ x ∈ t.nodes B, ∃ p, (x, p) ∈ t.nodeProofs B) ∧
    ∀ x p, (x, p) ∈ t.nodeProofs B → verifyWithBuilder B p (t.root B) x = true := by
  constructor
  · intro x hx
    rw [← Proofs.Merkle.nodeProofs_nodes B t, List.mem_map] at hx
    obtain ⟨⟨y, p⟩, h, rfl⟩ := hx
    exact ⟨p, h⟩
  · intro x p h
    rw [Proofs.Merkle.verify_iff]
    exact Proofs.Merkle.nodeProofs_ok B t _ h

/-- C74: for trees stored in an array, as the usual generators produce them: the siblings of any node of the array,
up to the root at index 0, are accepted. -/
theorem C74_array_trees (n : Nat) (tree : Nat → B256) (h : IsHeap B n tree) (i : Nat) (hi : i ≤ 2 * n - 2) :
    verifyWithBuilder B (heapProof tree (i + 1) i) (tree 0) (tree i) = true := by
  unfold verifyWithBuilder
  rw [Proofs.Merkle.heapProof_ok B h (i + 1) i (by omega) hi]
  simp

/-- An array tree with three leaves. -/
def toyArray : Nat → B256 := fun i =>
  let B := keccakBuilder toyHash
  let n1 := pairHash B (sorted 21#256 17#256)
  [pairHash B (sorted n1 40#256), n1, 40#256, 21#256, 17#256].getD i 0#256

theorem toyArray_isHeap : IsHeap (keccakBuilder toyHash) 3 toyArray := by
  intro i hi
  have : i = 0 ∨ i = 1 := by omega
  rcases this with rfl | rfl <;> decide +kernel

example : heapProof toyArray 5 4 = [21#256, 40#256] := by decide +kernel

/-! ## C75 -/

/-- C75: whatever the proof, if it is accepted for the root of a tree, then the claimed value is a node of the tree
and the proof is that node's sibling path; or two different pairs, one hashed by the tree and one hashed by the
verifier, have the same hash; or the hash of a pair hashed by the verifier is a leaf of the tree. -/
theorem C75_sound (t : MTree) (x : B256) (p : List B256) (h : verifyWithBuilder B p (t.root B) x = true) :
    (x, p) ∈ t.nodeProofs B ∨
    (∃ u ∈ t.pairs B, ∃ v ∈ (pathTree x p).pairs B, u ≠ v ∧ pairHash B u = pairHash B v) ∨
    (∃ v ∈ t.leaves, ∃ u ∈ (pathTree x p).pairs B, pairHash B u = v) := by
  rw [Proofs.Merkle.verify_iff] at h
  exact Proofs.Merkle.path_sound B p x t h.symm

/-- C75: when all leaves are at the depth of the proof's length, the claimed value is a leaf and the proof is its
sibling path, or there is such a collision. -/
theorem C75_uniform_depth (t : MTree) (x : B256) (p : List B256) (ht : t.Uniform p.length)
    (h : verifyWithBuilder B p (t.root B) x = true) :
    (x, p) ∈ t.leafProofs B ∨
    ∃ u ∈ t.pairs B, ∃ v ∈ (pathTree x p).pairs B, u ≠ v ∧ pairHash B u = pairHash B v := by
  rw [Proofs.Merkle.verify_iff] at h
  exact Proofs.Merkle.path_sound_uniform B p.length p x t ht rfl h.symm

example : (MTree.node (.leaf 11#256) (.leaf 5#256)).Uniform [5#256].length ∧
    verify toyHash [5#256] ((MTree.node (.leaf 11#256) (.leaf 5#256)).root (keccakBuilder toyHash)) 11#256 = true :=
  ⟨⟨trivial, trivial⟩, by decide +kernel⟩

/-- C75 for airdrops and allow-lists: leaves are hashes of byte strings, none of them 64 bytes long.  If the hash of
a byte string `e`, not 64 bytes long, is accepted, then `e` is one of the strings of the tree; otherwise two
different strings with the same hash are among those hashed to build the tree (its data and the 64-byte strings of its inner
nodes) and those hashed for the claim (`e` and the 64-byte strings of the verifier). -/
theorem C75_data (K : Hash) (t : DataTree) (e : Bytes) (p : List B256)
    (ht : ∀ d ∈ t.data, d.length ≠ 64) (he : e.length ≠ 64)
    (h : verify K p ((t.tree K).root (keccakBuilder K)) (K e) = true) :
    e ∈ t.data ∨
    ∃ u ∈ t.data ++ ((t.tree K).pairs (keccakBuilder K)).map pairBytes,
    ∃ v ∈ e :: ((pathTree (K e) p).pairs (keccakBuilder K)).map pairBytes, u ≠ v ∧ K u = K v := by
  rcases C75_sound (keccakBuilder K) _ _ _ h with hn | ⟨u, hu, v, hv, hne, hk⟩ | ⟨v, hv, u, hu, hk⟩
  · have hn' : K e ∈ (t.tree K).nodes (keccakBuilder K) := by
      rw [← Proofs.Merkle.nodeProofs_nodes, List.mem_map]; exact ⟨_, hn, rfl⟩
    rcases Proofs.Merkle.nodes_cases _ _ _ hn' with hl | ⟨u, hu, hk⟩
    · rw [Proofs.Merkle.tree_leaves, List.mem_map] at hl
      obtain ⟨d, hd, hk⟩ := hl
      by_cases hde : d = e
      · exact .inl (hde ▸ hd)
      · exact .inr ⟨d, by simp [hd], e, by simp, hde, hk⟩
    · right
      rw [Proofs.Merkle.keccak_pair] at hk
      refine ⟨pairBytes u, List.mem_append_right _ (List.mem_map_of_mem hu), e, by simp, ?_, hk⟩
      intro hc; exact he (by rw [← hc, Proofs.Merkle.pairBytes_length])
  · right
    rw [Proofs.Merkle.keccak_pair, Proofs.Merkle.keccak_pair] at hk
    exact ⟨_, List.mem_append_right _ (List.mem_map_of_mem hu), _, List.mem_cons_of_mem _ (List.mem_map_of_mem hv),
      fun hc => hne (Proofs.Merkle.pairBytes_inj hc), hk⟩
  · right
    rw [Proofs.Merkle.tree_leaves, List.mem_map] at hv
    obtain ⟨d, hd, rfl⟩ := hv
    rw [Proofs.Merkle.keccak_pair] at hk
    refine ⟨d, by simp [hd], _, List.mem_cons_of_mem _ (List.mem_map_of_mem hu), ?_, hk.symm⟩
    intro hc; exact ht d hd (by rw [hc, Proofs.Merkle.pairBytes_length])

example : let t : DataTree := .node (.leaf [1#8]) (.node (.leaf [2#8, 3#8]) (.leaf [4#8]))
    (∀ d ∈ t.data, d.length ≠ 64) ∧
    verify toyHash [toyHash [4#8], toyHash [1#8]] ((t.tree toyHash).root (keccakBuilder toyHash)) (toyHash [2#8, 3#8]) = true :=
  ⟨by simp [DataTree.data], by decide +kernel⟩

/-- C75, why the 64 bytes matter: the 64-byte string of an inner node is accepted although it is not in the data. -/
theorem C75_inner_node_accepted (K : Hash) (a b c : Bytes) :
    let t : DataTree := .node (.node (.leaf a) (.leaf b)) (.leaf c)
    let e := pairBytes (sorted (K a) (K b))
    verify K [K c] ((t.tree K).root (keccakBuilder K)) (K e) = true := by
  intro t e
  have := Proofs.Merkle.nodeProofs_ok (keccakBuilder K) (t.tree K) (K e, [K c]) (by
    simp only [t, DataTree.tree, MTree.nodeProofs, MTree.root, Proofs.Merkle.keccak_pair, e]
    simp)
  unfold verify
  rw [Proofs.Merkle.verify_iff]
  exact this

/-! ## C76 -/

/-- C76: the complete decision table.  In particular no input makes it panic, and when it answers `Ok` every flag,
every leaf and every proof element has been used exactly once: the tree it rebuilt has as leaves exactly the given
leaves and the given proof elements. -/
theorem C76_result (proof : List B256) (flags : List Bool) (root : B256) (leaves : List B256) :
    verifyMultiProofWithBuilder B proof flags root leaves ≠ .error .panic ∧
    (verifyMultiProofWithBuilder B proof flags root leaves = .error .invalidTotalHashes ↔
      leaves.length + proof.length ≠ flags.length + 1) ∧
    (verifyMultiProofWithBuilder B proof flags root leaves = .error .noLeaves ↔
      leaves.length + proof.length = flags.length + 1 ∧ leaves = [] ∧ flags ≠ []) ∧
    (verifyMultiProofWithBuilder B proof flags root leaves = .error .invalidRootChild ↔
      leaves.length + proof.length = flags.length + 1 ∧ leaves ≠ [] ∧ leaves.length ≤ flags.count true) ∧
    (verifyMultiProofWithBuilder B proof flags root leaves = .error .invalidProofLength ↔
      leaves.length + proof.length = flags.length + 1 ∧ leaves ≠ [] ∧ proof.length < flags.count false) ∧
    (∀ b, verifyMultiProofWithBuilder B proof flags root leaves = .ok b ↔
      (leaves = [] ∧ flags = [] ∧ ∃ p, proof = [p] ∧ b = decide (p = root)) ∨
      (∃ t, rebuild flags (leaves.map .leaf) proof = some t ∧ t.leaves.Perm (leaves ++ proof) ∧ leaves ≠ [] ∧
        b = decide (t.root B = root))) := by
  obtain ⟨h1, h2, h3, h4, h5⟩ := Proofs.Merkle.multi_table B proof flags root leaves
  have hc := Proofs.Merkle.count_add flags
  -- `rebuild` succeeds only with balanced lengths
  have hreb : ∀ t, rebuild flags (leaves.map .leaf) proof = some t → t.leaves.Perm (leaves ++ proof) → leaves ≠ [] →
      leaves.length = flags.count true + 1 ∧ proof.length = flags.count false := by
    intro t ht _ _
    have key : ∀ (fs : List Bool) (q : List MTree) (ps : List B256) t, rebuild fs q ps = some t →
        q.length = fs.count true + 1 ∧ ps.length = fs.count false := by
      intro fs
      induction fs with
      | nil =>
        intro q ps t h
        rcases q with _ | ⟨a, _ | ⟨b, q⟩⟩ <;> rcases ps with _ | ⟨p, ps⟩ <;> simp [rebuild] at h ⊢
      | cons f fs ih =>
        intro q ps t h
        cases f
        · rcases q with _ | ⟨a, q⟩ <;> rcases ps with _ | ⟨p, ps⟩ <;> simp [rebuild] at h
          have := ih _ _ _ h
          simp at this ⊢; omega
        · rcases q with _ | ⟨a, _ | ⟨b, q⟩⟩ <;> simp [rebuild] at h
          have := ih _ _ _ h
          simp at this ⊢; omega
    simpa using key _ _ _ _ ht
  by_cases c1 : leaves.length + proof.length = flags.length + 1
  · by_cases c2 : leaves = []
    · by_cases c3 : flags = []
      · obtain ⟨p, hp, hr⟩ := h2 c1 c2 c3
        rw [hr]
        subst c2 c3 hp
        simp only [ne_eq, reduceCtorEq, not_false_eq_true, List.length_nil, List.length_singleton, not_true_eq_false,
          and_false, false_and, true_and, List.count_nil, Nat.not_lt_zero, Except.ok.injEq]
        intro b
        constructor
        · rintro rfl; exact .inl ⟨p, rfl, by simp [eq_comm]⟩
        · rintro (⟨q, hq, rfl⟩ | ⟨t, _, _, hne, _⟩)
          simp at hq; subst hq; simp [eq_comm]
      · rw [h3 c1 c2 c3]
        refine ⟨by simp, by simp [c1], by simpa [c2, c3] using c1, by simp [c2], by simp [c2], ?_⟩
        intro b
        simp [c2, c3]
    · have hl : 0 < leaves.length := List.length_pos_iff.mpr c2
      by_cases c3 : leaves.length ≤ flags.count true
      · rw [h4 c1 c2 c3]
        refine ⟨by simp, by simp [c1], by simp [c2], by simp [c1, c2, c3], ?_, ?_⟩
        · simp only [Except.error.injEq, reduceCtorEq, false_iff]; rintro ⟨_, _, h⟩; omega
        · intro b
          simp only [reduceCtorEq, false_iff]
          rintro (⟨h, _⟩ | ⟨t, ht, hperm, hne, _⟩)
          · exact c2 h
          · have := hreb t ht hperm hne; omega
      · by_cases c4 : proof.length < flags.count false
        · rw [h5 c1 c2 c4]
          refine ⟨by simp, by simp [c1], by simp [c2], by simp [c3], by simp [c1, c2, c4], ?_⟩
          intro b
          simp only [reduceCtorEq, false_iff]
          rintro (⟨h, _⟩ | ⟨t, ht, hperm, hne, _⟩)
          · exact c2 h
          · have := hreb t ht hperm hne; omega
        · obtain ⟨t, ht, hperm, hr⟩ := Proofs.Merkle.multi_ok B proof flags root leaves (by omega) (by omega)
          rw [hr]
          refine ⟨by simp, by simp [c1], by simp [c2], by simp [c3], ?_, ?_⟩
          · simp only [reduceCtorEq, false_iff]; rintro ⟨_, _, h⟩; exact c4 h
          · intro b
            simp only [Except.ok.injEq]
            constructor
            · rintro rfl; exact .inr ⟨t, ht, hperm, c2, rfl⟩
            · rintro (⟨h, _⟩ | ⟨t', ht', _, _, rfl⟩)
              · exact absurd h c2
              · rw [ht] at ht'; injection ht' with ht'; rw [ht']
  · rw [h1 c1]
    refine ⟨by simp, by simp [c1], by simp [c1], by simp [c1], by simp [c1], ?_⟩
    intro b
    simp only [reduceCtorEq, false_iff]
    rintro (⟨h, h', p, hp, _⟩ | ⟨t, ht, hperm, hne, _⟩)
    · subst h h' hp; simp at c1
    · have := hreb t ht hperm hne; omega

/-- C76: acceptance is sound: every given leaf (and every proof element) is a node of the tree, or two different
pairs, one hashed by the tree and one by the verifier, have the same hash, or the hash of a pair hashed by the
verifier is a leaf of the tree. -/
theorem C76_sound (t : MTree) (proof : List B256) (flags : List Bool) (leaves : List B256)
    (h : verifyMultiProofWithBuilder B proof flags (t.root B) leaves = .ok true) :
    (∀ x ∈ leaves ++ proof, x ∈ t.nodes B) ∨
    ∃ t', rebuild flags (leaves.map .leaf) proof = some t' ∧
      ((∃ u ∈ t.pairs B, ∃ v ∈ t'.pairs B, u ≠ v ∧ pairHash B u = pairHash B v) ∨
       (∃ v ∈ t.leaves, ∃ u ∈ t'.pairs B, pairHash B u = v)) := by
  rcases ((C76_result B proof flags (t.root B) leaves).2.2.2.2.2 true).mp h with
    ⟨h1, h2, p, h3, h4⟩ | ⟨t', h1, h2, _, h4⟩
  · left
    subst h1 h3
    intro x hx
    have : x = p := by simpa using hx
    rw [this, of_decide_eq_true h4.symm]
    exact Proofs.Merkle.root_mem_nodes B t
  · rcases Proofs.Merkle.compare_trees B t t' (of_decide_eq_true h4.symm).symm with hg | hb
    · exact .inl fun x hx => hg x (h2.mem_iff.mpr hx)
    · exact .inr ⟨t', h1, hb⟩

/-- C76 for data trees: if the hashes of byte strings `es`, none 64 bytes long, are accepted together, then each is
one of the strings of the tree; otherwise two different strings with the same hash are among those hashed to build
the tree and those hashed for the claim. -/
theorem C76_data (K : Hash) (t : DataTree) (es : List Bytes) (proof : List B256) (flags : List Bool)
    (ht : ∀ d ∈ t.data, d.length ≠ 64) (he : ∀ e ∈ es, e.length ≠ 64)
    (h : verifyMultiProof K proof flags ((t.tree K).root (keccakBuilder K)) (es.map K) = .ok true) :
    (∀ e ∈ es, e ∈ t.data) ∨
    ∃ u ∈ t.data ++ ((t.tree K).pairs (keccakBuilder K)).map pairBytes,
    ∃ v ∈ es ++ ((rebuild flags ((es.map K).map .leaf) proof).map fun t' => (t'.pairs (keccakBuilder K)).map pairBytes).getD [],
      u ≠ v ∧ K u = K v := by
  rcases C76_sound (keccakBuilder K) _ _ _ _ h with hn | ⟨t', hr, ⟨u, hu, v, hv, hne, hk⟩ | ⟨v, hv, u, hu, hk⟩⟩
  · by_cases hall : ∀ e ∈ es, e ∈ t.data
    · exact .inl hall
    · right
      simp only [not_forall] at hall
      obtain ⟨e, hes, hnot⟩ := hall
      have hn' : K e ∈ (t.tree K).nodes (keccakBuilder K) :=
        hn (K e) (List.mem_append_left _ (List.mem_map_of_mem hes))
      rcases Proofs.Merkle.nodes_cases _ _ _ hn' with hl | ⟨u, hu, hk⟩
      · rw [Proofs.Merkle.tree_leaves, List.mem_map] at hl
        obtain ⟨d, hd, hk⟩ := hl
        exact ⟨d, by simp [hd], e, by simp [hes], fun hc => hnot (hc ▸ hd), hk⟩
      · rw [Proofs.Merkle.keccak_pair] at hk
        refine ⟨pairBytes u, List.mem_append_right _ (List.mem_map_of_mem hu), e, by simp [hes], ?_, hk⟩
        intro hc; exact he e hes (by rw [← hc, Proofs.Merkle.pairBytes_length])
  · right
    rw [hr]
    rw [Proofs.Merkle.keccak_pair, Proofs.Merkle.keccak_pair] at hk
    exact ⟨_, List.mem_append_right _ (List.mem_map_of_mem hu), _, List.mem_append_right _ (List.mem_map_of_mem hv),
      fun hc => hne (Proofs.Merkle.pairBytes_inj hc), hk⟩
  · right
    rw [hr]
    rw [Proofs.Merkle.tree_leaves, List.mem_map] at hv
    obtain ⟨d, hd, rfl⟩ := hv
    rw [Proofs.Merkle.keccak_pair] at hk
    refine ⟨d, by simp [hd], _, List.mem_append_right _ (List.mem_map_of_mem hu), ?_, hk.symm⟩
    intro hc; exact ht d hd (by rw [hc, Proofs.Merkle.pairBytes_length])

/-- C76: every honestly generated multi-proof is accepted: for an array tree with `n` leaves and any set of leaf
indices given in decreasing order (also the empty set), the usual generator terminates and its proof and flags are
accepted for the leaves in that order. -/
theorem C76_complete (n : Nat) (tree : Nat → B256) (h : IsHeap B n tree) (indices : List Nat)
    (hd : indices.Pairwise (· > ·)) (hlo : ∀ e ∈ indices, n - 1 ≤ e) (hhi : ∀ e ∈ indices, e ≤ 2 * n - 2) :
    ∃ proof flags, heapMultiProof tree (indices.sum + 1) indices = some (proof, flags) ∧
      verifyMultiProofWithBuilder B proof flags (tree 0) (indices.map tree) = .ok true :=
  Proofs.Merkle.heap_multi B h indices hd hlo hhi

example : IsHeap (keccakBuilder toyHash) 3 toyArray ∧
    heapMultiProof toyArray 7 [4, 2] = some ([21#256], [false, true]) ∧
    verifyMultiProof toyHash [21#256] [false, true] (toyArray 0) [17#256, 40#256] = .ok true ∧
    verifyMultiProof toyHash [21#256] [false, true] (toyArray 0) [17#256, 41#256] = .ok false :=
  ⟨toyArray_isHeap, by decide +kernel, by decide +kernel, by decide +kernel⟩

/-- C76: a single-leaf multi-proof is the same as a single proof. -/
theorem C76_single (proof : List B256) (root leaf : B256) :
    verifyMultiProofWithBuilder B proof (List.replicate proof.length false) root [leaf] =
      .ok (verifyWithBuilder B proof root leaf) := by
  obtain ⟨t, h1, _, h3⟩ := Proofs.Merkle.multi_ok B proof (List.replicate proof.length false) root [leaf]
    (by simp [List.count_replicate]) (by simp [List.count_replicate])
  rw [h3]
  have key : ∀ (ps : List B256) (a : MTree),
      rebuild (List.replicate ps.length false) [a] ps = some (ps.foldl (fun t s => .node t (.leaf s)) a) := by
    intro ps
    induction ps with
    | nil => intro a; rfl
    | cons p ps ih => intro a; simp only [List.length_cons, List.replicate_succ, rebuild, List.nil_append, ih, List.foldl_cons]
  have : t = pathTree leaf proof := by
    have := key proof (.leaf leaf)
    simp only [List.map_cons, List.map_nil] at h1
    rw [h1] at this
    injection this
  rw [this]
  congr 1
  rw [Bool.eq_iff_iff, Proofs.Merkle.verify_iff, decide_eq_true_eq]

/-- C76: each error occurs. -/
example : verifyMultiProof toyHash [] [] 0#256 [] = .error .invalidTotalHashes ∧
    verifyMultiProof toyHash [1#256, 2#256] [false] 0#256 [] = .error .noLeaves ∧
    verifyMultiProof toyHash [1#256] [true] 0#256 [2#256] = .error .invalidRootChild ∧
    verifyMultiProof toyHash [] [false] 0#256 [1#256, 2#256] = .error .invalidProofLength := by decide +kernel

end Verif.Props.Merkle
