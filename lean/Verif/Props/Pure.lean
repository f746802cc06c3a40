import Verif.Model.Pure
import Verif.Proofs.Contracts
import Verif.Props.Crypto
import Verif.Props.Merkle
import Verif.Props.PoseidonExample
/-! # C107: the example contracts without storage, on bytes -/
namespace Verif.Props.Pure
open Verif Verif.Abi Verif.Contracts Verif.Proofs.Contracts
open Verif.Spec.Keccak (keccak256)
open Verif.Spec.Contracts
open Verif.Spec.Calls (call)

/-- A returned answer comes from a row of the router, with what the handler answered. -/
theorem returned_cases {c : Spec.Router.Entry} (hc : c ∈ Spec.Router.contracts) {D : Decoder} {h : Handler Unit}
    {value : U256} {input data : Bytes} (hr : entry keccak256 D c.contract h () value input = .returned () data) :
    value = 0#256 ∧ ∃ sg t n args r, (sg, t, n) ∈ c.abi ∧ Says D input sg args ∧ h t n args () = .ok ((), r) ∧
      data = values r := by
  rcases entry_cases hc D h () value input with h1 | ⟨hv, sg, t, n, args, hm, hs, h1⟩
  · rw [hr] at h1; cases h1
  · rw [hr] at h1
    cases hh : h t n args () with
    | error e => rw [hh] at h1; cases h1
    | ok p =>
      obtain ⟨⟨⟩, r⟩ := p
      rw [hh, outcome_ok] at h1
      exact ⟨hv, sg, t, n, args, r, hm, hs, hh, by cases h1; rfl⟩

namespace Recover
open Verif.Ecdsa Verif.Props.Crypto

/-- `examples/ecdsa` on bytes, on a chain whose precompile at address 1 is `P`. -/
def run (D : Decoder) (P : Precompile) (value : U256) (input : Bytes) : Outcome Unit :=
  entry keccak256 D Router.ecdsaExample (Verif.Pure.ecdsa keccak256 P) () value input

abbrev spec : Spec.Router.Entry := ⟨Router.ecdsaExample, Spec.Router.ecdsaExample, []⟩

theorem mem : spec ∈ Spec.Router.contracts := by simp [Spec.Router.contracts]

/-- Signature of the one function. -/
abbrev sig : String := "recover(bytes32,uint8,bytes32,bytes32)"

/-- Its arguments; the same bytes go to the precompile. -/
abbrev args (hash : B256) (v : U8) (r s : B256) : List Val := [.bytes32 hash, .uint8 v, .bytes32 r, .bytes32 s]

theorem asked (hash : B256) (v : U8) (r s : B256) :
    be32 hash ++ (abiU8 v ++ (be32 r ++ be32 s)) = values (args hash v r s) := by
  rw [← encode_values]
  simp [encode, Val.code, headsTails, abiU8]

theorem fromBytes_append (l m : Bytes) : fromBytes (l ++ m) = fromBytes l * 256 ^ m.length + fromBytes m := by
  unfold fromBytes
  rw [List.foldl_append]
  generalize l.foldl (fun acc b => acc * 256 + b.toNat) 0 = x
  induction m using List.reverseRecOn with
  | nil => simp
  | append_singleton m b ih =>
    rw [List.foldl_append, List.foldl_append, ih, List.length_append]
    simp only [List.foldl_cons, List.foldl_nil, List.length_singleton, pow_succ]
    ring

/-- What the contract does with a call. -/
theorem outcome_recover (D : Decoder) (P : Precompile) (hash : B256) (v : U8) (r s : B256) :
    run D P 0#256 (message sig (args hash v r s)) =
      outcome (Contracts.view keccak256 Revert.ecdsa () (Contracts.one .address (recover P hash v r s))) := by
  refine run_message mem D _ () _ _ rfl rfl ?_ (by simp [Spec.Router.ecdsaExample]) (words_lt _ _ (by simp [arg]) (by simp))
  rfl

/-- **C107** Everything a call of `recover` can end in.  Above half the group order: `ECDSAInvalidSignatureS` with the offending
value.  Otherwise, for `v` 0 or 1: `ECDSAInvalidSignature`.  Otherwise the precompile is asked, with the bytes of the arguments;
a word that holds an address is returned as it is unless it is zero, which is `ECDSAInvalidSignature`; a failed call, and an
answer that is not 32 bytes long, revert without data. -/
theorem C107_recover (D : Decoder) (P : Precompile) (hash : B256) (v : U8) (r s : B256) :
    let asks := P (values (args hash v r s))
    let out := run D P 0#256 (message sig (args hash v r s))
    (secp256k1Order / 2 < s.toNat → out = .reverted (call "ECDSAInvalidSignatureS(bytes32)" [s])) ∧
    (s.toNat ≤ secp256k1Order / 2 →
      (v = 0#8 ∨ v = 1#8 → out = .reverted (call "ECDSAInvalidSignature()" [])) ∧
      (v ≠ 0#8 → v ≠ 1#8 →
        (∀ a : Address, a ≠ 0#160 → asks = some (values [.address a]) → out = .returned () (values [.address a])) ∧
        (asks = some (values [.address 0#160]) → out = .reverted (call "ECDSAInvalidSignature()" [])) ∧
        (asks = none → out = .reverted []) ∧
        (∀ data, asks = some data → data.length ≠ 32 → out = .reverted []))) := by
  intro asks out
  have ho : out = _ := outcome_recover D P hash v r s
  have hb : S_UPPER_BOUND.toNat = secp256k1Order / 2 := by decide +kernel
  have hrec : ∀ e, recover P hash v r s = .error e → out = .reverted (((Revert.ecdsa e).data keccak256).getD []) := by
    intro e he; rw [ho, he]; rfl
  have hinv : ((Revert.ecdsa .invalidSignature).data keccak256).getD [] = call "ECDSAInvalidSignature()" [] :=
    error_bytes _ _ "ECDSAInvalidSignature()" (by decide) rfl
  have hinvS : ((Revert.ecdsa (.invalidSignatureS s)).data keccak256).getD [] = call "ECDSAInvalidSignatureS(bytes32)" [s] :=
    error_bytes _ _ "ECDSAInvalidSignatureS(bytes32)" rfl rfl
  have hlow : s.toNat ≤ secp256k1Order / 2 → recover P hash v r s = recoverInternal P hash v r s := by
    intro h
    have : ¬ S_UPPER_BOUND < s := by rw [BitVec.lt_def]; omega
    unfold recover checkIfMalleable
    rw [if_neg this]; rfl
  have hint : v ≠ 0#8 → v ≠ 1#8 → recoverInternal P hash v r s =
      (do let out ← orPanic .panic asks
          let recovered ← sliceAddress out
          if recovered = ZERO then throw .invalidSignature
          return recovered) := by
    intro h0 h1
    unfold recoverInternal encodeCalldata
    rw [asked]
    simp only [h0, h1, or_self, if_false]
    rfl
  have hadr : ∀ a : Address, sliceAddress (values [.address a]) = .ok a := by
    intro a
    have hv : values [.address a] = be32 (a.setWidth 256) := by
      rw [← encode_values]
      simp [encode, Val.code, headsTails]
    have hl : (be32 (a.setWidth 256)).length = 32 := be32_length _
    have hsplit := fromBytes_append ((be32 (a.setWidth 256)).take 12) ((be32 (a.setWidth 256)).drop 12)
    rw [List.take_append_drop, Proofs.Merkle.fromBytes_be32, List.length_drop, hl] at hsplit
    have ha : (a.setWidth 256).toNat = a.toNat := by
      rw [BitVec.toNat_setWidth]; exact Nat.mod_eq_of_lt (by have := a.isLt; omega)
    rw [hv]
    unfold sliceAddress
    rw [if_neg (by omega), if_neg (by rw [List.length_drop]; omega)]
    refine congrArg Except.ok ?_
    apply BitVec.eq_of_toNat_eq
    rw [BitVec.toNat_ofNat]
    have := a.isLt
    rw [ha, show 256 ^ (32 - 12) = 2 ^ 160 from by norm_num] at hsplit
    generalize fromBytes (List.take 12 (be32 (BitVec.setWidth 256 a))) = x at hsplit
    generalize fromBytes (List.drop 12 (be32 (BitVec.setWidth 256 a))) = y at hsplit ⊢
    omega
  refine ⟨fun h => ?_, fun h => ⟨fun hv => ?_, fun h0 h1 => ⟨fun a ha hq => ?_, fun hq => ?_, fun hq => ?_, fun data hq hd => ?_⟩⟩⟩
  · rw [hrec _ (C42_high_s_rejected P hash v r s h), hinvS]
  · rw [hrec .invalidSignature, hinv]
    rw [hlow h]; unfold recoverInternal; rw [if_pos hv]; rfl
  · rw [ho, hlow h, hint h0 h1, hq]
    show outcome (Contracts.view keccak256 Revert.ecdsa () (Contracts.one .address (do
      let recovered ← sliceAddress (values [.address a])
      if recovered = ZERO then throw .invalidSignature
      return recovered))) = _
    rw [hadr a]
    show outcome (Contracts.view keccak256 Revert.ecdsa () (Contracts.one .address (do
      if a = ZERO then throw .invalidSignature
      return a))) = _
    have ha' : ¬ a = ZERO := ha
    rw [if_neg ha']
    exact outcome_ok _ _
  · rw [hrec .invalidSignature, hinv]
    rw [hlow h, hint h0 h1, hq]
    show ((do
      let recovered ← sliceAddress (values [.address 0#160])
      if recovered = ZERO then throw .invalidSignature
      return recovered : Except Err Address)) = _
    rw [hadr]
    rfl
  · rw [hrec .panic]; rfl
    rw [hlow h, hint h0 h1, hq]; rfl
  · rw [hrec .panic]; rfl
    rw [hlow h, hint h0 h1, hq]
    have : sliceAddress data = .error .panic := by
      unfold sliceAddress
      split
      · rfl
      · rw [if_pos]; rw [List.length_drop]; omega
    show ((do
      let recovered ← sliceAddress data
      if recovered = ZERO then throw .invalidSignature
      return recovered : Except Err Address)) = _
    rw [this]; rfl

/-- **C107** Whatever is sent to the contract: data comes back only for a call of `recover` without value, and then the data is
a nonzero address, `s` is in the lower half of the order, `v` is not 0 or 1, and the address is the low 20 bytes of the 32
the precompile answered when asked with the bytes of the arguments. -/
theorem C107_recover_only (D : Decoder) (P : Precompile) (value : U256) (input data : Bytes)
    (h : run D P value input = .returned () data) :
    value = 0#256 ∧ ∃ hash v r s a ans, Says D input sig (args hash v r s) ∧ data = values [.address a] ∧ a ≠ 0#160 ∧
      s.toNat ≤ secp256k1Order / 2 ∧ v ≠ 0#8 ∧ v ≠ 1#8 ∧ P (values (args hash v r s)) = some ans ∧ ans.length = 32 ∧
      a = BitVec.ofNat 160 (fromBytes (ans.drop 12)) := by
  obtain ⟨hv, sg, t, n, as, r, hm, hs, hh, rfl⟩ := returned_cases mem h
  refine ⟨hv, ?_⟩
  simp only [Spec.Router.ecdsaExample, List.mem_singleton, Prod.mk.injEq] at hm
  obtain ⟨rfl, rfl, rfl⟩ := hm
  obtain ⟨x, hmem, h1, h2, h3⟩ := dispatch_ok hh
  simp only [List.mem_singleton] at hmem
  subst hmem
  dsimp only at h3
  split at h3
  · rename_i hash v rr s
    cases hrec : recover P hash v rr s with
    | error e => rw [hrec] at h3; cases h3
    | ok a =>
      rw [hrec] at h3
      cases h3
      obtain ⟨h4, h5, h6, h7, ans, h8, h9, h10⟩ := (C42_recover_ok_iff P hash v rr s a).mp hrec
      rw [asked] at h8
      exact ⟨hash, v, rr, s, a, ans, hs, rfl, h7, h4, h5, h6, h8, h9, h10⟩
  · cases h3

/-- A precompile that recovers Alice from every signature. -/
def alices : Precompile := fun _ => some (values [.address 0xA11CE#160])

-- C107_recover, C107_recover_only: an accepted signature, the two refused ones, and the answer the EVM gives when it recovers nobody
example (D : Decoder) :
    run D alices 0#256 (message sig (args 7#256 27#8 5#256 6#256)) = .returned () (values [.address 0xA11CE#160]) ∧
    run D alices 0#256 (message sig (args 7#256 1#8 5#256 6#256)) = .reverted (call "ECDSAInvalidSignature()" []) ∧
    run D alices 0#256 (message sig (args 7#256 27#8 5#256 (-6#256))) =
      .reverted (call "ECDSAInvalidSignatureS(bytes32)" [-6#256]) ∧
    run D (fun _ => some []) 0#256 (message sig (args 7#256 27#8 5#256 6#256)) = .reverted [] := by
  refine ⟨?_, ?_, ?_, ?_⟩
  · exact (((C107_recover D alices 7#256 27#8 5#256 6#256).2 (by decide +kernel)).2 (by decide) (by decide)).1 _ (by decide) rfl
  · exact ((C107_recover D alices 7#256 1#8 5#256 6#256).2 (by decide +kernel)).1 (.inr rfl)
  · exact (C107_recover D alices 7#256 27#8 5#256 (-6#256)).1 (by decide +kernel)
  · exact (((C107_recover D _ 7#256 27#8 5#256 6#256).2 (by decide +kernel)).2 (by decide) (by decide)).2.2.2 [] rfl (by decide)

end Recover

namespace MerkleProofs
open Verif.Merkle Verif.Spec.Merkle

/-- `examples/merkle-proofs` on bytes. -/
def run (D : Decoder) (value : U256) (input : Bytes) : Outcome Unit :=
  entry keccak256 D Router.merkleProofsExample (Verif.Pure.merkleProofs keccak256) () value input

abbrev spec : Spec.Router.Entry := ⟨Router.merkleProofsExample, Spec.Router.merkleProofsExample, []⟩

theorem mem : spec ∈ Spec.Router.contracts := by simp [Spec.Router.contracts]

/-- Keccak-256 as the hasher of trees. -/
abbrev keccak : Builder Bytes B256 := keccakBuilder keccak256

/-- A call of `verify`. -/
abbrev single (proof : List B256) (root leaf : B256) : String × List Val :=
  ("verify(bytes32[],bytes32,bytes32)", [.bytes32s proof, .bytes32 root, .bytes32 leaf])

/-- A call of `verifyMultiProof`. -/
abbrev multi (proof : List B256) (flags : List Bool) (root : B256) (leaves : List B256) : String × List Val :=
  ("verifyMultiProof(bytes32[],bool[],bytes32,bytes32[])", [.bytes32s proof, .bools flags, .bytes32 root, .bytes32s leaves])

/-- **C107** `verify` answers whether the claimed leaf, merged with each element of the proof in turn, gives the root. -/
theorem C107_verify (D : Decoder) (proof : List B256) (root leaf : B256)
    (hl : (message (single proof root leaf).1 (single proof root leaf).2).length < 2 ^ 256) :
    run D 0#256 (message (single proof root leaf).1 (single proof root leaf).2) =
      .returned () (values [.bool (decide ((pathTree leaf proof).root keccak = root))]) := by
  refine run_message mem D _ () _ _ rfl rfl ?_ (by simp [Spec.Router.merkleProofsExample]) hl
  have : verify keccak256 proof root leaf = decide ((pathTree leaf proof).root keccak = root) := by
    rw [Bool.eq_iff_iff, decide_eq_true_iff]
    exact Proofs.Merkle.verify_iff _ _ _ _
  rw [← this]
  exact outcome_ok _ _

theorem outcome_multi (D : Decoder) (proof : List B256) (flags : List Bool) (root : B256) (leaves : List B256)
    (hl : (message (multi proof flags root leaves).1 (multi proof flags root leaves).2).length < 2 ^ 256) :
    run D 0#256 (message (multi proof flags root leaves).1 (multi proof flags root leaves).2) =
      outcome (Contracts.view keccak256 Revert.merkleExample ()
        (Contracts.one .bool (verifyMultiProof keccak256 proof flags root leaves))) := by
  refine run_message mem D _ () _ _ rfl rfl ?_ (by simp [Spec.Router.merkleProofsExample]) hl
  rfl

/-- **C107** Everything a call of `verifyMultiProof` can end in.  The counts do not match:
`MerkleProofInvalidTotalHashes`.  They match: without leaves, an empty flag list compares the one proof element with the root
and any other is `MerkleProofNoLeaves`; with leaves, either the flags consume exactly the leaves and the proof, and the answer is
whether the rebuilt tree has the root, or there are too few leaves (`MerkleProofInvalidRootChild`) or too few proof elements
(`MerkleProofInvalidMultiProofLength`) for the flags. -/
theorem C107_multi (D : Decoder) (proof : List B256) (flags : List Bool) (root : B256) (leaves : List B256)
    (hl : (message (multi proof flags root leaves).1 (multi proof flags root leaves).2).length < 2 ^ 256) :
    let out := run D 0#256 (message (multi proof flags root leaves).1 (multi proof flags root leaves).2)
    (leaves.length + proof.length ≠ flags.length + 1 → out = .reverted (call "MerkleProofInvalidTotalHashes()" [])) ∧
    (leaves.length + proof.length = flags.length + 1 →
      (leaves = [] → flags ≠ [] → out = .reverted (call "MerkleProofNoLeaves()" [])) ∧
      (∀ p, leaves = [] → flags = [] → proof = [p] → out = .returned () (values [.bool (decide (p = root))])) ∧
      (leaves ≠ [] → leaves.length ≤ flags.count true → out = .reverted (call "MerkleProofInvalidRootChild()" [])) ∧
      (leaves ≠ [] → proof.length < flags.count false → out = .reverted (call "MerkleProofInvalidMultiProofLength()" [])) ∧
      (leaves ≠ [] → flags.count true < leaves.length → flags.count false ≤ proof.length →
        ∃ t, rebuild flags (leaves.map .leaf) proof = some t ∧ t.leaves.Perm (leaves ++ proof) ∧
          out = .returned () (values [.bool (decide (t.root keccak = root))]))) := by
  intro out
  have ho : out = _ := outcome_multi D proof flags root leaves hl
  obtain ⟨hp, ht, hn, hr, hm, hok⟩ := Merkle.C76_result keccak proof flags root leaves
  have he : ∀ e, verifyMultiProof keccak256 proof flags root leaves = .error e →
      out = .reverted (((Revert.merkleExample e).data keccak256).getD []) := by
    intro e he; rw [ho, he]; rfl
  have hk : ∀ b, verifyMultiProof keccak256 proof flags root leaves = .ok b → out = .returned () (values [.bool b]) := by
    intro b hb; rw [ho, hb]; exact outcome_ok _ _
  refine ⟨fun h => ?_, fun h => ⟨fun h1 h2 => ?_, fun p h1 h2 h3 => ?_, fun h1 h2 => ?_, fun h1 h2 => ?_, fun h1 h2 h3 => ?_⟩⟩
  · rw [he _ (ht.mpr h)]
    exact congrArg _ (error_bytes _ _ "MerkleProofInvalidTotalHashes()" rfl rfl)
  · rw [he _ (hn.mpr ⟨h, h1, h2⟩)]
    exact congrArg _ (error_bytes _ _ "MerkleProofNoLeaves()" rfl rfl)
  · exact hk _ ((hok _).mpr (.inl ⟨h1, h2, p, h3, rfl⟩))
  · rw [he _ (hr.mpr ⟨h, h1, h2⟩)]
    exact congrArg _ (error_bytes _ _ "MerkleProofInvalidRootChild()" rfl rfl)
  · rw [he _ (hm.mpr ⟨h, h1, h2⟩)]
    exact congrArg _ (error_bytes _ _ "MerkleProofInvalidMultiProofLength()" rfl rfl)
  · cases hx : verifyMultiProofWithBuilder keccak proof flags root leaves with
    | error e =>
      exfalso
      cases e with
      | panic => exact hp hx
      | invalidTotalHashes => exact (ht.mp hx) h
      | noLeaves => exact h1 (hn.mp hx).2.1
      | invalidRootChild => have := (hr.mp hx).2.2; omega
      | invalidProofLength => have := (hm.mp hx).2.2; omega
    | ok b =>
      rcases (hok b).mp hx with ⟨h4, _⟩ | ⟨t, h4, h5, _, rfl⟩
      · exact absurd h4 h1
      · exact ⟨t, h4, h5, hk _ hx⟩

/-- **C107** Whatever is sent to the contract: data comes back only for a call of one of the two functions without value, and it
is one truth value, the answer of that function. -/
theorem C107_merkle_only (D : Decoder) (value : U256) (input data : Bytes) (h : run D value input = .returned () data) :
    value = 0#256 ∧ ∃ b : Bool, data = values [.bool b] ∧
      ((∃ proof root leaf, Says D input (single proof root leaf).1 (single proof root leaf).2 ∧
          (b = true ↔ (pathTree leaf proof).root keccak = root)) ∨
       (∃ proof flags root leaves, Says D input (multi proof flags root leaves).1 (multi proof flags root leaves).2 ∧
          ((leaves = [] ∧ flags = [] ∧ ∃ p, proof = [p] ∧ (b = true ↔ p = root)) ∨
           ∃ t, rebuild flags (leaves.map .leaf) proof = some t ∧ (b = true ↔ t.root keccak = root)))) := by
  obtain ⟨hv, sg, t, n, as, r, hm, hs, hh, rfl⟩ := returned_cases mem h
  refine ⟨hv, ?_⟩
  obtain ⟨x, hmem, h1, h2, h3⟩ := dispatch_ok hh
  simp only [Spec.Router.merkleProofsExample, List.mem_cons, List.not_mem_nil, or_false, Prod.mk.injEq] at hm
  simp only [List.mem_cons, List.not_mem_nil, or_false] at hmem
  rcases hm with ⟨rfl, rfl, rfl⟩ | ⟨rfl, rfl, rfl⟩ <;> rcases hmem with rfl | rfl
  · dsimp only at h3
    split at h3
    · rename_i proof root leaf
      cases h3
      exact ⟨_, rfl, .inl ⟨proof, root, leaf, hs, Proofs.Merkle.verify_iff _ _ _ _⟩⟩
    · cases h3
  · exact absurd h2 (by decide)
  · exact absurd h2 (by decide)
  · dsimp only at h3
    split at h3
    · rename_i proof flags root leaves
      cases hx : verifyMultiProof keccak256 proof flags root leaves with
      | error e => rw [hx] at h3; cases h3
      | ok b =>
        rw [hx] at h3
        cases h3
        refine ⟨b, rfl, .inr ⟨proof, flags, root, leaves, hs, ?_⟩⟩
        rcases ((Merkle.C76_result keccak proof flags root leaves).2.2.2.2.2 b).mp hx with ⟨h4, h5, p, h6, rfl⟩ | ⟨t, h4, _, _, rfl⟩
        · exact .inl ⟨h4, h5, p, h6, decide_eq_true_iff⟩
        · exact .inr ⟨t, h4, decide_eq_true_iff⟩
    · cases h3

/-- **C107** For an allow-list (a tree over byte strings, none 64 bytes long): a member's entry is answered with true for the sibling
path, and if any proof at all is answered with true for an entry, not 64 bytes long, then the entry is a member, or two
different strings with the same Keccak-256 hash are among those hashed to build the tree and those hashed for the claim. -/
theorem C107_allow_list (D : Decoder) (t : DataTree) (ht : ∀ d ∈ t.data, d.length ≠ 64) (e : Bytes) (he : e.length ≠ 64) :
    let root := (t.tree keccak256).root keccak
    (∀ proof, (keccak256 e, proof) ∈ (t.tree keccak256).leafProofs keccak →
      (message (single proof root (keccak256 e)).1 (single proof root (keccak256 e)).2).length < 2 ^ 256 →
      run D 0#256 (message (single proof root (keccak256 e)).1 (single proof root (keccak256 e)).2) =
        .returned () (values [.bool true])) ∧
    ∀ proof, (message (single proof root (keccak256 e)).1 (single proof root (keccak256 e)).2).length < 2 ^ 256 →
      run D 0#256 (message (single proof root (keccak256 e)).1 (single proof root (keccak256 e)).2) =
        .returned () (values [.bool true]) →
      e ∈ t.data ∨
      ∃ u ∈ t.data ++ ((t.tree keccak256).pairs keccak).map pairBytes,
      ∃ v ∈ e :: ((pathTree (keccak256 e) proof).pairs keccak).map pairBytes, u ≠ v ∧ keccak256 u = keccak256 v := by
  intro root
  refine ⟨fun proof hp hl => ?_, fun proof hl hr => ?_⟩
  · rw [C107_verify D proof root _ hl]
    have := (Merkle.C74_members_verify keccak (t.tree keccak256)).2 _ _ hp
    rw [Proofs.Merkle.verify_iff] at this
    rw [decide_eq_true this]
  · rw [C107_verify D proof root _ hl] at hr
    have hb : (pathTree (keccak256 e) proof).root keccak = root := by
      by_contra hne
      rw [decide_eq_false hne] at hr
      have h1 : values [.bool false] = values [.bool true] := by injection hr
      revert h1
      decide +kernel
    exact Merkle.C75_data keccak256 t e proof ht he ((Proofs.Merkle.verify_iff _ _ _ _).mpr hb)

/-- An allow-list of three entries, and the proof for the second. -/
def list : DataTree := .node (.node (.leaf [1#8]) (.leaf [2#8, 3#8])) (.leaf [4#8])

def path : List B256 := [keccak256 [1#8], keccak256 [4#8]]

theorem message_lt (sg : String) (args : List Val) {n : Nat} (h : (values args).length = n) (hn : 4 + n < 2 ^ 256) :
    (message sg args).length < 2 ^ 256 := by
  rw [message_length, h]; exact hn

theorem single_length (a b root leaf : B256) : (values (single [a, b] root leaf).2).length = 192 := by
  rw [← encode_values]
  simp [encode, Val.code, headsTails, be32_length]

theorem multi_length (root : B256) (a b : B256) :
    (values (multi [a] [true, false] root [b, b]).2).length = 384 := by
  rw [← encode_values]
  simp [encode, Val.code, headsTails, be32_length]

-- C107_allow_list: the second entry is answered with true
example (D : Decoder) :
    let root := (list.tree keccak256).root keccak
    run D 0#256 (message (single path root (keccak256 [2#8, 3#8])).1 (single path root (keccak256 [2#8, 3#8])).2) =
      .returned () (values [.bool true]) := by
  intro root
  refine (C107_allow_list D list (by simp [list, DataTree.data]) [2#8, 3#8] (by simp)).1 path ?_
    (message_lt _ _ (single_length _ _ _ _) (by decide))
  simp [list, path, DataTree.tree, MTree.leafProofs, MTree.root]

-- C107_multi: both hashes of a tree of two equal leaves and a third hash; and the error for counts that do not match
example (D : Decoder) (a b : B256) :
    let t : MTree := .node (.node (.leaf b) (.leaf b)) (.leaf a)
    run D 0#256 (message (multi [a] [true, false] (t.root keccak) [b, b]).1 (multi [a] [true, false] (t.root keccak) [b, b]).2) =
      .returned () (values [.bool true]) := by
  intro t
  obtain ⟨t', h1, -, h2⟩ := ((C107_multi D [a] [true, false] (t.root keccak) [b, b]
    (message_lt _ _ (multi_length _ _ _) (by decide))).2 rfl).2.2.2.2 (by simp) (by simp) (by simp)
  cases h1
  rw [h2]
  exact congrArg (fun x => Outcome.returned () (values [.bool x])) (decide_eq_true rfl)

-- C107_merkle_only: a call with value is refused, so the hypothesis is not met by it
example (D : Decoder) (input : Bytes) : run D 1#256 input = .reverted [] := rfl

end MerkleProofs

namespace PoseidonContract
open Verif.Poseidon Verif.Spec.Poseidon Verif.Poseidon.Instances Verif.Props.PoseidonExample

/-- `examples/poseidon` on bytes. -/
noncomputable def run (D : Decoder) (value : U256) (input : Bytes) : Outcome Unit :=
  entry keccak256 D Router.poseidonExample Verif.Pure.poseidon () value input

abbrev spec : Spec.Router.Entry := ⟨Router.poseidonExample, Spec.Router.poseidonExample, []⟩

theorem mem : spec ∈ Spec.Router.contracts := by simp [Spec.Router.contracts]

attribute [local irreducible] PoseidonExample.hash

/-- **C107** Every pair of words is answered, with the number below the order of BN254's scalar field that is the second element of
the Poseidon2 permutation of `(0, a, b)`. -/
theorem C107_hash (D : Decoder) (a b : U256) :
    ∃ h : U256, run D 0#256 (message "hash(uint256[2])" [.uint256 a, .uint256 b]) = .returned () (values [.uint256 h]) ∧
      h.toNat < p ∧ (h.toNat : ZMod p) = permutation (bn256.params (ZMod p)) (start a b) (1 : Fin 3) := by
  obtain ⟨h, h1, h2, h3⟩ := C94_hash a b
  refine ⟨h, ?_, h2, h3⟩
  refine run_message mem D _ () _ _ rfl rfl ?_ (by simp [Spec.Router.poseidonExample]) (words_lt _ _ (by simp [arg]) (by simp))
  show outcome (match PoseidonExample.hash [a, b] with
        | some h => Except.ok ((), [Val.uint256 h])
        | none => .error none) = _
  rw [h1]
  exact outcome_ok _ _

/-- **C107** Whatever is sent to the contract: data comes back only for a call of `hash` without value. -/
theorem C107_hash_only (D : Decoder) (value : U256) (input data : Bytes) (h : run D value input = .returned () data) :
    value = 0#256 ∧ ∃ a b h : U256, message "hash(uint256[2])" [.uint256 a, .uint256 b] <+: input ∧ data = values [.uint256 h] ∧
      h.toNat < p ∧ (h.toNat : ZMod p) = permutation (bn256.params (ZMod p)) (start a b) (1 : Fin 3) := by
  obtain ⟨hv, sg, t, n, as, r, hm, hs, hh, rfl⟩ := returned_cases mem h
  refine ⟨hv, ?_⟩
  obtain ⟨x, hmem, h1, h2, h3⟩ := dispatch_ok hh
  simp only [Spec.Router.poseidonExample, List.mem_singleton, Prod.mk.injEq] at hm hmem
  obtain ⟨rfl, rfl, rfl⟩ := hm
  subst hmem
  dsimp only at h3
  split at h3
  · rename_i a b
    obtain ⟨y, h4, h5, h6⟩ := C94_hash a b
    rw [h4] at h3
    cases h3
    exact ⟨a, b, y, hs.words (by simp [arg]), rfl, h5, h6⟩
  · cases h3

-- C107_hash, C107_hash_only: inputs that differ by the order of the field have the same answer
example (D : Decoder) : ∃ h : U256,
    run D 0#256 (message "hash(uint256[2])" [.uint256 5#256, .uint256 0#256]) = .returned () (values [.uint256 h]) ∧
    run D 0#256 (message "hash(uint256[2])" [.uint256 5#256, .uint256 (BitVec.ofNat 256 p)]) = .returned () (values [.uint256 h]) := by
  obtain ⟨h, h1, h2, h3⟩ := C107_hash D 5#256 0#256
  obtain ⟨k, k1, k2, k3⟩ := C107_hash D 5#256 (BitVec.ofNat 256 p)
  have hs : start 5#256 (BitVec.ofNat 256 p) = start 5#256 0#256 := by
    unfold start
    rw [show (BitVec.ofNat 256 p).toNat = p from by decide +kernel, ZMod.natCast_self]
    rfl
  rw [hs, ← h3] at k3
  have : h = k := by
    apply BitVec.eq_of_toNat_eq
    have := congrArg ZMod.val k3
    rw [ZMod.val_natCast, ZMod.val_natCast, Nat.mod_eq_of_lt h2, Nat.mod_eq_of_lt k2] at this
    exact this.symm
  subst this
  exact ⟨h, h1, k1⟩

end PoseidonContract
end Verif.Props.Pure
