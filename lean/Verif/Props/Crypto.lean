import Verif.Model.Crypto
/-! # C42, C43: signature recovery and EIP-712 digests -/

namespace Verif

theorem be32_length (x : U256) : (be32 x).length = 32 := by simp [be32]

theorem abiAddress_length (a : Address) : (abiAddress a).length = 32 := be32_length _

theorem be32_inj {x y : U256} (h : be32 x = be32 y) : x = y := by
  apply BitVec.eq_of_getLsbD_eq
  intro i hi
  have hk : 31 - i / 8 < 32 := by omega
  have h1 : (be32 x)[31 - i / 8]? = (be32 y)[31 - i / 8]? := by rw [h]
  simp only [be32, List.getElem?_map, List.getElem?_range hk, Option.map_some, Option.some.injEq] at h1
  have h2 := congrArg (fun b : U8 => b.getLsbD (i % 8)) h1
  have hm : i % 8 < 8 := Nat.mod_lt _ (by omega)
  simp only [BitVec.getLsbD_extractLsb', hm, decide_true, Bool.true_and] at h2
  have e : 8 * (31 - (31 - i / 8)) + i % 8 = i := by omega
  rwa [e] at h2

theorem abiAddress_inj {a b : Address} (h : abiAddress a = abiAddress b) : a = b := by
  have h1 := congrArg BitVec.toNat (be32_inj h)
  simp only [BitVec.toNat_setWidth] at h1
  have ha := a.isLt
  have hb := b.isLt
  rw [Nat.mod_eq_of_lt (by omega), Nat.mod_eq_of_lt (by omega)] at h1
  exact BitVec.eq_of_toNat_eq h1

theorem abiU8_inj {a b : U8} (h : abiU8 a = abiU8 b) : a = b := by
  have h1 := congrArg BitVec.toNat (be32_inj h)
  simp only [BitVec.toNat_setWidth] at h1
  have ha := a.isLt
  have hb := b.isLt
  rw [Nat.mod_eq_of_lt (by omega), Nat.mod_eq_of_lt (by omega)] at h1
  exact BitVec.eq_of_toNat_eq h1

/-- Peel one word off two equal encodings. -/
theorem be32_cons {x y : U256} {l m : Bytes} (h : be32 x ++ l = be32 y ++ m) : x = y ∧ l = m := by
  obtain ⟨h1, h2⟩ := List.append_inj h (by rw [be32_length, be32_length])
  exact ⟨be32_inj h1, h2⟩

theorem abiAddress_cons {x y : Address} {l m : Bytes} (h : abiAddress x ++ l = abiAddress y ++ m) :
    x = y ∧ l = m := by
  obtain ⟨h1, h2⟩ := List.append_inj h (by rw [abiAddress_length, abiAddress_length])
  exact ⟨abiAddress_inj h1, h2⟩

end Verif

namespace Verif.Props.Crypto
open Verif.Ecdsa

/-- The order of the secp256k1 group (SEC 2, section 2.4.1). -/
def secp256k1Order : Nat := 0xFFFFFFFFFFFFFFFFFFFFFFFFFFFFFFFEBAAEDCE6AF48A03BBFD25E8CD0364141

/-! ## C42 -/

/-- **C42** `recover` answers `a` only for `s` in the lower half order, never for `v` 0 or 1, never the
zero address; and then `a` is what the precompile answered, in its last 20 bytes, for exactly the given
hash and signature. -/
theorem C42_recover_ok_iff (P : Precompile) (hash : B256) (v : U8) (r s : B256) (a : Address) :
    recover P hash v r s = .ok a ↔
      s.toNat ≤ secp256k1Order / 2 ∧ v ≠ 0#8 ∧ v ≠ 1#8 ∧ a ≠ ZERO ∧
      ∃ out, P (be32 hash ++ (abiU8 v ++ (be32 r ++ be32 s))) = some out ∧ out.length = 32 ∧
        a = BitVec.ofNat 160 (fromBytes (out.drop 12)) := by
  have hb : S_UPPER_BOUND.toNat = secp256k1Order / 2 := by decide +kernel
  unfold recover checkIfMalleable recoverInternal encodeCalldata
  by_cases h1 : S_UPPER_BOUND < s
  · have h2 := BitVec.lt_def.mp h1
    rw [if_pos h1, except_bind_error]
    constructor
    · intro h; cases h
    · rintro ⟨h, _⟩; omega
  · have h2 : s.toNat ≤ secp256k1Order / 2 := by
      have := mt BitVec.lt_def.mpr h1; omega
    rw [if_neg h1, except_bind_ok]
    by_cases h3 : v = 0#8 ∨ v = 1#8
    · simp only [if_pos h3, except_throw, except_bind_error]
      constructor
      · intro h; cases h
      · rintro ⟨_, h4, h5, _⟩; rcases h3 with h3 | h3 <;> contradiction
    · simp only [if_neg h3, except_pure, except_bind_ok]
      have h30 : v ≠ 0#8 := fun h => h3 (Or.inl h)
      have h31 : v ≠ 1#8 := fun h => h3 (Or.inr h)
      cases hP : P (be32 hash ++ (abiU8 v ++ (be32 r ++ be32 s))) with
      | none => simp [hP]
      | some out =>
        simp only [orPanic_some, except_bind_ok, sliceAddress, Option.some.injEq, exists_eq_left',
          h2, h30, h31, ne_eq, not_false_eq_true, true_and]
        by_cases hl : out.length = 32
        · have hl1 : ¬ out.length < 12 := by omega
          have hl2 : (out.drop 12).length = 20 := by rw [List.length_drop]; omega
          have h32 : ¬ (32 < 12) := by decide
          simp only [hl, h32, if_false, hl2, not_true_eq_false, except_bind_ok, true_and]
          by_cases hz : BitVec.ofNat 160 (fromBytes (out.drop 12)) = ZERO
          · simp only [hz, if_true, except_throw, except_bind_error]
            constructor
            · intro h; cases h
            · rintro ⟨h, h'⟩; exact absurd h' h
          · simp only [hz, if_false, except_bind_ok, Except.ok.injEq]
            constructor
            · rintro rfl; exact ⟨hz, rfl⟩
            · rintro ⟨_, h⟩; exact h.symm
        · have : (if out.length < 12 then (Except.error Err.panic : Except Err Address)
              else if ¬ (out.drop 12).length = 20 then .error .panic
              else .ok (BitVec.ofNat 160 (fromBytes (out.drop 12)))) = .error .panic := by
            by_cases hl1 : out.length < 12
            · rw [if_pos hl1]
            · rw [if_neg hl1, if_pos (by rw [List.length_drop]; omega)]
          rw [this, except_bind_error]
          simp [hl]

/-- **C42** A malleable `s` is rejected with the dedicated error, whatever the rest. -/
theorem C42_high_s_rejected (P : Precompile) (hash : B256) (v : U8) (r s : B256)
    (h : secp256k1Order / 2 < s.toNat) : recover P hash v r s = .error (.invalidSignatureS s) := by
  have hb : S_UPPER_BOUND.toNat = secp256k1Order / 2 := by decide +kernel
  have h1 : S_UPPER_BOUND < s := BitVec.lt_def.mpr (by omega)
  unfold recover checkIfMalleable
  rw [if_pos h1]; rfl

/-- **C42** Of the two signatures `s` and `n - s` for the same message exactly one passes the range
check. -/
theorem C42_one_of_two (s s' : B256) (h0 : 0 < s.toNat) (h1 : s.toNat < secp256k1Order)
    (h2 : s'.toNat = secp256k1Order - s.toNat) :
    (checkIfMalleable s = .ok () ∧ checkIfMalleable s' = .error (.invalidSignatureS s')) ∨
    (checkIfMalleable s = .error (.invalidSignatureS s) ∧ checkIfMalleable s' = .ok ()) := by
  have hb : S_UPPER_BOUND.toNat = secp256k1Order / 2 := by decide +kernel
  have hodd : secp256k1Order = 2 * (secp256k1Order / 2) + 1 := by decide +kernel
  unfold checkIfMalleable
  generalize secp256k1Order / 2 = half at *
  by_cases hs : S_UPPER_BOUND < s
  · right
    rw [if_pos hs, if_neg]
    · exact ⟨rfl, rfl⟩
    · have := BitVec.lt_def.mp hs
      intro hc
      have := BitVec.lt_def.mp hc
      omega
  · left
    rw [if_neg hs, if_pos]
    · exact ⟨rfl, rfl⟩
    · have : ¬ S_UPPER_BOUND.toNat < s.toNat := mt BitVec.lt_def.mpr hs
      exact BitVec.lt_def.mpr (by omega)

/-- **C42** (finding) When the precompile answers with no bytes, as the EVM precompile does for an
unrecoverable signature, `recover` panics instead of returning `InvalidSignature`. -/
theorem C42_empty_answer_panics (P : Precompile) (hash : B256) (v : U8) (r s : B256)
    (hs : s.toNat ≤ secp256k1Order / 2) (h0 : v ≠ 0#8) (h1 : v ≠ 1#8)
    (hP : P (be32 hash ++ (abiU8 v ++ (be32 r ++ be32 s))) = some []) :
    recover P hash v r s = .error .panic := by
  have hb : S_UPPER_BOUND.toNat = secp256k1Order / 2 := by decide +kernel
  have hn : ¬ S_UPPER_BOUND < s := fun h => by have := BitVec.lt_def.mp h; omega
  unfold recover checkIfMalleable recoverInternal encodeCalldata
  simp only [if_neg hn, except_bind_ok, h0, h1, or_self, if_false, except_pure, hP, orPanic_some]
  rfl

/-! ## C43 -/

open Verif.Eip712

/-- **C43** The digest pre-image determines the domain separator and the struct hash. -/
theorem C43_preimage_injective (d d' m m' : B256) (h : preimage d m = preimage d' m') :
    d = d' ∧ m = m' := by
  unfold preimage at h
  have h1 := List.append_cancel_left h
  obtain ⟨h2, h3⟩ := be32_cons h1
  exact ⟨h2, be32_inj h3⟩

/-- **C43** The pre-image is `0x19 0x01`, then the two 32-byte words: 66 bytes. -/
theorem C43_preimage_layout (d m : B256) :
    (preimage d m).take 2 = [0x19#8, 0x01#8] ∧ ((preimage d m).drop 2).take 32 = be32 d ∧
    (preimage d m).drop 34 = be32 m ∧ (preimage d m).length = 66 := by
  unfold preimage
  refine ⟨rfl, ?_, ?_, ?_⟩
  · simp [List.take_append, be32_length]
  · simp [List.drop_append, be32_length]
  · simp [be32_length]

/-- **C43** The domain separator's pre-image determines the name hash, version hash, chain id and
contract address. -/
theorem C43_domain_injective (K : Hash) (d d' : Domain) (h : encodeDomain K d = encodeDomain K d') :
    K d.name = K d'.name ∧ K d.version = K d'.version ∧ d.chainId = d'.chainId ∧
    d.contract = d'.contract := by
  unfold encodeDomain at h
  obtain ⟨_, h1⟩ := be32_cons h
  obtain ⟨h2, h3⟩ := be32_cons h1
  obtain ⟨h4, h5⟩ := be32_cons h3
  obtain ⟨h6, h7⟩ := be32_cons h5
  exact ⟨h2, h4, h6, abiAddress_inj h7⟩

/-- Two byte strings that are a collision of `K`. -/
def Collision (K : Hash) (x y : Bytes) : Prop := x ≠ y ∧ K x = K y

/-- **C43** Equal digests mean equal messages in equal domains, unless two of the strings hashed on the
way (named here) are a collision of the hash function. -/
theorem C43_digest_binds (K : Hash) (d d' : Domain) (m m' : B256)
    (h : hashTypedData K d m = hashTypedData K d' m') :
    (m = m' ∧ d = d') ∨
    Collision K (preimage (domainSeparator K d) m) (preimage (domainSeparator K d') m') ∨
    Collision K (encodeDomain K d) (encodeDomain K d') ∨
    Collision K d.name d'.name ∨ Collision K d.version d'.version := by
  unfold hashTypedData toTypedDataHash at h
  by_cases h1 : preimage (domainSeparator K d) m = preimage (domainSeparator K d') m'
  · obtain ⟨h2, h3⟩ := C43_preimage_injective _ _ _ _ h1
    by_cases h4 : encodeDomain K d = encodeDomain K d'
    · obtain ⟨e1, e2, e3, e4⟩ := C43_domain_injective K d d' h4
      by_cases n1 : d.name = d'.name
      · by_cases n2 : d.version = d'.version
        · left
          refine ⟨h3, ?_⟩
          cases d; cases d'
          simp only at e3 e4 n1 n2
          subst e3 e4 n1 n2
          rfl
        · exact Or.inr (Or.inr (Or.inr (Or.inr ⟨n2, e2⟩)))
      · exact Or.inr (Or.inr (Or.inr (Or.inl ⟨n1, e1⟩)))
    · exact Or.inr (Or.inr (Or.inl ⟨h4, h2⟩))
  · exact Or.inr (Or.inl ⟨h1, h⟩)

/-- **C43** What `eip712_domain` reports is what the separator is computed from: equal reports, equal
separators. -/
theorem C43_domain_reported (K : Hash) (d d' : Domain) (h : eip712Domain d = eip712Domain d') :
    domainSeparator K d = domainSeparator K d' := by
  simp only [eip712Domain, Prod.mk.injEq, true_and, and_true] at h
  obtain ⟨h1, h2, h3, h4⟩ := h
  cases d; cases d'
  simp only at h1 h2 h3 h4
  subst h1 h2 h3 h4
  rfl

/-! ## Concrete cases -/

section Examples
/-- A toy precompile: answers the address 5 for one particular message, nothing otherwise. -/
private def P0 : Precompile := fun data =>
  if data = be32 1#256 ++ (abiU8 27#8 ++ (be32 2#256 ++ be32 3#256)) then some (abiAddress 5#160)
  else some []

example : recover P0 1#256 27#8 2#256 3#256 = .ok 5#160 := by decide +kernel
example : recover P0 1#256 28#8 2#256 3#256 = .error .panic := by decide +kernel
example : recover P0 1#256 0#8 2#256 3#256 = .error .invalidSignature := by decide +kernel
example : recover P0 1#256 27#8 2#256 (S_UPPER_BOUND + 1#256)
    = .error (.invalidSignatureS (S_UPPER_BOUND + 1#256)) := by decide +kernel
example : checkIfMalleable S_UPPER_BOUND = .ok () := by decide +kernel
example : (secp256k1Order - S_UPPER_BOUND.toNat) = S_UPPER_BOUND.toNat + 1 := by decide +kernel
-- a toy hash under which two different messages have different digests
private def K0 : Hash := fun l => BitVec.ofNat 256 (l.foldl (fun a b => a * 31 + b.toNat) 7)
private def D0 : Domain := ⟨ascii "A", ascii "1", 1#256, 9#160⟩
example : hashTypedData K0 D0 1#256 ≠ hashTypedData K0 D0 2#256 := by decide +kernel
example : hashTypedData K0 D0 1#256 ≠ hashTypedData K0 { D0 with chainId := 2#256 } 1#256 := by
  decide +kernel
end Examples

end Verif.Props.Crypto
