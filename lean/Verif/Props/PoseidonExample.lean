import Verif.Model.PoseidonExample
import Verif.Proofs.PoseidonMap
import Verif.Props.PoseidonInstances
import Verif.Props.Uint
/-! # C94: the Poseidon contract of the examples -/

namespace Verif.Props.PoseidonExample
open Verif Verif.Fp Verif.Uint Verif.Poseidon Verif.Poseidon.Instances Verif.PoseidonExample Verif.Props.FpField
open Verif.Spec.Poseidon Verif.Spec.Uint Verif.Spec.Fp

/-- The order of the field: a number of 254 bits. -/
abbrev p : Nat := 21888242871839275222246405745257275088548364400416034343698204186575808495617

theorem order_eq : order BN256 = p := C81.2.1
  where C81 := Props.FpInstances.C81_bn256

private theorem foldr_le (f : Nat → U8) (n k : Nat) (x : Nat) (h : ∀ i, (f i).toNat = x / 256 ^ i % 256) :
    bytesValue ((List.range' k n).map f) = x / 256 ^ k % 256 ^ n := by
  induction n generalizing k with
  | zero => simp [bytesValue, Nat.mod_one]
  | succ n ih =>
    have e : bytesValue ((List.range' k (n + 1)).map f) = (f k).toNat + 256 * bytesValue ((List.range' (k + 1) n).map f) := rfl
    rw [e, ih, h, Nat.pow_succ 256 k, ← Nat.div_div_eq_div_mul, Nat.pow_succ', Nat.mod_mul]

theorem toLeBytesVec_ok (x : U256) : bytesValue (toLeBytesVec x) = x.toNat ∧ (toLeBytesVec x).length = 32 := by
  refine ⟨?_, by simp [toLeBytesVec]⟩
  have := foldr_le (fun i => x.extractLsb' (8 * i) 8) 32 0 x.toNat (by
    intro i
    rw [BitVec.extractLsb'_toNat, Nat.shiftRight_eq_div_pow, Nat.pow_mul])
  unfold toLeBytesVec
  rw [List.range_eq_range', this, Nat.pow_zero, Nat.div_one]
  exact Nat.mod_eq_of_lt x.isLt

theorem element_ok (x : U256) : element x = some ((x.toNat : Nat) : FpBN256) := by
  obtain ⟨h1, h2⟩ := toLeBytesVec_ok x
  unfold element
  have hlt : bytesValue (toLeBytesVec x) < 2 ^ (64 * 4) := by rw [h1]; exact x.isLt
  obtain ⟨u, hu⟩ : ∃ u : Uint 4, ctFromLeSlice (toLeBytesVec x) = some u := by
    unfold ctFromLeSlice
    rw [if_pos h2]
    exact ⟨_, rfl⟩
  have hv := ((Props.Uint.C65_from_bytes _ _).mp hu).2
  rw [hu]
  simp only [Option.map_some, Option.some.injEq]
  refine Elem.ext ?_
  have := (Props.PoseidonInstances.C80_library_operations (hP := Props.FpInstances.C81_bn256.2.2) 0 0#8 u).2
  rw [hv, h1] at this
  exact this.symm

theorem out_ok (h : FpBN256) : ∃ r : U256, fromLeSlice (intoBytesLe (intoBigint h.val)) = some r ∧ r.toNat = num h.val := by
  obtain ⟨h1, h2⟩ := Props.Uint.C65_into_bytes (intoBigint h.val)
  unfold fromLeSlice
  rw [if_pos (by omega)]
  refine ⟨_, rfl, ?_⟩
  rw [BitVec.toNat_ofNat]
  show bytesValue (intoBytesLe (intoBigint h.val)) % 2 ^ 256 = num h.val
  rw [h1]
  exact Nat.mod_eq_of_lt (val_lt _)

/-- One output after one block. -/
theorem one_block {F : Type} [CommRing F] {P : Params F} (hP : Supported P) (l : List F) (hl : l.length ≤ rate P) :
    ∃ sp sp', absorbBatch P (new P) l = some sp ∧
      squeeze P sp = some (entry (permutation P (addBlock P (fun _ => 0) l)) P.capacity, sp') := by
  have key := Props.Poseidon.C79_hash hP [] (by simp) l hl (.inr rfl) 1
  simp only [List.flatten_nil, List.nil_append] at key
  cases hsp : absorbBatch P (new P) l with
  | none => rw [hsp] at key; cases key
  | some sp =>
    rw [hsp] at key
    simp only [Option.bind_some, squeezeBatch] at key
    cases hq : squeeze P sp with
    | none => rw [hq] at key; cases key
    | some r =>
      rw [hq] at key
      obtain ⟨h, sp'⟩ := r
      refine ⟨sp, sp', rfl, ?_⟩
      rw [hq]
      have : [h] = [entry (permutation P (addBlock P (fun _ => 0) l)) P.capacity] := by
        have := Option.some.inj key
        simpa [List.range_succ] using this
      rw [(List.cons.inj this).1]

theorem entry_map {F G : Type} [CommRing F] [CommRing G] (f : F →+* G) (R : Raw) (l : List F) (k : Nat) :
    f (entry (permutation (R.params F) (addBlock (R.params F) (fun _ => 0) l)) k) =
      entry (permutation (R.params G) (addBlock (R.params G) (fun _ => 0) (l.map f))) k := by
  have h1 : f ∘ addBlock (R.params F) (fun _ => 0) l = addBlock (R.params G) (fun _ => 0) (l.map f) := by
    funext i
    show f (if R.capacity ≤ i.val then 0 + l.getD (i.val - R.capacity) 0 else 0) =
      if R.capacity ≤ i.val then 0 + (l.map f).getD (i.val - R.capacity) 0 else 0
    rw [Proofs.PoseidonMap.getD_map]
    split_ifs <;> simp
  have h2 := Proofs.PoseidonMap.permutation_map f R (addBlock (R.params F) (fun _ => 0) l)
  have h3 : permutation (R.params G) (addBlock (R.params G) (fun _ => 0) (l.map f)) =
      f ∘ permutation (R.params F) (addBlock (R.params F) (fun _ => 0) l) :=
    (congrArg (permutation (R.params G)) h1.symm).trans h2.symm
  rw [h3]
  unfold entry
  show f (if h : k < R.T then permutation (R.params F) _ ⟨k, h⟩ else 0) =
    if h : k < R.T then f (permutation (R.params F) _ ⟨k, h⟩) else 0
  split_ifs
  · rfl
  · exact map_zero f

theorem hash_run (a b : U256) : PoseidonExample.hash [a, b] =
    ((absorbBatch params (new params) [((a.toNat : Nat) : FpBN256), ((b.toNat : Nat) : FpBN256)]).bind fun sp =>
      (squeeze params sp).bind fun r => fromLeSlice (intoBytesLe (intoBigint r.1.val))) := by
  unfold PoseidonExample.hash absorbBatch
  simp only [List.foldlM_cons, List.foldlM_nil, element_ok]
  rfl

theorem hash_entry (a b : U256) (G : Type) [CommRing G] (f : FpBN256 →+* G) :
    ∃ (h : U256) (x : FpBN256), PoseidonExample.hash [a, b] = some h ∧ h.toNat = num x.val ∧
      f x = entry (permutation (bn256.params G) (addBlock (bn256.params G) (fun _ => 0)
        [((a.toNat : Nat) : G), ((b.toNat : Nat) : G)])) 1 := by
  have hsup := (Props.PoseidonInstances.C80_library Props.FpInstances.C81_bn256 Props.PoseidonInstances.C80_bn256).1
  obtain ⟨sp, sp', h1, h2⟩ := one_block hsup [((a.toNat : Nat) : FpBN256), ((b.toNat : Nat) : FpBN256)]
    (by show 2 ≤ 3 - 1; decide)
  obtain ⟨out, ho, hv⟩ := out_ok (entry (permutation params (addBlock params (fun _ => 0)
    [((a.toNat : Nat) : FpBN256), ((b.toNat : Nat) : FpBN256)])) params.capacity)
  refine ⟨out, _, ?_, hv, ?_⟩
  · rw [hash_run, h1, Option.bind_some, h2, Option.bind_some]
    exact ho
  · rw [entry_map, List.map_cons, List.map_cons, List.map_nil, map_natCast, map_natCast]
    rfl

/-- The state `(0, a, b)` over the integers modulo `p`. -/
def start (a b : U256) : Fin 3 → ZMod p := ![0, (a.toNat : ZMod p), (b.toNat : ZMod p)]

private theorem entry_start {F : Type} [CommRing F] (D rF rP : Nat) (diag : List F) (rc : List (List F)) (a b : F) :
    entry (permutation ⟨3, D, 1, rF, rP, diag, rc⟩ (addBlock ⟨3, D, 1, rF, rP, diag, rc⟩ (fun _ => 0) [a, b])) 1 =
      permutation ⟨3, D, 1, rF, rP, diag, rc⟩ ![0, a, b] (1 : Fin 3) := by
  have : addBlock (⟨3, D, 1, rF, rP, diag, rc⟩ : Params F) (fun _ => 0) [a, b] = ![0, a, b] := by
    funext i
    fin_cases i <;> simp [addBlock]
  rw [this]
  rfl

/-- **C94** For every pair of inputs the call returns (it never panics), and the answer is the second element of the
Poseidon2 permutation of `(0, a, b)` modulo `p`, as a number below `p`. -/
theorem C94_hash (a b : U256) :
    ∃ h : U256, PoseidonExample.hash [a, b] = some h ∧ h.toNat < p ∧
      (h.toNat : ZMod p) = permutation (bn256.params (ZMod p)) (start a b) (1 : Fin 3) := by
  obtain ⟨e, he⟩ := C67_field_is_zmod Props.FpInstances.C81_bn256.2.2
  obtain ⟨h, x, h1, h2, h3⟩ := hash_entry a b _ (e : FpBN256 →+* ZMod (order BN256))
  have hx : (e : FpBN256 →+* ZMod (order BN256)) x = ((num x.val : Nat) : ZMod (order BN256)) := he x
  rw [hx, ← h2] at h3
  refine ⟨h, h1, ?_, ?_⟩
  · rw [h2, ← order_eq]
    exact num_lt Props.FpInstances.C81_bn256.2.2.1 x.reduced
  · have hs := entry_start bn256.D bn256.roundsF bn256.roundsP (bn256.params (ZMod p)).diag (bn256.params (ZMod p)).rc
      ((a.toNat : Nat) : ZMod p) ((b.toNat : Nat) : ZMod p)
    refine Eq.trans ?_ hs
    revert h3
    rw [order_eq]
    exact id

/-- **C94** Only the residues matter: inputs that agree modulo `p` have the same hash. -/
theorem C94_aliases (a b a' b' : U256) (ha : a.toNat % p = a'.toNat % p) (hb : b.toNat % p = b'.toNat % p) :
    PoseidonExample.hash [a, b] = PoseidonExample.hash [a', b'] := by
  have cast : ∀ x y : U256, x.toNat % p = y.toNat % p → ((x.toNat : Nat) : FpBN256) = ((y.toNat : Nat) : FpBN256) := by
    intro x y hxy
    obtain ⟨e, -⟩ := C67_field_is_zmod Props.FpInstances.C81_bn256.2.2
    refine e.injective ?_
    rw [map_natCast, map_natCast, ZMod.natCast_eq_natCast_iff', order_eq]
    exact hxy
  rw [hash_run, hash_run, cast a a' ha, cast b b' hb]

-- two different inputs, one of them not reduced, with the same hash
example : PoseidonExample.hash [5#256, BitVec.ofNat 256 p] = PoseidonExample.hash [5#256, 0#256] :=
  C94_aliases _ _ _ _ rfl (by decide)

set_option maxRecDepth 100000 in
private theorem digest_one_two :
    ((absorbBatch (bn256.params (ZMod p)) (new (bn256.params (ZMod p))) [((1 : Nat) : ZMod p), ((2 : Nat) : ZMod p)]).bind
      fun sp => (squeeze (bn256.params (ZMod p)) sp).map (·.1)) =
      some ((0x303b6f7c86d043bfcbcc80214f26a30277a15d3f74ca654992defe7ff8d03570 : Nat) : ZMod p) := by decide +kernel

/-- The answer the library's own tests expect for the inputs 1 and 2. -/
example : PoseidonExample.hash [1#256, 2#256] =
    some 0x303b6f7c86d043bfcbcc80214f26a30277a15d3f74ca654992defe7ff8d03570#256 := by
  obtain ⟨h, h1, h2, h3⟩ := C94_hash 1#256 2#256
  have : Fact p.Prime := ⟨Props.PoseidonInstances.C80_bn256.1⟩
  have hsup : Supported (bn256.params (ZMod p)) := (Props.PoseidonInstances.C80_bn256.2.2.2.2 (ZMod p) (ZMod.card p)).1
  obtain ⟨sp, sp', h4, h5⟩ := one_block hsup [((1 : Nat) : ZMod p), ((2 : Nat) : ZMod p)] (by show 2 ≤ 3 - 1; decide)
  have h6 := digest_one_two
  rw [h4, Option.bind_some, h5, Option.map_some, Option.some.injEq] at h6
  have hs := entry_start bn256.D bn256.roundsF bn256.roundsP (bn256.params (ZMod p)).diag (bn256.params (ZMod p)).rc
    ((1 : Nat) : ZMod p) ((2 : Nat) : ZMod p)
  have h7 : (h.toNat : ZMod p) = ((0x303b6f7c86d043bfcbcc80214f26a30277a15d3f74ca654992defe7ff8d03570 : Nat) : ZMod p) :=
    h3.trans (hs.symm.trans h6)
  rw [ZMod.natCast_eq_natCast_iff', Nat.mod_eq_of_lt h2] at h7
  rw [h1]
  refine congrArg some (BitVec.eq_of_toNat_eq (h7.trans ?_))
  decide

end Verif.Props.PoseidonExample
