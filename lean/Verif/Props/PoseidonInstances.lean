import Verif.Props.Poseidon
import Verif.Props.FpField
import Verif.Props.FpInstances
import Verif.Model.PoseidonInstances
import Mathlib.FieldTheory.Finite.Basic
import Mathlib.Algebra.CharP.CharAndCard
/-!
# C80: the eight shipped Poseidon2 parameter sets

Inverses of the diagonals serve as certificates.
-/

namespace Verif.Props.PoseidonInstances
open Verif Verif.Poseidon Verif.Poseidon.Instances Verif.Spec.Poseidon

/-- What a parameter set over the field of order `p` must satisfy: every entry is a reduced number, there is a row of
constants of the right size per round, and the permutation over any field of that order takes each state exactly once. -/
def Sound (R : Raw) (p : Nat) : Prop :=
  p.Prime ∧ R.rc.length = R.roundsF + R.roundsP ∧ (∀ row ∈ R.rc, row.length = R.T ∧ ∀ n ∈ row, n < p) ∧
    (∀ n ∈ R.diag, n < p) ∧
  ∀ (F : Type) [Field F] [Fintype F], Fintype.card F = p → Supported (R.params F) ∧
    ∀ s' : List F, s'.length = R.T → ∃! s, s.length = R.T ∧ permute (R.params F) s = some s'

/-- The conditions on numbers, decided by computation. -/
def Good (R : Raw) (p : Nat) (inv : List Nat) : Prop :=
  R.T ∈ [2, 3, 4, 8, 12, 16, 20, 24] ∧ R.capacity < R.T ∧ R.diag.length = R.T ∧ inv.length = R.T ∧
    R.rc.length = R.roundsF + R.roundsP ∧ (∀ row ∈ R.rc, row.length = R.T ∧ ∀ n ∈ row, n < p) ∧
    (∀ n ∈ R.diag, n < p) ∧ Nat.gcd (p - 1) R.D = 1 ∧ R.D ≠ 0 ∧ 7 < p ∧
    (R.T = 2 → R.diag = [1, 2]) ∧ (R.T = 3 → R.diag = [1, 1, 2]) ∧
    (∀ i < R.T, R.diag.getD i 0 * inv.getD i 0 % p = 1) ∧
    (1 + ((List.range R.T).map fun i => inv.getD i 0).sum) % p ≠ 0

instance (R : Raw) (p : Nat) (inv : List Nat) : Decidable (Good R p inv) := by unfold Good; infer_instance

theorem getD_map_cast {F : Type} [CommRing F] (l : List Nat) (i : Nat) : (l.map fun n : Nat => (n : F)).getD i 0 = ((l.getD i 0 : Nat) : F) := by
  rw [List.getD_eq_getElem?_getD, List.getD_eq_getElem?_getD, List.getElem?_map]
  cases l[i]? <;> simp

theorem sound_of_good {R : Raw} {p : Nat} {inv : List Nat} (hp : p.Prime) (h : Good R p inv) : Sound R p := by
  obtain ⟨hT, hcap, hdl, hil, hrl, hrows, hdlt, hgcd, hD, h7, h2, h3, hinv, hsum⟩ := h
  refine ⟨hp, hrl, hrows, hdlt, ?_⟩
  intro F _ _ hcard
  have : Fact p.Prime := ⟨hp⟩
  have : CharP F p := charP_of_card_eq_prime hcard
  have hsup : Supported (R.params F) := by
    refine ⟨hT, hcap, ?_, ?_, ?_⟩
    · intro _; simp [Raw.params, hdl]
    · simp [Raw.params, hrl]
    · intro row hrow
      simp only [Raw.params, List.mem_map] at hrow
      obtain ⟨r, hr, rfl⟩ := hrow
      intro h0
      have hl := (hrows r hr).1
      have : r = [] := by simpa using h0
      rw [this] at hl
      simp at hl
      omega
  refine ⟨hsup, ?_⟩
  have hne : ∀ n : Nat, 0 < n → n < p → ((n : Nat) : F) ≠ 0 := by
    intro n h1 h2 h
    rw [CharP.cast_eq_zero_iff F p] at h
    exact absurd (Nat.le_of_dvd h1 h) (by omega)
  have hdiag : ∀ i, internalDiag (R.params F) i = ((R.diag.getD i 0 : Nat) : F) := by
    intro i
    unfold internalDiag
    show (if R.T = 2 then _ else if R.T = 3 then _ else (R.diag.map fun n : Nat => (n : F)).getD i 0) = _
    by_cases e2 : R.T = 2
    · rw [if_pos e2, h2 e2]
      rcases i with _ | _ | i <;> simp
    · by_cases e3 : R.T = 3
      · rw [if_neg e2, if_pos e3, h3 e3]
        rcases i with _ | _ | _ | i <;> simp
      · rw [if_neg e2, if_neg e3, getD_map_cast]
  have hmul : ∀ i < R.T, ((R.diag.getD i 0 : Nat) : F) * ((inv.getD i 0 : Nat) : F) = 1 := by
    intro i hi
    have := hinv i hi
    rw [← Nat.cast_mul, ← Nat.cast_one, CharP.natCast_eq_natCast F p]
    exact this.trans (Nat.mod_eq_of_lt hp.one_lt).symm
  obtain ⟨hE, hI⟩ := Props.Poseidon.C80_matrices (R.params F) hT (by exact_mod_cast hne 2 (by omega) (by omega))
    (fun _ => by exact_mod_cast hne 3 (by omega) (by omega))
    (fun _ => hne _ (by omega) (by
      have : R.T ≤ 24 := by simp at hT; omega
      show R.T / 4 + 1 < p
      omega))
    (fun i hi => by rw [hdiag]; exact left_ne_zero_of_mul_eq_one (hmul i hi))
    (by
      intro h
      have e : ∑ i ∈ Finset.range (R.params F).T, (internalDiag (R.params F) i)⁻¹ =
          ((((List.range R.T).map fun i => inv.getD i 0).sum : Nat) : F) := by
        rw [Finset.sum_congr rfl (g := fun i => ((inv.getD i 0 : Nat) : F))]
        · rw [← Nat.cast_sum]
          congr 1
        · intro i hi
          rw [hdiag]
          exact inv_eq_of_mul_eq_one_right (hmul i (Finset.mem_range.mp hi))
      rw [e, ← Nat.cast_one, ← Nat.cast_add, CharP.cast_eq_zero_iff F p] at h
      exact hsum (Nat.mod_eq_zero_of_dvd h))
  exact Props.Poseidon.C80_bijective hsup (Props.Poseidon.C80_power R.D (by rw [hcard]; exact hgcd) hD) hE hI

/-- Inverses of the diagonal. -/
def bn256Inv : List Nat := [1,
  1,
  10944121435919637611123202872628637544274182200208017171849102093287904247809]

set_option maxRecDepth 100000 in
/-- C80: `bn256`. -/
theorem C80_bn256 : Sound bn256 21888242871839275222246405745257275088548364400416034343698204186575808495617 :=
  sound_of_good (inv := bn256Inv) Primes.prime_21888242871839275222246405745257275088548364400416034343698204186575808495617 (by decide +kernel)

/-- Inverses of the diagonal. -/
def pallasInv : List Nat := [1,
  1,
  14474011154664524427946373126085988481681528240970780357977338382174983815169]

set_option maxRecDepth 100000 in
/-- C80: `pallas`. -/
theorem C80_pallas : Sound pallas 28948022309329048855892746252171976963363056481941560715954676764349967630337 :=
  sound_of_good (inv := pallasInv) Primes.prime_28948022309329048855892746252171976963363056481941560715954676764349967630337 (by decide +kernel)

/-- Inverses of the diagonal. -/
def vestaInv : List Nat := [1,
  1,
  14474011154664524427946373126085988481681528240970823689839871374196681474049]

set_option maxRecDepth 100000 in
/-- C80: `vesta`. -/
theorem C80_vesta : Sound vesta 28948022309329048855892746252171976963363056481941647379679742748393362948097 :=
  sound_of_good (inv := vestaInv) Primes.prime_28948022309329048855892746252171976963363056481941647379679742748393362948097 (by decide +kernel)

/-- Inverses of the diagonal. -/
def bls2Inv : List Nat := [1,
  26217937587563095239723870254092982918845276250263818911301829349969290592257]

set_option maxRecDepth 100000 in
/-- C80: `bls2`. -/
theorem C80_bls2 : Sound bls2 52435875175126190479447740508185965837690552500527637822603658699938581184513 :=
  sound_of_good (inv := bls2Inv) Primes.prime_52435875175126190479447740508185965837690552500527637822603658699938581184513 (by decide +kernel)

/-- Inverses of the diagonal. -/
def bls3Inv : List Nat := [1,
  1,
  26217937587563095239723870254092982918845276250263818911301829349969290592257]

set_option maxRecDepth 100000 in
/-- C80: `bls3`. -/
theorem C80_bls3 : Sound bls3 52435875175126190479447740508185965837690552500527637822603658699938581184513 :=
  sound_of_good (inv := bls3Inv) Primes.prime_52435875175126190479447740508185965837690552500527637822603658699938581184513 (by decide +kernel)

/-- Inverses of the diagonal. -/
def bls4Inv : List Nat := [2775184910905990994954344856334665518174628856903536343462985828209083422091,
  39091169846270621916196599906595163321369504513023672393424461493775295319010,
  43390098294545457155586474910835873170133724024870262700388700210136029484295,
  28169499126562512601980043243573075445370936472686725043469404598295824774326]

set_option maxRecDepth 100000 in
/-- C80: `bls4`. -/
theorem C80_bls4 : Sound bls4 52435875175126190479447740508185965837690552500527637822603658699938581184513 :=
  sound_of_good (inv := bls4Inv) Primes.prime_52435875175126190479447740508185965837690552500527637822603658699938581184513 (by decide +kernel)

/-- Inverses of the diagonal. -/
def goldilocks12Inv : List Nat := [13806053890864727292,
  16039304555552744694,
  18000805539296046064,
  1120712292707969966,
  18151938884699337764,
  16223473244271871235,
  7784472447174841387,
  11935060317972544447,
  12400051796508006841,
  5848187894058753806,
  1664410347336977730,
  1496632066239311320]

set_option maxRecDepth 100000 in
/-- C80: `goldilocks12`. -/
theorem C80_goldilocks12 : Sound goldilocks12 18446744069414584321 :=
  sound_of_good (inv := goldilocks12Inv) Primes.prime_18446744069414584321 (by decide +kernel)

/-- Inverses of the diagonal. -/
def babyBear24Inv : List Nat := [43705162,
  924797003,
  990482726,
  1694794586,
  23444731,
  1886478229,
  1081791061,
  563932331,
  414848917,
  11468505,
  494775741,
  1605169737,
  171321002,
  837375491,
  1366335515,
  103669254,
  1737042853,
  928767156,
  1505013840,
  269273777,
  1505843032,
  100101,
  1973520354,
  317103186]

set_option maxRecDepth 100000 in
/-- C80: `babyBear24`. -/
theorem C80_babyBear24 : Sound babyBear24 2013265921 :=
  sound_of_good (inv := babyBear24Inv) Primes.prime_2013265921 (by decide +kernel)

/-! ## The library's own fields -/

section library
open Verif.Fp Verif.Uint Verif.Spec.Fp Verif.Spec.Uint Verif.Props.FpField Verif.Props.FpInstances
variable {N : Nat} {P : FpParams N} {hP : ValidPrime P}

/-- C80: in the library's field, the power used by the S-box is `pow` with an eight-bit exponent, and a constant of the
parameter sets is what converting that number gives. -/
theorem C80_library_operations (x : Elem P hP) (e : BitVec 8) (u : Uint N) :
    (x ^ e.toNat).val = Fp.pow x.val (limbBitsBe e) ∧ ((val u : Nat) : Elem P hP).val = fromBigint u := by
  obtain ⟨h1, h2⟩ := Props.Fp.C70_pow_primitive hP.1 x.reduced e
  obtain ⟨h3, h4⟩ := num_fromBigint hP.1 u
  constructor
  · refine congrArg Elem.val (residue_injective (a₁ := x ^ e.toNat) (a₂ := ⟨_, h2⟩) ?_)
    rw [show residue (x ^ e.toNat) = residue x ^ e.toNat from residue_symm _]
    unfold residue
    rw [h1, ZMod.natCast_mod, Nat.cast_pow]
  · refine congrArg Elem.val (residue_injective (a₁ := ((val u : Nat) : Elem P hP)) (a₂ := ⟨_, h4⟩) ?_)
    rw [show residue ((val u : Nat) : Elem P hP) = ((val u : Nat) : ZMod (order P)) from residue_symm _]
    unfold residue
    rw [h3, ZMod.natCast_mod]

/-- C80: so the permutation over the library's own field elements takes each state exactly once, and the sponge over
them has the properties C78 and C79. -/
theorem C80_library {R : Raw} {text : String} {p : Nat} (hI : Instance text p P) (hR : Sound R p) :
    Supported (R.params (Elem P hI.2.2)) ∧
      ∀ s' : List (Elem P hI.2.2), s'.length = R.T →
        ∃! s, s.length = R.T ∧ permute (R.params (Elem P hI.2.2)) s = some s' := by
  obtain ⟨e, -⟩ := C67_field_is_zmod hI.2.2
  have : NeZero (order P) := ⟨hI.2.2.2.ne_zero⟩
  let _ : Fintype (Elem P hI.2.2) := Fintype.ofEquiv _ e.symm.toEquiv
  refine hR.2.2.2.2 (Elem P hI.2.2) ?_
  rw [Fintype.card_congr e.toEquiv, ZMod.card, hI.2.1]

example := C80_library C81_bn256 C80_bn256
example := C80_library C81_pallas C80_pallas
example := C80_library C81_vesta C80_vesta
example := C80_library C81_bls12 C80_bls2
example := C80_library C81_bls12 C80_bls3
example := C80_library C81_bls12 C80_bls4
example := C80_library C81_goldilocks C80_goldilocks12
example := C80_library C81_babybear C80_babyBear24

end library

/-- Absorb `1, …, T - 1` and squeeze `n` elements: what the tests of the library do. -/
def digest (R : Raw) (p : Nat) (n : Nat) : Option (List (ZMod p)) := do
  let sp ← absorbBatch (R.params (ZMod p)) (new (R.params (ZMod p))) ((List.range (R.T - 1)).map fun i => ((i + 1 : Nat) : ZMod p))
  let (l, _) ← squeezeBatch (R.params (ZMod p)) sp n
  return l

/-! The model gives the answers the library's own tests expect. -/

set_option maxRecDepth 100000 in
example : digest bn256 21888242871839275222246405745257275088548364400416034343698204186575808495617 2 = some [0x303b6f7c86d043bfcbcc80214f26a30277a15d3f74ca654992defe7ff8d03570,
  0x1ed25194542b12eef8617361c3ba7c52e660b145994427cc86296242cf766ec8] := by decide +kernel

set_option maxRecDepth 100000 in
example : digest pallas 28948022309329048855892746252171976963363056481941560715954676764349967630337 2 = some [0x1c48ea0994a7d7984ea338a54dbf0c8681f5af883fe988d59ba3380c9f7901fc,
  0x79ddd0a80a3e9414489b526a2770448964766685f4c4842c838f8a23120b401] := by decide +kernel

set_option maxRecDepth 100000 in
example : digest vesta 28948022309329048855892746252171976963363056481941647379679742748393362948097 2 = some [0x2c76327e0b7653873263158cf8545c282364b183880fcdea93ca8526d518c66f,
  0x262316c0ce5244838c75873299b59d763ae0849d2dd31bdc95caf7db1c2901bf] := by decide +kernel

set_option maxRecDepth 100000 in
example : digest bls2 52435875175126190479447740508185965837690552500527637822603658699938581184513 1 = some [0x1f0e305ee21c9366d5793b80251405032a3fee32b9dd0b5f4578262891b043b4] := by decide +kernel

set_option maxRecDepth 100000 in
example : digest bls3 52435875175126190479447740508185965837690552500527637822603658699938581184513 2 = some [0x4c5793c87d51bdc2c08a32108437dc0000bd0275868f09ebc5f36919af5b3891,
  0x1fc8ed171e67902ca49863159fe5ba6325318843d13976143b8125f08b50dc6b] := by decide +kernel

set_option maxRecDepth 100000 in
example : digest bls4 52435875175126190479447740508185965837690552500527637822603658699938581184513 3 = some [0xe56f2b6fad25075aa93560185b70e2b180ed7e269159c507c288b6747a0db2d,
  0x6d8196f28da6006bb89b3df94600acdc03d0ba7c2b0f3f4409a54c1db6bf30d0,
  0x7cfb49540ee456cce38b8a7d1a930a57ffc6660737f6589ef184c5e15334e36] := by decide +kernel

set_option maxRecDepth 100000 in
example : digest goldilocks12 18446744069414584321 8 = some [0x919ad117c013584c,
  0xda52e5769cff16e3,
  0x61018d9476a8588e,
  0xeded3197110731fb,
  0x57224df1bb91d294,
  0x655c1fb6ef455b96,
  0xaff582f1574c02b1,
  0x5fde11bb5be4f4f9] := by decide +kernel

set_option maxRecDepth 100000 in
example : digest babyBear24 2013265921 20 = some [0x5f5a91bb,
  0x1ab970bc,
  0x641c2977,
  0x70ee1e1f,
  0x5002978a,
  0x309b742f,
  0x9c59b3e,
  0x6b554ac2,
  0x450c070e,
  0x7eaea75,
  0x358e2514,
  0x387d082c,
  0x4869c4e2,
  0x66e56cae,
  0x349eab1a,
  0x58a416ec,
  0x5eb14f6a,
  0x28bd8371,
  0x56b19fbe,
  0x1dd53ef] := by decide +kernel

end Verif.Props.PoseidonInstances
