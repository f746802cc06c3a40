import Verif.Props.Fp
import Verif.Model.FpInstances
import Verif.Proofs.Primes
/-!
# C81: the six shipped fields

Their constants parse, their moduli are prime, and their generators generate the whole multiplicative group.
-/

namespace Verif.Props.FpInstances
open Verif Verif.Fp Verif.Uint
open Verif.Spec.Uint Verif.Spec.Fp

/-- What is claimed of a field instance: it satisfies the requirements of the generic code, its modulus is the given
number, and that number is prime. -/
def Instance {N : Nat} (text : String) (p : Nat) (P : FpParams N) : Prop :=
  (fromNum? text : Option (Uint N)) = some P.modulus ∧ order P = p ∧ ValidPrime P

/-- Every non-zero element is a power of the generator, and no smaller power than the `p - 1`-st gives one. -/
def Generates {N : Nat} {P : FpParams N} (g : Fp P) : Prop :=
  Reduced g ∧ (∀ a : Fp P, Reduced a → num a ≠ 0 → ∃ e, e < order P - 1 ∧ num g ^ e % order P = num a) ∧
    (∀ e, 0 < e → num g ^ e % order P = 1 → order P - 1 ≤ e)

theorem instance_of {N : Nat} {text : String} {p : Nat} {P : FpParams N}
    (hN : 0 < N) (ht : (fromNum? text : Option (Uint N)) = some P.modulus) (hv : val P.modulus = p) (hp : p.Prime) (hodd : p % 2 = 1) :
    Instance text p P := by
  refine ⟨ht, hv, ⟨hN, ?_, ?_⟩, ?_⟩
  · show val P.modulus % 2 = 1; rw [hv]; exact hodd
  · show 1 < val P.modulus; rw [hv]; exact hp.one_lt
  · show (val P.modulus).Prime; rw [hv]; exact hp

theorem generates_of {N : Nat} {text : String} {p : Nat} {P : FpParams N} (hP : Instance text p P) {s : String} {g : Nat}
    (hs : val (fromNum s : Uint N) = g) (ho : orderOf ((g : ℕ) : ZMod p) = p - 1) : Generates (fpFromNum s : Fp P) := by
  obtain ⟨-, hv, hP⟩ := hP
  subst hv
  haveI : Fact (order P).Prime := ⟨hP.2⟩
  have hp1 := hP.2.one_lt
  unfold fpFromNum
  rw [new_eq]
  obtain ⟨h1, h2⟩ := num_fromBigint (P := P) hP.1 (fromNum s)
  rw [hs] at h1
  have hcast : ((num (fromBigint (fromNum s) : Fp P) : ℕ) : ZMod (order P)) = (g : ZMod (order P)) := by
    rw [h1]; exact ZMod.natCast_mod _ _
  generalize (fromBigint (fromNum s) : Fp P) = G at *
  have conv : ∀ e (b : ℕ), b < order P → (num G ^ e % order P = b ↔ ((g : ZMod (order P))) ^ e = (b : ZMod (order P))) := by
    intro e b hb
    rw [← hcast, ← Nat.cast_pow, ZMod.natCast_eq_natCast_iff', Nat.mod_eq_of_lt hb]
  refine ⟨h2, fun a ha h0 => ?_, fun e he h => ?_⟩
  · have hlt := num_lt hP.1 ha
    have hg0 : ((g : ℕ) : ZMod (order P)) ≠ 0 := by
      intro h
      rw [h, orderOf_zero] at ho
      omega
    have ha0 : ((num a : ℕ) : ZMod (order P)) ≠ 0 := by
      intro h
      rw [ZMod.natCast_eq_zero_iff] at h
      have := Nat.le_of_dvd (by omega) h
      omega
    -- the powers of the generator fill the group of units
    have hou : orderOf (Units.mk0 _ hg0) = Fintype.card (ZMod (order P))ˣ := by
      rw [ZMod.card_units, ← ho, ← orderOf_units]; rfl
    have hz : Units.mk0 _ ha0 ∈ Subgroup.zpowers (Units.mk0 _ hg0) := by
      have htop : Subgroup.zpowers (Units.mk0 _ hg0) = ⊤ := by
        apply Subgroup.eq_top_of_card_eq
        rw [Nat.card_zpowers, hou, Nat.card_eq_fintype_card]
      rw [htop]; trivial
    rw [← mem_powers_iff_mem_zpowers, mem_powers_iff_mem_range_orderOf] at hz
    obtain ⟨e, he, hea⟩ := Finset.mem_image.mp hz
    rw [Finset.mem_range, hou, ZMod.card_units] at he
    refine ⟨e, he, (conv e (num a) hlt).mpr ?_⟩
    have := congrArg Units.val hea
    rw [Units.val_pow_eq_pow_val] at this
    exact this
  · rw [conv e 1 hp1, Nat.cast_one] at h
    rw [← ho]
    exact Nat.le_of_dvd he (orderOf_dvd_of_pow_eq_one h)

theorem C81_vesta :
    Instance vestaText 28948022309329048855892746252171976963363056481941647379679742748393362948097 Vesta :=
  instance_of (by decide) (by decide +kernel) (by decide +kernel) Primes.prime_28948022309329048855892746252171976963363056481941647379679742748393362948097 (by decide +kernel)
theorem C81_vesta_generator : Generates Vesta.generator := generates_of C81_vesta (g := 5) (by decide +kernel) Primes.pratt_28948022309329048855892746252171976963363056481941647379679742748393362948097.2

theorem C81_pallas :
    Instance pallasText 28948022309329048855892746252171976963363056481941560715954676764349967630337 Pallas :=
  instance_of (by decide) (by decide +kernel) (by decide +kernel) Primes.prime_28948022309329048855892746252171976963363056481941560715954676764349967630337 (by decide +kernel)
theorem C81_pallas_generator : Generates Pallas.generator := generates_of C81_pallas (g := 5) (by decide +kernel) Primes.pratt_28948022309329048855892746252171976963363056481941560715954676764349967630337.2

theorem C81_bls12 :
    Instance bls12Text 52435875175126190479447740508185965837690552500527637822603658699938581184513 BLS12 :=
  instance_of (by decide) (by decide +kernel) (by decide +kernel) Primes.prime_52435875175126190479447740508185965837690552500527637822603658699938581184513 (by decide +kernel)
theorem C81_bls12_generator : Generates BLS12.generator := generates_of C81_bls12 (g := 7) (by decide +kernel) Primes.pratt_52435875175126190479447740508185965837690552500527637822603658699938581184513.2

theorem C81_bn256 :
    Instance bn256Text 21888242871839275222246405745257275088548364400416034343698204186575808495617 BN256 :=
  instance_of (by decide) (by decide +kernel) (by decide +kernel) Primes.prime_21888242871839275222246405745257275088548364400416034343698204186575808495617 (by decide +kernel)
theorem C81_bn256_generator : Generates BN256.generator := generates_of C81_bn256 (g := 7) (by decide +kernel) Primes.pratt_21888242871839275222246405745257275088548364400416034343698204186575808495617.2

theorem C81_goldilocks : Instance goldiLocksText 18446744069414584321 GoldiLocks :=
  instance_of (by decide) (by decide +kernel) (by decide +kernel) Primes.prime_18446744069414584321 (by decide +kernel)
theorem C81_goldilocks_generator : Generates GoldiLocks.generator := generates_of C81_goldilocks (g := 7) (by decide +kernel) Primes.pratt_18446744069414584321.2

theorem C81_babybear : Instance babyBearText 2013265921 BabyBear :=
  instance_of (by decide) (by decide +kernel) (by decide +kernel) Primes.prime_2013265921 (by decide +kernel)
theorem C81_babybear_generator : Generates BabyBear.generator := generates_of C81_babybear (g := 31) (by decide +kernel) Primes.pratt_2013265921.2

/-- Hence inversion always terminates with the right answer in these fields; shown here for BN256. -/
example (a : Fp BN256) (ha : Reduced a) (h0 : num a ≠ 0) :
    ∃ x, inverse (2 * order BN256) a = some (some x) ∧ Reduced x ∧ (num a * num x) % order BN256 = 1 :=
  Props.Fp.C69_inverse C81_bn256.2.2 ha h0 _ (Nat.le_refl _)

end Verif.Props.FpInstances
