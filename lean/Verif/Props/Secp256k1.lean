import Verif.Props.CurveScalar
import Verif.Proofs.Secp256k1
import Mathlib.GroupTheory.Perm.Cycle.Type
/-!
# C112 on the curve of the repository's tests

`lib/crypto/src/curve/sw/mod.rs` 139-293 configures secp256k1.  Its two moduli are proved prime, its generator is
proved to have exactly the order of the scalar field, the whole curve to have that many points, and the model gives the multiples the tests list.
-/

namespace Verif.Props.Secp256k1
open Verif Verif.Curve Verif.Uint Verif.Fp
open Verif.Spec.Curve Verif.Spec.Uint Verif.Spec.Fp
open Verif.Proofs.Curve Verif.Props.CurveScalar

set_option maxRecDepth 100000

/-- The modulus of the base field, 159-164. -/
abbrev p : Nat := 115792089237316195423570985008687907853269984665640564039457584007908834671663
/-- The modulus of the scalar field, 167-172. -/
abbrev n : Nat := 115792089237316195423570985008687907852837564279074904382605163141518161494337

instance : Fact (Nat.Prime p) :=
  ⟨Primes.Secp256k1.prime_115792089237316195423570985008687907853269984665640564039457584007908834671663⟩

/-- `Fq`: the base field.  The library's own field with this modulus is isomorphic to it (C67_field_is_zmod). -/
abbrev Fq := ZMod p

/-- `FrParam`: the scalar field with its four limbs. -/
def Fr : FpParams 4 := ⟨Uint.mk fun i => BitVec.ofNat 64 (n / 2 ^ (64 * i))⟩

theorem order_Fr : order Fr = n := by unfold order; decide +kernel

theorem prime_Fr : ValidPrime Fr := by
  refine ⟨⟨by decide, by rw [order_Fr]; decide, by rw [order_Fr]; decide⟩, ?_⟩
  rw [order_Fr]
  exact Primes.Secp256k1.prime_115792089237316195423570985008687907852837564279074904382605163141518161494337

/-- `Config`, 174-187: `y² = x³ + 7`, cofactor one. -/
def secp : Config Fq := ⟨0, 7, [1#64, 0#64], bitsBe (Fp.intoBigint (Fp.one Fr)), limbBitsBe (BitVec.ofNat 256 n), 1⟩

/-- `GENERATOR`, 185-193. -/
def G : Affine Fq := ⟨55066263022277343669578718895168534326250603453777594175500187360389116729240,
  32670510020758816978083085130507043184471273380659243275938904335757337482424, false⟩

theorem two_ne : (2 : Fq) ≠ 0 := by decide +kernel

/-- The generator as a point of the curve. -/
def GP : Point secp := .some G.x G.y ((curve secp).nonsingular_iff G.x G.y |>.mpr
  ⟨((curve secp).equation_iff G.x G.y).mpr (by decide +kernel), by right; decide +kernel⟩)

theorem G_affine : IsAffine G GP := ⟨rfl, rfl, rfl⟩

theorem GP_ne : GP ≠ 0 := fun h => by
  have := (Props.Curve.C71_identity (ofAffine_ok G_affine) G_affine).2.2.2.mpr h
  exact absurd this (by decide +kernel)

theorem n_GP : order Fr • GP = 0 := by
  rw [order_Fr]
  have h := mulBitsAffine_ok two_ne G_affine secp.scalarModulus
  rw [show bitsValue secp.scalarModulus = n from by decide +kernel] at h
  exact (isZero_ok h).mp (by decide +kernel)

/-- The generator of the tests has exactly the order of their scalar field, which is prime. -/
theorem C112_secp256k1_generator : addOrderOf GP = n ∧ n.Prime :=
  ⟨by rw [order_eq prime_Fr n_GP GP_ne, order_Fr], by rw [← order_Fr]; exact prime_Fr.2⟩

/-- So all of C112 holds of it: for any two scalars, -/
theorem C112_secp256k1 {s t : Fp Fr} (hs : Reduced s) (ht : Reduced t) :
    let g : Projective Fq := .ofAffine G
    (g.mulScalar secp (Fp.add s t)).eq ((g.mulScalar secp s).add secp (g.mulScalar secp t)) = true ∧
    (g.mulScalar secp (Fp.mul s t)).eq ((g.mulScalar secp s).mulScalar secp t) = true ∧
    ((g.mulScalar secp s).eq (g.mulScalar secp t) = true ↔ s = t) ∧
    ((g.mulScalar secp s).isZero = true ↔ s = Fp.zero Fr) :=
  have a := C112_scalars_act two_ne prime_Fr.1 (ofAffine_ok G_affine) (ofAffine_ok G_affine) n_GP hs ht
  have f := C112_faithful two_ne prime_Fr (ofAffine_ok G_affine) n_GP GP_ne hs ht
  ⟨a.1, a.2.2.1, f.1, f.2⟩

/-- and for integers of any length: two multiples of the generator are equal exactly when the integers agree modulo
`n`. -/
theorem C112_secp256k1_integers (k l : List Bool) :
    (G.mulBits secp k).eq (G.mulBits secp l) = true ↔ bitsValue k % n = bitsValue l % n := by
  rw [eq_ok (mulBitsAffine_ok two_ne G_affine k) (mulBitsAffine_ok two_ne G_affine l), nsmul_eq_nsmul_iff_modEq,
    C112_secp256k1_generator.1]
  rfl

-- n - 1 and -1: the multiple is the generator with its second coordinate negated
example : (G.mulBits secp (limbBitsBe (BitVec.ofNat 256 (n - 1)))).eqAffine G.neg = true := by decide +kernel
-- two scalars whose sum wraps around: (n - 1) + 3 = 2
example : num (Fp.add (Fp.neg (Fp.one Fr)) (fromU64 3#64)) = 2 := by decide +kernel
example : Reduced (Fp.neg (Fp.one Fr)) ∧ Reduced (fromU64 3#64 : Fp Fr) := by unfold Reduced; decide +kernel

/-! ## Every point, not only the generator

There are at most `2 p + 1` points, `n` divides their number, `3 n > 2 p + 1`, and there is no point of order two
(-7 is not a cube modulo `p`).  So there are exactly `n`. -/

theorem halves {q v : Nat} (h : q % 2 = 1) (hv : v < q) : ¬ (2 * (q - v) < q ↔ 2 * v < q) := by omega

theorem equation_of (x y : Fq) (h : (curve secp).Nonsingular x y) : y ^ 2 = x ^ 3 + 7 := by
  have e := ((curve secp).equation_iff x y).mp h.1
  have : (curve secp).a₁ = 0 ∧ (curve secp).a₂ = 0 ∧ (curve secp).a₃ = 0 ∧ (curve secp).a₄ = 0 ∧ (curve secp).a₆ = 7 :=
    ⟨rfl, rfl, rfl, rfl, rfl⟩
  obtain ⟨h1, h2, h3, h4, h5⟩ := this
  rw [h1, h2, h3, h4, h5] at e
  linear_combination e

/-- Where a point lies: its first coordinate and which of the two second coordinates it has. -/
def place : Point secp → Option (Fq × Bool)
  | .zero => none
  | .some x y _ => some (x, decide (2 * y.val < p))

theorem place_injective : Function.Injective place := by
  intro P Q h
  rcases P with _ | ⟨x, y, hP⟩ <;> rcases Q with _ | ⟨x', y', hQ⟩
  · rfl
  · exact absurd h (by simp [place])
  · exact absurd h (by simp [place])
  · simp only [place, Option.some.injEq, Prod.mk.injEq] at h
    obtain ⟨rfl, hb⟩ := h
    have hy : y = y' := by
      have e : y ^ 2 = y' ^ 2 := (equation_of _ _ hP).trans (equation_of _ _ hQ).symm
      rcases sq_eq_sq_iff_eq_or_eq_neg.mp e with h | h
      · exact h
      · by_cases h0 : y' = 0
        · rw [h, h0, neg_zero]
        · exfalso
          rw [h, ZMod.neg_val, if_neg h0] at hb
          have hlt := ZMod.val_lt y'
          rw [decide_eq_decide] at hb
          exact halves (by decide) hlt hb
    subst hy; rfl

theorem card_le : Finite (Point secp) ∧ Nat.card (Point secp) ≤ 2 * p + 1 := by
  have hf : Finite (Point secp) := Finite.of_injective place place_injective
  refine ⟨hf, (Nat.card_le_card_of_injective place place_injective).trans ?_⟩
  rw [Finite.card_option, Nat.card_prod, Nat.card_zmod, Nat.card_eq_fintype_card (α := Bool), Fintype.card_bool]
  omega

theorem not_cube (x : Fq) : x ^ 3 + 7 ≠ 0 := by
  intro h
  have hx : x ≠ 0 := by
    rintro rfl
    revert h; decide +kernel
  have e : x ^ 3 = -7 := by linear_combination h
  have f : (x ^ 3) ^ ((p - 1) / 3) = 1 := by
    rw [← pow_mul, show 3 * ((p - 1) / 3) = p - 1 from by decide +kernel]
    exact ZMod.pow_card_sub_one_eq_one hx
  rw [e] at f
  have g : ((Primes.powMod p (p - 7) ((p - 1) / 3) 256 1 : ℕ) : Fq) = (-7) ^ ((p - 1) / 3) := by
    rw [Primes.powMod_eq]
    · rw [ZMod.natCast_mod, Nat.cast_pow, Nat.cast_sub (by decide), ZMod.natCast_self]; simp
    · decide +kernel
  rw [← g] at f
  revert f
  decide +kernel

theorem no_two_torsion (P : Point secp) (h : P + P = 0) : P = 0 := by
  rcases P with _ | ⟨x, y, hP⟩
  · rfl
  · exfalso
    have hn := eq_neg_of_add_eq_zero_left h
    rw [WeierstrassCurve.Affine.Point.neg_some] at hn
    injection hn with _ hy
    have e := equation_of x y hP
    have h1 : (curve secp).negY x y = -y := by
      show -y - (curve secp).a₁ * x - (curve secp).a₃ = -y
      rw [show (curve secp).a₁ = 0 from rfl, show (curve secp).a₃ = 0 from rfl]; ring
    rw [h1] at hy
    have hy0 : y = 0 := by
      have : (2 : Fq) * y = 0 := by linear_combination hy
      exact (mul_eq_zero.mp this).resolve_left two_ne
    rw [hy0] at e
    exact not_cube x (by rw [← e]; ring)

theorem card_eq : Nat.card (Point secp) = n := by
  obtain ⟨hf, hle⟩ := card_le
  have hd : n ∣ Nat.card (Point secp) := C112_secp256k1_generator.1 ▸ addOrderOf_dvd_natCard GP
  obtain ⟨k, hk⟩ := hd
  have hpos : 0 < Nat.card (Point secp) := Nat.card_pos
  have hk2 : k < 3 := by
    by_contra h
    have : n * 3 ≤ n * k := Nat.mul_le_mul_left _ (by omega)
    rw [hk] at hle
    have hh : ¬ (n * 3 ≤ 2 * p + 1) := by decide
    exact hh (this.trans hle)
  have hk0 : k ≠ 0 := by rintro rfl; rw [hk] at hpos; simp at hpos
  have hk1 : k ≠ 2 := by
    rintro rfl
    have : Fact (Nat.Prime 2) := ⟨by decide⟩
    obtain ⟨P, hP⟩ := exists_prime_addOrderOf_dvd_card' (G := Point secp) 2 ⟨n, by rw [hk]; ring⟩
    have h0 : P = 0 := no_two_torsion P (by rw [← two_nsmul, ← hP]; exact addOrderOf_nsmul_eq_zero P)
    rw [h0, addOrderOf_zero] at hP
    exact absurd hP (by decide)
  have : k = 1 := by omega
  rw [hk, this, Nat.mul_one]

/-- The curve has exactly `n` points, so the cofactor of the configuration is right and leaving out the subgroup check
is sound on this curve: every point passes it. -/
theorem C112_secp256k1_points : Nat.card (Point secp) = n ∧ ∀ P : Point secp, n • P = 0 :=
  ⟨card_eq, fun P => by
    obtain ⟨_, _⟩ := card_le
    rw [← card_eq]; exact card_nsmul_eq_zero'⟩

/-- Hence for every point on the curve other than the identity, however it was made, the scalars act as a field and
different scalars give different points. -/
theorem C112_secp256k1_every_point {x y : Fq} (h : y ^ 2 = x ^ 3 + 7) {s t : Fp Fr} (hs : Reduced s) (ht : Reduced t) :
    let g : Projective Fq := .ofAffine (.newUnchecked x y)
    Affine.new secp x y = some (.newUnchecked x y) ∧
    (g.mulScalar secp (Fp.add s t)).eq ((g.mulScalar secp s).add secp (g.mulScalar secp t)) = true ∧
    (g.mulScalar secp (Fp.mul s t)).eq ((g.mulScalar secp s).mulScalar secp t) = true ∧
    ((g.mulScalar secp s).eq (g.mulScalar secp t) = true ↔ s = t) ∧
    ((g.mulScalar secp s).isZero = true ↔ s = Fp.zero Fr) := by
  have hd : -16 * (4 * secp.a ^ 3 + 27 * secp.b ^ 2) ≠ 0 := by decide +kernel
  have hon : (Affine.newUnchecked x y).isOnCurve secp = true :=
    (isOnCurve_iff _).mpr (.inr (by
      show y ^ 2 = x ^ 3 + 0 * x + 7
      rw [h]; ring))
  obtain ⟨P, hP⟩ := (Props.Curve.C73_on_curve_point hd (Affine.newUnchecked x y)).mp hon
  have h0 : P ≠ 0 := fun e => by
    have := (Props.Curve.C71_identity (ofAffine_ok hP) hP).2.2.2.mpr e
    exact absurd this (by simp [Affine.isZero, Affine.xy, Affine.newUnchecked])
  have hn : order Fr • P = 0 := by rw [order_Fr]; exact C112_secp256k1_points.2 P
  have a := C112_scalars_act two_ne prime_Fr.1 (ofAffine_ok hP) (ofAffine_ok hP) hn hs ht
  have f := C112_faithful two_ne prime_Fr (ofAffine_ok hP) hn h0 hs ht
  refine ⟨?_, a.1, a.2.2.1, f.1, f.2⟩
  unfold Affine.new
  rw [if_pos hon, if_pos]
  unfold Affine.isInCorrectSubgroup
  rw [show secp.cofactorIsOne = true from by decide +kernel, Bool.true_or]

-- a point other than the generator: three times it
example : (0x388F7B0F632DE8140FE337E62A37F3566500A99934C2231B6CB9FD7584B8E672 : Fq) ^ 2 =
    0xF9308A019258C31049344F85F89D5229B531C845836F99B08601F113BCE036F9 ^ 3 + 7 := by
  rw [pow_two, pow_succ, pow_two]; decide +kernel

/-! ## The tests, 193-292 -/

/-- The table of `scalar_mul`, 196-236: the multiples 1 to 24 of the generator. -/
def multiples : List (Nat × Nat × Nat) := [
  (1, 0x79BE667EF9DCBBAC55A06295CE870B07029BFCDB2DCE28D959F2815B16F81798,
    0x483ADA7726A3C4655DA4FBFC0E1108A8FD17B448A68554199C47D08FFB10D4B8),
  (2, 0xC6047F9441ED7D6D3045406E95C07CD85C778E4B8CEF3CA7ABAC09B95C709EE5,
    0x1AE168FEA63DC339A3C58419466CEAEEF7F632653266D0E1236431A950CFE52A),
  (3, 0xF9308A019258C31049344F85F89D5229B531C845836F99B08601F113BCE036F9,
    0x388F7B0F632DE8140FE337E62A37F3566500A99934C2231B6CB9FD7584B8E672),
  (4, 0xE493DBF1C10D80F3581E4904930B1404CC6C13900EE0758474FA94ABE8C4CD13,
    0x51ED993EA0D455B75642E2098EA51448D967AE33BFBDFE40CFE97BDC47739922),
  (5, 0x2F8BDE4D1A07209355B4A7250A5C5128E88B84BDDC619AB7CBA8D569B240EFE4,
    0xD8AC222636E5E3D6D4DBA9DDA6C9C426F788271BAB0D6840DCA87D3AA6AC62D6),
  (6, 0xFFF97BD5755EEEA420453A14355235D382F6472F8568A18B2F057A1460297556,
    0xAE12777AACFBB620F3BE96017F45C560DE80F0F6518FE4A03C870C36B075F297),
  (7, 0x5CBDF0646E5DB4EAA398F365F2EA7A0E3D419B7E0330E39CE92BDDEDCAC4F9BC,
    0x6AEBCA40BA255960A3178D6D861A54DBA813D0B813FDE7B5A5082628087264DA),
  (8, 0x2F01E5E15CCA351DAFF3843FB70F3C2F0A1BDD05E5AF888A67784EF3E10A2A01,
    0x5C4DA8A741539949293D082A132D13B4C2E213D6BA5B7617B5DA2CB76CBDE904),
  (9, 0xACD484E2F0C7F65309AD178A9F559ABDE09796974C57E714C35F110DFC27CCBE,
    0xCC338921B0A7D9FD64380971763B61E9ADD888A4375F8E0F05CC262AC64F9C37),
  (10, 0xA0434D9E47F3C86235477C7B1AE6AE5D3442D49B1943C2B752A68E2A47E247C7,
    0x893ABA425419BC27A3B6C7E693A24C696F794C2ED877A1593CBEE53B037368D7),
  (11, 0x774AE7F858A9411E5EF4246B70C65AAC5649980BE5C17891BBEC17895DA008CB,
    0xD984A032EB6B5E190243DD56D7B7B365372DB1E2DFF9D6A8301D74C9C953C61B),
  (12, 0xD01115D548E7561B15C38F004D734633687CF4419620095BC5B0F47070AFE85A,
    0xA9F34FFDC815E0D7A8B64537E17BD81579238C5DD9A86D526B051B13F4062327),
  (13, 0xF28773C2D975288BC7D1D205C3748651B075FBC6610E58CDDEEDDF8F19405AA8,
    0xAB0902E8D880A89758212EB65CDAF473A1A06DA521FA91F29B5CB52DB03ED81),
  (14, 0x499FDF9E895E719CFD64E67F07D38E3226AA7B63678949E6E49B241A60E823E4,
    0xCAC2F6C4B54E855190F044E4A7B3D464464279C27A3F95BCC65F40D403A13F5B),
  (15, 0xD7924D4F7D43EA965A465AE3095FF41131E5946F3C85F79E44ADBCF8E27E080E,
    0x581E2872A86C72A683842EC228CC6DEFEA40AF2BD896D3A5C504DC9FF6A26B58),
  (16, 0xE60FCE93B59E9EC53011AABC21C23E97B2A31369B87A5AE9C44EE89E2A6DEC0A,
    0xF7E3507399E595929DB99F34F57937101296891E44D23F0BE1F32CCE69616821),
  (17, 0xDEFDEA4CDB677750A420FEE807EACF21EB9898AE79B9768766E4FAA04A2D4A34,
    0x4211AB0694635168E997B0EAD2A93DAECED1F4A04A95C0F6CFB199F69E56EB77),
  (18, 0x5601570CB47F238D2B0286DB4A990FA0F3BA28D1A319F5E7CF55C2A2444DA7CC,
    0xC136C1DC0CBEB930E9E298043589351D81D8E0BC736AE2A1F5192E5E8B061D58),
  (19, 0x2B4EA0A797A443D293EF5CFF444F4979F06ACFEBD7E86D277475656138385B6C,
    0x85E89BC037945D93B343083B5A1C86131A01F60C50269763B570C854E5C09B7A),
  (20, 0x4CE119C96E2FA357200B559B2F7DD5A5F02D5290AFF74B03F3E471B273211C97,
    0x12BA26DCB10EC1625DA61FA10A844C676162948271D96967450288EE9233DC3A),
  (21, 0x352BBF4A4CDD12564F93FA332CE333301D9AD40271F8107181340AEF25BE59D5,
    0x321EB4075348F534D59C18259DDA3E1F4A1B3B2E71B1039C67BD3D8BCF81998C),
  (22, 0x421F5FC9A21065445C96FDB91C0C1E2F2431741C72713B4B99DDCB316F31E9FC,
    0x2B90F16D11DABDB616F6DB7E225D1E14743034B37B223115DB20717AD1CD6781),
  (23, 0x2FA2104D6B38D11B0230010559879124E42AB8DFEFF5FF29DC9CDADD4ECACC3F,
    0x2DE1068295DD865B64569335BD5DD80181D70ECFC882648423BA76B532B7D67),
  (24, 0xFE72C435413D33D48AC09C9161BA8B09683215439D62B7940502BDA8B202E6CE,
    0x6851DE067FF24A68D3AB47E09D72998101DC88E36B4A9D22978ED2FBCF58C5BF)]

/-- `scalar_mul`. -/
example : (G.mulBits secp (limbBitsBe 0#32)).toAffine.map (·.infinity) = some true := by decide +kernel
example : ∀ m ∈ multiples, ∃ q, (G.mulBits secp (limbBitsBe (BitVec.ofNat 32 m.1))).toAffine = some q ∧
    q.isOnCurve secp = true ∧ q.x = (m.2.1 : Fq) ∧ q.y = (m.2.2 : Fq) := by
  have h : ∀ m ∈ multiples, ((G.mulBits secp (limbBitsBe (BitVec.ofNat 32 m.1))).toAffine.map fun q =>
      (q.isOnCurve secp, decide (q.x = (m.2.1 : Fq)), decide (q.y = (m.2.2 : Fq)))) = some (true, true, true) := by decide +kernel
  intro m hm
  have e := h m hm
  revert e
  generalize (G.mulBits secp (limbBitsBe (BitVec.ofNat 32 m.1))).toAffine = o
  intro e
  cases o with
  | none => exact absurd e (by simp)
  | some q =>
    simp only [Option.map_some, Option.some.injEq, Prod.mk.injEq, decide_eq_true_eq] at e
    exact ⟨q, rfl, e⟩

/-- Twice the generator, as the tests write it. -/
def G2 : Affine Fq := ⟨0xC6047F9441ED7D6D3045406E95C07CD85C778E4B8CEF3CA7ABAC09B95C709EE5,
  0x1AE168FEA63DC339A3C58419466CEAEEF7F632653266D0E1236431A950CFE52A, false⟩

/-- `point_add`, 239-258. -/
example : ((Projective.ofAffine G).addAffine secp G).toAffine = some G2 ∧
    ((Projective.ofAffine G).double secp).toAffine = some G2 ∧
    ((Projective.ofAffine G).add secp (Projective.ofAffine G).neg).isZero = true := by decide +kernel

/-- `point_sub`, 261-275. -/
example : ((Projective.ofAffine G).sub secp (.ofAffine G)).isZero = true ∧
    ((Projective.ofAffine G2).sub secp (.ofAffine G)).eq (.ofAffine G) = true := by decide +kernel

/-- `cofactor_is_one`, 278-291. -/
example : secp.cofactorIsOne = true ∧
    ({ secp with cofactor := [0#64, 0#64, 0#64, 1#64, 0#64] } : Config Fq).cofactorIsOne = false := by decide +kernel

end Verif.Props.Secp256k1
