import Verif.Proofs.Primes
/-!
# Primality of the two moduli of secp256k1 (generated by `scripts/secp.py`)
-/

namespace Verif.Primes.Secp256k1

theorem prime_13331831 : Nat.Prime 13331831 :=
  (pratt 13 [(2, 1), (5, 1), (971, 1), (1373, 1)] (by decide +kernel)
    (forall_cons (by norm_num) (forall_cons (by norm_num) (forall_cons (by norm_num) (forall_cons (by norm_num) forall_nil))))).1

theorem prime_173378833005251801 : Nat.Prime 173378833005251801 :=
  (pratt 6 [(2, 3), (5, 2), (2621, 1), (24809, 1), (13331831, 1)] (by decide +kernel)
    (forall_cons (by norm_num) (forall_cons (by norm_num) (forall_cons (by norm_num) (forall_cons (by norm_num) (forall_cons prime_13331831 forall_nil)))))).1

theorem prime_22149492674086928081353 : Nat.Prime 22149492674086928081353 :=
  (pratt 5 [(2, 3), (3, 1), (5323, 1), (173378833005251801, 1)] (by decide +kernel)
    (forall_cons (by norm_num) (forall_cons (by norm_num) (forall_cons (by norm_num) (forall_cons prime_173378833005251801 forall_nil))))).1

theorem prime_132896956044521568488119 : Nat.Prime 132896956044521568488119 :=
  (pratt 6 [(2, 1), (3, 1), (22149492674086928081353, 1)] (by decide +kernel)
    (forall_cons (by norm_num) (forall_cons (by norm_num) (forall_cons prime_22149492674086928081353 forall_nil)))).1

theorem prime_1206781 : Nat.Prime 1206781 :=
  (pratt 10 [(2, 2), (3, 1), (5, 1), (20113, 1)] (by decide +kernel)
    (forall_cons (by norm_num) (forall_cons (by norm_num) (forall_cons (by norm_num) (forall_cons (by norm_num) forall_nil))))).1

theorem prime_7240687 : Nat.Prime 7240687 :=
  (pratt 3 [(2, 1), (3, 1), (1206781, 1)] (by decide +kernel)
    (forall_cons (by norm_num) (forall_cons (by norm_num) (forall_cons prime_1206781 forall_nil)))).1

theorem prime_107590001 : Nat.Prime 107590001 :=
  (pratt 3 [(2, 4), (5, 4), (7, 1), (29, 1), (53, 1)] (by decide +kernel)
    (forall_cons (by norm_num) (forall_cons (by norm_num) (forall_cons (by norm_num) (forall_cons (by norm_num) (forall_cons (by norm_num) forall_nil)))))).1

theorem prime_255515944373312847190720520512484175977 : Nat.Prime 255515944373312847190720520512484175977 :=
  (pratt 3 [(2, 3), (7, 2), (11, 1), (1627, 1), (2657, 1), (4423, 1), (41201, 1), (96557, 1), (7240687, 1), (107590001, 1)] (by decide +kernel)
    (forall_cons (by norm_num) (forall_cons (by norm_num) (forall_cons (by norm_num) (forall_cons (by norm_num) (forall_cons (by norm_num) (forall_cons (by norm_num) (forall_cons (by norm_num) (forall_cons (by norm_num) (forall_cons prime_7240687 (forall_cons prime_107590001 forall_nil))))))))))).1

theorem prime_205115282021455665897114700593932402728804164701536103180137503955397371 : Nat.Prime 205115282021455665897114700593932402728804164701536103180137503955397371 :=
  (pratt 10 [(2, 1), (3, 1), (5, 1), (29, 2), (31, 1), (7723, 1), (132896956044521568488119, 1), (255515944373312847190720520512484175977, 1)] (by decide +kernel)
    (forall_cons (by norm_num) (forall_cons (by norm_num) (forall_cons (by norm_num) (forall_cons (by norm_num) (forall_cons (by norm_num) (forall_cons (by norm_num) (forall_cons prime_132896956044521568488119 (forall_cons prime_255515944373312847190720520512484175977 forall_nil))))))))).1

theorem prime_115792089237316195423570985008687907853269984665640564039457584007908834671663 : Nat.Prime 115792089237316195423570985008687907853269984665640564039457584007908834671663 :=
  (pratt 3 [(2, 1), (3, 1), (7, 1), (13441, 1), (205115282021455665897114700593932402728804164701536103180137503955397371, 1)] (by decide +kernel)
    (forall_cons (by norm_num) (forall_cons (by norm_num) (forall_cons (by norm_num) (forall_cons (by norm_num) (forall_cons prime_205115282021455665897114700593932402728804164701536103180137503955397371 forall_nil)))))).1

theorem prime_4681609 : Nat.Prime 4681609 :=
  (pratt 23 [(2, 3), (3, 1), (97, 1), (2011, 1)] (by decide +kernel)
    (forall_cons (by norm_num) (forall_cons (by norm_num) (forall_cons (by norm_num) (forall_cons (by norm_num) forall_nil))))).1

theorem prime_107361793816595537 : Nat.Prime 107361793816595537 :=
  (pratt 3 [(2, 4), (16699, 1), (85831, 1), (4681609, 1)] (by decide +kernel)
    (forall_cons (by norm_num) (forall_cons (by norm_num) (forall_cons (by norm_num) (forall_cons prime_4681609 forall_nil))))).1

theorem prime_44706919 : Nat.Prime 44706919 :=
  (pratt 6 [(2, 1), (3, 1), (797, 1), (9349, 1)] (by decide +kernel)
    (forall_cons (by norm_num) (forall_cons (by norm_num) (forall_cons (by norm_num) (forall_cons (by norm_num) forall_nil))))).1

theorem prime_174723607534414371449 : Nat.Prime 174723607534414371449 :=
  (pratt 3 [(2, 3), (17, 1), (59, 1), (4051, 1), (120233, 1), (44706919, 1)] (by decide +kernel)
    (forall_cons (by norm_num) (forall_cons (by norm_num) (forall_cons (by norm_num) (forall_cons (by norm_num) (forall_cons (by norm_num) (forall_cons prime_44706919 forall_nil))))))).1

theorem prime_545358713 : Nat.Prime 545358713 :=
  (pratt 5 [(2, 3), (41, 1), (59, 1), (28181, 1)] (by decide +kernel)
    (forall_cons (by norm_num) (forall_cons (by norm_num) (forall_cons (by norm_num) (forall_cons (by norm_num) forall_nil))))).1

theorem prime_1627771 : Nat.Prime 1627771 :=
  (pratt 3 [(2, 1), (3, 1), (5, 1), (29, 1), (1871, 1)] (by decide +kernel)
    (forall_cons (by norm_num) (forall_cons (by norm_num) (forall_cons (by norm_num) (forall_cons (by norm_num) (forall_cons (by norm_num) forall_nil)))))).1

theorem prime_297159362677 : Nat.Prime 297159362677 :=
  (pratt 2 [(2, 2), (3, 2), (11, 1), (461, 1), (1627771, 1)] (by decide +kernel)
    (forall_cons (by norm_num) (forall_cons (by norm_num) (forall_cons (by norm_num) (forall_cons (by norm_num) (forall_cons prime_1627771 forall_nil)))))).1

theorem prime_29047611873442575647497758179 : Nat.Prime 29047611873442575647497758179 :=
  (pratt 2 [(2, 1), (293, 1), (305873, 1), (545358713, 1), (297159362677, 1)] (by decide +kernel)
    (forall_cons (by norm_num) (forall_cons (by norm_num) (forall_cons (by norm_num) (forall_cons prime_545358713 (forall_cons prime_297159362677 forall_nil)))))).1

theorem prime_341948486974166000522343609283189 : Nat.Prime 341948486974166000522343609283189 :=
  (pratt 2 [(2, 2), (3, 3), (109, 1), (29047611873442575647497758179, 1)] (by decide +kernel)
    (forall_cons (by norm_num) (forall_cons (by norm_num) (forall_cons (by norm_num) (forall_cons prime_29047611873442575647497758179 forall_nil))))).1

theorem prime_115792089237316195423570985008687907852837564279074904382605163141518161494337 : Nat.Prime 115792089237316195423570985008687907852837564279074904382605163141518161494337 :=
  (pratt 7 [(2, 6), (3, 1), (149, 1), (631, 1), (107361793816595537, 1), (174723607534414371449, 1), (341948486974166000522343609283189, 1)] (by decide +kernel)
    (forall_cons (by norm_num) (forall_cons (by norm_num) (forall_cons (by norm_num) (forall_cons (by norm_num) (forall_cons prime_107361793816595537 (forall_cons prime_174723607534414371449 (forall_cons prime_341948486974166000522343609283189 forall_nil)))))))).1

end Verif.Primes.Secp256k1
