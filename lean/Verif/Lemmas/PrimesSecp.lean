import Verif.Lemmas.PowMod
/-
Pratt certificates: the field modulus and the group order of secp256k1 are prime.
Generated; every step is checked by the kernel.
-/
namespace Tss.PrimesSecp
open Tss

theorem prime_13441 : Nat.Prime 13441 :=
  pratt 13441 11 [(2, 7), (3, 1), (5, 1), (7, 1)] (by decide +kernel)
    ⟨(by norm_num), (by norm_num), (by norm_num), (by norm_num), trivial⟩
theorem prime_7723 : Nat.Prime 7723 := by norm_num
theorem prime_5323 : Nat.Prime 5323 := by norm_num
theorem prime_2621 : Nat.Prime 2621 := by norm_num
theorem prime_24809 : Nat.Prime 24809 :=
  pratt 24809 6 [(2, 3), (7, 1), (443, 1)] (by decide +kernel)
    ⟨(by norm_num), (by norm_num), (by norm_num), trivial⟩
theorem prime_1373 : Nat.Prime 1373 := by norm_num
theorem prime_13331831 : Nat.Prime 13331831 :=
  pratt 13331831 13 [(2, 1), (5, 1), (971, 1), (1373, 1)] (by decide +kernel)
    ⟨(by norm_num), (by norm_num), (by norm_num), prime_1373, trivial⟩
theorem prime_173378833005251801 : Nat.Prime 173378833005251801 :=
  pratt 173378833005251801 6 [(2, 3), (5, 2), (2621, 1), (24809, 1), (13331831, 1)] (by decide +kernel)
    ⟨(by norm_num), (by norm_num), prime_2621, prime_24809, prime_13331831, trivial⟩
theorem prime_22149492674086928081353 : Nat.Prime 22149492674086928081353 :=
  pratt 22149492674086928081353 5 [(2, 3), (3, 1), (5323, 1), (173378833005251801, 1)] (by decide +kernel)
    ⟨(by norm_num), (by norm_num), prime_5323, prime_173378833005251801, trivial⟩
theorem prime_132896956044521568488119 : Nat.Prime 132896956044521568488119 :=
  pratt 132896956044521568488119 6 [(2, 1), (3, 1), (22149492674086928081353, 1)] (by decide +kernel)
    ⟨(by norm_num), (by norm_num), prime_22149492674086928081353, trivial⟩
theorem prime_1627 : Nat.Prime 1627 := by norm_num
theorem prime_2657 : Nat.Prime 2657 := by norm_num
theorem prime_4423 : Nat.Prime 4423 := by norm_num
theorem prime_41201 : Nat.Prime 41201 :=
  pratt 41201 3 [(2, 4), (5, 2), (103, 1)] (by decide +kernel)
    ⟨(by norm_num), (by norm_num), (by norm_num), trivial⟩
theorem prime_96557 : Nat.Prime 96557 :=
  pratt 96557 2 [(2, 2), (101, 1), (239, 1)] (by decide +kernel)
    ⟨(by norm_num), (by norm_num), (by norm_num), trivial⟩
theorem prime_20113 : Nat.Prime 20113 :=
  pratt 20113 10 [(2, 4), (3, 1), (419, 1)] (by decide +kernel)
    ⟨(by norm_num), (by norm_num), (by norm_num), trivial⟩
theorem prime_1206781 : Nat.Prime 1206781 :=
  pratt 1206781 10 [(2, 2), (3, 1), (5, 1), (20113, 1)] (by decide +kernel)
    ⟨(by norm_num), (by norm_num), (by norm_num), prime_20113, trivial⟩
theorem prime_7240687 : Nat.Prime 7240687 :=
  pratt 7240687 3 [(2, 1), (3, 1), (1206781, 1)] (by decide +kernel)
    ⟨(by norm_num), (by norm_num), prime_1206781, trivial⟩
theorem prime_107590001 : Nat.Prime 107590001 :=
  pratt 107590001 3 [(2, 4), (5, 4), (7, 1), (29, 1), (53, 1)] (by decide +kernel)
    ⟨(by norm_num), (by norm_num), (by norm_num), (by norm_num), (by norm_num), trivial⟩
theorem prime_255515944373312847190720520512484175977 : Nat.Prime 255515944373312847190720520512484175977 :=
  pratt 255515944373312847190720520512484175977 3 [(2, 3), (7, 2), (11, 1), (1627, 1), (2657, 1), (4423, 1), (41201, 1), (96557, 1), (7240687, 1), (107590001, 1)] (by decide +kernel)
    ⟨(by norm_num), (by norm_num), (by norm_num), prime_1627, prime_2657, prime_4423, prime_41201, prime_96557, prime_7240687, prime_107590001, trivial⟩
theorem prime_205115282021455665897114700593932402728804164701536103180137503955397371 : Nat.Prime 205115282021455665897114700593932402728804164701536103180137503955397371 :=
  pratt 205115282021455665897114700593932402728804164701536103180137503955397371 10 [(2, 1), (3, 1), (5, 1), (29, 2), (31, 1), (7723, 1), (132896956044521568488119, 1), (255515944373312847190720520512484175977, 1)] (by decide +kernel)
    ⟨(by norm_num), (by norm_num), (by norm_num), (by norm_num), (by norm_num), prime_7723, prime_132896956044521568488119, prime_255515944373312847190720520512484175977, trivial⟩
theorem prime_115792089237316195423570985008687907853269984665640564039457584007908834671663 : Nat.Prime 115792089237316195423570985008687907853269984665640564039457584007908834671663 :=
  pratt 115792089237316195423570985008687907853269984665640564039457584007908834671663 3 [(2, 1), (3, 1), (7, 1), (13441, 1), (205115282021455665897114700593932402728804164701536103180137503955397371, 1)] (by decide +kernel)
    ⟨(by norm_num), (by norm_num), (by norm_num), prime_13441, prime_205115282021455665897114700593932402728804164701536103180137503955397371, trivial⟩
theorem prime_16699 : Nat.Prime 16699 :=
  pratt 16699 3 [(2, 1), (3, 1), (11, 2), (23, 1)] (by decide +kernel)
    ⟨(by norm_num), (by norm_num), (by norm_num), (by norm_num), trivial⟩
theorem prime_2861 : Nat.Prime 2861 := by norm_num
theorem prime_85831 : Nat.Prime 85831 :=
  pratt 85831 3 [(2, 1), (3, 1), (5, 1), (2861, 1)] (by decide +kernel)
    ⟨(by norm_num), (by norm_num), (by norm_num), prime_2861, trivial⟩
theorem prime_2011 : Nat.Prime 2011 := by norm_num
theorem prime_4681609 : Nat.Prime 4681609 :=
  pratt 4681609 23 [(2, 3), (3, 1), (97, 1), (2011, 1)] (by decide +kernel)
    ⟨(by norm_num), (by norm_num), (by norm_num), prime_2011, trivial⟩
theorem prime_107361793816595537 : Nat.Prime 107361793816595537 :=
  pratt 107361793816595537 3 [(2, 4), (16699, 1), (85831, 1), (4681609, 1)] (by decide +kernel)
    ⟨(by norm_num), prime_16699, prime_85831, prime_4681609, trivial⟩
theorem prime_4051 : Nat.Prime 4051 := by norm_num
theorem prime_120233 : Nat.Prime 120233 :=
  pratt 120233 3 [(2, 3), (7, 1), (19, 1), (113, 1)] (by decide +kernel)
    ⟨(by norm_num), (by norm_num), (by norm_num), (by norm_num), trivial⟩
theorem prime_9349 : Nat.Prime 9349 := by norm_num
theorem prime_44706919 : Nat.Prime 44706919 :=
  pratt 44706919 6 [(2, 1), (3, 1), (797, 1), (9349, 1)] (by decide +kernel)
    ⟨(by norm_num), (by norm_num), (by norm_num), prime_9349, trivial⟩
theorem prime_174723607534414371449 : Nat.Prime 174723607534414371449 :=
  pratt 174723607534414371449 3 [(2, 3), (17, 1), (59, 1), (4051, 1), (120233, 1), (44706919, 1)] (by decide +kernel)
    ⟨(by norm_num), (by norm_num), (by norm_num), prime_4051, prime_120233, prime_44706919, trivial⟩
theorem prime_2731 : Nat.Prime 2731 := by norm_num
theorem prime_305873 : Nat.Prime 305873 :=
  pratt 305873 3 [(2, 4), (7, 1), (2731, 1)] (by decide +kernel)
    ⟨(by norm_num), (by norm_num), prime_2731, trivial⟩
theorem prime_1409 : Nat.Prime 1409 := by norm_num
theorem prime_28181 : Nat.Prime 28181 :=
  pratt 28181 2 [(2, 2), (5, 1), (1409, 1)] (by decide +kernel)
    ⟨(by norm_num), (by norm_num), prime_1409, trivial⟩
theorem prime_545358713 : Nat.Prime 545358713 :=
  pratt 545358713 5 [(2, 3), (41, 1), (59, 1), (28181, 1)] (by decide +kernel)
    ⟨(by norm_num), (by norm_num), (by norm_num), prime_28181, trivial⟩
theorem prime_1871 : Nat.Prime 1871 := by norm_num
theorem prime_1627771 : Nat.Prime 1627771 :=
  pratt 1627771 3 [(2, 1), (3, 1), (5, 1), (29, 1), (1871, 1)] (by decide +kernel)
    ⟨(by norm_num), (by norm_num), (by norm_num), (by norm_num), prime_1871, trivial⟩
theorem prime_297159362677 : Nat.Prime 297159362677 :=
  pratt 297159362677 2 [(2, 2), (3, 2), (11, 1), (461, 1), (1627771, 1)] (by decide +kernel)
    ⟨(by norm_num), (by norm_num), (by norm_num), (by norm_num), prime_1627771, trivial⟩
theorem prime_29047611873442575647497758179 : Nat.Prime 29047611873442575647497758179 :=
  pratt 29047611873442575647497758179 2 [(2, 1), (293, 1), (305873, 1), (545358713, 1), (297159362677, 1)] (by decide +kernel)
    ⟨(by norm_num), (by norm_num), prime_305873, prime_545358713, prime_297159362677, trivial⟩
theorem prime_341948486974166000522343609283189 : Nat.Prime 341948486974166000522343609283189 :=
  pratt 341948486974166000522343609283189 2 [(2, 2), (3, 3), (109, 1), (29047611873442575647497758179, 1)] (by decide +kernel)
    ⟨(by norm_num), (by norm_num), (by norm_num), prime_29047611873442575647497758179, trivial⟩
theorem prime_115792089237316195423570985008687907852837564279074904382605163141518161494337 : Nat.Prime 115792089237316195423570985008687907852837564279074904382605163141518161494337 :=
  pratt 115792089237316195423570985008687907852837564279074904382605163141518161494337 7 [(2, 6), (3, 1), (149, 1), (631, 1), (107361793816595537, 1), (174723607534414371449, 1), (341948486974166000522343609283189, 1)] (by decide +kernel)
    ⟨(by norm_num), (by norm_num), (by norm_num), (by norm_num), prime_107361793816595537, prime_174723607534414371449, prime_341948486974166000522343609283189, trivial⟩

/-- 2^256 - 2^32 - 977 is prime. -/
theorem secp_p_prime : Nat.Prime (2 ^ 256 - 2 ^ 32 - 977) := prime_115792089237316195423570985008687907853269984665640564039457584007908834671663
/-- The order of secp256k1 is prime. -/
theorem secp_n_prime : Nat.Prime 0xFFFFFFFFFFFFFFFFFFFFFFFFFFFFFFFEBAAEDCE6AF48A03BBFD25E8CD0364141 := prime_115792089237316195423570985008687907852837564279074904382605163141518161494337

end Tss.PrimesSecp
