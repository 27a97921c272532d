import Verif.Lemmas.PowMod
/-
Pratt certificates: the field modulus 2^255 - 19 and the group order of edwards25519 are prime.
Generated; every step is checked by the kernel.
-/
namespace Tss.Primes
open Tss

theorem prime_8574133 : Nat.Prime 8574133 :=
  pratt 8574133 2 [(2, 2), (3, 1), (7, 1), (103, 1), (991, 1)] (by decide +kernel)
    ⟨(by norm_num), (by norm_num), (by norm_num), (by norm_num), (by norm_num), trivial⟩
theorem prime_1919519569386763 : Nat.Prime 1919519569386763 :=
  pratt 1919519569386763 2 [(2, 1), (3, 1), (7, 1), (19, 1), (47, 2), (127, 1), (8574133, 1)] (by decide +kernel)
    ⟨(by norm_num), (by norm_num), (by norm_num), (by norm_num), (by norm_num), (by norm_num), prime_8574133, trivial⟩
theorem prime_2437 : Nat.Prime 2437 := by norm_num
theorem prime_569003 : Nat.Prime 569003 :=
  pratt 569003 2 [(2, 1), (7, 1), (97, 1), (419, 1)] (by decide +kernel)
    ⟨(by norm_num), (by norm_num), (by norm_num), (by norm_num), trivial⟩
theorem prime_2773320623 : Nat.Prime 2773320623 :=
  pratt 2773320623 5 [(2, 1), (2437, 1), (569003, 1)] (by decide +kernel)
    ⟨(by norm_num), prime_2437, prime_569003, trivial⟩
theorem prime_72106336199 : Nat.Prime 72106336199 :=
  pratt 72106336199 7 [(2, 1), (13, 1), (2773320623, 1)] (by decide +kernel)
    ⟨(by norm_num), (by norm_num), prime_2773320623, trivial⟩
theorem prime_9463 : Nat.Prime 9463 := by norm_num
theorem prime_37853 : Nat.Prime 37853 :=
  pratt 37853 2 [(2, 2), (9463, 1)] (by decide +kernel)
    ⟨(by norm_num), prime_9463, trivial⟩
theorem prime_75707 : Nat.Prime 75707 :=
  pratt 75707 2 [(2, 1), (37853, 1)] (by decide +kernel)
    ⟨(by norm_num), prime_37853, trivial⟩
theorem prime_75445702479781427272750846543864801 : Nat.Prime 75445702479781427272750846543864801 :=
  pratt 75445702479781427272750846543864801 7 [(2, 5), (3, 2), (5, 2), (75707, 1), (72106336199, 1), (1919519569386763, 1)] (by decide +kernel)
    ⟨(by norm_num), (by norm_num), (by norm_num), prime_75707, prime_72106336199, prime_1919519569386763, trivial⟩
theorem prime_4153 : Nat.Prime 4153 := by norm_num
theorem prime_1723 : Nat.Prime 1723 := by norm_num
theorem prime_430751 : Nat.Prime 430751 :=
  pratt 430751 17 [(2, 1), (5, 3), (1723, 1)] (by decide +kernel)
    ⟨(by norm_num), (by norm_num), prime_1723, trivial⟩
theorem prime_31757755568855353 : Nat.Prime 31757755568855353 :=
  pratt 31757755568855353 10 [(2, 3), (3, 1), (31, 1), (107, 1), (223, 1), (4153, 1), (430751, 1)] (by decide +kernel)
    ⟨(by norm_num), (by norm_num), (by norm_num), (by norm_num), (by norm_num), prime_4153, prime_430751, trivial⟩
theorem prime_3727 : Nat.Prime 3727 := by norm_num
theorem prime_1923133 : Nat.Prime 1923133 :=
  pratt 1923133 2 [(2, 2), (3, 1), (43, 1), (3727, 1)] (by decide +kernel)
    ⟨(by norm_num), (by norm_num), (by norm_num), prime_3727, trivial⟩
theorem prime_132049 : Nat.Prime 132049 :=
  pratt 132049 26 [(2, 4), (3, 2), (7, 1), (131, 1)] (by decide +kernel)
    ⟨(by norm_num), (by norm_num), (by norm_num), (by norm_num), trivial⟩
theorem prime_57467 : Nat.Prime 57467 :=
  pratt 57467 2 [(2, 1), (59, 1), (487, 1)] (by decide +kernel)
    ⟨(by norm_num), (by norm_num), (by norm_num), trivial⟩
theorem prime_74058212732561358302231226437062788676166966415465897661863160754340907 : Nat.Prime 74058212732561358302231226437062788676166966415465897661863160754340907 :=
  pratt 74058212732561358302231226437062788676166966415465897661863160754340907 2 [(2, 1), (3, 1), (353, 1), (57467, 1), (132049, 1), (1923133, 1), (31757755568855353, 1), (75445702479781427272750846543864801, 1)] (by decide +kernel)
    ⟨(by norm_num), (by norm_num), (by norm_num), prime_57467, prime_132049, prime_1923133, prime_31757755568855353, prime_75445702479781427272750846543864801, trivial⟩
theorem prime_32573 : Nat.Prime 32573 :=
  pratt 32573 2 [(2, 2), (17, 1), (479, 1)] (by decide +kernel)
    ⟨(by norm_num), (by norm_num), (by norm_num), trivial⟩
theorem prime_65147 : Nat.Prime 65147 :=
  pratt 65147 2 [(2, 1), (32573, 1)] (by decide +kernel)
    ⟨(by norm_num), prime_32573, trivial⟩
theorem prime_57896044618658097711785492504343953926634992332820282019728792003956564819949 : Nat.Prime 57896044618658097711785492504343953926634992332820282019728792003956564819949 :=
  pratt 57896044618658097711785492504343953926634992332820282019728792003956564819949 2 [(2, 2), (3, 1), (65147, 1), (74058212732561358302231226437062788676166966415465897661863160754340907, 1)] (by decide +kernel)
    ⟨(by norm_num), (by norm_num), prime_65147, prime_74058212732561358302231226437062788676166966415465897661863160754340907, trivial⟩
theorem prime_17231 : Nat.Prime 17231 :=
  pratt 17231 13 [(2, 1), (5, 1), (1723, 1)] (by decide +kernel)
    ⟨(by norm_num), (by norm_num), prime_1723, trivial⟩
theorem prime_137849 : Nat.Prime 137849 :=
  pratt 137849 3 [(2, 3), (17231, 1)] (by decide +kernel)
    ⟨(by norm_num), prime_17231, trivial⟩
theorem prime_41081 : Nat.Prime 41081 :=
  pratt 41081 3 [(2, 3), (5, 1), (13, 1), (79, 1)] (by decide +kernel)
    ⟨(by norm_num), (by norm_num), (by norm_num), (by norm_num), trivial⟩
theorem prime_82163 : Nat.Prime 82163 :=
  pratt 82163 2 [(2, 1), (41081, 1)] (by decide +kernel)
    ⟨(by norm_num), prime_41081, trivial⟩
theorem prime_22111 : Nat.Prime 22111 :=
  pratt 22111 6 [(2, 1), (3, 1), (5, 1), (11, 1), (67, 1)] (by decide +kernel)
    ⟨(by norm_num), (by norm_num), (by norm_num), (by norm_num), (by norm_num), trivial⟩
theorem prime_132667 : Nat.Prime 132667 :=
  pratt 132667 5 [(2, 1), (3, 1), (22111, 1)] (by decide +kernel)
    ⟨(by norm_num), (by norm_num), prime_22111, trivial⟩
theorem prime_30703 : Nat.Prime 30703 :=
  pratt 30703 3 [(2, 1), (3, 1), (7, 1), (17, 1), (43, 1)] (by decide +kernel)
    ⟨(by norm_num), (by norm_num), (by norm_num), (by norm_num), (by norm_num), trivial⟩
theorem prime_3044861653679985063343 : Nat.Prime 3044861653679985063343 :=
  pratt 3044861653679985063343 5 [(2, 1), (3, 1), (11, 1), (30703, 1), (82163, 1), (132667, 1), (137849, 1)] (by decide +kernel)
    ⟨(by norm_num), (by norm_num), (by norm_num), prime_30703, prime_82163, prime_132667, prime_137849, trivial⟩
theorem prime_34123 : Nat.Prime 34123 :=
  pratt 34123 2 [(2, 1), (3, 1), (11, 2), (47, 1)] (by decide +kernel)
    ⟨(by norm_num), (by norm_num), (by norm_num), (by norm_num), trivial⟩
theorem prime_409477 : Nat.Prime 409477 :=
  pratt 409477 2 [(2, 2), (3, 1), (34123, 1)] (by decide +kernel)
    ⟨(by norm_num), (by norm_num), prime_34123, trivial⟩
theorem prime_14741173 : Nat.Prime 14741173 :=
  pratt 14741173 2 [(2, 2), (3, 2), (409477, 1)] (by decide +kernel)
    ⟨(by norm_num), (by norm_num), prime_409477, trivial⟩
theorem prime_58964693 : Nat.Prime 58964693 :=
  pratt 58964693 2 [(2, 2), (14741173, 1)] (by decide +kernel)
    ⟨(by norm_num), prime_14741173, trivial⟩
theorem prime_198211423230930754013084525763697 : Nat.Prime 198211423230930754013084525763697 :=
  pratt 198211423230930754013084525763697 5 [(2, 4), (3, 1), (23, 1), (58964693, 1), (3044861653679985063343, 1)] (by decide +kernel)
    ⟨(by norm_num), (by norm_num), (by norm_num), prime_58964693, prime_3044861653679985063343, trivial⟩
theorem prime_1361 : Nat.Prime 1361 := by norm_num
theorem prime_2851 : Nat.Prime 2851 := by norm_num
theorem prime_2551 : Nat.Prime 2551 := by norm_num
theorem prime_1224481 : Nat.Prime 1224481 :=
  pratt 1224481 13 [(2, 5), (3, 1), (5, 1), (2551, 1)] (by decide +kernel)
    ⟨(by norm_num), (by norm_num), (by norm_num), prime_2551, trivial⟩
theorem prime_3797 : Nat.Prime 3797 := by norm_num
theorem prime_531581 : Nat.Prime 531581 :=
  pratt 531581 2 [(2, 2), (5, 1), (7, 1), (3797, 1)] (by decide +kernel)
    ⟨(by norm_num), (by norm_num), (by norm_num), prime_3797, trivial⟩
theorem prime_1257559732178653 : Nat.Prime 1257559732178653 :=
  pratt 1257559732178653 2 [(2, 2), (3, 1), (7, 1), (23, 1), (531581, 1), (1224481, 1)] (by decide +kernel)
    ⟨(by norm_num), (by norm_num), (by norm_num), (by norm_num), prime_531581, prime_1224481, trivial⟩
theorem prime_4434155615661930479 : Nat.Prime 4434155615661930479 :=
  pratt 4434155615661930479 17 [(2, 1), (41, 1), (43, 1), (1257559732178653, 1)] (by decide +kernel)
    ⟨(by norm_num), (by norm_num), (by norm_num), prime_1257559732178653, trivial⟩
theorem prime_172054593956031949258510691 : Nat.Prime 172054593956031949258510691 :=
  pratt 172054593956031949258510691 2 [(2, 1), (5, 1), (1361, 1), (2851, 1), (4434155615661930479, 1)] (by decide +kernel)
    ⟨(by norm_num), (by norm_num), prime_1361, prime_2851, prime_4434155615661930479, trivial⟩
theorem prime_2939 : Nat.Prime 2939 := by norm_num
theorem prime_5879 : Nat.Prime 5879 := by norm_num
theorem prime_292386187 : Nat.Prime 292386187 :=
  pratt 292386187 2 [(2, 1), (3, 4), (307, 1), (5879, 1)] (by decide +kernel)
    ⟨(by norm_num), (by norm_num), (by norm_num), prime_5879, trivial⟩
theorem prime_213441916511 : Nat.Prime 213441916511 :=
  pratt 213441916511 13 [(2, 1), (5, 1), (73, 1), (292386187, 1)] (by decide +kernel)
    ⟨(by norm_num), (by norm_num), (by norm_num), prime_292386187, trivial⟩
theorem prime_19757330305831588566944191468367130476339 : Nat.Prime 19757330305831588566944191468367130476339 :=
  pratt 19757330305831588566944191468367130476339 2 [(2, 1), (269, 1), (213441916511, 1), (172054593956031949258510691, 1)] (by decide +kernel)
    ⟨(by norm_num), (by norm_num), prime_213441916511, prime_172054593956031949258510691, trivial⟩
theorem prime_276602624281642239937218680557139826668747 : Nat.Prime 276602624281642239937218680557139826668747 :=
  pratt 276602624281642239937218680557139826668747 2 [(2, 1), (7, 1), (19757330305831588566944191468367130476339, 1)] (by decide +kernel)
    ⟨(by norm_num), (by norm_num), prime_19757330305831588566944191468367130476339, trivial⟩
theorem prime_7237005577332262213973186563042994240857116359379907606001950938285454250989 : Nat.Prime 7237005577332262213973186563042994240857116359379907606001950938285454250989 :=
  pratt 7237005577332262213973186563042994240857116359379907606001950938285454250989 2 [(2, 2), (3, 1), (11, 1), (198211423230930754013084525763697, 1), (276602624281642239937218680557139826668747, 1)] (by decide +kernel)
    ⟨(by norm_num), (by norm_num), (by norm_num), prime_198211423230930754013084525763697, prime_276602624281642239937218680557139826668747, trivial⟩

end Tss.Primes
