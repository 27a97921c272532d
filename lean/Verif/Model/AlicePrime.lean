import Verif.Model.AliceUtils
/-
Model of /repo/crypto/alice/utils/prime.go: the safe-prime search of the alice library.
-/
namespace Tss.Alice
open Tss

/-- crypto/alice/utils/prime.go:24. -/
def prime3Product : Nat := 16294579238595022365

/-- crypto/alice/utils/prime.go:26-96 `primes` and 98-122 `primeProducts`, paired by index. -/
def primeTable : List (Nat × List Nat) :=

  [(5431526412865007455, [5, 7, 11, 13, 17, 19, 23, 29, 31, 37, 41, 43, 47, 53]),
   (6437928885641249269, [59, 61, 67, 71, 73, 79, 83, 89, 97]),
   (4343678784233766587, [101, 103, 107, 109, 113, 127, 131, 137, 139]),
   (538945254996352681, [149, 151, 157, 163, 167, 173, 179, 181]),
   (3534749459194562711, [191, 193, 197, 199, 211, 223, 227, 229]),
   (61247129307885343, [233, 239, 241, 251, 257, 263, 269]),
   (166996819598798201, [271, 277, 281, 283, 293, 307, 311]),
   (542676746453092519, [317, 331, 337, 347, 349, 353, 359]),
   (1230544604996048471, [367, 373, 379, 383, 389, 397, 401]),
   (2618501576975440661, [409, 419, 421, 431, 433, 439, 443]),
   (4771180125133726009, [449, 457, 461, 463, 467, 479, 487]),
   (9247077179230889629, [491, 499, 503, 509, 521, 523, 541]),
   (34508483876655991, [557, 563, 569, 571, 577, 587]),
   (49010633640532829, [593, 599, 601, 607, 613, 617]),
   (68015277240951437, [619, 631, 641, 643, 647, 653]),
   (93667592535644987, [659, 661, 673, 677, 683, 691]),
   (140726526226538479, [701, 709, 719, 727, 733, 739]),
   (191079950785756457, [743, 751, 757, 761, 769, 773]),
   (278064420037666463, [787, 797, 809, 811, 821, 823]),
   (361197734649700343, [827, 829, 839, 853, 857, 859]),
   (473672212426732757, [863, 877, 881, 883, 887, 907]),
   (649424689916978839, [911, 919, 929, 937, 941, 947]),
   (851648411420003101, [953, 967, 971, 977, 983, 991])]

/-- crypto/alice/utils/prime.go:213-223: the loop of `checkSafePrimes` on the reduced candidate. -/
def checkResidues (mm : Nat) : List Nat → Bool
  | [] => true
  | prime :: t =>
    let residue := mm % prime
    if residue = 0 then false
    else if residue = prime / 2 then false
    else checkResidues mm t

/-- crypto/alice/utils/prime.go:211-224 `checkSafePrimes` (the products fit in 64 bits). -/
def checkSafePrimes (m product : Nat) (primes : List Nat) : Bool := checkResidues (m % product) primes

/-- crypto/alice/utils/prime.go:183-187: the sieve over all table rows. -/
def sieve (m : Nat) : Bool := primeTable.all fun row => checkSafePrimes m row.1 row.2

/-- Number of set bits at positions `i, i+2, ...` below `n` bits (`number.Bit(i)`), with fuel. -/
def countBits (number bl : Nat) : Nat → Nat → Nat
  | 0, _ => 0
  | f + 1, i => if i < bl then (if number.testBit i then 1 else 0) + countBits number bl f (i + 2) else 0

/-- crypto/alice/utils/prime.go:227-248 `FastMod3` of a non-negative number (its only caller passes a
residue). -/
def FastMod3 (number : Nat) : Nat :=
  let bl := bitLen number
  let numberOne := countBits number bl bl 0
  let numberTwo := countBits number bl bl 1
  let result := if numberTwo < numberOne then numberOne - numberTwo else (numberTwo - numberOne) * 2
  result % 3

/-- crypto/alice/utils/prime.go:251-254 `checkPrimeByPocklingtonCriterion` (moduli here are positive). -/
def checkPrimeByPocklingtonCriterion (pMinus1 p : Nat) : Bool := decide (bigExp 2 pMinus1 p = some 1)

/-- crypto/alice/utils/prime.go:152-171: shape the drawn bytes into a candidate: at most `bits` bits, the
top two bits and the low bit set; `b` is the number of significant bits in the first byte. -/
def shape (b : Nat) : Bytes → Bytes
  | [] => []
  | x :: t =>
    let x1 := UInt8.ofNat (x.toNat % 2 ^ b)
    if 2 ≤ b then setLow ((x1 ||| UInt8.ofNat (3 * 2 ^ (b - 2))) :: t)
    else match t with
      | [] => setLow [x1 ||| 1]
      | y :: t' => setLow ((x1 ||| 1) :: (y ||| 0x80) :: t')
where
  /-- `bytes[len(bytes)-1] |= 1` -/
  setLow : Bytes → Bytes
    | [] => []
    | [x] => [x ||| 1]
    | x :: y :: t => x :: setLow (y :: t)

/-- crypto/alice/utils/prime.go:173-184: the start of the search, congruent to 2 modulo 3. -/
def adjust (q : Nat) : Nat :=
  let mod3 := FastMod3 (q % prime3Product)
  if mod3 = 1 then q + 4 else if mod3 = 0 then q + 2 else q

/-- crypto/alice/utils/prime.go:188-205: is this candidate returned?  `isPrime` is
`candidateQ.ProbablyPrime(1)`. -/
def accepts (isPrime : Nat → Bool) (pbits candidateQ : Nat) : Bool :=
  sieve candidateQ && checkPrimeByPocklingtonCriterion (2 * candidateQ) (2 * candidateQ + 1) &&
    decide (bitLen ((2 * candidateQ + 1 : Nat) : Int) = pbits) && isPrime candidateQ

/-- crypto/alice/utils/prime.go:186-209: the loop over `delta = 0, 6, 12, .. < 1024` (171 values). -/
def deltaLoop (isPrime : Nat → Bool) (pbits q : Nat) : Nat → Nat → Option Nat
  | 0, _ => none
  | f + 1, delta =>
    if delta < 1024 then
      if accepts isPrime pbits (q + delta) then some (q + delta) else deltaLoop isPrime pbits q f (delta + 6)
    else none

/-- crypto/alice/utils/prime.go:145-210: the outer loop; outer none: still running after `fuel` draws. -/
def safePrimeLoop (isPrime : Nat → Bool) (pbits : Nat) : Nat → Bytes → Option (Res AErr (Nat × Nat))
  | 0, _ => none
  | f + 1, tape =>
    let bits := pbits - 1
    let b := if bits % 8 = 0 then 8 else bits % 8
    match Common.readFull ((bits + 7) / 8) tape with
    | none => some (.err .reader)
    | some (bytes, rest) =>
      match deltaLoop isPrime pbits (adjust (beNat (shape b bytes))) 171 0 with
      | some q => some (.ok (2 * q + 1, q))
      | none => safePrimeLoop isPrime pbits f rest

/-- crypto/alice/utils/prime.go:134-210 `GenerateRandomSafePrime`: the pair (P, Q). -/
def GenerateRandomSafePrime (isPrime : Nat → Bool) (pbits : Int) (fuel : Nat) (tape : Bytes) :
    Option (Res AErr (Nat × Nat)) :=
  if pbits < 3 then some (.err .smallSafePrime) else safePrimeLoop isPrime pbits.toNat fuel tape

end Tss.Alice
