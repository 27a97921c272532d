import Verif.Model.Common
import Verif.Model.Wire
import Verif.Model.Xor
/-
Model of /repo/crypto/alice/utils/utils.go.  The BLAKE2b-256 compression is the parameter `Hb`; the
system random reader is a finite tape, as in Model/Common.
-/
namespace Tss.Alice
open Tss Text

/-- The error values of crypto/alice/utils/utils.go:43-64, and of the packages using them
(crypto/alice/paillier/paillier.go:28-36, crypto/alice/zkproof/integerfactorization.go:36-45);
`reader` is the random reader's own error. -/
inductive AErr where
  | lessOrEqualBig2 | exceedMaxRetry | invalidInput | largeRank | largeThreshold | notInRange
  | largerFloor | emptySlice | smallThreshold | smallSafePrime | reader
  | invalidMessage | smallPublicKeySize | verifyFailure | notCoprime
  deriving DecidableEq, Repr

/-- crypto/alice/utils/utils.go:75-80 `EnsureFieldOrder`. -/
def EnsureFieldOrder (fieldOrder : Int) : Res AErr Unit :=
  if fieldOrder ≤ 2 then .err .lessOrEqualBig2 else .ok ()

/-- crypto/alice/utils/utils.go:83-88 `EnsureRank` (uint32 arithmetic: `rank+1` wraps). -/
def EnsureRank (rank threshold : UInt32) : Res AErr Unit :=
  if threshold ≤ rank + 1 then .err .largeRank else .ok ()

/-- crypto/alice/utils/utils.go:91-100 `EnsureThreshold`. -/
def EnsureThreshold (threshold n : UInt32) : Res AErr Unit :=
  if n < threshold then .err .largeThreshold
  else if threshold < 2 then .err .smallThreshold
  else .ok ()

/-- crypto/alice/utils/utils.go:103-108 `RandomInt`. -/
def RandomInt (n : Int) (tape : Bytes) : Res AErr (Int × Bytes) :=
  if n < 1 then .err .invalidInput
  else match Common.randInt n tape with
    | .ok r => .ok r
    | .err _ => .err .reader
    | .panic => .panic

/-- crypto/alice/utils/utils.go:111-117 `RandomPositiveInt`. -/
def RandomPositiveInt (n : Int) (tape : Bytes) : Res AErr (Int × Bytes) :=
  match RandomInt (n - 1) tape with
  | .ok (x, rest) => .ok (x + 1, rest)
  | .err e => .err e
  | .panic => .panic

/-- crypto/alice/utils/utils.go:152-154 `Gcd` (`GCD(nil, nil, a, b)`, always non-negative). -/
def Gcd (a b : Int) : Int := (Int.gcd a b : Int)

/-- crypto/alice/utils/utils.go:147-149 `IsRelativePrime`. -/
def IsRelativePrime (a b : Int) : Bool := decide (Gcd a b = 1)

/-- crypto/alice/utils/utils.go:129-141: the retry loop of `RandomCoprimeInt`. -/
def randomCoprimeLoop (n : Int) : Nat → Bytes → Res AErr (Int × Bytes)
  | 0, _ => .err .exceedMaxRetry
  | k + 1, tape =>
    match RandomInt n tape with
    | .ok (r, rest) =>
      if r ≤ 1 then randomCoprimeLoop n k rest
      else if IsRelativePrime r n then .ok (r, rest)
      else randomCoprimeLoop n k rest
    | .err e => .err e
    | .panic => .panic

/-- crypto/alice/utils/utils.go:125-144 `RandomCoprimeInt` (maxGenPrimeInt = 100). -/
def RandomCoprimeInt (n : Int) (tape : Bytes) : Res AErr (Int × Bytes) :=
  if n ≤ 2 then .err .lessOrEqualBig2 else randomCoprimeLoop n 100 tape

/-- crypto/alice/utils/utils.go:158-169 `Lcm`. -/
def Lcm (a b : Int) : Res AErr Int :=
  if a ≤ 0 then .err .invalidInput
  else if b ≤ 0 then .err .invalidInput
  else .ok (a / Gcd a b * b)

/-- crypto/alice/utils/utils.go:177-184: the loop of `EulerFunction`. -/
def eulerLoop : Int → List Int → Res AErr Int
  | result, [] => .ok result
  | result, t :: l => if t ≤ 1 then .err .invalidInput else eulerLoop (result * (t - 1)) l

/-- crypto/alice/utils/utils.go:173-186 `EulerFunction`. -/
def EulerFunction (primeFactor : List Int) : Res AErr Int :=
  if primeFactor.length = 0 then .err .invalidInput else eulerLoop 1 primeFactor

/-- crypto/alice/utils/utils.go:189-200 `InRange`. -/
def InRange (checkValue floor ceil : Int) : Res AErr Unit :=
  if ceil ≤ floor then .err .largerFloor
  else if checkValue < floor then .err .notInRange
  else if ceil ≤ checkValue then .err .notInRange
  else .ok ()

/-- crypto/alice/utils/utils.go:203-213 `GenRandomBytes`. -/
def GenRandomBytes (size : Int) (tape : Bytes) : Res AErr (Bytes × Bytes) :=
  if size < 1 then .err .emptySlice
  else match Common.readFull size.toNat tape with
    | some r => .ok r
    | none => .err .reader

/-! ### Hashing of messages -/

/-- A marshalled `any.Any{Value: b}` (empty type URL). -/
def anyValue (b : Bytes) : Bytes := Wire.encField 2 b

/-- `ptypes.MarshalAny` of an `any.Any{Value: b}`: type URL and value. -/
def anyOfAny (b : Bytes) : Bytes :=
  Wire.encField 1 (ascii "type.googleapis.com/google.protobuf.Any") ++ Wire.encField 2 (anyValue b)

/-- crypto/alice/utils/utils.go:262-276: the marshalled `Hash` message; the messages are those of
`GetAnyMsg` (226-234), the only kind the code base hashes. -/
def hashInput (salt : Bytes) (msgs : List Bytes) : Bytes :=
  (msgs.map anyOfAny ++ [anyValue salt]).flatMap (Wire.encFieldRep 1)

/-- crypto/alice/utils/utils.go:260-281 `HashProtos(salt, GetAnyMsg(msgs...)...)`; marshalling byte fields
cannot fail. -/
def HashProtos (Hb : Bytes → Bytes) (salt : Bytes) (msgs : List Bytes) : Bytes := Hb (hashInput salt msgs)

/-- crypto/alice/utils/utils.go:217-224 `HashProtosToInt`. -/
def HashProtosToInt (Hb : Bytes → Bytes) (salt : Bytes) (msgs : List Bytes) : Int :=
  (beNat (HashProtos Hb salt msgs) : Int)

/-- crypto/alice/utils/utils.go:236-238 `HashBytesToInt`. -/
def HashBytesToInt (Hb : Bytes → Bytes) (salt : Bytes) (bs : List Bytes) : Int := HashProtosToInt Hb salt bs

/-- crypto/alice/utils/utils.go:240-257 `HashProtosRejectSampling`, retry loop (maxGenNHashValue = 100);
`salts k` are the 32 random bytes of the attempt with `k` retries left. -/
def rejectLoop (Hb : Bytes → Bytes) (fieldOrder : Int) (msgs : List Bytes) (salts : Nat → Bytes) :
    Nat → Res AErr (Int × Bytes)
  | 0 => .err .exceedMaxRetry
  | k + 1 =>
    let c := HashProtosToInt Hb (salts k) msgs
    match InRange c 0 fieldOrder with
    | .ok _ => .ok (c, salts k)
    | _ => rejectLoop Hb fieldOrder msgs salts k

/-- crypto/alice/utils/utils.go:240-257 `HashProtosRejectSampling`. -/
def HashProtosRejectSampling (Hb : Bytes → Bytes) (fieldOrder : Int) (msgs : List Bytes)
    (salts : Nat → Bytes) : Res AErr (Int × Bytes) := rejectLoop Hb fieldOrder msgs salts 100

/-- crypto/alice/utils/utils.go:284-292 `RandomAbsoluteRangeInt`. -/
def RandomAbsoluteRangeInt (n : Int) (tape : Bytes) : Res AErr (Int × Bytes) :=
  match RandomPositiveInt ((n + 1) * 2) tape with
  | .ok (x, rest) => .ok (x - n, rest)
  | .err e => .err e
  | .panic => .panic

/-- crypto/alice/utils/utils.go:383-393: block `i` of the extended hash (`temp` is a 32-byte array; the
`append` to `salt` may write into its spare capacity, which nobody reads). -/
def extBlock (Hb : Bytes → Bytes) (salt message : Bytes) (i : Nat) : Bytes :=
  Hb (salt ++ [44] ++ message ++ [44] ++ itoa i)

/-- crypto/alice/utils/utils.go:379-395 `ExtnedHashOuput` for a non-negative bit length
(`math.Ceil(float64(n)/256)` is exact below 2^53). -/
def ExtnedHashOuput (Hb : Bytes → Bytes) (salt message : Bytes) (outputBitLength : Nat) : Bytes :=
  let up := (outputBitLength + 255) / 256
  let result := (List.range up).flatMap (extBlock Hb salt message)
  natBE (beNat result / 2 ^ (up * 256 - outputBitLength))

/-- crypto/alice/utils/utils.go:295-300 `RandomAbsoluteRangeIntBySeed`. -/
def RandomAbsoluteRangeIntBySeed (Hb : Bytes → Bytes) (salt message : Bytes) (q : Int) : Int :=
  (beNat (ExtnedHashOuput Hb salt message (bitLen q + 1)) : Int) - 2 ^ bitLen q

/-! ### Bit and byte helpers -/

/-- crypto/alice/utils/utils.go:316-325 `BinaryMul`. -/
def BinaryMul (c : UInt8) (input : Bytes) : Bytes := if c = 1 then input else List.replicate input.length 0

/-- crypto/alice/utils/utils.go:330-338: the bits of one byte; `bits.LeadingZeros8(d) == 0` iff `d ≥ 128`,
`d << 1` drops the top bit. -/
def byteToBits : Nat → UInt8 → List UInt8
  | 0, _ => []
  | k + 1, d => (if 128 ≤ d.toNat then 1 else 0) :: byteToBits k (UInt8.ofNat (d.toNat * 2))

/-- crypto/alice/utils/utils.go:327-341 `BytesToBits`. -/
def BytesToBits (data : Bytes) : List UInt8 := data.flatMap (byteToBits 8)

/-- crypto/alice/utils/utils.go:343-349 `ScalarMul`. -/
def ScalarMul (bit : UInt8) (input : List UInt8) : List UInt8 := input.map fun x => bit &&& x

/-- crypto/alice/utils/utils.go:360-363: one byte from eight entries (uint8 arithmetic, so entries other
than 0 and 1 overflow into each other); `j`-th entry is shifted by `7 - j`. -/
def bitsToByte (a b c d e f g h : UInt8) : UInt8 :=
  UInt8.ofNat (h.toNat + g.toNat * 2 + f.toNat * 4 + e.toNat * 8 + d.toNat * 16 + c.toNat * 32 +
    b.toNat * 64 + a.toNat * 128)

/-- crypto/alice/utils/utils.go:357-365: the loop over groups of eight. -/
def bitsToBytesLoop : List UInt8 → Bytes
  | a :: b :: c :: d :: e :: f :: g :: h :: t => bitsToByte a b c d e f g h :: bitsToBytesLoop t
  | _ => []

/-- crypto/alice/utils/utils.go:351-367 `BitsToBytes`. -/
def BitsToBytes (input : List UInt8) : Res AErr Bytes :=
  if input.length % 8 ≠ 0 then .err .invalidInput else .ok (bitsToBytesLoop input)

/-- crypto/alice/utils/utils.go:369-376 `ReverseByte`: entry `i` is entry `len-1-i`. -/
def ReverseByte (s : Bytes) : Bytes := (List.range s.length).map fun i => s.getD (s.length - 1 - i) 0

/-! ### Challenges of the Paillier proofs -/

/-- crypto/alice/paillier/affinegroupzkproof.go:10-30 `GetE`, retry loop; `salts k` are the 128 random
bytes of the attempt with `k` retries left. -/
def getELoop (Hb : Bytes → Bytes) (groupOrder : Int) (msgs : List Bytes) (salts : Nat → Bytes) :
    Nat → Res AErr (Int × Bytes)
  | 0 => .err .exceedMaxRetry
  | k + 1 =>
    let salt := salts k
    let seedMsg := HashProtos Hb salt msgs
    let e := RandomAbsoluteRangeIntBySeed Hb salt seedMsg groupOrder
    if (e.natAbs : Int) ≤ groupOrder then .ok (e, salt) else getELoop Hb groupOrder msgs salts k

/-- crypto/alice/paillier/affinegroupzkproof.go:10-30 `GetE` (maxRetry = 100, paillier.go:24). -/
def GetE (Hb : Bytes → Bytes) (groupOrder : Int) (msgs : List Bytes) (salts : Nat → Bytes) :
    Res AErr (Int × Bytes) := getELoop Hb groupOrder msgs salts 100

end Tss.Alice
