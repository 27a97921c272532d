import Verif.Model.SecpS256
/-
Model of /repo/package/github.com/btcsuite/btcd/btcec/v1/pubkey.go: public keys as byte strings, on the word-level field arithmetic.
-/
namespace Tss.Secp
open Tss

/-- The errors of `ParsePubKey`, pubkey.go:83-137. -/
inductive PErr where
  | empty | magic | parity | xTooLarge | yTooLarge | offCurve | badRoot | length
deriving DecidableEq

/-- pubkey.go:21-23 `isOdd`: `Bit(0)` of a big.Int, two's complement for negative numbers. -/
def bigOdd (a : Int) : Bool := a % 2 == 1

/-- pubkey.go:27-58 `decompressPoint` (`fieldB` is `SetByteSlice` of 7, btcec.go:939). -/
def decompress (bigX : Int) (ybit : Bool) : Except PErr Int :=
  let x := toField bigX
  let x3 := ((x.square.mul x).add (FV.setByteSlice [7])).normalize
  let y0 := x3.sqrt.normalize
  let y := if ybit != y0.isOdd then (y0.negate 1).normalize else y0
  let y2 := y.square.normalize
  if !y2.equals x3 then .error .badRoot
  else if ybit != y.isOdd then .error .parity
  else .ok (beNat y.bytes)

/-- The curve's modulus, btcec.go:927 (`Params().P`). -/
def curveP : Int := 0xFFFFFFFFFFFFFFFFFFFFFFFFFFFFFFFFFFFFFFFFFFFFFFFFFFFFFFFEFFFFFC2F

/-- pubkey.go:92-114, the case of 65 bytes. -/
def parse65 (first : UInt8) (rest : Bytes) : Except PErr ECPoint :=
  let format := first &&& 0xfe
  if format ≠ 4 ∧ format ≠ 6 then .error .magic
  else
    let x : Int := beNat (rest.take 32)
    let y : Int := beNat (rest.drop 32)
    if format = 6 ∧ (first &&& 1 == 1) ≠ bigOdd y then .error .parity
    else if x ≥ curveP then .error .xTooLarge
    else if y ≥ curveP then .error .yTooLarge
    else if !isOnCurve x y then .error .offCurve
    else .ok ⟨x, y⟩

/-- pubkey.go:116-128, the case of 33 bytes. -/
def parse33 (first : UInt8) (rest : Bytes) : Except PErr ECPoint :=
  if first &&& 0xfe ≠ 2 then .error .magic
  else
    let x : Int := beNat rest
    match decompress x (first &&& 1 == 1) with
    | .error e => .error e
    | .ok y => .ok ⟨x, y⟩

/-- pubkey.go:79-136 `ParsePubKey`. -/
def parsePubKey : Bytes → Except PErr ECPoint
  | [] => .error .empty
  | first :: rest =>
    if rest.length = 64 then parse65 first rest
    else if rest.length = 32 then parse33 first rest
    else .error .length

/-- pubkey.go:189-194 `paddedAppend` (the appended part). -/
def padded (size : Nat) (src : Bytes) : Bytes := List.replicate (size - src.length) 0 ++ src

/-- pubkey.go:148-153 `SerializeUncompressed`. -/
def serializeUncompressed (k : ECPoint) : Bytes := 4 :: (padded 32 (intBytes k.x) ++ padded 32 (intBytes k.y))

/-- pubkey.go:156-164 `SerializeCompressed`. -/
def serializeCompressed (k : ECPoint) : Bytes := (if bigOdd k.y then 3 else 2) :: padded 32 (intBytes k.x)

/-- pubkey.go:167-176 `SerializeHybrid`. -/
def serializeHybrid (k : ECPoint) : Bytes :=
  (if bigOdd k.y then 7 else 6) :: (padded 32 (intBytes k.x) ++ padded 32 (intBytes k.y))

/-- pubkey.go:69-74 `IsCompressedPubKey`. -/
def isCompressedPubKey (b : Bytes) : Bool := b.length == 33 && (b.headD 0 &&& 0xfe == 2)

/-- pubkey.go:181-184 `IsEqual`. -/
def pubIsEqual (a b : ECPoint) : Bool := a.x == b.x && a.y == b.y

end Tss.Secp
