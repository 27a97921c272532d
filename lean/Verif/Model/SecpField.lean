import Verif.Model.Go
/-
Model of /repo/package/github.com/btcsuite/btcd/btcec/v1/field.go, the field arithmetic of the secp256k1 implementation that
tss.S256() returns: ten 26-bit words in uint32, products in uint64.  Words and products are Lean's UInt32 and UInt64, whose
operations wrap exactly as Go's do.  The methods update their receiver in place and return it; here they are functions from
values to values.  In every call in btcec.go a receiver that is also an argument is read before it is written, so nothing is
lost (the two places where that matters are noted in Model/SecpCurve.lean).
-/
namespace Tss.Secp
open Tss

/-- field.go:149-151 `fieldVal`. -/
structure FV where
  n0 : UInt32
  n1 : UInt32
  n2 : UInt32
  n3 : UInt32
  n4 : UInt32
  n5 : UInt32
  n6 : UInt32
  n7 : UInt32
  n8 : UInt32
  n9 : UInt32
  deriving DecidableEq, Repr

/-- field.go:162-173 `Zero`. -/
def FV.zero : FV := ⟨0, 0, 0, 0, 0, 0, 0, 0, 0, 0⟩

/-- field.go:191-195 `SetInt` (the argument is a uint, cut to 32 bits). -/
def FV.setInt (ui : Nat) : FV := { FV.zero with n0 := UInt32.ofNat ui }

/-- field.go:202-227 `SetBytes` of a 32-byte array (`b i` is byte i). -/
def FV.setBytes (b : Nat → UInt8) : FV where
  n0 := (b 31).toUInt32 ||| ((b 30).toUInt32 <<< 8) ||| ((b 29).toUInt32 <<< 16) ||| (((b 28).toUInt32 &&& 0x3) <<< 24)
  n1 := ((b 28).toUInt32 >>> 2) ||| ((b 27).toUInt32 <<< 6) ||| ((b 26).toUInt32 <<< 14) ||| (((b 25).toUInt32 &&& 0xf) <<< 22)
  n2 := ((b 25).toUInt32 >>> 4) ||| ((b 24).toUInt32 <<< 4) ||| ((b 23).toUInt32 <<< 12) ||| (((b 22).toUInt32 &&& 0x3f) <<< 20)
  n3 := ((b 22).toUInt32 >>> 6) ||| ((b 21).toUInt32 <<< 2) ||| ((b 20).toUInt32 <<< 10) ||| ((b 19).toUInt32 <<< 18)
  n4 := (b 18).toUInt32 ||| ((b 17).toUInt32 <<< 8) ||| ((b 16).toUInt32 <<< 16) ||| (((b 15).toUInt32 &&& 0x3) <<< 24)
  n5 := ((b 15).toUInt32 >>> 2) ||| ((b 14).toUInt32 <<< 6) ||| ((b 13).toUInt32 <<< 14) ||| (((b 12).toUInt32 &&& 0xf) <<< 22)
  n6 := ((b 12).toUInt32 >>> 4) ||| ((b 11).toUInt32 <<< 4) ||| ((b 10).toUInt32 <<< 12) ||| (((b 9).toUInt32 &&& 0x3f) <<< 20)
  n7 := ((b 9).toUInt32 >>> 6) ||| ((b 8).toUInt32 <<< 2) ||| ((b 7).toUInt32 <<< 10) ||| ((b 6).toUInt32 <<< 18)
  n8 := (b 5).toUInt32 ||| ((b 4).toUInt32 <<< 8) ||| ((b 3).toUInt32 <<< 16) ||| (((b 2).toUInt32 &&& 0x3) <<< 24)
  n9 := ((b 2).toUInt32 >>> 2) ||| ((b 1).toUInt32 <<< 6) ||| ((b 0).toUInt32 <<< 14)

/-- field.go:241-248 `SetByteSlice`: the first 32 bytes, right aligned in a zeroed array. -/
def FV.setByteSlice (b : Bytes) : FV :=
  let b := if b.length > 32 then b.take 32 else b
  let b32 := List.replicate (32 - b.length) 0 ++ b
  FV.setBytes fun i => b32.getD i 0

/-- One carry pass of `Normalize` (field.go:299-317 and 352-370, the same statements twice): add m times 2^256 mod P to the
low words and propagate the carries. -/
def FV.carryPass (m : UInt32) (f : FV) : FV :=
  let t0 := f.n0 + m * 977
  let t1 := (t0 >>> 26) + f.n1 + (m <<< 6)
  let t2 := (t1 >>> 26) + f.n2
  let t3 := (t2 >>> 26) + f.n3
  let t4 := (t3 >>> 26) + f.n4
  let t5 := (t4 >>> 26) + f.n5
  let t6 := (t5 >>> 26) + f.n6
  let t7 := (t6 >>> 26) + f.n7
  let t8 := (t7 >>> 26) + f.n8
  let t9 := (t8 >>> 26) + f.n9
  ⟨t0 &&& 0x3ffffff, t1 &&& 0x3ffffff, t2 &&& 0x3ffffff, t3 &&& 0x3ffffff, t4 &&& 0x3ffffff, t5 &&& 0x3ffffff,
    t6 &&& 0x3ffffff, t7 &&& 0x3ffffff, t8 &&& 0x3ffffff, t9⟩

/-- field.go:331-351: the flag `m` of the final reduction. -/
def FV.overflow (t : FV) : UInt32 :=
  let m : UInt32 := 1
  let m := if t.n9 = 0x3fffff then m &&& 1 else m &&& 0
  let m := if t.n2 &&& t.n3 &&& t.n4 &&& t.n5 &&& t.n6 &&& t.n7 &&& t.n8 = 0x3ffffff then m &&& 1 else m &&& 0
  let m := if ((t.n0 + 977) >>> 26) + t.n1 + 64 > 0x3ffffff then m &&& 1 else m &&& 0
  if t.n9 >>> 22 ≠ 0 then m ||| 1 else m ||| 0

/-- field.go:266-385 `Normalize`. -/
def FV.normalize (f : FV) : FV :=
  let m := f.n9 >>> 22
  let t := FV.carryPass m { f with n9 := f.n9 &&& 0x3fffff }
  let r := FV.carryPass t.overflow t
  { r with n9 := r.n9 &&& 0x3fffff }

/-- field.go:395-432 `PutBytes` and 441-445 `Bytes`: the 32 bytes, most significant first. -/
def FV.bytes (f : FV) : Bytes := [
  ((f.n9 >>> 14) &&& (0xff : UInt32)).toUInt8,
  ((f.n9 >>> 6) &&& (0xff : UInt32)).toUInt8,
  (((f.n8 >>> 24) &&& (0x3 : UInt32)) ||| ((f.n9 &&& (0x3f : UInt32)) <<< 2)).toUInt8,
  ((f.n8 >>> 16) &&& (0xff : UInt32)).toUInt8,
  ((f.n8 >>> 8) &&& (0xff : UInt32)).toUInt8,
  (f.n8 &&& (0xff : UInt32)).toUInt8,
  ((f.n7 >>> 18) &&& (0xff : UInt32)).toUInt8,
  ((f.n7 >>> 10) &&& (0xff : UInt32)).toUInt8,
  ((f.n7 >>> 2) &&& (0xff : UInt32)).toUInt8,
  (((f.n6 >>> 20) &&& (0x3f : UInt32)) ||| ((f.n7 &&& (0x3 : UInt32)) <<< 6)).toUInt8,
  ((f.n6 >>> 12) &&& (0xff : UInt32)).toUInt8,
  ((f.n6 >>> 4) &&& (0xff : UInt32)).toUInt8,
  (((f.n5 >>> 22) &&& (0xf : UInt32)) ||| ((f.n6 &&& (0xf : UInt32)) <<< 4)).toUInt8,
  ((f.n5 >>> 14) &&& (0xff : UInt32)).toUInt8,
  ((f.n5 >>> 6) &&& (0xff : UInt32)).toUInt8,
  (((f.n4 >>> 24) &&& (0x3 : UInt32)) ||| ((f.n5 &&& (0x3f : UInt32)) <<< 2)).toUInt8,
  ((f.n4 >>> 16) &&& (0xff : UInt32)).toUInt8,
  ((f.n4 >>> 8) &&& (0xff : UInt32)).toUInt8,
  (f.n4 &&& (0xff : UInt32)).toUInt8,
  ((f.n3 >>> 18) &&& (0xff : UInt32)).toUInt8,
  ((f.n3 >>> 10) &&& (0xff : UInt32)).toUInt8,
  ((f.n3 >>> 2) &&& (0xff : UInt32)).toUInt8,
  (((f.n2 >>> 20) &&& (0x3f : UInt32)) ||| ((f.n3 &&& (0x3 : UInt32)) <<< 6)).toUInt8,
  ((f.n2 >>> 12) &&& (0xff : UInt32)).toUInt8,
  ((f.n2 >>> 4) &&& (0xff : UInt32)).toUInt8,
  (((f.n1 >>> 22) &&& (0xf : UInt32)) ||| ((f.n2 &&& (0xf : UInt32)) <<< 4)).toUInt8,
  ((f.n1 >>> 14) &&& (0xff : UInt32)).toUInt8,
  ((f.n1 >>> 6) &&& (0xff : UInt32)).toUInt8,
  (((f.n0 >>> 24) &&& (0x3 : UInt32)) ||| ((f.n1 &&& (0x3f : UInt32)) <<< 2)).toUInt8,
  ((f.n0 >>> 16) &&& (0xff : UInt32)).toUInt8,
  ((f.n0 >>> 8) &&& (0xff : UInt32)).toUInt8,
  (f.n0 &&& (0xff : UInt32)).toUInt8]

/-- field.go:448-455 `IsZero`. -/
def FV.isZero (f : FV) : Bool :=
  f.n0 ||| f.n1 ||| f.n2 ||| f.n3 ||| f.n4 ||| f.n5 ||| f.n6 ||| f.n7 ||| f.n8 ||| f.n9 == 0

/-- field.go:461-464 `IsOdd`. -/
def FV.isOdd (f : FV) : Bool := f.n0 &&& 1 == 1

/-- field.go:469-479 `Equals`. -/
def FV.equals (f v : FV) : Bool :=
  (f.n0 ^^^ v.n0) ||| (f.n1 ^^^ v.n1) ||| (f.n2 ^^^ v.n2) ||| (f.n3 ^^^ v.n3) ||| (f.n4 ^^^ v.n4) ||| (f.n5 ^^^ v.n5) |||
    (f.n6 ^^^ v.n6) ||| (f.n7 ^^^ v.n7) ||| (f.n8 ^^^ v.n8) ||| (f.n9 ^^^ v.n9) == 0

/-- field.go:486-517 `NegateVal` and 524-526 `Negate`. -/
def FV.negate (v : FV) (magnitude : UInt32) : FV where
  n0 := (magnitude + 1) * 0x3fffc2f - v.n0
  n1 := (magnitude + 1) * 0x3ffffbf - v.n1
  n2 := (magnitude + 1) * 0x3ffffff - v.n2
  n3 := (magnitude + 1) * 0x3ffffff - v.n3
  n4 := (magnitude + 1) * 0x3ffffff - v.n4
  n5 := (magnitude + 1) * 0x3ffffff - v.n5
  n6 := (magnitude + 1) * 0x3ffffff - v.n6
  n7 := (magnitude + 1) * 0x3ffffff - v.n7
  n8 := (magnitude + 1) * 0x3ffffff - v.n8
  n9 := (magnitude + 1) * 0x3fffff - v.n9

/-- field.go:534-541 `AddInt`. -/
def FV.addInt (f : FV) (ui : Nat) : FV := { f with n0 := f.n0 + UInt32.ofNat ui }

/-- field.go:548-565 `Add` and 571-588 `Add2`. -/
def FV.add (f v : FV) : FV where
  n0 := f.n0 + v.n0
  n1 := f.n1 + v.n1
  n2 := f.n2 + v.n2
  n3 := f.n3 + v.n3
  n4 := f.n4 + v.n4
  n5 := f.n5 + v.n5
  n6 := f.n6 + v.n6
  n7 := f.n7 + v.n7
  n8 := f.n8 + v.n8
  n9 := f.n9 + v.n9

/-- field.go:597-617 `MulInt`. -/
def FV.mulInt (f : FV) (val : Nat) : FV :=
  let ui := UInt32.ofNat val
  ⟨f.n0 * ui, f.n1 * ui, f.n2 * ui, f.n3 * ui, f.n4 * ui, f.n5 * ui, f.n6 * ui, f.n7 * ui, f.n8 * ui, f.n9 * ui⟩

/-- The twenty words of a product before reduction. -/
structure Wide where
  t0 : UInt64
  t1 : UInt64
  t2 : UInt64
  t3 : UInt64
  t4 : UInt64
  t5 : UInt64
  t6 : UInt64
  t7 : UInt64
  t8 : UInt64
  t9 : UInt64
  t10 : UInt64
  t11 : UInt64
  t12 : UInt64
  t13 : UInt64
  t14 : UInt64
  t15 : UInt64
  t16 : UInt64
  t17 : UInt64
  t18 : UInt64
  t19 : UInt64

/-- field.go:645-819: the carried column sums of `Mul2`. -/
def FV.mulTerms (a b : FV) : Wide :=
  let m0 : UInt64 := a.n0.toUInt64 * b.n0.toUInt64
  let m1 : UInt64 := (m0 >>> 26) + a.n0.toUInt64 * b.n1.toUInt64 + a.n1.toUInt64 * b.n0.toUInt64
  let m2 : UInt64 := (m1 >>> 26) + a.n0.toUInt64 * b.n2.toUInt64 + a.n1.toUInt64 * b.n1.toUInt64 +
      a.n2.toUInt64 * b.n0.toUInt64
  let m3 : UInt64 := (m2 >>> 26) + a.n0.toUInt64 * b.n3.toUInt64 + a.n1.toUInt64 * b.n2.toUInt64 +
      a.n2.toUInt64 * b.n1.toUInt64 + a.n3.toUInt64 * b.n0.toUInt64
  let m4 : UInt64 := (m3 >>> 26) + a.n0.toUInt64 * b.n4.toUInt64 + a.n1.toUInt64 * b.n3.toUInt64 +
      a.n2.toUInt64 * b.n2.toUInt64 + a.n3.toUInt64 * b.n1.toUInt64 + a.n4.toUInt64 * b.n0.toUInt64
  let m5 : UInt64 := (m4 >>> 26) + a.n0.toUInt64 * b.n5.toUInt64 + a.n1.toUInt64 * b.n4.toUInt64 +
      a.n2.toUInt64 * b.n3.toUInt64 + a.n3.toUInt64 * b.n2.toUInt64 + a.n4.toUInt64 * b.n1.toUInt64 +
      a.n5.toUInt64 * b.n0.toUInt64
  let m6 : UInt64 := (m5 >>> 26) + a.n0.toUInt64 * b.n6.toUInt64 + a.n1.toUInt64 * b.n5.toUInt64 +
      a.n2.toUInt64 * b.n4.toUInt64 + a.n3.toUInt64 * b.n3.toUInt64 + a.n4.toUInt64 * b.n2.toUInt64 +
      a.n5.toUInt64 * b.n1.toUInt64 + a.n6.toUInt64 * b.n0.toUInt64
  let m7 : UInt64 := (m6 >>> 26) + a.n0.toUInt64 * b.n7.toUInt64 + a.n1.toUInt64 * b.n6.toUInt64 +
      a.n2.toUInt64 * b.n5.toUInt64 + a.n3.toUInt64 * b.n4.toUInt64 + a.n4.toUInt64 * b.n3.toUInt64 +
      a.n5.toUInt64 * b.n2.toUInt64 + a.n6.toUInt64 * b.n1.toUInt64 + a.n7.toUInt64 * b.n0.toUInt64
  let m8 : UInt64 := (m7 >>> 26) + a.n0.toUInt64 * b.n8.toUInt64 + a.n1.toUInt64 * b.n7.toUInt64 +
      a.n2.toUInt64 * b.n6.toUInt64 + a.n3.toUInt64 * b.n5.toUInt64 + a.n4.toUInt64 * b.n4.toUInt64 +
      a.n5.toUInt64 * b.n3.toUInt64 + a.n6.toUInt64 * b.n2.toUInt64 + a.n7.toUInt64 * b.n1.toUInt64 +
      a.n8.toUInt64 * b.n0.toUInt64
  let m9 : UInt64 := (m8 >>> 26) + a.n0.toUInt64 * b.n9.toUInt64 + a.n1.toUInt64 * b.n8.toUInt64 +
      a.n2.toUInt64 * b.n7.toUInt64 + a.n3.toUInt64 * b.n6.toUInt64 + a.n4.toUInt64 * b.n5.toUInt64 +
      a.n5.toUInt64 * b.n4.toUInt64 + a.n6.toUInt64 * b.n3.toUInt64 + a.n7.toUInt64 * b.n2.toUInt64 +
      a.n8.toUInt64 * b.n1.toUInt64 + a.n9.toUInt64 * b.n0.toUInt64
  let m10 : UInt64 := (m9 >>> 26) + a.n1.toUInt64 * b.n9.toUInt64 + a.n2.toUInt64 * b.n8.toUInt64 +
      a.n3.toUInt64 * b.n7.toUInt64 + a.n4.toUInt64 * b.n6.toUInt64 + a.n5.toUInt64 * b.n5.toUInt64 +
      a.n6.toUInt64 * b.n4.toUInt64 + a.n7.toUInt64 * b.n3.toUInt64 + a.n8.toUInt64 * b.n2.toUInt64 +
      a.n9.toUInt64 * b.n1.toUInt64
  let m11 : UInt64 := (m10 >>> 26) + a.n2.toUInt64 * b.n9.toUInt64 + a.n3.toUInt64 * b.n8.toUInt64 +
      a.n4.toUInt64 * b.n7.toUInt64 + a.n5.toUInt64 * b.n6.toUInt64 + a.n6.toUInt64 * b.n5.toUInt64 +
      a.n7.toUInt64 * b.n4.toUInt64 + a.n8.toUInt64 * b.n3.toUInt64 + a.n9.toUInt64 * b.n2.toUInt64
  let m12 : UInt64 := (m11 >>> 26) + a.n3.toUInt64 * b.n9.toUInt64 + a.n4.toUInt64 * b.n8.toUInt64 +
      a.n5.toUInt64 * b.n7.toUInt64 + a.n6.toUInt64 * b.n6.toUInt64 + a.n7.toUInt64 * b.n5.toUInt64 +
      a.n8.toUInt64 * b.n4.toUInt64 + a.n9.toUInt64 * b.n3.toUInt64
  let m13 : UInt64 := (m12 >>> 26) + a.n4.toUInt64 * b.n9.toUInt64 + a.n5.toUInt64 * b.n8.toUInt64 +
      a.n6.toUInt64 * b.n7.toUInt64 + a.n7.toUInt64 * b.n6.toUInt64 + a.n8.toUInt64 * b.n5.toUInt64 +
      a.n9.toUInt64 * b.n4.toUInt64
  let m14 : UInt64 := (m13 >>> 26) + a.n5.toUInt64 * b.n9.toUInt64 + a.n6.toUInt64 * b.n8.toUInt64 +
      a.n7.toUInt64 * b.n7.toUInt64 + a.n8.toUInt64 * b.n6.toUInt64 + a.n9.toUInt64 * b.n5.toUInt64
  let m15 : UInt64 := (m14 >>> 26) + a.n6.toUInt64 * b.n9.toUInt64 + a.n7.toUInt64 * b.n8.toUInt64 +
      a.n8.toUInt64 * b.n7.toUInt64 + a.n9.toUInt64 * b.n6.toUInt64
  let m16 : UInt64 := (m15 >>> 26) + a.n7.toUInt64 * b.n9.toUInt64 + a.n8.toUInt64 * b.n8.toUInt64 +
      a.n9.toUInt64 * b.n7.toUInt64
  let m17 : UInt64 := (m16 >>> 26) + a.n8.toUInt64 * b.n9.toUInt64 + a.n9.toUInt64 * b.n8.toUInt64
  let m18 : UInt64 := (m17 >>> 26) + a.n9.toUInt64 * b.n9.toUInt64
  ⟨m0 &&& 0x3ffffff, m1 &&& 0x3ffffff, m2 &&& 0x3ffffff, m3 &&& 0x3ffffff, m4 &&& 0x3ffffff, m5 &&& 0x3ffffff, m6 &&& 0x3ffffff,
    m7 &&& 0x3ffffff, m8 &&& 0x3ffffff, m9 &&& 0x3ffffff, m10 &&& 0x3ffffff, m11 &&& 0x3ffffff, m12 &&& 0x3ffffff, m13 &&& 0x3ffffff,
    m14 &&& 0x3ffffff, m15 &&& 0x3ffffff, m16 &&& 0x3ffffff, m17 &&& 0x3ffffff, m18 &&& 0x3ffffff, m18 >>> 26⟩

/-- field.go:925-1052: the carried column sums of `SquareVal`. -/
def FV.sqTerms (a : FV) : Wide :=
  let m0 : UInt64 := a.n0.toUInt64 * a.n0.toUInt64
  let m1 : UInt64 := (m0 >>> 26) + 2 * a.n0.toUInt64 * a.n1.toUInt64
  let m2 : UInt64 := (m1 >>> 26) + 2 * a.n0.toUInt64 * a.n2.toUInt64 + a.n1.toUInt64 * a.n1.toUInt64
  let m3 : UInt64 := (m2 >>> 26) + 2 * a.n0.toUInt64 * a.n3.toUInt64 + 2 * a.n1.toUInt64 * a.n2.toUInt64
  let m4 : UInt64 := (m3 >>> 26) + 2 * a.n0.toUInt64 * a.n4.toUInt64 + 2 * a.n1.toUInt64 * a.n3.toUInt64 +
      a.n2.toUInt64 * a.n2.toUInt64
  let m5 : UInt64 := (m4 >>> 26) + 2 * a.n0.toUInt64 * a.n5.toUInt64 + 2 * a.n1.toUInt64 * a.n4.toUInt64 +
      2 * a.n2.toUInt64 * a.n3.toUInt64
  let m6 : UInt64 := (m5 >>> 26) + 2 * a.n0.toUInt64 * a.n6.toUInt64 + 2 * a.n1.toUInt64 * a.n5.toUInt64 +
      2 * a.n2.toUInt64 * a.n4.toUInt64 + a.n3.toUInt64 * a.n3.toUInt64
  let m7 : UInt64 := (m6 >>> 26) + 2 * a.n0.toUInt64 * a.n7.toUInt64 + 2 * a.n1.toUInt64 * a.n6.toUInt64 +
      2 * a.n2.toUInt64 * a.n5.toUInt64 + 2 * a.n3.toUInt64 * a.n4.toUInt64
  let m8 : UInt64 := (m7 >>> 26) + 2 * a.n0.toUInt64 * a.n8.toUInt64 + 2 * a.n1.toUInt64 * a.n7.toUInt64 +
      2 * a.n2.toUInt64 * a.n6.toUInt64 + 2 * a.n3.toUInt64 * a.n5.toUInt64 + a.n4.toUInt64 * a.n4.toUInt64
  let m9 : UInt64 := (m8 >>> 26) + 2 * a.n0.toUInt64 * a.n9.toUInt64 + 2 * a.n1.toUInt64 * a.n8.toUInt64 +
      2 * a.n2.toUInt64 * a.n7.toUInt64 + 2 * a.n3.toUInt64 * a.n6.toUInt64 + 2 * a.n4.toUInt64 * a.n5.toUInt64
  let m10 : UInt64 := (m9 >>> 26) + 2 * a.n1.toUInt64 * a.n9.toUInt64 + 2 * a.n2.toUInt64 * a.n8.toUInt64 +
      2 * a.n3.toUInt64 * a.n7.toUInt64 + 2 * a.n4.toUInt64 * a.n6.toUInt64 + a.n5.toUInt64 * a.n5.toUInt64
  let m11 : UInt64 := (m10 >>> 26) + 2 * a.n2.toUInt64 * a.n9.toUInt64 + 2 * a.n3.toUInt64 * a.n8.toUInt64 +
      2 * a.n4.toUInt64 * a.n7.toUInt64 + 2 * a.n5.toUInt64 * a.n6.toUInt64
  let m12 : UInt64 := (m11 >>> 26) + 2 * a.n3.toUInt64 * a.n9.toUInt64 + 2 * a.n4.toUInt64 * a.n8.toUInt64 +
      2 * a.n5.toUInt64 * a.n7.toUInt64 + a.n6.toUInt64 * a.n6.toUInt64
  let m13 : UInt64 := (m12 >>> 26) + 2 * a.n4.toUInt64 * a.n9.toUInt64 + 2 * a.n5.toUInt64 * a.n8.toUInt64 +
      2 * a.n6.toUInt64 * a.n7.toUInt64
  let m14 : UInt64 := (m13 >>> 26) + 2 * a.n5.toUInt64 * a.n9.toUInt64 + 2 * a.n6.toUInt64 * a.n8.toUInt64 +
      a.n7.toUInt64 * a.n7.toUInt64
  let m15 : UInt64 := (m14 >>> 26) + 2 * a.n6.toUInt64 * a.n9.toUInt64 + 2 * a.n7.toUInt64 * a.n8.toUInt64
  let m16 : UInt64 := (m15 >>> 26) + 2 * a.n7.toUInt64 * a.n9.toUInt64 + a.n8.toUInt64 * a.n8.toUInt64
  let m17 : UInt64 := (m16 >>> 26) + 2 * a.n8.toUInt64 * a.n9.toUInt64
  let m18 : UInt64 := (m17 >>> 26) + a.n9.toUInt64 * a.n9.toUInt64
  ⟨m0 &&& 0x3ffffff, m1 &&& 0x3ffffff, m2 &&& 0x3ffffff, m3 &&& 0x3ffffff, m4 &&& 0x3ffffff, m5 &&& 0x3ffffff, m6 &&& 0x3ffffff,
    m7 &&& 0x3ffffff, m8 &&& 0x3ffffff, m9 &&& 0x3ffffff, m10 &&& 0x3ffffff, m11 &&& 0x3ffffff, m12 &&& 0x3ffffff, m13 &&& 0x3ffffff,
    m14 &&& 0x3ffffff, m15 &&& 0x3ffffff, m16 &&& 0x3ffffff, m17 &&& 0x3ffffff, m18 &&& 0x3ffffff, m18 >>> 26⟩

/-- field.go:849-896 and 1082-1129: the reduction modulo P, textually the same in `Mul2` and `SquareVal`. -/
def Wide.reduce (t : Wide) : FV :=
  let m := t.t0 + t.t10 * 15632
  let t0 := m &&& 0x3ffffff
  let m := (m >>> 26) + t.t1 + t.t10 * 1024 + t.t11 * 15632
  let t1 := m &&& 0x3ffffff
  let m := (m >>> 26) + t.t2 + t.t11 * 1024 + t.t12 * 15632
  let t2 := m &&& 0x3ffffff
  let m := (m >>> 26) + t.t3 + t.t12 * 1024 + t.t13 * 15632
  let t3 := m &&& 0x3ffffff
  let m := (m >>> 26) + t.t4 + t.t13 * 1024 + t.t14 * 15632
  let t4 := m &&& 0x3ffffff
  let m := (m >>> 26) + t.t5 + t.t14 * 1024 + t.t15 * 15632
  let t5 := m &&& 0x3ffffff
  let m := (m >>> 26) + t.t6 + t.t15 * 1024 + t.t16 * 15632
  let t6 := m &&& 0x3ffffff
  let m := (m >>> 26) + t.t7 + t.t16 * 1024 + t.t17 * 15632
  let t7 := m &&& 0x3ffffff
  let m := (m >>> 26) + t.t8 + t.t17 * 1024 + t.t18 * 15632
  let t8 := m &&& 0x3ffffff
  let m := (m >>> 26) + t.t9 + t.t18 * 1024 + t.t19 * 68719492368
  let t9 := m &&& 0x3fffff
  let m := m >>> 22
  let d0 := t0 + m * 977
  let d1 := (d0 >>> 26) + t1 + m * 64
  ⟨(d0 &&& 0x3ffffff).toUInt32, (d1 &&& 0x3ffffff).toUInt32, ((d1 >>> 26) + t2).toUInt32, t3.toUInt32, t4.toUInt32,
    t5.toUInt32, t6.toUInt32, t7.toUInt32, t8.toUInt32, t9.toUInt32⟩

/-- field.go:639-899 `Mul2` and 627-629 `Mul`. -/
def FV.mul (a b : FV) : FV := (FV.mulTerms a b).reduce

/-- field.go:919-1132 `SquareVal` and 908-910 `Square`. -/
def FV.square (a : FV) : FV := (FV.sqTerms a).reduce

/-- Five squarings in a row. -/
def FV.sq5 (f : FV) : FV := f.square.square.square.square.square

/-- field.go:1139-1241 `Inverse`: the addition chain for a^(P-2). -/
def FV.inverse (f : FV) : FV :=
  let a2 := f.square
  let a3 := a2.mul f
  let a4 := a2.square
  let a10 := a4.square.mul a2
  let a11 := a10.mul f
  let a21 := a10.mul a11
  let a42 := a21.square
  let a45 := a42.mul a3
  let a63 := a42.mul a21
  let a1019 := a63.square.square.square.square.mul a11
  let a1023 := a1019.mul a4
  let step (f : FV) : FV := (f.sq5.sq5).mul a1023
  let f := a63
  let f := step f
  let f := step f
  let f := step f
  let f := step f
  let f := step f
  let f := step f
  let f := step f
  let f := step f
  let f := step f
  let f := step f
  let f := step f
  let f := step f
  let f := step f
  let f := step f
  let f := step f
  let f := step f
  let f := step f
  let f := step f
  let f := step f
  let f := step f
  let f := step f
  let f := (f.sq5.sq5).mul a1019
  let f := step f
  let f := step f
  let f := (f.sq5.sq5).mul a45
  f

/-- `f.Square().Mul(x)`. -/
def FV.sqMul (x f : FV) : FV := f.square.mul x

/-- field.go:1289-1337: the effect on `f` of one byte of the exponent Q. -/
def FV.sqrtByte (x : FV) (b : UInt8) (f : FV) : FV :=
  let s := FV.sqMul x
  if b = 0xff then s (s (s (s (s (s (s (s f)))))))
  else if b = 0x3f then s (s (s (s (s (f.mul x)))))
  else if b = 0xbf then s (s (s (s (s (s ((s f).square))))))
  else ((s (s f.square.square.square.square)).square).square

/-- field.go:111-116 `fieldQBytes`, (P+1)/4. -/
def fieldQBytes : Bytes :=
  [0x3f, 0xff, 0xff, 0xff, 0xff, 0xff, 0xff, 0xff, 0xff, 0xff, 0xff, 0xff, 0xff, 0xff, 0xff, 0xff,
   0xff, 0xff, 0xff, 0xff, 0xff, 0xff, 0xff, 0xff, 0xff, 0xff, 0xff, 0xff, 0xbf, 0xff, 0xff, 0x0c]

/-- field.go:1254-1341 `SqrtVal` (and 1354-1356 `Sqrt`). -/
def FV.sqrt (x : FV) : FV := fieldQBytes.foldl (fun f b => FV.sqrtByte x b f) (FV.setInt 1)

end Tss.Secp
