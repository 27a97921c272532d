import Verif.Model.SecpField
import Verif.Model.EC
/-
Model of /repo/package/github.com/btcsuite/btcd/btcec/v1/btcec.go, the group operations of the curve tss.S256() returns.
A Jacobian point is a triple of field values.  Go's functions store their result through pointers and the result pointers are
often the arguments themselves (Q = 2Q, Q = Q + P); every such function reads an argument for the last time before it writes the
result that may share its storage, so functions from values to values lose nothing.  Go's functions also normalise some
arguments in place (x1.Normalize() ...): that changes which words represent the argument, never the residue they represent; the
caller's copy keeps its old words here.  The theorems about these functions hold for every words of magnitude at most two that
represent a given residue, so they do not depend on which copy a later call sees.
-/
namespace Tss.Secp
open Tss

/-- A point in Jacobian coordinates: three of the `*fieldVal` arguments of the functions of btcec.go. -/
structure Jac where
  x : FV
  y : FV
  z : FV
  deriving DecidableEq, Repr

/-- btcec.go:29-32 `fieldOne`. -/
def fieldOne : FV := FV.setInt 1

/-- The point (0, 0, 0) set by SetInt(0), and the initial value of Q. -/
def Jac.inf : Jac := ⟨FV.setInt 0, FV.setInt 0, FV.setInt 0⟩

/-- btcec.go:82-88 `bigAffineToField`, one coordinate. -/
def toField (x : Int) : FV := FV.setByteSlice (intBytes x)

/-- btcec.go:92-113 `fieldJacobianToBigAffine`. -/
def Jac.toAffine (q : Jac) : Int × Int :=
  let zInv := q.z.inverse
  let tempZ := zInv.square
  let x := q.x.mul tempZ
  let tempZ := tempZ.mul zInv
  let y := q.y.mul tempZ
  let x := x.normalize
  let y := y.normalize
  (beNat x.bytes, beNat y.bytes)

/-- btcec.go:118-126 `IsOnCurve`. -/
def isOnCurve (x y : Int) : Bool :=
  let fx := toField x
  let fy := toField y
  let y2 := fy.square.normalize
  let result := ((fx.square.mul fx).addInt 7).normalize
  y2.equals result

/-- btcec.go:489-533 `doubleZ1EqualsOne`. -/
def doubleZ1EqualsOne (x1 y1 : FV) : Jac :=
  let z3 := y1.mulInt 2
  let a := x1.square
  let b := y1.square
  let c := b.square
  let b := (b.add x1).square
  let d := (a.add c).negate 2
  let d := (d.add b).mulInt 2
  let e := a.mulInt 3
  let f := e.square
  let x3 := (d.mulInt 2).negate 16
  let x3 := x3.add f
  let f := ((x3.negate 18).add d).normalize
  let y3 := (c.mulInt 8).negate 8
  let y3 := y3.add (f.mul e)
  ⟨x3.normalize, y3.normalize, z3.normalize⟩

/-- btcec.go:539-582 `doubleGeneric`. -/
def doubleGeneric (x1 y1 z1 : FV) : Jac :=
  let z3 := (y1.mul z1).mulInt 2
  let a := x1.square
  let b := y1.square
  let c := b.square
  let b := (b.add x1).square
  let d := (a.add c).negate 2
  let d := (d.add b).mulInt 2
  let e := a.mulInt 3
  let f := e.square
  let x3 := (d.mulInt 2).negate 16
  let x3 := x3.add f
  let f := ((x3.negate 18).add d).normalize
  let y3 := (c.mulInt 8).negate 8
  let y3 := y3.add (f.mul e)
  ⟨x3.normalize, y3.normalize, z3.normalize⟩

/-- btcec.go:586-607 `doubleJacobian`. -/
def doubleJacobian (q : Jac) : Jac :=
  if q.y.isZero || q.z.isZero then Jac.inf
  else
    let z1 := q.z.normalize
    if z1.equals fieldOne then doubleZ1EqualsOne q.x q.y
    else doubleGeneric q.x q.y z1

/-- btcec.go:133-192 `addZ1AndZ2EqualsOne`. -/
def addZ1AndZ2EqualsOne (x1 y1 z1 x2 y2 : FV) : Jac :=
  let x1 := x1.normalize
  let y1 := y1.normalize
  let x2 := x2.normalize
  let y2 := y2.normalize
  if x1.equals x2 then
    if y1.equals y2 then doubleJacobian ⟨x1, y1, z1⟩ else Jac.inf
  else
    let h := (x1.negate 1).add x2
    let i := h.square.mulInt 4
    let j := h.mul i
    let r := ((y1.negate 1).add y2).mulInt 2
    let v := x1.mul i
    let negJ := j.negate 1
    let neg2V := (v.mulInt 2).negate 2
    let x3 := (r.square.add negJ).add neg2V
    let negX3 := x3.negate 6
    let j := ((j.mul y1).mulInt 2).negate 2
    let y3 := ((v.add negX3).mul r).add j
    let z3 := h.mulInt 2
    ⟨x3.normalize, y3.normalize, z3.normalize⟩

/-- btcec.go:199-260 `addZ1EqualsZ2`. -/
def addZ1EqualsZ2 (x1 y1 z1 x2 y2 : FV) : Jac :=
  let x1 := x1.normalize
  let y1 := y1.normalize
  let x2 := x2.normalize
  let y2 := y2.normalize
  if x1.equals x2 then
    if y1.equals y2 then doubleJacobian ⟨x1, y1, z1⟩ else Jac.inf
  else
    let negX1 := x1.negate 1
    let negY1 := y1.negate 1
    let a := negX1.add x2
    let b := a.square
    let c := negY1.add y2
    let d := c.square
    let e := x1.mul b
    let negE := e.negate 1
    let f := x2.mul b
    let x3 := ((e.add f).negate 3).add d
    let negX3 := (x3.negate 5).normalize
    let y3 := (y1.mul (f.add negE)).negate 3
    let y3 := y3.add ((e.add negX3).mul c)
    let z3 := z1.mul a
    ⟨x3.normalize, y3.normalize, z3⟩

/-- btcec.go:268-338 `addZ2EqualsOne`. -/
def addZ2EqualsOne (x1 y1 z1 x2 y2 : FV) : Jac :=
  let x1 := x1.normalize
  let y1 := y1.normalize
  let z1z1 := z1.square
  let u2 := (x2.mul z1z1).normalize
  let s2 := ((y2.mul z1z1).mul z1).normalize
  if x1.equals u2 then
    if y1.equals s2 then doubleJacobian ⟨x1, y1, z1⟩ else Jac.inf
  else
    let negX1 := x1.negate 1
    let h := u2.add negX1
    let hh := h.square
    let i := hh.mulInt 4
    let j := h.mul i
    let negY1 := y1.negate 1
    let r := (s2.add negY1).mulInt 2
    let rr := r.square
    let v := x1.mul i
    let x3 := ((v.mulInt 2).add j).negate 3
    let x3 := x3.add rr
    let negX3 := x3.negate 5
    let y3 := ((y1.mul j).mulInt 2).negate 2
    let y3 := y3.add ((v.add negX3).mul r)
    let z3 := (z1.add h).square
    let z3 := z3.add ((z1z1.add hh).negate 2)
    ⟨x3.normalize, y3.normalize, z3.normalize⟩

/-- btcec.go:344-413 `addGeneric`. -/
def addGeneric (x1 y1 z1 x2 y2 z2 : FV) : Jac :=
  let z1z1 := z1.square
  let z2z2 := z2.square
  let u1 := (x1.mul z2z2).normalize
  let u2 := (x2.mul z1z1).normalize
  let s1 := ((y1.mul z2z2).mul z2).normalize
  let s2 := ((y2.mul z1z1).mul z1).normalize
  if u1.equals u2 then
    if s1.equals s2 then doubleJacobian ⟨x1, y1, z1⟩ else Jac.inf
  else
    let negU1 := u1.negate 1
    let h := u2.add negU1
    let i := (h.mulInt 2).square
    let j := h.mul i
    let negS1 := s1.negate 1
    let r := (s2.add negS1).mulInt 2
    let rr := r.square
    let v := u1.mul i
    let x3 := ((v.mulInt 2).add j).negate 3
    let x3 := x3.add rr
    let negX3 := x3.negate 5
    let y3 := ((s1.mul j).mulInt 2).negate 2
    let y3 := y3.add ((v.add negX3).mul r)
    let z3 := (z1.add z2).square
    let z3 := z3.add ((z1z1.add z2z2).negate 2)
    let z3 := z3.mul h
    ⟨x3.normalize, y3.normalize, z3⟩

/-- btcec.go:417-457 `addJacobian`. -/
def addJacobian (q1 q2 : Jac) : Jac :=
  if (q1.x.isZero && q1.y.isZero) || q1.z.isZero then q2
  else if (q2.x.isZero && q2.y.isZero) || q2.z.isZero then q1
  else
    let z1 := q1.z.normalize
    let z2 := q2.z.normalize
    let isZ1One := z1.equals fieldOne
    let isZ2One := z2.equals fieldOne
    if isZ1One && isZ2One then addZ1AndZ2EqualsOne q1.x q1.y z1 q2.x q2.y
    else if z1.equals z2 then addZ1EqualsZ2 q1.x q1.y z1 q2.x q2.y
    else if isZ2One then addZ2EqualsOne q1.x q1.y z1 q2.x q2.y
    else addGeneric q1.x q1.y z1 q2.x q2.y z2

/-- btcec.go:461-482 `Add`. -/
def add (x1 y1 x2 y2 : Int) : Int × Int :=
  if x1 = 0 ∧ y1 = 0 then (x2, y2)
  else if x2 = 0 ∧ y2 = 0 then (x1, y1)
  else (addJacobian ⟨toField x1, toField y1, FV.setInt 1⟩ ⟨toField x2, toField y2, FV.setInt 1⟩).toAffine

/-- btcec.go:610-625 `Double`. -/
def double (x1 y1 : Int) : Int × Int :=
  if y1 = 0 then (0, 0)
  else (doubleJacobian ⟨toField x1, toField y1, FV.setInt 1⟩).toAffine

/-- btcec.go:928: the order of the curve. -/
def N : Int := 0xFFFFFFFFFFFFFFFFFFFFFFFFFFFFFFFEBAAEDCE6AF48A03BBFD25E8CD0364141
/-- btcec.go:930. -/
def Gx : Int := 0x79BE667EF9DCBBAC55A06295CE870B07029BFCDB2DCE28D959F2815B16F81798
/-- btcec.go:931. -/
def Gy : Int := 0x483ADA7726A3C4655DA4FBFC0E1108A8FD17B448A68554199C47D08FFB10D4B8
/-- btcec.go:958 (SetHex of an even number of digits is SetByteSlice of the decoded bytes, field.go:255-261). -/
def beta : FV := FV.setByteSlice [
  0x7A, 0xE9, 0x6A, 0x2B, 0x65, 0x7C, 0x07, 0x10, 0x6E, 0x64, 0x47, 0x9E, 0xAC, 0x34, 0x34, 0xE9,
  0x9C, 0xF0, 0x49, 0x75, 0x12, 0xF5, 0x89, 0x95, 0xC1, 0x39, 0x6C, 0x28, 0x71, 0x95, 0x01, 0xEE]
/-- btcec.go:959. -/
def a1 : Int := 0x3086D221A7D46BCDE86C90E49284EB15
/-- btcec.go:960. -/
def b1 : Int := -0xE4437ED6010E88286F547FA90ABFE4C3
/-- btcec.go:961. -/
def a2 : Int := 0x114CA50F7A8E2F3F657C1108D9D44CFD8
/-- btcec.go:962. -/
def b2 : Int := 0x3086D221A7D46BCDE86C90E49284EB15

/-- btcec.go:635-668 `splitK`: k1 and k2; the code returns the bytes of the absolute values and the signs. -/
def splitK (k : Bytes) : Int × Int :=
  let bigIntK : Int := beNat k
  let c1 := b2 * bigIntK / N
  let c2 := b1 * bigIntK / N
  let k1 := bigIntK - c1 * a1 + c2 * a2
  let k2 := c2 * b2 - c1 * b1
  (k1, k2)

/-- btcec.go:673-684 `moduloReduce` (byteSize is 32). -/
def moduloReduce (k : Bytes) : Bytes :=
  if k.length > 32 then intBytes ((beNat k : Int) % N) else k

/-- btcec.go:711-753: one bit of `NAF`.  The state is the rest of the current byte, the carry and the two bytes under
construction. -/
def nafBit (nextLow : Bool) (s : UInt8 × Bool × UInt8 × UInt8) (j : Nat) : UInt8 × Bool × UInt8 × UInt8 :=
  let (cur, carry, pos, neg) := s
  let curIsOne := cur &&& 1 == 1
  let nextIsOne := if j = 7 then nextLow else cur &&& 2 == 2
  let bit : UInt8 := 1 <<< UInt8.ofNat j
  let r :=
    if carry then
      if curIsOne then (carry, pos, neg)
      else if nextIsOne then (carry, pos, neg + bit)
      else (false, pos + bit, neg)
    else if curIsOne then
      if nextIsOne then (true, pos, neg + bit) else (carry, pos + bit, neg)
    else (carry, pos, neg)
  (cur >>> 1, r.1, r.2.1, r.2.2)

/-- btcec.go:709-754: the inner loop of `NAF` for one byte: carry and the bytes of retPos and retNeg. -/
def nafByte (carry : Bool) (cur : UInt8) (nextLow : Bool) : Bool × UInt8 × UInt8 :=
  ((List.range 8).foldl (nafBit nextLow) (cur, carry, 0, 0)).2

/-- btcec.go:712-717: the lowest bit of the byte k[i-1], for the last bit of k[i]; zero in front of the first byte. -/
def lowBit : Bytes → Bool
  | [] => false
  | c :: _ => c &&& 1 == 1

/-- btcec.go:708-755: the outer loop of `NAF`, from the last byte of k to the first; the argument is k reversed and the
results are retPos[1:] and retNeg[1:] reversed. -/
def nafLoop : Bool → Bytes → Bool × Bytes × Bytes
  | carry, [] => (carry, [], [])
  | carry, b :: rest =>
    (nafLoop (nafByte carry b (lowBit rest)).1 rest).map id fun t =>
      ((nafByte carry b (lowBit rest)).2.1 :: t.1, (nafByte carry b (lowBit rest)).2.2 :: t.2)

/-- btcec.go:693-761 `NAF`. -/
def NAF (k : Bytes) : Bytes × Bytes :=
  let r := nafLoop false k.reverse
  if r.1 then (1 :: r.2.1.reverse, 0 :: r.2.2.reverse) else (r.2.1.reverse, r.2.2.reverse)

/-- A byte of one of the four NAF strings, front padded with zeros to m bytes (btcec.go:822-835). -/
def padFront (m : Nat) (b : Bytes) : Bytes := List.replicate (m - b.length) 0 ++ b

/-- btcec.go:837-860: the eight doublings and conditional additions for one byte of each of the four NAF strings. -/
def smByte (p1 p1n p2 p2n : Jac) : Nat → Jac → UInt8 → UInt8 → UInt8 → UInt8 → Jac
  | 0, q, _, _, _, _ => q
  | j + 1, q, k1p, k1n, k2p, k2n =>
    let q := doubleJacobian q
    let q := if k1p &&& 0x80 == 0x80 then addJacobian q p1 else if k1n &&& 0x80 == 0x80 then addJacobian q p1n else q
    let q := if k2p &&& 0x80 == 0x80 then addJacobian q p2 else if k2n &&& 0x80 == 0x80 then addJacobian q p2n else q
    smByte p1 p1n p2 p2n j q (k1p <<< 1) (k1n <<< 1) (k2p <<< 1) (k2n <<< 1)

/-- btcec.go:820-861: the main loop of `ScalarMult`. -/
def smLoop (p1 p1n p2 p2n : Jac) : Jac → Bytes → Bytes → Bytes → Bytes → Jac
  | q, a :: as, b :: bs, c :: cs, d :: ds => smLoop p1 p1n p2 p2n (smByte p1 p1n p2 p2n 8 q a b c d) as bs cs ds
  | q, _, _, _, _ => q

/-- btcec.go:779-864: `ScalarMult` after the scalar is split into k1 and k2. -/
def smSplit (bx bY k1 k2 : Int) : Int × Int :=
  let p1x := toField bx
  let y := toField bY
  let yNeg := y.negate 1
  let p2x := p1x.mul beta
  let one := FV.setInt 1
  let p1 : Jac := ⟨p1x, if k1 < 0 then yNeg else y, one⟩
  let p1Neg : Jac := ⟨p1x, if k1 < 0 then y else yNeg, one⟩
  let p2 : Jac := ⟨p2x, if k2 < 0 then yNeg else y, one⟩
  let p2Neg : Jac := ⟨p2x, if k2 < 0 then y else yNeg, one⟩
  let n1 := NAF (intBytes k1)
  let n2 := NAF (intBytes k2)
  let m := max n1.1.length n2.1.length
  (smLoop p1 p1Neg p2 p2Neg Jac.inf (padFront m n1.1) (padFront m n1.2) (padFront m n2.1) (padFront m n2.2)).toAffine

/-- btcec.go:765-865 `ScalarMult`. -/
def scalarMult (bx bY : Int) (k : Bytes) : Int × Int :=
  smSplit bx bY (splitK (moduloReduce k)).1 (splitK (moduloReduce k)).2

/-- btcec.go:882-885: the loop of `ScalarBaseMult` from window i on. -/
def sbmLoop (table : Nat → Nat → Jac) : Nat → Jac → Bytes → Jac
  | _, q, [] => q
  | i, q, b :: t => sbmLoop table (i + 1) (addJacobian q (table i b.toNat)) t

/-- btcec.go:870-887 `ScalarBaseMult`; `table i b` is `curve.bytePoints[i][b]`. -/
def scalarBaseMult (table : Nat → Nat → Jac) (k : Bytes) : Int × Int :=
  let newK := moduloReduce k
  (sbmLoop table (32 - newK.length) Jac.inf newK).toAffine

end Tss.Secp
