import Verif.Model.Ed25519
/-
Signature verification as called by /repo/eddsacmp/onsign/round_final.go:78: decred/dcrec/edwards `Verify` on top of
agl/ed25519 `Verify` and edwards25519 `FromBytes`.  The libraries are not part of /repo; they are modelled by their
published code on field values.
-/
namespace Tss.Ed
open Tss

/-- `SqrtM1`, a square root of -1. -/
def sqrtM1 : Nat := 19681161376707505956807079304988542015446066515923890162744021073123829784752

/-- `FeNeg`. -/
def feNeg (a : Nat) : Nat := feSub 0 a

/-- `fePow22523`: exponentiation by (P - 5) / 8. -/
def fePow22523 (a : Nat) : Nat := fePowAux 256 a ((P - 5) / 8) 1

/-- `ExtendedGroupElement.FromBytes` (point decompression); none is false. -/
def fromBytes (s : Bytes) : Option Ext :=
  let y := feFromBytes s
  let y2 := feMul y y
  let v := feAdd (feMul y2 dN) 1
  let u := feSub y2 1
  let v3 := feMul (feMul v v) v
  let x := feMul (feMul (fePow22523 (feMul (feMul (feMul v3 v3) v) u)) v3) u
  let vxx := feMul (feMul x x) v
  let fix (x : Nat) : Ext :=
    let x := if feIsNegative x = decide ((s.getD 31 0).toNat / 128 = 1) then x else feNeg x
    ⟨x, y, 1, feMul x y⟩
  if feSub vxx u % P = 0 then some (fix x)
  else if feAdd vxx u % P = 0 then some (fix (feMul x sqrtM1))
  else none

/-- agl/ed25519 `Verify(publicKey, message, sig)` of 32- and 64-byte arrays.  The variable-time double scalar
multiplication is modelled by double-and-add. -/
def edVerify (sha512 : Bytes → Bytes) (pub msg sig : Bytes) : Bool :=
  if (sig.getD 63 0).toNat / 32 ≠ 0 then false
  else match fromBytes pub with
    | none => false
    | some A =>
      let nA : Ext := ⟨feNeg A.X, A.Y, A.Z, feNeg A.T⟩
      let h := scReduce (sha512 (sig.take 32 ++ pub ++ msg))
      let R := (Ext.smul (leNat h) nA).add (Ext.smul (leNat (sig.drop 32)) Ext.base)
      decide (sig.take 32 = R.toBytes)

/-- decred/dcrec/edwards `Verify(pub, hash, r, s)` for non-nil arguments: both integers are serialised as 32
little-endian bytes, the public key as the point encoding. -/
def edwardsVerify (sha512 : Bytes → Bytes) (x y : Int) (msg : Bytes) (r s : Int) : Bool :=
  edVerify sha512 (ecPointToEncodedBytes x y) msg (bigIntToEncodedBytes (some r) ++ bigIntToEncodedBytes (some s))

end Tss.Ed
