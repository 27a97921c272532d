import Verif.Model.SecpTable
import Verif.Model.EC
/-
The curve value returned by tss.S256(), as the abstract curve the other modules take.
-/
namespace Tss.Secp
open Tss

/-- btcec.go:925-962 `initS256` and tss/curve.go:80-82 `S256`: the operations of the KoblitzCurve. -/
def s256 : Curve where
  N := N
  Gx := Gx
  Gy := Gy
  isOnCurve := isOnCurve
  add := add
  scalarMult := scalarMult
  scalarBaseMult := scalarBaseMult bytePoint

end Tss.Secp
