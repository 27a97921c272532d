import Verif.Model.SecpCurve
import Verif.Model.SecpTable0
import Verif.Model.SecpTable1
import Verif.Model.SecpTable2
import Verif.Model.SecpTable3
/-
The table of byte points of btcec and ScalarBaseMult with it.  The base64 and zlib decoding of precompute.go:30-39 was done by
tools/gen_secp_table.py and is not modelled.
-/
namespace Tss.Secp
open Tss

/-- precompute.go:51-61: word k of a serialized point (binary.LittleEndian.Uint32). -/
def word (n k : Nat) : UInt32 := UInt32.ofNat (n >>> (32 * k))

/-- precompute.go:50-53: the ten words of a field value, from word o of the point on. -/
def entryField (n o : Nat) : FV :=
  ⟨word n o, word n (o + 1), word n (o + 2), word n (o + 3), word n (o + 4), word n (o + 5), word n (o + 6), word n (o + 7),
    word n (o + 8), word n (o + 9)⟩

/-- precompute.go:47-61: one point. -/
def entryPoint (n : Nat) : Jac := ⟨entryField n 0, entryField n 10, entryField n 20⟩

/-- The 32 windows of the table. -/
def tableRows : List (List Nat) :=
  [tableRow0, tableRow1, tableRow2, tableRow3, tableRow4, tableRow5, tableRow6, tableRow7,
   tableRow8, tableRow9, tableRow10, tableRow11, tableRow12, tableRow13, tableRow14, tableRow15,
   tableRow16, tableRow17, tableRow18, tableRow19, tableRow20, tableRow21, tableRow22, tableRow23,
   tableRow24, tableRow25, tableRow26, tableRow27, tableRow28, tableRow29, tableRow30, tableRow31]

/-- precompute.go:42-64: `bytePoints[i][b]`. -/
def bytePoint (i b : Nat) : Jac := entryPoint ((tableRows.getD i []).getD b 0)

end Tss.Secp
